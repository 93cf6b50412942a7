import Verif.Lemmas.NullAppend
/-
C03, C30 for SHA-2: exactly which programs with hash_append are undefined.
-/
namespace Hash2
open Spec

/-- **C03, C30: exactly when they fail.** A program of calls and hash_append statements on an object of a SHA-2 class, or of an hmac
over one, constructed in any way, at run time. It is undefined if and only if, at a place where the number of bytes fed since the last
result() is not a multiple of the block size, it calls update( nullptr, 0 ) or hash_append comes upon an empty range that is given by
null pointers and whose elements would be hashed as memory (in any depth of any object, including the elements of unordered
containers). Otherwise it is defined, and every hash_append is one update with the message of the object. -/
theorem sha2_programs_exact (d : DigestName) (hd : d.isSha2 = true) (env : Env) (hrun : env.loops = false)
    (hround : env.fp.roundDown = false) (c : Ctor) (hc : c.Valid) (ps : List Stmt) (hv : ∀ p ∈ ps, p.Valid env) :
    (d.impl.toHash.execStmts env c ps = .error .nullMemcpy ↔ d.impl.toHash.NullMidProgram env c d.B [] ps) ∧
    (¬ d.impl.toHash.NullMidProgram env c d.B [] ps → ∃ rs, d.impl.toHash.execStmts env c ps = .ok rs ∧
      d.impl.toHash.exec env c (d.impl.toHash.expand env c [] ps) = .ok rs) := by
  have h := sha2_stmts_null d hd env hrun hround c hc ps hv
  refine ⟨⟨fun e => ?_, h.1⟩, h.2⟩
  by_contra hn
  obtain ⟨rs, e', _⟩ := h.2 hn
  rw [e] at e'
  cases e'

-- a pair of a string and an empty vector of int: undefined; a pair of an empty vector and a string: fine
private abbrev vec : Ty := .seq .contiguous (.int (.int .s4))
private abbrev str : Ty := .seq .contiguous (.int (.int .s1))
private abbrev hi : str.Val := [(104 : Byte), (105 : Byte)]

example : (AlgName.digest .sha2_256).impl.execStmts le64 (.seed 1)
    [.append default_flavor (.tuple (.cons str (.cons vec .nil))) (hi, [], ()), .call .result] = .error .nullMemcpy :=
  (sha2_programs_exact .sha2_256 rfl le64 rfl rfl (.seed 1) trivial _ (by
    intro p hp
    rcases List.mem_cons.1 hp with rfl | hp
    · refine ⟨by decide, ?_, by intro h; cases h⟩
      simp [Valid, ValidAll]
    · rw [List.mem_singleton.1 hp]; rfl)).1.2 (.inl ⟨rfl, by
      simp only [emptyRanges, emptyRangesAll, placesEach, message, concat]
      decide +kernel⟩)

example : ∃ rs, (AlgName.digest .sha2_256).impl.execStmts le64 (.seed 1)
    [.append default_flavor (.tuple (.cons vec (.cons str .nil))) ([], hi, ()), .call .result] = .ok rs :=
  have h := (sha2_programs_exact .sha2_256 rfl le64 rfl rfl (.seed 1) trivial
    [.append default_flavor (.tuple (.cons vec (.cons str .nil))) ([], hi, ()), .call .result] (by
    intro p hp
    rcases List.mem_cons.1 hp with rfl | hp
    · refine ⟨by decide, ?_, by intro h; cases h⟩
      simp [Valid, ValidAll]
    · rw [List.mem_singleton.1 hp]; rfl)).2 (by
      rintro (⟨_, q, hq, h⟩ | h | h)
      · simp only [emptyRanges, emptyRangesAll, placesEach] at hq
        have : q = [] := by
          have h := hq
          simp [Ty.contiguouslyHashable, Ty.triviallyComparable, RangeKind.byPointer] at h
          exact h.2
        subst this
        exact h rfl
      · cases h.1
      · exact h)
  ⟨_, h.choose_spec.1⟩

end Hash2

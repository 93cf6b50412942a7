import Verif.Lemmas.Exceptions
import Verif.Props.HashAppend
/-
C72: hash_append that is left by an exception.
-/
namespace Hash2
open Spec

/-- **C72.** `hash_append( h, f, v )` makes certain calls of update on h, and together these pass the message of v. When an exception, thrown
at whatever point by user code that hash_append runs, leaves it after the calls `done`, then h has been fed a prefix of the message and is as good
as before: whatever the program goes on to do, all of it is defined, and every result is the one that is returned when hash_append is replaced
by one update with that prefix. -/
theorem hash_append_interrupted (a : AlgName) (env : Env) (c : Ctor) (before : List Stmt) (f : Flavor) (t : Ty) (v : t.Val) (after : List Stmt)
    (h : a.Runs env c (before ++ [.append f t v] ++ after)) :
    ∃ calls, a.impl.callsMade env c before f t v = .ok calls ∧
      bytesPassed calls = a.impl.messageOf env c (a.impl.expand env c [] before) f t v ∧
      ∀ done, done <+: calls →
        bytesPassed done <+: a.impl.messageOf env c (a.impl.expand env c [] before) f t v ∧
        ∃ rs, a.impl.execStmts env c (before ++ done.map updateStmt ++ after) = .ok rs ∧
          a.impl.execStmts env c (before ++ [.call (.update (.mem (bytesPassed done)) (bytesPassed done).length)] ++ after) = .ok rs := by
  have h0 : a.Runs env c (before ++ [.append f t v]) := by
    refine ⟨h.ctor, fun p hp => h.valid p (List.mem_append_left _ hp), h.null.imp id fun h p hp => h p (List.mem_append_left _ hp), h.round, ?_⟩
    have hr := h.room
    rw [progCost_append] at hr
    cases a with
    | spooky2_128 =>
      have hr : c.cost + (progCost (before ++ [.append f t v]) + progCost after) < 2 ^ env.sizeBits := hr
      show c.cost + progCost (before ++ [.append f t v]) < _
      omega
    | _ => trivial
  obtain ⟨calls, h1, h2⟩ := AlgName.calls_ok h0
  refine ⟨calls, h1, h2.bytes, fun done hd => ?_⟩
  obtain ⟨m, hm, hp⟩ := h2.take hd
  rw [hp.bytes]
  exact ⟨hm, AlgName.interrupted_ok h hp hm (message_weight env f _ t v [])⟩

/-- a map, hashed between other things -/
example : ∃ calls, (AlgName.digest .sha1_160).impl.callsMade le64 .default [.call (.update (.mem abc) 3), .append default_flavor point aPoint, .call .result]
      default_flavor dict aDict = .ok calls ∧ ∃ rs,
      (AlgName.digest .sha1_160).impl.execStmts le64 .default ([.call (.update (.mem abc) 3), .append default_flavor point aPoint, .call .result] ++
        (calls.take 1).map updateStmt ++ [.call .result]) = .ok rs := by
  obtain ⟨calls, h1, -, h2⟩ := hash_append_interrupted (.digest .sha1_160) le64 .default
    [.call (.update (.mem abc) 3), .append default_flavor point aPoint, .call .result]
    default_flavor dict aDict [.call .result] (aProgram_runs _ _ _ (.inl rfl) rfl (by decide))
  obtain ⟨-, rs, h3, -⟩ := h2 (calls.take 1) (List.take_prefix 1 calls)
  exact ⟨calls, h1, rs, h3⟩

/-- The calls that hash_append makes for the point { 0x1234, { 5, 6 }, 1.0 }: one for x, one for the elements of y, one for their number, one
for z -/
example : AlgName.fnv1a_32.impl.callsMade le64 .default [] default_flavor point aPoint =
    .ok [(.mem [0x34, 0x12], 2), (.mem [5, 6], 2), (.mem [2, 0, 0, 0, 0, 0, 0, 0], 8), (.mem [0, 0, 0, 0, 0, 0, 0xF0, 0x3F], 8)] := by
  rfl

/-- An exception that comes after the first of these leaves h changed: hash_append offers the basic guarantee, not the strong one. -/
theorem hash_append_not_rolled_back :
    [(Ptr.mem [0x34, 0x12], 2)] <+: [(Ptr.mem [0x34, 0x12], 2), (.mem [5, 6], 2), (.mem [2, 0, 0, 0, 0, 0, 0, 0], 8), (.mem [0, 0, 0, 0, 0, 0, 0xF0, 0x3F], 8)] ∧
    ∃ x y : BitVec 32, AlgName.fnv1a_32.impl.execStmts le64 .default ([(Ptr.mem [0x34, 0x12], 2)].map updateStmt ++ [.call .result]) = .ok [x] ∧
      AlgName.fnv1a_32.impl.execStmts le64 .default [.call .result] = .ok [y] ∧ x ≠ y :=
  ⟨⟨_, rfl⟩, _, _, rfl, rfl, by decide⟩

end Hash2

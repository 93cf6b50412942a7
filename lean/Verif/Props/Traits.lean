import Verif.Lemmas.Traits
import Verif.Lemmas.DigestOps
import Verif.Lemmas.Examples
/-
C71: the type traits tell the truth. Specification: Spec/Traits.lean.
-/
namespace Hash2
open Spec

/-! ### C71 -/

/-- **C71**, is_trivially_equality_comparable: whenever the trait says yes, two objects are equal iff memcmp finds the same bytes -/
theorem comparable_truth (env : Env) (t : Ty) (hw : wellFormed t = true) (h : t.triviallyComparable = true) :
    TriviallyComparable env.memory t := by
  intro x y hx hy
  have hp : plain t = true := by cases t <;> first | exact h | simp [Ty.triviallyComparable] at h
  exact storage_equal env t x y hp hw hx hy

/-- the same with the library's memcmp and the type's sizeof -/
theorem comparable_memcmp (env : Env) (t : Ty) (hw : wellFormed t = true) (h : t.triviallyComparable = true) (x y : t.Val)
    (hx : Valid (8 * env.ptrSz.n) t x) (hy : Valid (8 * env.ptrSz.n) t y) :
    ∃ r, memcmp env (.mem (storage env.memory t x)) (.mem (storage env.memory t y)) (t.sizeOf env) = .ok r ∧ (r = 0 ↔ Equal t x y) := by
  have hp : plain t = true := by cases t <;> first | exact h | simp [Ty.triviallyComparable] at h
  obtain ⟨r, e, hr⟩ := memcmp_eq env _ _ _ (storage_message env t x _ hp hw hx (fun _ => 0) []).2
    (storage_message env t y _ hp hw hy (fun _ => 0) []).2
  exact ⟨r, e, hr.trans (storage_equal env t x y hp hw hx hy).symm⟩

/-- **C71**, is_endian_independent: a trivially comparable type for which the trait says yes is stored in the same bytes whatever the
byte order -/
theorem independent_truth (env : Env) (t : Ty) (hw : wellFormed t = true) (hc : t.triviallyComparable = true)
    (h : t.endianIndependent env = true) : EndianIndependent env.ptrSz.n t := by
  intro x _
  have hp : plain t = true := by cases t <;> first | exact hc | simp [Ty.triviallyComparable] at hc
  exact storage_bytes _ _ t x (independent_bytes hp hw h)

/-- **C71**, is_contiguously_hashable: whenever the trait says yes, the message of an object is the storage it occupies -/
theorem contiguous_truth (env : Env) (f : Flavor) (t : Ty) (hw : wellFormed t = true)
    (h : t.contiguouslyHashable env (f.endian env) = true) : ContiguouslyHashable env.memory (layout env f) t := by
  intro x H before hx
  rw [storage_rep env t x (contig_plain t h) hw]
  exact (contig_message (L := layout env f) H rfl hw hx h before).1

/-- in terms of calls: what hash_append feeds, which is that storage in a single update, is what the overload for the type feeds, which
hash_append would call if the trait said no -/
theorem contiguous_calls (num : List Byte → W64) (env : Env) (f : Flavor) (t : Ty) (h : t.contiguouslyHashable env (f.endian env) = true)
    (x : t.Val) (hv : (Stmt.append f t x).Valid env) (hr : env.fp.roundDown = false) (s : List Byte) :
    hashAppend (recorder num) env f t x s = .ok (s ++ storage env.memory t x) ∧
      doHashAppend (recorder num) env f t x s = .ok (s ++ storage env.memory t x) := by
  have hm := contiguous_truth env f t hv.1 h x num s hv.2.1
  rw [record num env f hr t x hv s, record_do num env f hr t x hv s, hm]
  exact ⟨rfl, rfl⟩

/-- **C71**, the other direction, for the types whose traits are the library's own: the traits say yes whenever they may -/
theorem scalar_comparable_exact (env : Env) (t : Ty) (hs : scalar t = true) :
    t.triviallyComparable = true ↔ TriviallyComparable env.memory t := by
  refine ⟨comparable_truth env t (by cases t <;> first | rfl | simp [scalar] at hs), fun h => ?_⟩
  cases t <;> first | rfl | (simp only [scalar, Bool.false_eq_true] at hs) | skip
  · exfalso
    have := (h (0 : W32) (0x80000000 : W32) (by simp only [Valid]) (by simp only [Valid])).1 (by simp only [Equal]; decide)
    simp only [storage, Memory.number] at this
    cases hm : env.memory.order <;> rw [hm] at this <;> exact absurd this (by decide)
  · exfalso
    have := (h (0 : W64) (0x8000000000000000 : W64) (by simp only [Valid]) (by simp only [Valid])).1 (by simp only [Equal]; decide +kernel)
    simp only [storage, Memory.number] at this
    cases hm : env.memory.order <;> rw [hm] at this <;> exact absurd this (by decide)

theorem scalar_independent_exact (env : Env) (t : Ty) (hs : scalar t = true) :
    t.endianIndependent env = true ↔ EndianIndependent env.ptrSz.n t := by
  have int : ∀ (k : IntTy), (k.size.n == 1) = true ↔ ∀ x : k.Val, natLE k.size.n (k.bits x).toNat = natBE k.size.n (k.bits x).toNat := by
    intro k
    constructor
    · intro h x
      have : ∀ n v, n = 1 → natLE n v = natBE n v := by rintro _ v rfl; rfl
      exact this _ _ (eq_of_beq h)
    · intro h
      by_contra hn
      have hs : k.size ≠ .s1 := fun e => hn (by rw [e]; rfl)
      obtain ⟨v, hv⟩ := one_exists k hs
      have := h v
      rw [hv] at this
      exact stored_one (sz_cases hs) this
  cases t <;> try (simp only [scalar, Bool.false_eq_true] at hs)
  case int k =>
    simp only [Ty.endianIndependent, Ty.sizeOf, Bool.false_or, EndianIndependent, Valid, storage, Memory.number, forall_true_left]
    exact int k
  case enum k =>
    simp only [Ty.endianIndependent, Ty.sizeOf, Bool.false_or, EndianIndependent, Valid, storage, Memory.number, forall_true_left]
    exact int k
  case ptr =>
    simp only [Ty.endianIndependent, Ty.sizeOf, Bool.false_or, EndianIndependent, Valid, storage, Memory.number]
    constructor
    · intro h; exact absurd (eq_of_beq h) (ptrSz_ne_one env)
    · intro h
      refine absurd (h (1 : W64) ?_) (stored_one (ptr_cases env))
      rw [show (1 : W64).toNat = 1 from rfl]
      rcases ptr_cases env with h | h | h <;> rw [h] <;> decide
  case f32 =>
    simp only [Ty.endianIndependent, Ty.sizeOf, Bool.false_or, EndianIndependent, Valid, storage, Memory.number, forall_true_left]
    exact ⟨fun h => absurd h (by decide), fun h => absurd (h (1 : W32)) (stored_one (.inr (.inl rfl)))⟩
  case f64 =>
    simp only [Ty.endianIndependent, Ty.sizeOf, Bool.false_or, EndianIndependent, Valid, storage, Memory.number, forall_true_left]
    exact ⟨fun h => absurd h (by decide), fun h => absurd (h (1 : W64)) (stored_one (.inr (.inr rfl)))⟩

theorem builtIn_wellFormed : ∀ (t : Ty), builtIn t = true → wellFormed t = true
  | .carray n t, h => by
    simp only [builtIn, Bool.and_eq_true] at h
    simp only [wellFormed, Bool.and_eq_true]
    exact ⟨h.1, builtIn_wellFormed t h.2⟩
  | .int _, _ => rfl
  | .enum _, _ => rfl
  | .ptr, _ => rfl
  | .f32, _ => rfl
  | .f64, _ => rfl
  | .nullptr, h | .seq _ _, h | .arr _ _ _, h | .unord _, h | .tuple _, h | .user _, h | .range _ _, h | .size, h
  | .described _ _ _ _, h => by
    simp [builtIn, scalar] at h

/-- is_contiguously_hashable is exact also for arrays, of any number of dimensions -/
theorem built_in_contiguous_exact (env : Env) (f : Flavor) (t : Ty) (hs : builtIn t = true) :
    t.contiguouslyHashable env (f.endian env) = true ↔ ContiguouslyHashable env.memory (layout env f) t := by
  refine ⟨contiguous_truth env f t (builtIn_wellFormed t hs), fun h => ?_⟩
  by_contra hn
  obtain ⟨x, hx, m, hm, hne, _⟩ := not_contiguous env f t hs (by simpa using hn)
  exact hne ((hm (fun _ => 0) []).symm.trans (h x (fun _ => 0) [] hx))

-- a class { std::uint16_t; unsigned char [ 2 ]; } for which is_trivially_equality_comparable has been specialised
example : TriviallyComparable le64.memory (.described true false .nil (.cons (.int (.int .s2)) (.cons (.carray 2 (.int .uchar)) .nil))) :=
  comparable_truth le64 _ (by decide) rfl
-- { unsigned char a, b, c; }, the example of the documentation
example : EndianIndependent 8 (.described true true .nil (.cons (.int .uchar) (.cons (.int .uchar) (.cons (.int .uchar) .nil)))) :=
  independent_truth le64 _ (by decide) rfl rfl
-- an array of arrays of int is hashed as memory with the default flavor, but not with big_endian_flavor on a little endian machine
example : ContiguouslyHashable le64.memory (layout le64 default_flavor) (.carray 3 (.carray 2 (.int (.int .s4)))) :=
  contiguous_truth le64 default_flavor _ (by decide) (by decide)
example : ¬ ContiguouslyHashable le64.memory (layout le64 big_endian_flavor) (.carray 3 (.carray 2 (.int (.int .s4)))) :=
  fun h => absurd ((built_in_contiguous_exact le64 big_endian_flavor _ (by decide)).2 h) (by decide)
-- float is not trivially comparable
example : ¬ TriviallyComparable be32.memory .f32 := fun h => absurd ((scalar_comparable_exact be32 .f32 rfl).2 h) (by decide)

end Hash2

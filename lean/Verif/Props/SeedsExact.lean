import Verif.Props.Distinct
import Verif.Spec.Future
/-
C19, C20 for xxhash_32, murmur3_32, fnv1a: exactly which seeds make the same object.
-/
namespace Hash2
open Spec

/-- rotating to the left by 13 is nearly additive: two carries -/
private theorem rotl13 (y c : BitVec 32) : ∃ a b : Nat, a < 2 ∧ b < 2 ∧
    ((y + c).rotateLeft 13).toNat = ((y.rotateLeft 13).toNat + (c.toNat * 2 ^ 13 + c.toNat / 2 ^ 19) + a + b * (2 ^ 32 - 2 ^ 13)) % 2 ^ 32 := by
  have R : ∀ x : BitVec 32, (x.rotateLeft 13).toNat = 8192 * (x.toNat % 524288) + x.toNat / 524288 := by
    intro x
    rw [BitVec.toNat_rotateLeft, Nat.shiftLeft_eq, Nat.shiftRight_eq_div_pow]
    have h1 : x.toNat / 2 ^ (32 - 13 % 32) < 2 ^ 13 := by have := x.isLt; simp only [Nat.reduceMod, Nat.reduceSub, Nat.reducePow]; omega
    have h2 : (x.toNat * 2 ^ (13 % 32)) % 2 ^ 32 = 2 ^ 13 * (x.toNat % 2 ^ 19) := by
      simp only [Nat.reduceMod, Nat.reducePow]; omega
    rw [h2, ← Nat.two_pow_add_eq_or_of_lt h1]
  rw [R, R, BitVec.toNat_add]
  have hy := y.isLt
  have hc := c.isLt
  generalize y.toNat = u at *
  generalize c.toNat = v at *
  simp only [Nat.reducePow, Nat.reduceSub] at *
  obtain ⟨uh, ul, eu, hul, huh⟩ : ∃ uh ul, u = 524288 * uh + ul ∧ ul < 524288 ∧ uh < 8192 := ⟨u / 524288, u % 524288, by omega, by omega, by omega⟩
  obtain ⟨vh, vl, ev, hvl, hvh⟩ : ∃ vh vl, v = 524288 * vh + vl ∧ vl < 524288 ∧ vh < 8192 := ⟨v / 524288, v % 524288, by omega, by omega, by omega⟩
  have e1 : u % 524288 = ul := by omega
  have e2 : u / 524288 = uh := by omega
  have e3 : v / 524288 = vh := by omega
  rw [e1, e2, e3]
  by_cases ha : 524288 ≤ ul + vl
  · by_cases hb : 8192 ≤ uh + vh + 1
    · have f1 : (u + v) % 4294967296 % 524288 = ul + vl - 524288 := by omega
      have f2 : (u + v) % 4294967296 / 524288 = uh + vh + 1 - 8192 := by omega
      exact ⟨1, 1, by decide, by decide, by rw [f1, f2]; omega⟩
    · have f1 : (u + v) % 4294967296 % 524288 = ul + vl - 524288 := by omega
      have f2 : (u + v) % 4294967296 / 524288 = uh + vh + 1 := by omega
      exact ⟨1, 0, by decide, by decide, by rw [f1, f2]; omega⟩
  · by_cases hb : 8192 ≤ uh + vh
    · have f1 : (u + v) % 4294967296 % 524288 = ul + vl := by omega
      have f2 : (u + v) % 4294967296 / 524288 = uh + vh - 8192 := by omega
      exact ⟨0, 1, by decide, by decide, by rw [f1, f2]; omega⟩
    · have f1 : (u + v) % 4294967296 % 524288 = ul + vl := by omega
      have f2 : (u + v) % 4294967296 / 524288 = uh + vh := by omega
      exact ⟨0, 0, by decide, by decide, by rw [f1, f2]; omega⟩

/-- mixing in an upper half never gives what no mixing gives: already the second and third accumulator contradict -/
private theorem mixed_ne (y x : BitVec 32) (h3 : y.rotateLeft 13 * XXH32.prime1 = x)
    (h2 : (y + XXH32.prime2).rotateLeft 13 * XXH32.prime1 = x + XXH32.prime2) : False := by
  obtain ⟨a, b, ha, hb, e⟩ := rotl13 y XXH32.prime2
  have e' : (y + XXH32.prime2).rotateLeft 13 = y.rotateLeft 13 + BitVec.ofNat 32 ((XXH32.prime2.toNat * 2 ^ 13 + XXH32.prime2.toNat / 2 ^ 19) + a + b * (2 ^ 32 - 2 ^ 13)) := by
    apply BitVec.eq_of_toNat_eq
    rw [e, BitVec.toNat_add, BitVec.toNat_ofNat, Nat.add_mod_mod]
    simp only [Nat.add_assoc]
  rw [e', BitVec.add_mul, h3] at h2
  have h2 := (BitVec.add_right_inj x).1 h2
  have : ∀ a < 2, ∀ b < 2, BitVec.ofNat 32 ((XXH32.prime2.toNat * 2 ^ 13 + XXH32.prime2.toNat / 2 ^ 19) + a + b * (2 ^ 32 - 2 ^ 13)) * XXH32.prime1 ≠ XXH32.prime2 := by
    decide +kernel
  exact this a ha b hb h2

private theorem hi32_zero (k : W64) : hi32 k = 0 ↔ k.toNat < 2 ^ 32 := by
  unfold hi32
  have := k.isLt
  constructor
  · intro h
    have := congrArg BitVec.toNat h
    simp at this
    omega
  · intro h
    rw [Nat.div_eq_of_lt h]; rfl

private theorem seeded_iff (k k' : W64) : XXH32.seeded k = XXH32.seeded k' ↔
    k = k' ∨ (2 ^ 32 ≤ k.toNat ∧ 2 ^ 32 ≤ k'.toNat ∧ lo32 k + hi32 k * 0x85EBCA77#32 = lo32 k' + hi32 k' * 0x85EBCA77#32) := by
  have U : ∀ k, XXH32.seeded k = if hi32 k = 0 then XXH32.start (lo32 k) else
      ⟨XXH32.round (lo32 k + XXH32.prime1 + XXH32.prime2) (hi32 k), XXH32.round (lo32 k + XXH32.prime2) (hi32 k), XXH32.round (lo32 k) (hi32 k), XXH32.round (lo32 k - XXH32.prime1) (hi32 k)⟩ :=
    fun _ => rfl
  have R : ∀ a b l m : BitVec 32, a + l * XXH32.prime2 = b + m * XXH32.prime2 ↔ XXH32.round a l = XXH32.round b m := by
    intro a b l m
    constructor
    · intro h; unfold XXH32.round; rw [h]
    · intro h; exact rotl_inj 13 (mul_inj 0xe8b2f51#32 (by decide) h)
  have shift : ∀ a b c l m : BitVec 32, a + l * XXH32.prime2 = b + m * XXH32.prime2 → a + c + l * XXH32.prime2 = b + c + m * XXH32.prime2 := by
    intro a b c l m h
    rw [BitVec.add_assoc, BitVec.add_comm c, ← BitVec.add_assoc, h, BitVec.add_assoc, BitVec.add_comm _ c, ← BitVec.add_assoc]
  have mix : ∀ k k', hi32 k ≠ 0 → hi32 k' = 0 → XXH32.seeded k ≠ XXH32.seeded k' := by
    intro k k' h h' e
    rw [U, U, if_neg h, if_pos h'] at e
    have e3 := congrArg Acc4.a3 e
    have e2 := congrArg Acc4.a2 e
    refine mixed_ne (lo32 k + hi32 k * XXH32.prime2) (lo32 k') e3 ?_
    have e2 : (lo32 k + XXH32.prime2 + hi32 k * XXH32.prime2).rotateLeft 13 * XXH32.prime1 = lo32 k' + XXH32.prime2 := e2
    rwa [BitVec.add_assoc, BitVec.add_comm XXH32.prime2, ← BitVec.add_assoc] at e2
  constructor
  · intro e
    by_cases h : hi32 k = 0 <;> by_cases h' : hi32 k' = 0
    · rw [U, U, if_pos h, if_pos h'] at e
      exact .inl (halves_inj (congrArg Acc4.a3 e) (h.trans h'.symm))
    · exact absurd e.symm (mix _ _ h' h)
    · exact absurd e (mix _ _ h h')
    · rw [U, U, if_neg h, if_neg h'] at e
      rw [hi32_zero] at h h'
      exact .inr ⟨by omega, by omega, (R _ _ _ _).2 (congrArg Acc4.a3 e)⟩
  · rintro (rfl | ⟨h, h', e⟩)
    · rfl
    · have h : hi32 k ≠ 0 := fun x => by rw [hi32_zero] at x; omega
      have h' : hi32 k' ≠ 0 := fun x => by rw [hi32_zero] at x; omega
      rw [U, U, if_neg h, if_neg h']
      have e : lo32 k + hi32 k * XXH32.prime2 = lo32 k' + hi32 k' * XXH32.prime2 := e
      rw [(R _ _ _ _).1 e, (R _ _ _ _).1 (shift _ _ XXH32.prime2 _ _ e),
        (R _ _ _ _).1 (shift _ _ XXH32.prime2 _ _ (shift _ _ XXH32.prime1 _ _ e)), BitVec.sub_eq_add_neg, BitVec.sub_eq_add_neg,
        (R _ _ _ _).1 (shift _ _ (-XXH32.prime1) _ _ e)]

/-- **C19, exactly, for xxhash_32.** Two integers make the same object if and only if they are equal, or both are at least 2^32 and
agree in lower half + upper half * PRIME32_2. In particular a seed below 2^32 shares its object with no other integer. -/
theorem xxhash_32_seeds_exact (k k' : W64) :
    let same := k = k' ∨ (2 ^ 32 ≤ k.toNat ∧ 2 ^ 32 ≤ k'.toNat ∧
      lo32 k + hi32 k * 0x85EBCA77#32 = lo32 k' + hi32 k' * 0x85EBCA77#32)
    (same → ∀ env ops, AlgName.xxhash_32.impl.exec env (.seed k) ops = AlgName.xxhash_32.impl.exec env (.seed k') ops) ∧
    (¬ same → ∀ env, AlgName.xxhash_32.impl.EndDifferent env (.seed k) (.seed k') []) := by
  refine ⟨fun h env ops => HashAlg.exec_congr ?_ ops, fun h env => ?_⟩
  · refine congrArg Except.ok ?_
    show XX32.initSeed k = XX32.initSeed k'
    rw [XX32.initSeed_eq, XX32.initSeed_eq, (seeded_iff k k').2 h]
  · refine AlgName.endDifferent (a := .xxhash_32) (ts := []) trivial trivial rfl (.inl trivial) trivial trivial fun s s' r r' => ?_
    exact (XX32.ok env).ne_of_ne1 r r' (ne1_start fun e => h ((seeded_iff k k').1 e))

example : AlgName.xxhash_32.impl.EndDifferent le64 (.seed 5) (.seed 0x500000005) [] :=
  (xxhash_32_seeds_exact 5 0x500000005).2 (by decide) le64
example : ∀ env ops, AlgName.xxhash_32.impl.exec env (.seed 0x200000000) ops = AlgName.xxhash_32.impl.exec env (.seed 0x185EBCA77) ops :=
  (xxhash_32_seeds_exact 0x200000000 0x185EBCA77).1 (by decide)

/-- **C19, exactly, for murmur3_32.** The object depends on the lower half of the seed, or if the upper half is not zero, on the hash of
the lower half continued with the upper half as a block (`MURMUR3.x86_32.body`), and on nothing else. -/
theorem murmur3_32_seeds_exact (k k' : W64) :
    let effective := fun k => if hi32 k = 0 then lo32 k else MURMUR3.x86_32.body (lo32 k) (hi32 k)
    (effective k = effective k' → ∀ env ops, AlgName.murmur3_32.impl.exec env (.seed k) ops = AlgName.murmur3_32.impl.exec env (.seed k') ops) ∧
    (effective k ≠ effective k' → ∀ env, AlgName.murmur3_32.impl.EndDifferent env (.seed k) (.seed k') []) := by
  refine ⟨fun h env ops => HashAlg.exec_congr ?_ ops, fun h env => ?_⟩
  · refine congrArg Except.ok ?_
    show Mur32.initSeed env k = Mur32.initSeed env k'
    have a := (Mur32.seed_ok env k).st
    have b := (Mur32.seed_ok env k').st
    have hs : (Mur32.initSeed env k).st = (Mur32.initSeed env k').st := a.trans (h.trans b.symm)
    show (⟨(Mur32.initSeed env k).st, _, _, _⟩ : BlockState W32) = ⟨(Mur32.initSeed env k').st, _, _, _⟩
    rw [hs]
  · refine AlgName.endDifferent (a := .murmur3_32) (ts := []) trivial trivial rfl (.inl trivial) trivial trivial fun s s' r r' => ?_
    exact (Mur32.ok env).ne_of_ne1 r r' (ne1_start h)

example : AlgName.murmur3_32.impl.EndDifferent le64 (.seed 5) (.seed 0x500000005) [] :=
  (murmur3_32_seeds_exact 5 0x500000005).2 (by decide +kernel) le64

private theorem fnv_start {w : Nat} (p : BitVec w) (c : Ctor) : c.start (FNV.machine p) = FNV.hash p c.key := by
  cases c with
  | default => rfl
  | seed k =>
    show (if k = 0 then _ else _) = FNV.feed p _ (if k = 0 then [] else _)
    by_cases h : k = 0
    · rw [if_pos h, if_pos h]; rfl
    · rw [if_neg h, if_neg h]
  | bytes q n => rfl

/-- **C19, C20, exactly, for fnv1a_32.** Two constructors - default, from an integer, from bytes - make the same object if the 32-bit
FNV-1a hashes of their keys agree (`Ctor.key`: an integer other than 0 counts as its 8 bytes in little-endian order), and if the hashes
differ, then every result the two objects give in any common program differs. -/
theorem fnv1a_32_seeds_exact (env : Env) (c c' : Ctor) (hc : c.Valid) (hc' : c'.Valid) :
    (FNV.hash FNV.prime32 c.key = FNV.hash FNV.prime32 c'.key →
      ∀ ops, AlgName.fnv1a_32.impl.exec env c ops = AlgName.fnv1a_32.impl.exec env c' ops) ∧
    (FNV.hash FNV.prime32 c.key ≠ FNV.hash FNV.prime32 c'.key →
      ∀ ops ts, stream ops = some ts → AlgName.fnv1a_32.impl.ResultsDiffer env c c' ops) := by
  refine ⟨fun h ops => ?_, fun h ops ts hs => ?_⟩
  · obtain ⟨s, e, r⟩ := AlgName.construct_ok (a := .fnv1a_32) (env := env) (ts := []) hc trivial
    obtain ⟨s', e', r'⟩ := AlgName.construct_ok (a := .fnv1a_32) (env := env) (ts := []) hc' trivial
    have r : s = c.start (FNV.machine FNV.prime32) := r
    have r' : s' = c'.start (FNV.machine FNV.prime32) := r'
    rw [fnv_start] at r r'
    exact HashAlg.exec_congr (e.trans ((congrArg Except.ok (r.trans (h.trans r'.symm))).trans e'.symm)) ops
  · refine AlgName.resultsDiffer (a := .fnv1a_32) hc hc' hs (.inl trivial) trivial trivial ?_
    refine fnv_run_ne FNV.prime32 FNV.invprime32 (by decide) ts ?_
    intro e
    have e : c.start (FNV.machine FNV.prime32) = c'.start (FNV.machine FNV.prime32) := e
    rw [fnv_start, fnv_start] at e
    exact h e

/-- **C19, C20, exactly, for fnv1a_64.** As for fnv1a_32, with the 64-bit hash. -/
theorem fnv1a_64_seeds_exact (env : Env) (c c' : Ctor) (hc : c.Valid) (hc' : c'.Valid) :
    (FNV.hash FNV.prime64 c.key = FNV.hash FNV.prime64 c'.key →
      ∀ ops, AlgName.fnv1a_64.impl.exec env c ops = AlgName.fnv1a_64.impl.exec env c' ops) ∧
    (FNV.hash FNV.prime64 c.key ≠ FNV.hash FNV.prime64 c'.key →
      ∀ ops ts, stream ops = some ts → AlgName.fnv1a_64.impl.ResultsDiffer env c c' ops) := by
  refine ⟨fun h ops => ?_, fun h ops ts hs => ?_⟩
  · obtain ⟨s, e, r⟩ := AlgName.construct_ok (a := .fnv1a_64) (env := env) (ts := []) hc trivial
    obtain ⟨s', e', r'⟩ := AlgName.construct_ok (a := .fnv1a_64) (env := env) (ts := []) hc' trivial
    have r : s = c.start (FNV.machine FNV.prime64) := r
    have r' : s' = c'.start (FNV.machine FNV.prime64) := r'
    rw [fnv_start] at r r'
    exact HashAlg.exec_congr (e.trans ((congrArg Except.ok (r.trans (h.trans r'.symm))).trans e'.symm)) ops
  · refine AlgName.resultsDiffer (a := .fnv1a_64) hc hc' hs (.inl trivial) trivial trivial ?_
    refine fnv_run_ne FNV.prime64 FNV.invprime64 (by decide) ts ?_
    intro e
    have e : c.start (FNV.machine FNV.prime64) = c'.start (FNV.machine FNV.prime64) := e
    rw [fnv_start, fnv_start] at e
    exact h e

/-- the integer 0x61 and the eight bytes it consists of -/
example : ∀ ops, AlgName.fnv1a_32.impl.exec le64 (.seed 0x61) ops =
    AlgName.fnv1a_32.impl.exec le64 (.bytes (.mem [0x61, 0, 0, 0, 0, 0, 0, 0]) 8) ops :=
  (fnv1a_32_seeds_exact le64 (.seed 0x61) (.bytes (.mem [0x61, 0, 0, 0, 0, 0, 0, 0]) 8) trivial (show 8 ≤ 8 by decide)).1 (by decide +kernel)
example : AlgName.fnv1a_64.impl.ResultsDiffer le64 (.seed 1) (.bytes (.mem [1, 2]) 2) [.result, .update (.mem [7]) 1, .result] :=
  (fnv1a_64_seeds_exact le64 (.seed 1) (.bytes (.mem [1, 2]) 2) trivial (show 2 ≤ 2 by decide)).2 (by decide +kernel) _ _ rfl

end Hash2

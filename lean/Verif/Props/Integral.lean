import Verif.Lemmas.Integral
import Verif.Spec.Platforms
/-
C31 - C33: get_integral_result<T>( r ), for r of an unsigned type R, by the sizes of R and T; a signed T is seen as its bits.
-/
namespace Hash2
open Integral

/-- **C31.** If T is as wide as R, the result is r. -/
theorem integral_result_same (s : Sz) (r : BitVec (8 * s.n)) : get s.n s.n r = .ok r := by
  rw [get_wide s s (Nat.le_refl _)]
  have : multiplier s.n s.n = 1 := by cases s <;> rfl
  rw [this, Nat.mul_one]
  simp

/-- **C31.** If T is at least as wide as R, there is always a result, and different r have different results. -/
theorem integral_result_injective (rs ts : Sz) (h : rs.n ≤ ts.n) :
    (∀ r, ∃ x, get rs.n ts.n r = .ok x) ∧ ∀ r r', get rs.n ts.n r = get rs.n ts.n r' → r = r' := by
  refine ⟨fun r => ⟨_, get_wide rs ts h r⟩, fun r r' e => ?_⟩
  rw [get_wide rs ts h, get_wide rs ts h] at e
  have e := congrArg BitVec.toNat (Except.ok.inj e)
  rw [BitVec.toNat_ofNat, BitVec.toNat_ofNat] at e
  have hi := inverse_ok rs ts
  rw [Nat.max_eq_right h] at hi
  have hp : 2 ^ (8 * rs.n) ≤ 2 ^ (8 * ts.n) := Nat.pow_le_pow_right (by decide) (by omega)
  exact BitVec.eq_of_toNat_eq (mul_inj hi (Nat.lt_of_lt_of_le r.isLt hp) (Nat.lt_of_lt_of_le r'.isLt hp) e)

example : get 4 8 0x12345678#32 ≠ get 4 8 0x12345679#32 := fun e =>
  absurd ((integral_result_injective .s4 .s8 (by decide)).2 _ _ e) (show ¬ 0x12345678#32 = 0x12345679#32 by decide)
example : get 1 2 0xFF#8 = .ok 0xFF81#16 := (get_wide .s1 .s2 (by decide) _).trans (congrArg Except.ok (show BitVec.ofNat 16 _ = _ from rfl))

/-- **C32.** If T is narrower than R, there is always a result, and every x of type T is the result of exactly
2^(bits of R - bits of T) of the values of R. Except for R of two bytes and T of one, below. -/
theorem integral_result_balanced_partial (rs ts : Sz) (h : ts.n < rs.n) (h2 : rs ≠ .s2) :
    (∀ r, ∃ x, get rs.n ts.n r = .ok x) ∧
    ∀ x, Nat.card { r : BitVec (8 * rs.n) // get rs.n ts.n r = .ok x } = 2 ^ (8 * (rs.n - ts.n)) := by
  have h4 : 4 ≤ rs.n := by
    cases rs <;> cases ts <;> simp_all [Sz.n]
  refine ⟨fun r => ⟨_, get_contract _ _ h h4 r⟩, fun x => ?_⟩
  have hi := inverse_ok rs ts
  rw [Nat.max_eq_left (Nat.le_of_lt h)] at hi
  rw [← balanced (w := 8 * rs.n) (k := 8 * (rs.n - ts.n)) (t := 8 * ts.n) (by omega) hi x]
  simp only [get_contract _ _ h h4, Except.ok.injEq]

example (x : BitVec 8) : Nat.card { r : BitVec 64 // get 8 1 r = .ok x } = 2 ^ 56 :=
  (integral_result_balanced_partial .s8 .s1 (by decide) (by decide)).2 x
example (x : BitVec 32) : Nat.card { r : BitVec 64 // get 8 4 r = .ok x } = 2 ^ 32 :=
  (integral_result_balanced_partial .s8 .s4 (by decide) (by decide)).2 x

/-- **C32 is false for R of two bytes and T of one**: r * 0xBF01 is a multiplication of ints, and it overflows exactly if
r is at least 43919. -/
theorem uint16_to_uint8_overflow (r : BitVec 16) : get 2 1 r = .error .signedOverflow ↔ 43919 ≤ r.toNat := by
  have : get 2 1 r = if r.toNat * 0xBF01 < 2 ^ 31 then .ok (BitVec.ofNat 8 ((r.toNat * 0xBF01) >>> 8)) else .error .signedOverflow := by
    unfold Integral.get
    simp only [show (2 : Nat) > 1 by decide, if_true, mul, show (2 : Nat) < 4 by decide, multiplier]
    split <;> rfl
  rw [this]
  constructor
  · intro h
    by_contra hc
    rw [if_pos (by omega)] at h
    cases h
  · intro h
    rw [if_neg (by omega)]

/-- The formula is balanced in this case too: where there is no overflow the result is that of the multiplication modulo 2^16,
whose high byte takes every value 256 times. (So an implementation on which int wraps is balanced.) -/
theorem uint16_to_uint8_wrapping :
    (∀ r : BitVec 16, r.toNat < 43919 → get 2 1 r = .ok (((r * 0xBF01#16) >>> 8).truncate 8)) ∧
    ∀ x : BitVec 8, Nat.card { r : BitVec 16 // ((r * 0xBF01#16) >>> 8).truncate 8 = x } = 256 := by
  have key : ∀ r : BitVec 16, ((r * 0xBF01#16) >>> 8).truncate 8 = BitVec.ofNat 8 (r.toNat * 0xBF01 % 2 ^ 16 / 2 ^ 8) := by
    intro r
    apply BitVec.eq_of_toNat_eq
    simp [Nat.shiftRight_eq_div_pow]
  constructor
  · intro r hr
    rw [key]
    unfold Integral.get
    simp only [show (2 : Nat) > 1 by decide, if_true, mul, show (2 : Nat) < 4 by decide, multiplier, if_pos (show r.toNat * 0xBF01 < 2 ^ 31 by omega),
      Except.bind_ok, Except.pure_eq]
    congr 1
    apply BitVec.eq_of_toNat_eq
    simp only [BitVec.toNat_ofNat, Nat.shiftRight_eq_div_pow]
    rw [show 2 ^ 16 = 2 ^ 8 * 2 ^ 8 by decide, Nat.mod_mul_right_div_self, Nat.mod_mod]
  · intro x
    simp only [key]
    exact balanced (w := 16) (k := 8) (t := 8) (m := 0xBF01) (i := 0x4101) rfl (by decide) x

/-- **C33.** The integral result of a digest is the number whose little endian bytes are the first 8, reduced to T. -/
theorem integral_result_of_digest (env : Env) (ts : Nat) (d : List Byte) (h : 8 ≤ d.length) :
    getDigest env ts d = .ok (BitVec.ofNat (8 * ts) (leNat (d.take 8))) := by
  rw [getDigest, read64le_ok env d h, Except.bind_ok]
  have hl : leNat (d.take 8) < 2 ^ 64 := by
    have := leNat_lt (d.take 8)
    rw [List.length_take, Nat.min_eq_left h] at this
    exact this
  show Except.ok _ = _
  congr 1
  apply BitVec.eq_of_toNat_eq
  rw [BitVec.truncate_eq_setWidth, BitVec.toNat_setWidth, leWord, BitVec.toNat_ofNat, BitVec.toNat_ofNat, Nat.mod_eq_of_lt hl]

example : getDigest be32 2 [0x12, 0x34, 0, 0, 0, 0, 0, 1, 9, 9] = .ok 0x3412#16 := integral_result_of_digest _ 2 _ (by decide)

end Hash2

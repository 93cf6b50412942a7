import Verif.Model.Integral
import Verif.Model.Types
import Verif.Lemmas.Core
import Mathlib.SetTheory.Cardinal.Finite
import Mathlib.Data.Nat.ModEq
/-
Lemmas about get_integral_result (C31 - C33).
-/
namespace Hash2.Integral

/-- multiplication by a number invertible modulo 2^w, and reduction, is injective -/
theorem mul_inj {w m i : Nat} (hi : m * i ≡ 1 [MOD 2 ^ w]) {a b : Nat} (ha : a < 2 ^ w) (hb : b < 2 ^ w)
    (h : a * m ≡ b * m [MOD 2 ^ w]) : a = b := by
  have h1 : a * m * i ≡ b * m * i [MOD 2 ^ w] := h.mul_right i
  rw [Nat.mul_assoc, Nat.mul_assoc] at h1
  have h2 : a ≡ b [MOD 2 ^ w] := by
    have e1 := (hi.mul_left a).symm
    have e2 := hi.mul_left b
    rw [Nat.mul_one] at e1 e2
    exact e1.trans (h1.trans e2)
  exact Nat.ModEq.eq_of_lt_of_lt h2 ha hb

/-- the high t bits of the product take every value equally often -/
theorem balanced {w k t m i : Nat} (hw : w = k + t) (hi : m * i ≡ 1 [MOD 2 ^ w]) (x : BitVec t) :
    Nat.card { r : BitVec w // BitVec.ofNat t (r.toNat * m % 2 ^ w / 2 ^ k) = x } = 2 ^ k := by
  have hpw : 2 ^ w = 2 ^ k * 2 ^ t := by rw [hw, Nat.pow_add]
  have hk : 0 < 2 ^ k := Nat.two_pow_pos k
  have hx := x.isLt
  have hlt : ∀ a, a < 2 ^ k → x.toNat * 2 ^ k + a < 2 ^ w := by
    intro a ha
    rw [hpw]
    calc x.toNat * 2 ^ k + a < (x.toNat + 1) * 2 ^ k := by rw [Nat.add_mul]; omega
      _ ≤ 2 ^ t * 2 ^ k := Nat.mul_le_mul_right _ hx
      _ = _ := Nat.mul_comm ..
  have hmi : ∀ a, a < 2 ^ w → (a * i % 2 ^ w) * m % 2 ^ w = a := by
    intro a ha
    rw [Nat.mod_mul_mod, Nat.mul_assoc, Nat.mul_comm i m]
    have := (hi.mul_left a)
    rw [Nat.mul_one] at this
    rw [this, Nat.mod_eq_of_lt ha]
  have hq : ∀ a, a < 2 ^ k → (x.toNat * 2 ^ k + a) / 2 ^ k = x.toNat := by
    intro a ha
    rw [Nat.mul_comm, Nat.mul_add_div hk, Nat.div_eq_of_lt ha, Nat.add_zero]
  suffices h : Nat.card (Fin (2 ^ k)) = Nat.card { r : BitVec w // BitVec.ofNat t (r.toNat * m % 2 ^ w / 2 ^ k) = x } by
    rw [← h, Nat.card_fin]
  refine Nat.card_eq_of_bijective (fun a : Fin (2 ^ k) => ⟨BitVec.ofNat w ((x.toNat * 2 ^ k + a) * i), ?_⟩) ⟨?_, ?_⟩
  · rw [BitVec.toNat_ofNat, hmi _ (hlt a a.isLt), hq a a.isLt]
    simp
  · intro a b h
    have h1 := congrArg (fun r => r.1.toNat * m % 2 ^ w) h
    simp only [BitVec.toNat_ofNat] at h1
    rw [hmi _ (hlt a a.isLt), hmi _ (hlt b b.isLt)] at h1
    exact Fin.ext (by omega)
  · rintro ⟨r, hr⟩
    have hlo : r.toNat * m % 2 ^ w % 2 ^ k < 2 ^ k := Nat.mod_lt _ hk
    refine ⟨⟨r.toNat * m % 2 ^ w % 2 ^ k, hlo⟩, Subtype.ext (BitVec.eq_of_toNat_eq ?_)⟩
    have hxe : x.toNat = r.toNat * m % 2 ^ w / 2 ^ k := by
      rw [← hr, BitVec.toNat_ofNat, Nat.mod_eq_of_lt]
      rw [Nat.div_lt_iff_lt_mul hk, Nat.mul_comm (2 ^ t), ← hpw]
      exact Nat.mod_lt _ (Nat.two_pow_pos w)
    simp only [BitVec.toNat_ofNat]
    rw [hxe, Nat.mul_comm (_ / _), Nat.div_add_mod, Nat.mod_mul_mod, Nat.mul_assoc]
    have := (hi.mul_left r.toNat)
    rw [Nat.mul_one] at this
    rw [this, Nat.mod_eq_of_lt r.isLt]

/-- contraction from at least 4 bytes -/
theorem get_contract (rs ts : Nat) (h : ts < rs) (h4 : 4 ≤ rs) (r : BitVec (8 * rs)) :
    get rs ts r = .ok (BitVec.ofNat (8 * ts) (r.toNat * multiplier rs ts % 2 ^ (8 * rs) / 2 ^ (8 * (rs - ts)))) := by
  rw [get]
  simp only [h, if_true, mul, if_neg (show ¬ rs < 4 by omega), Except.bind_ok, Except.pure_eq, Nat.shiftRight_eq_div_pow, Nat.mul_sub]

/-- expansion or identity, to at least 4 bytes -/
theorem get_expand (rs ts : Nat) (h : rs ≤ ts) (h4 : 4 ≤ ts) (r : BitVec (8 * rs)) :
    get rs ts r = .ok (BitVec.ofNat (8 * ts) (r.toNat * multiplier rs ts)) := by
  rw [get]
  simp only [show ¬ rs > ts by omega, if_false, mul, if_neg (show ¬ ts < 4 by omega), Except.bind_ok, Except.pure_eq]
  congr 1
  apply BitVec.eq_of_toNat_eq
  simp [BitVec.toNat_ofNat]

/-- expansion or identity, to less than 4 bytes -/
theorem get_small (rs ts : Nat) (h : rs ≤ ts) (h4 : ts < 4) (r : BitVec (8 * rs)) (hr : r.toNat * multiplier rs ts < 2 ^ 31) :
    get rs ts r = .ok (BitVec.ofNat (8 * ts) (r.toNat * multiplier rs ts)) := by
  rw [get]
  simp only [show ¬ rs > ts by omega, if_false, mul, if_pos h4, if_pos hr, Except.bind_ok, Except.pure_eq]

/-- the inverse of the multiplier modulo 2 ^ 64 -/
def inverse : Nat → Nat → Nat
  | 2, 1 => 0x4101
  | 4, 1 => 0x1020407f
  | 8, 1 => 0x810204081020407f
  | 4, 2 => 0x40010001
  | 8, 2 => 0x1b00240030003fff
  | 8, 4 => 0x4000000100000001
  | 1, 2 => 0x407f
  | 1, 4 => 0x5b24303f
  | 1, 8 => 0xf113840497889c1f
  | 2, 4 => 0x40007fff
  | 2, 8 => 0x1000200040007fff
  | 4, 8 => 0x400000007fffffff
  | _, _ => 1

theorem inverse_ok (rs ts : Sz) : multiplier rs.n ts.n * inverse rs.n ts.n ≡ 1 [MOD 2 ^ (8 * max rs.n ts.n)] := by
  cases rs <;> cases ts <;> decide

/-- one formula for everything that does not overflow -/
theorem get_wide (rs ts : Sz) (h : rs.n ≤ ts.n) (r : BitVec (8 * rs.n)) :
    get rs.n ts.n r = .ok (BitVec.ofNat (8 * ts.n) (r.toNat * multiplier rs.n ts.n)) := by
  by_cases h4 : 4 ≤ ts.n
  · exact get_expand _ _ h h4 r
  · refine get_small _ _ h (by omega) r ?_
    have := r.isLt
    revert h h4 this
    generalize r.toNat = x
    clear r
    cases rs <;> cases ts <;> simp only [Sz.n, multiplier] <;> omega

end Hash2.Integral

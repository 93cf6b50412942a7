import Verif.Spec.Messages
import Verif.Model.HashAppend
import Verif.Lemmas.Core
import Mathlib.Tactic.Ring
/-
Floating point: `v + 0` against the values of bit patterns.
-/
namespace Hash2
open Spec

/-- the magnitude, in units of the least positive number -/
def fmag (mb m : Nat) : Nat := if m / 2 ^ mb = 0 then m % 2 ^ mb else (2 ^ mb + m % 2 ^ mb) * 2 ^ (m / 2 ^ mb - 1)

theorem fval_eq (eb mb b : Nat) : fval eb mb b =
    if b % 2 ^ (mb + eb) / 2 ^ mb = 2 ^ eb - 1 then
      if b % 2 ^ (mb + eb) % 2 ^ mb = 0 then .inf (b / 2 ^ (mb + eb) % 2 == 1) else .nan
    else .num (if b / 2 ^ (mb + eb) % 2 == 1 then -(fmag mb (b % 2 ^ (mb + eb)) : Int) else fmag mb (b % 2 ^ (mb + eb))) := by
  have h1 : b % 2 ^ (mb + eb) % 2 ^ mb = b % 2 ^ mb := Nat.mod_mod_of_dvd _ ⟨2 ^ eb, Nat.pow_add ..⟩
  have h2 : b % 2 ^ (mb + eb) / 2 ^ mb = b / 2 ^ mb % 2 ^ eb := by
    rw [Nat.pow_add, Nat.mod_mul_right_div_self]
  unfold fval fmag
  rw [h1, h2]

theorem fmag_zero {mb m : Nat} : fmag mb m = 0 ↔ m = 0 := by
  have hp : 0 < 2 ^ mb := Nat.two_pow_pos _
  have hd := Nat.div_add_mod m (2 ^ mb)
  unfold fmag
  split
  · rename_i h
    rw [h] at hd
    constructor
    · intro h'; rw [h'] at hd; simpa using hd.symm
    · rintro rfl; simp
  · rename_i h
    constructor
    · intro h'
      rcases Nat.mul_eq_zero.1 h' with h' | h'
      · omega
      · exact absurd h' (Nat.pos_iff_ne_zero.1 (Nat.two_pow_pos _))
    · rintro rfl; simp at h

theorem fmag_inj {mb m m' : Nat} (h : fmag mb m = fmag mb m') : m = m' := by
  have hp : 0 < 2 ^ mb := Nat.two_pow_pos _
  have hd := Nat.div_add_mod m (2 ^ mb)
  have hd' := Nat.div_add_mod m' (2 ^ mb)
  have hr := Nat.mod_lt m hp
  have hr' := Nat.mod_lt m' hp
  -- two normal numbers with different exponents differ
  have key : ∀ x x' k k', x < 2 ^ mb → k < k' → (2 ^ mb + x) * 2 ^ k ≠ (2 ^ mb + x') * 2 ^ k' := by
    intro x x' k k' hx hk e
    obtain ⟨d, rfl⟩ := Nat.exists_eq_add_of_lt hk
    have : (2 ^ mb + x') * 2 ^ (k + d + 1) = ((2 ^ mb + x') * 2 ^ d * 2) * 2 ^ k := by
      rw [Nat.pow_succ, Nat.pow_add]; ring
    rw [this] at e
    have e := Nat.eq_of_mul_eq_mul_right (Nat.two_pow_pos k) e
    have : 2 ^ mb + x' ≤ (2 ^ mb + x') * 2 ^ d := Nat.le_mul_of_pos_right _ (Nat.two_pow_pos d)
    omega
  have key0 : ∀ x k, 2 ^ mb ≤ (2 ^ mb + x) * 2 ^ k := fun x k =>
    Nat.le_trans (Nat.le_add_right _ x) (Nat.le_mul_of_pos_right _ (Nat.two_pow_pos k))
  unfold fmag at h
  split at h <;> split at h <;> rename_i h1 h2
  · rw [h1, Nat.mul_zero, Nat.zero_add] at hd; rw [h2, Nat.mul_zero, Nat.zero_add] at hd'; rw [← hd, ← hd', h]
  · have := key0 (m' % 2 ^ mb) (m' / 2 ^ mb - 1)
    omega
  · have := key0 (m % 2 ^ mb) (m / 2 ^ mb - 1)
    omega
  · rcases Nat.lt_trichotomy (m / 2 ^ mb - 1) (m' / 2 ^ mb - 1) with hk | hk | hk
    · exact absurd h (key _ _ _ _ hr hk)
    · rw [hk] at h
      have := Nat.eq_of_mul_eq_mul_right (Nat.two_pow_pos _) h
      have he : m / 2 ^ mb = m' / 2 ^ mb := Nat.sub_one_cancel (Nat.pos_of_ne_zero h1) (Nat.pos_of_ne_zero h2) hk
      rw [← hd, ← hd', he]
      omega
    · exact absurd h.symm (key _ _ _ _ hr' hk)

theorem split_bits {n b : Nat} (h : b < 2 ^ (n + 1)) : b = (b / 2 ^ n % 2) * 2 ^ n + b % 2 ^ n := by
  have hd := Nat.div_add_mod b (2 ^ n)
  have : b / 2 ^ n < 2 := by
    rw [Nat.div_lt_iff_lt_mul (Nat.two_pow_pos _)]
    rwa [Nat.pow_succ, Nat.mul_comm] at h
  rw [Nat.mod_eq_of_lt this, Nat.mul_comm]
  omega

section
variable {eb mb b : Nat}

theorem infinity_eq : 2 ^ (mb + eb) - 2 ^ mb = (2 ^ eb - 1) * 2 ^ mb := by
  rw [Nat.sub_mul, Nat.pow_add, Nat.one_mul, Nat.mul_comm]

theorem fval_nan : fval eb mb b = .nan ↔ (2 ^ eb - 1) * 2 ^ mb < b % 2 ^ (mb + eb) := by
  have hp : 0 < 2 ^ mb := Nat.two_pow_pos _
  have hd := Nat.div_add_mod (b % 2 ^ (mb + eb)) (2 ^ mb)
  have hlt : b % 2 ^ (mb + eb) / 2 ^ mb < 2 ^ eb := by
    rw [Nat.div_lt_iff_lt_mul hp, ← Nat.pow_add, Nat.add_comm eb]
    exact Nat.mod_lt _ (Nat.two_pow_pos _)
  have hr := Nat.mod_lt (b % 2 ^ (mb + eb)) hp
  rw [fval_eq]
  generalize b % 2 ^ (mb + eb) = m at *
  generalize hq : m / 2 ^ mb = q at *
  generalize hf : m % 2 ^ mb = r at *
  rw [Nat.mul_comm] at hd
  split
  · rename_i he
    rw [he] at hd
    split
    · rename_i h0
      simp only [reduceCtorEq, false_iff]
      omega
    · simp only [true_iff]
      omega
  · rename_i he
    simp only [reduceCtorEq, false_iff, Nat.not_lt]
    have : q ≤ 2 ^ eb - 1 - 1 := by omega
    have : (q + 1) * 2 ^ mb ≤ (2 ^ eb - 1) * 2 ^ mb := Nat.mul_le_mul_right _ (by omega)
    rw [Nat.add_mul] at this
    omega

theorem fval_zero (he : 0 < eb) : fval eb mb b = .num 0 ↔ b % 2 ^ (mb + eb) = 0 := by
  rw [fval_eq]
  have hE : 0 < 2 ^ eb - 1 := by
    have : 2 ^ 1 ≤ 2 ^ eb := Nat.pow_le_pow_right (by decide) he
    omega
  split
  · rename_i h
    have : b % 2 ^ (mb + eb) ≠ 0 := by
      intro h0; rw [h0, Nat.zero_div] at h; omega
    split <;> simp [this]
  · rw [← fmag_zero (mb := mb)]
    generalize fmag mb (b % 2 ^ (mb + eb)) = x
    split <;> simp

/-- two patterns of the same value, not a NaN, are the same or both zero -/
theorem fval_inj (he : 0 < eb) {b' : Nat} (hb : b < 2 ^ (mb + eb + 1)) (hb' : b' < 2 ^ (mb + eb + 1)) (h : fval eb mb b = fval eb mb b')
    (hn : fval eb mb b ≠ .nan) (hz : fval eb mb b ≠ .num 0) : b = b' := by
  have hz' := fval_zero (mb := mb) (b := b) he
  rw [split_bits hb, split_bits hb']
  have hs : ∀ x, x % 2 = if (x % 2 == 1) then 1 else 0 := by intro x; rcases Nat.mod_two_eq_zero_or_one x with h | h <;> simp [h]
  rw [hs (b / _), hs (b' / _)]
  have hm := Nat.div_add_mod (b % 2 ^ (mb + eb)) (2 ^ mb)
  have hm' := Nat.div_add_mod (b' % 2 ^ (mb + eb)) (2 ^ mb)
  rw [fval_eq] at h hn hz
  rw [fval_eq eb mb b'] at h
  have hx0 : b % 2 ^ (mb + eb) ≠ 0 := fun h0 => by
    rw [h0] at hz
    have hE : 0 < 2 ^ eb - 1 := by
      have : 2 ^ 1 ≤ 2 ^ eb := Nat.pow_le_pow_right (by decide) he
      omega
    rw [Nat.zero_div, if_neg (by omega), (fmag_zero (mb := mb)).2 rfl] at hz
    simp at hz
  have hx1 : fmag mb (b % 2 ^ (mb + eb)) ≠ 0 := fun h => hx0 (fmag_zero.1 h)
  generalize (b / 2 ^ (mb + eb) % 2 == 1) = s at *
  generalize (b' / 2 ^ (mb + eb) % 2 == 1) = s' at *
  generalize b % 2 ^ (mb + eb) = m at *
  generalize b' % 2 ^ (mb + eb) = m' at *
  by_cases h1 : m / 2 ^ mb = 2 ^ eb - 1
  · rw [if_pos h1] at h hn
    by_cases h2 : m % 2 ^ mb = 0
    · rw [if_pos h2] at h
      by_cases h3 : m' / 2 ^ mb = 2 ^ eb - 1
      · rw [if_pos h3] at h
        by_cases h4 : m' % 2 ^ mb = 0
        · rw [if_pos h4] at h
          cases h
          rw [h1, h2] at hm; rw [h3, h4] at hm'
          rw [← hm, ← hm']
        · rw [if_neg h4] at h; simp at h
      · rw [if_neg h3] at h; simp at h
    · rw [if_neg h2] at hn; exact absurd rfl hn
  · rw [if_neg h1] at h
    by_cases h3 : m' / 2 ^ mb = 2 ^ eb - 1
    · rw [if_pos h3] at h
      by_cases h4 : m' % 2 ^ mb = 0
      · rw [if_pos h4] at h; cases h
      · rw [if_neg h4] at h; cases h
    · rw [if_neg h3] at h
      simp only [FVal.num.injEq] at h
      have : s = s' ∧ fmag mb m = fmag mb m' := by
        cases s <;> cases s' <;> simp at h <;> (first | (refine ⟨rfl, by omega⟩) | omega)
      obtain ⟨rfl, hmm⟩ := this
      rw [fmag_inj hmm]

theorem canonical_of_nan {c : Bool} (h : fval eb mb b = .nan) :
    canonical c eb mb b = if c then (2 ^ eb - 1) * 2 ^ mb + 2 ^ (mb - 1) else b ||| 2 ^ (mb - 1) := by
  unfold canonical; rw [h]

theorem canonical_of_zero {c : Bool} (h : fval eb mb b = .num 0) : canonical c eb mb b = 0 := by
  unfold canonical; rw [h]; rfl

theorem canonical_of_other {c : Bool} (h : fval eb mb b ≠ .nan) (h' : fval eb mb b ≠ .num 0) : canonical c eb mb b = b := by
  unfold canonical; split <;> simp_all

theorem canonical_lt {c : Bool} (hmb : 0 < mb) (hb : b < 2 ^ (mb + eb + 1)) :
    canonical c eb mb b < 2 ^ (mb + eb + 1) := by
  by_cases hn : fval eb mb b = .nan
  · rw [canonical_of_nan hn]
    split
    · have h1 := infinity_eq (eb := eb) (mb := mb)
      have h2 : 2 ^ mb ≤ 2 ^ (mb + eb) := Nat.pow_le_pow_right (by decide) (by omega)
      have h3 : 2 ^ (mb - 1) ≤ 2 ^ mb := Nat.pow_le_pow_right (by decide) (by omega)
      rw [← h1, Nat.pow_succ]
      have := Nat.two_pow_pos (mb + eb)
      omega
    · exact Nat.or_lt_two_pow hb (Nat.pow_lt_pow_right (by decide) (by omega))
  · by_cases hz : fval eb mb b = .num 0
    · rw [canonical_of_zero hz]; exact Nat.two_pow_pos _
    · rw [canonical_of_other hn hz]; exact hb

/-- the pattern in the message has the same value -/
theorem fval_canonical {c : Bool} (he : 0 < eb) (hmb : 0 < mb) : fval eb mb (canonical c eb mb b) = fval eb mb b := by
  by_cases hn : fval eb mb b = .nan
  · rw [canonical_of_nan hn, hn, fval_nan]
    have hi := infinity_eq (eb := eb) (mb := mb)
    have h2 : 2 ^ mb ≤ 2 ^ (mb + eb) := Nat.pow_le_pow_right (by decide) (by omega)
    have h3 : 2 ^ (mb - 1) < 2 ^ mb := Nat.pow_lt_pow_right (by decide) (by omega)
    have h4 := Nat.two_pow_pos (mb - 1)
    split
    · rw [Nat.mod_eq_of_lt (by omega)]; omega
    · rw [Nat.or_mod_two_pow]
      refine Nat.lt_of_lt_of_le (fval_nan.1 hn) Nat.left_le_or
  · by_cases hz : fval eb mb b = .num 0
    · rw [canonical_of_zero hz, hz, fval_zero he, Nat.zero_mod]
    · rw [canonical_of_other hn hz]

/-- equal values have the same pattern in the message -/
theorem canonical_congr {c c' : Bool} (he : 0 < eb) {b' : Nat} (hb : b < 2 ^ (mb + eb + 1)) (hb' : b' < 2 ^ (mb + eb + 1))
    (h : fval eb mb b = fval eb mb b') (hn : fval eb mb b ≠ .nan) : canonical c eb mb b = canonical c' eb mb b' := by
  by_cases hz : fval eb mb b = .num 0
  · rw [canonical_of_zero hz, canonical_of_zero (h ▸ hz)]
  · rw [canonical_of_other hn hz, canonical_of_other (h ▸ hn) (h ▸ hz), fval_inj he hb hb' h hn hz]

theorem addZero_toNat (fp : FpEnv) (hr : fp.roundDown = false) (he : 0 < eb) (hmb : 0 < mb) (v : BitVec (mb + eb + 1)) :
    (addZero fp (mb + eb + 1) mb v).toNat = canonical fp.canonicalNaN eb mb v.toNat := by
  have hi := infinity_eq (eb := eb) (mb := mb)
  unfold addZero
  simp only [Nat.add_sub_cancel, hr]
  rw [hi]
  by_cases hn : fval eb mb v.toNat = .nan
  · rw [if_pos (fval_nan.1 hn), canonical_of_nan hn]
    have h2 : 2 ^ mb ≤ 2 ^ (mb + eb) := Nat.pow_le_pow_right (by decide) (by omega)
    have h3 : 2 ^ (mb - 1) < 2 ^ mb := Nat.pow_lt_pow_right (by decide) (by omega)
    split
    · rw [BitVec.toNat_ofNat, Nat.mod_eq_of_lt]
      rw [Nat.pow_succ]; omega
    · rw [BitVec.toNat_or, BitVec.toNat_ofNat, Nat.mod_eq_of_lt (b := 2 ^ (mb + eb + 1))]
      exact Nat.pow_lt_pow_right (by decide) (by omega)
  · rw [if_neg (fun h => hn (fval_nan.2 h))]
    by_cases hz : fval eb mb v.toNat = .num 0
    · rw [if_pos ((fval_zero he).1 hz), canonical_of_zero hz]; simp
    · rw [if_neg (fun h => hz ((fval_zero he).2 h)), canonical_of_other hn hz]

end

end Hash2

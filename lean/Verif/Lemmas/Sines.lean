import Verif.Spec.Md5
import Verif.Spec.Constants
import Mathlib.Analysis.Complex.Exponential
import Mathlib.Analysis.Complex.Trigonometric
import Mathlib.Algebra.Order.Floor.Semiring
import Mathlib.Tactic.Positivity
import Mathlib.Tactic.NormNum
import Mathlib.Tactic.Linarith
import Mathlib.Tactic.FieldSimp
/-
The table T of MD5 is the integer parts of 2^32 |sin i|, i = 1 .. 64 (C40): e^i is approximated by the first 30 terms of its
series, a Gaussian rational w, and e^(ni) by w^n; all in exact integer arithmetic with a common denominator.
-/
namespace Hash2.Sines
open Spec

/-- 29!, the common denominator of the terms -/
def F : ℕ := 8841761993739701954543616000000

theorem F_eq : F = Nat.factorial 29 := by decide +kernel

/-- I^m as a pair -/
def ipow : ℕ → ℤ × ℤ
  | 0 => (1, 0)
  | m + 1 => (-(ipow m).2, (ipow m).1)

/-- the sum of the first n terms, times F; `f` is F / n! -/
def sumZ : ℕ → ℤ × ℤ
  | 0 => (0, 0)
  | n + 1 => ((sumZ n).1 + (ipow n).1 * (F / Nat.factorial n : ℕ), (sumZ n).2 + (ipow n).2 * (F / Nat.factorial n : ℕ))

theorem ipow_eq (m : ℕ) : Complex.I ^ m = ((ipow m).1 : ℂ) + (ipow m).2 * Complex.I := by
  induction m with
  | zero => simp [ipow]
  | succ m ih =>
    rw [pow_succ, ih, ipow]
    push_cast
    linear_combination ((ipow m).2 : ℂ) * Complex.I_mul_I

theorem F_ne : (F : ℂ) ≠ 0 := by
  have : F ≠ 0 := by decide
  exact_mod_cast this

theorem sum_eq (n : ℕ) (h : n ≤ 30) :
    ∑ m ∈ Finset.range n, Complex.I ^ m / (m.factorial : ℂ) = (((sumZ n).1 : ℂ) + (sumZ n).2 * Complex.I) / F := by
  induction n with
  | zero => simp [sumZ]
  | succ n ih =>
    have hd : n.factorial * (F / n.factorial) = F := by
      rw [F_eq]
      exact Nat.mul_div_cancel' (Nat.factorial_dvd_factorial (by omega))
    have hf : (n.factorial : ℂ) ≠ 0 := by exact_mod_cast Nat.factorial_ne_zero n
    have hd' : (n.factorial : ℂ) * ((F / n.factorial : ℕ) : ℂ) = F := by exact_mod_cast hd
    rw [Finset.sum_range_succ, ih (by omega), ipow_eq, sumZ]
    have e : (((ipow n).1 : ℂ) + (ipow n).2 * Complex.I) / (n.factorial : ℂ) =
        (((ipow n).1 : ℂ) + (ipow n).2 * Complex.I) * ((F / n.factorial : ℕ) : ℂ) / F := by
      rw [div_eq_div_iff hf F_ne, ← hd']; ring
    rw [e, ← add_div]
    generalize F / n.factorial = g
    push_cast
    ring

/-- the approximation of e^i -/
noncomputable def w : ℂ := (((sumZ 30).1 : ℂ) + (sumZ 30).2 * Complex.I) / F

/-- powers of the approximation, times F^n -/
def pw : ℕ → ℤ × ℤ
  | 0 => (1, 0)
  | n + 1 => ((pw n).1 * (sumZ 30).1 - (pw n).2 * (sumZ 30).2, (pw n).1 * (sumZ 30).2 + (pw n).2 * (sumZ 30).1)

theorem pw_eq (n : ℕ) : w ^ n = (((pw n).1 : ℂ) + (pw n).2 * Complex.I) / (F : ℂ) ^ n := by
  induction n with
  | zero => simp [pw]
  | succ n ih =>
    rw [pow_succ, ih, w, div_mul_div_comm, ← pow_succ, pw]
    congr 1
    push_cast
    linear_combination ((pw n).2 : ℂ) * ((sumZ 30).2 : ℂ) * Complex.I_mul_I

theorem w_close : ‖Complex.exp Complex.I - w‖ ≤ 1 / 2 ^ 80 := by
  have h := Complex.exp_bound (x := Complex.I) (by simp) (n := 30) (by decide)
  rw [sum_eq 30 (le_refl _)] at h
  refine h.trans ?_
  rw [Complex.norm_I, one_pow, one_mul, show Nat.factorial 30 = 265252859812191058636308480000000 by decide +kernel]
  norm_num

theorem norm_z : ‖Complex.exp Complex.I‖ = 1 := by
  have := Complex.norm_exp_ofReal_mul_I 1
  simpa using this

theorem norm_w_pow (n : ℕ) (h : n ≤ 64) : ‖w ^ n‖ ≤ 2 := by
  have h1 : ‖w‖ ≤ 1 + 1 / 2 ^ 80 := by
    have := norm_sub_norm_le w (Complex.exp Complex.I)
    rw [norm_z, norm_sub_rev] at this
    linarith [w_close]
  rw [norm_pow]
  calc ‖w‖ ^ n ≤ (1 + 1 / 2 ^ 80) ^ n := pow_le_pow_left₀ (norm_nonneg _) h1 n
    _ ≤ (1 + 1 / 2 ^ 80) ^ 64 := pow_le_pow_right₀ (by norm_num) h
    _ ≤ 2 := by norm_num

theorem pow_close (n : ℕ) (h : n ≤ 64) : ‖Complex.exp Complex.I ^ n - w ^ n‖ ≤ n * (2 * (1 / 2 ^ 80)) := by
  induction n with
  | zero => simp
  | succ n ih =>
    have e : Complex.exp Complex.I ^ (n + 1) - w ^ (n + 1) =
        (Complex.exp Complex.I ^ n - w ^ n) * Complex.exp Complex.I + w ^ n * (Complex.exp Complex.I - w) := by ring
    rw [e]
    refine (norm_add_le _ _).trans ?_
    rw [norm_mul, norm_mul, norm_z, mul_one]
    have h1 := ih (by omega)
    have h2 : ‖w ^ n‖ * ‖Complex.exp Complex.I - w‖ ≤ 2 * (1 / 2 ^ 80) :=
      mul_le_mul (norm_w_pow n (by omega)) w_close (norm_nonneg _) (by norm_num)
    push_cast
    linarith

theorem sin_close (n : ℕ) (h : n ≤ 64) : |Real.sin n - (pw n).2 / (F : ℝ) ^ n| ≤ 1 / 2 ^ 64 := by
  have h1 := pow_close n h
  have hz : (Complex.exp Complex.I ^ n).im = Real.sin n := by
    rw [← Complex.exp_nat_mul]
    have : (n : ℂ) * Complex.I = ((n : ℝ) : ℂ) * Complex.I := by push_cast; rfl
    rw [this, Complex.exp_ofReal_mul_I_im]
  have hw : (w ^ n).im = (pw n).2 / (F : ℝ) ^ n := by
    rw [pw_eq]
    have : (((pw n).1 : ℂ) + (pw n).2 * Complex.I) / (F : ℂ) ^ n =
        (((pw n).1 / (F : ℝ) ^ n : ℝ) : ℂ) + (((pw n).2 / (F : ℝ) ^ n : ℝ) : ℂ) * Complex.I := by
      push_cast; ring
    rw [this, Complex.add_im, Complex.ofReal_im, Complex.im_ofReal_mul, Complex.I_im, zero_add, mul_one]
  have h2 := Complex.abs_im_le_norm (Complex.exp Complex.I ^ n - w ^ n)
  rw [Complex.sub_im, hz, hw] at h2
  refine h2.trans (h1.trans ?_)
  have : (n : ℝ) ≤ 64 := by exact_mod_cast h
  calc (n : ℝ) * (2 * (1 / 2 ^ 80)) ≤ 64 * (2 * (1 / 2 ^ 80)) := by gcongr
    _ ≤ _ := by norm_num

/-- what is checked of the table, in integers -/
theorem table_ok : ∀ i : Fin 64,
    (MD5.T.getD i.1 0).toNat * F ^ (i.1 + 1) * 2 ^ 32 + F ^ (i.1 + 1) ≤ 2 ^ 64 * (pw (i.1 + 1)).2.natAbs ∧
    2 ^ 64 * (pw (i.1 + 1)).2.natAbs + F ^ (i.1 + 1) < ((MD5.T.getD i.1 0).toNat + 1) * F ^ (i.1 + 1) * 2 ^ 32 := by decide +kernel

theorem table_sin (i : ℕ) (hi : i < 64) : (MD5.T.getD i 0).toNat = ⌊2 ^ 32 * |Real.sin (i + 1 : ℕ)|⌋₊ := by
  obtain ⟨h1, h2⟩ := table_ok ⟨i, hi⟩
  simp only at h1 h2
  have hc := sin_close (i + 1) (by omega)
  generalize hK : (MD5.T.getD i 0).toNat = K at h1 h2
  generalize hB : (pw (i + 1)).2 = B at h1 h2 hc
  have hFpos : 0 < F := by decide
  have hD : (0 : ℝ) < (F : ℝ) ^ (i + 1) := by positivity
  symm
  rw [Nat.floor_eq_iff (by positivity)]
  -- the absolute values are as close as the numbers
  have hab : |(|Real.sin (i + 1 : ℕ)| - |(B : ℝ)| / (F : ℝ) ^ (i + 1))| ≤ 1 / 2 ^ 64 := by
    have e : |(B : ℝ)| / (F : ℝ) ^ (i + 1) = |(B : ℝ) / (F : ℝ) ^ (i + 1)| := by rw [abs_div, abs_of_pos hD]
    rw [e]
    exact (abs_abs_sub_abs_le_abs_sub _ _).trans hc
  rw [abs_le] at hab
  have e1 : (K : ℝ) * (F : ℝ) ^ (i + 1) * 2 ^ 32 + (F : ℝ) ^ (i + 1) ≤ 2 ^ 64 * |(B : ℝ)| := by
    have : ((K * F ^ (i + 1) * 2 ^ 32 + F ^ (i + 1) : ℕ) : ℝ) ≤ ((2 ^ 64 * B.natAbs : ℕ) : ℝ) := by exact_mod_cast h1
    push_cast [Nat.cast_natAbs] at this
    linarith
  have e2 : 2 ^ 64 * |(B : ℝ)| + (F : ℝ) ^ (i + 1) < ((K : ℝ) + 1) * (F : ℝ) ^ (i + 1) * 2 ^ 32 := by
    have : ((2 ^ 64 * B.natAbs + F ^ (i + 1) : ℕ) : ℝ) < (((K + 1) * F ^ (i + 1) * 2 ^ 32 : ℕ) : ℝ) := by exact_mod_cast h2
    push_cast [Nat.cast_natAbs] at this
    linarith
  have f1 : (K : ℝ) * 2 ^ 32 + 1 ≤ 2 ^ 64 * (|(B : ℝ)| / (F : ℝ) ^ (i + 1)) := by
    rw [← mul_div_assoc, le_div_iff₀ hD]; linarith
  have f2 : 2 ^ 64 * (|(B : ℝ)| / (F : ℝ) ^ (i + 1)) + 1 < ((K : ℝ) + 1) * 2 ^ 32 := by
    rw [← mul_div_assoc, div_add_one hD.ne', div_lt_iff₀ hD]; linarith
  generalize |(B : ℝ)| / (F : ℝ) ^ (i + 1) = x at hab f1 f2
  generalize |Real.sin (i + 1 : ℕ)| = y at hab
  constructor
  · nlinarith [hab.1]
  · nlinarith [hab.2]

end Hash2.Sines

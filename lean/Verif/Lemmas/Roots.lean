import Verif.Spec.Roots
import Verif.Spec.Constants
import Mathlib.Data.Nat.Count
import Mathlib.Algebra.Order.Floor.Semiring
import Mathlib.Tactic.Positivity
import Mathlib.Tactic.NormNum
/-
The integer roots of Spec/Roots.lean are the real ones, and its primes are the primes (C40).
-/
namespace Hash2
open Spec

theorem rootAux_spec (k n : ℕ) : ∀ (b r : ℕ), r ^ k ≤ n → n < (r + 2 ^ b) ^ k →
    rootAux k n b r ^ k ≤ n ∧ n < (rootAux k n b r + 1) ^ k := by
  intro b
  induction b with
  | zero => intro r h1 h2; exact ⟨h1, by simpa [rootAux] using h2⟩
  | succ b ih =>
    intro r h1 h2
    rw [rootAux]
    by_cases hc : (r + 2 ^ b) ^ k ≤ n
    · rw [if_pos hc]
      refine ih _ hc ?_
      rwa [Nat.add_assoc, ← Nat.two_mul, ← Nat.pow_succ']
    · rw [if_neg hc]
      exact ih _ h1 (Nat.lt_of_not_le hc)

/-- the integer root is the integer part of a real root x -/
theorem root_floor (k n : ℕ) (hk : k ≠ 0) (hn : n < 2 ^ (128 * k)) (x : ℝ) (hx : 0 ≤ x) (h : x ^ k = n) : root k n = ⌊x⌋₊ := by
  obtain ⟨h1, h2⟩ := rootAux_spec k n 128 0 (by rw [Nat.zero_pow (Nat.pos_of_ne_zero hk)]; exact Nat.zero_le _)
    (by rwa [Nat.zero_add, ← Nat.pow_mul])
  symm
  rw [Nat.floor_eq_iff hx, root]
  have e1 : ((rootAux k n 128 0 : ℕ) : ℝ) ^ k ≤ x ^ k := by rw [h]; exact_mod_cast h1
  have e2 : x ^ k < ((rootAux k n 128 0 : ℕ) + 1 : ℝ) ^ k := by rw [h]; exact_mod_cast h2
  exact ⟨le_of_pow_le_pow_left₀ hk hx e1, lt_of_pow_lt_pow_left₀ k (by positivity) e2⟩

/-- the low w bits of the integer part of 2^w x are the first bits of the fractional part -/
theorem fracBits_eq (w : ℕ) (x : ℝ) (hx : 0 ≤ x) : fracBits w x = BitVec.ofNat w ⌊2 ^ w * x⌋₊ := by
  have e : 2 ^ w * x = Int.fract x * 2 ^ w + ((⌊x⌋₊ * 2 ^ w : ℕ) : ℝ) := by
    have := Int.floor_add_fract x
    have h2 : ((⌊x⌋₊ : ℕ) : ℝ) = (⌊x⌋ : ℝ) := natCast_floor_eq_intCast_floor hx
    push_cast
    rw [h2]
    calc 2 ^ w * x = 2 ^ w * (⌊x⌋ + Int.fract x) := by rw [this]
      _ = _ := by ring
  rw [e, Nat.floor_add_natCast (by positivity)]
  apply BitVec.eq_of_toNat_eq
  simp [fracBits]

theorem fracSqrt_eq (w p : ℕ) (hw : w ≤ 64) (hp : p < 2 ^ 10) : fracSqrt w p = fracBits w (Real.sqrt p) := by
  rw [fracBits_eq _ _ (Real.sqrt_nonneg _), fracSqrt]
  congr 1
  refine root_floor 2 _ (by decide) ?_ _ (by positivity) ?_
  · calc p * 2 ^ (2 * w) < 2 ^ 10 * 2 ^ (2 * w) := Nat.mul_lt_mul_of_pos_right hp (Nat.two_pow_pos _)
      _ ≤ 2 ^ (128 * 2) := by rw [← Nat.pow_add]; exact Nat.pow_le_pow_right (by decide) (by omega)
  · rw [mul_pow, Real.sq_sqrt (by positivity)]
    push_cast
    rw [← pow_mul, mul_comm w 2, mul_comm]

theorem cbrt_nonneg (p : ℕ) : 0 ≤ cbrt p := Real.rpow_nonneg (Nat.cast_nonneg _) _

theorem cbrt_cube (p : ℕ) : cbrt p ^ 3 = p := by
  rw [cbrt, ← Real.rpow_natCast, ← Real.rpow_mul (Nat.cast_nonneg _)]
  norm_num

theorem fracCbrt_eq (w p : ℕ) (hw : w ≤ 64) (hp : p < 2 ^ 10) : fracCbrt w p = fracBits w (cbrt p) := by
  rw [fracBits_eq _ _ (cbrt_nonneg _), fracCbrt]
  congr 1
  refine root_floor 3 _ (by decide) ?_ _ (mul_nonneg (by positivity) (cbrt_nonneg _)) ?_
  · calc p * 2 ^ (3 * w) < 2 ^ 10 * 2 ^ (3 * w) := Nat.mul_lt_mul_of_pos_right hp (Nat.two_pow_pos _)
      _ ≤ 2 ^ (128 * 3) := by rw [← Nat.pow_add]; exact Nat.pow_le_pow_right (by decide) (by omega)
  · rw [mul_pow, cbrt_cube]
    push_cast
    rw [← pow_mul, mul_comm w 3, mul_comm]

theorem intSqrt_eq (p : ℕ) (hp : p < 2 ^ 10) : BitVec.ofNat 32 (root 2 (p * 2 ^ 60)) = intBits 32 30 (Real.sqrt p) := by
  rw [intBits]
  congr 1
  refine root_floor 2 _ (by decide) ?_ _ (by positivity) ?_
  · calc p * 2 ^ 60 < 2 ^ 10 * 2 ^ 60 := Nat.mul_lt_mul_of_pos_right hp (Nat.two_pow_pos _)
      _ ≤ 2 ^ (128 * 2) := by decide
  · rw [mul_pow, Real.sq_sqrt (by positivity)]
    push_cast
    ring

theorem intCbrt_eq (p : ℕ) (hp : p < 2 ^ 10) : BitVec.ofNat 32 (root 3 (p * 2 ^ 90)) = intBits 32 30 (cbrt p) := by
  rw [intBits]
  congr 1
  refine root_floor 3 _ (by decide) ?_ _ (mul_nonneg (by positivity) (cbrt_nonneg _)) ?_
  · calc p * 2 ^ 90 < 2 ^ 10 * 2 ^ 90 := Nat.mul_lt_mul_of_pos_right hp (Nat.two_pow_pos _)
      _ ≤ 2 ^ (128 * 3) := by decide
  · rw [mul_pow, cbrt_cube]
    push_cast
    ring

/-! ### the primes -/

theorem primes_complete : ∀ n : Fin 410, (2 ≤ n.1 ∧ ∀ m < n.1, m ∣ n.1 → m = 1) ↔ n.1 ∈ primes := by decide +kernel

theorem prime_iff (n : ℕ) (h : n < 410) : Nat.Prime n ↔ n ∈ primes := by
  rw [Nat.prime_def_lt]
  exact primes_complete ⟨n, h⟩

/-- the number of primes below n -/
def below (n : ℕ) : ℕ := (primes.filter (· < n)).length

theorem below_succ : ∀ n : Fin 410, below (n.1 + 1) = below n.1 + if n.1 ∈ primes then 1 else 0 := by decide +kernel

theorem count_below (n : ℕ) (h : n ≤ 410) : Nat.count (· ∈ primes) n = below n := by
  induction n with
  | zero => decide
  | succ n ih => rw [Nat.count_succ, ih (by omega), below_succ ⟨n, by omega⟩]

theorem below_prime : ∀ t : Fin 80, below (prime t.1) = t.1 ∧ prime t.1 < 410 ∧ prime t.1 ∈ primes := by decide +kernel

open Classical in
theorem nthPrime_eq (t : ℕ) (h : t < 80) : nthPrime t = prime t := by
  obtain ⟨h1, h2, h3⟩ := below_prime ⟨t, h⟩
  simp only at h1 h2 h3
  have hc : Nat.count Nat.Prime (prime t) = t := by
    have key : ∀ n, n ≤ 410 → Nat.count Nat.Prime n = Nat.count (· ∈ primes) n := by
      intro n
      induction n with
      | zero => intro _; simp
      | succ n ih =>
        intro hn
        rw [Nat.count_succ, Nat.count_succ, ih (by omega)]
        congr 1
        exact if_congr (prime_iff n (by omega)) rfl rfl
    rw [key _ (Nat.le_of_lt h2)]
    exact ((count_below _ (Nat.le_of_lt h2)).trans h1)
  have := Nat.nth_count ((prime_iff _ h2).2 h3)
  rwa [hc] at this

theorem prime_lt (t : ℕ) (h : t < 80) : prime t < 2 ^ 10 := by
  have := (below_prime ⟨t, h⟩).2.1
  simp only at this
  omega

/-- a range of initial values -/
theorem map_fracSqrt (w k n : ℕ) (hw : w ≤ 64) (hn : k + n ≤ 80) :
    ((List.range n).map fun i => fracBits w (Real.sqrt (nthPrime (k + i)))) = (List.range n).map fun i => fracSqrt w (prime (k + i)) := by
  refine List.map_congr_left fun i hi => ?_
  rw [List.mem_range] at hi
  rw [nthPrime_eq _ (by omega), ← fracSqrt_eq w _ hw (prime_lt _ (by omega))]

end Hash2

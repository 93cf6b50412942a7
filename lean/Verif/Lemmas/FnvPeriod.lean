import Verif.Spec.Fnv
import Mathlib.Data.Int.ModEq
import Mathlib.Data.Nat.ModEq
import Mathlib.Algebra.Ring.Parity
import Mathlib.RingTheory.Coprime.Lemmas
import Mathlib.Logic.Function.Iterate
import Mathlib.Tactic.Ring
import Mathlib.Tactic.LinearCombination
/-
The period of x := (x ^ 0xFF) * p (C37), by the theorem of Hull and Dobell, applied first to the low byte and then to the rest.
-/
namespace Hash2.FnvPeriod

/-- 1 + a + ... + a^(n-1) -/
def geo (a : ℤ) : ℕ → ℤ
  | 0 => 0
  | n + 1 => a * geo a n + 1

theorem geo_two_mul (a : ℤ) (m : ℕ) : geo a (2 * m) = geo a m * (1 + a ^ m) := by
  have h : ∀ n k, geo a (n + k) = a ^ n * geo a k + geo a n := by
    intro n k
    induction n with
    | zero => simp [geo]
    | succ n ih => rw [Nat.succ_add, geo, ih, geo, pow_succ]; ring
  rw [Nat.two_mul, h]; ring

theorem geo_parity (a : ℤ) (ha : a % 4 = 1) (n : ℕ) : (geo a n - n) % 2 = 0 := by
  induction n with
  | zero => simp [geo]
  | succ n ih =>
    obtain ⟨b, rfl⟩ : ∃ b, a = 4 * b + 1 := ⟨a / 4, by omega⟩
    rw [geo]
    have : (4 * b + 1) * geo (4 * b + 1) n + 1 - ((n + 1 : ℕ) : ℤ) = 2 * (2 * b * geo (4 * b + 1) n) + (geo (4 * b + 1) n - n) := by
      push_cast; ring
    rw [this]; omega

theorem pow_mod_four (a : ℤ) (ha : a % 4 = 1) (m : ℕ) : a ^ m % 4 = 1 := by
  have : a ^ m ≡ 1 ^ m [ZMOD 4] := Int.ModEq.pow m (show a % 4 = 1 % 4 by omega)
  rw [one_pow] at this
  exact this

theorem geo_dvd (a : ℤ) (ha : a % 4 = 1) : ∀ (k n : ℕ), (2 : ℤ) ^ k ∣ geo a n → 2 ^ k ∣ n := by
  intro k
  induction k with
  | zero => intro n _; simp
  | succ k ih =>
    intro n h
    have hp := geo_parity a ha n
    have h2 : (2 : ℤ) ∣ geo a n := (dvd_pow_self 2 (Nat.succ_ne_zero k)).trans h
    obtain ⟨m, rfl⟩ : ∃ m, n = 2 * m := ⟨n / 2, by omega⟩
    rw [geo_two_mul] at h
    have hm := pow_mod_four a ha m
    obtain ⟨c, hc⟩ : ∃ c, 1 + a ^ m = 2 * (2 * c + 1) := ⟨a ^ m / 4, by omega⟩
    rw [hc, pow_succ, mul_comm ((2 : ℤ) ^ k), mul_left_comm, mul_dvd_mul_iff_left (by norm_num)] at h
    have hcop : IsCoprime ((2 : ℤ) ^ k) (2 * c + 1) := IsCoprime.pow_left ⟨-c, 1, by ring⟩
    rw [pow_succ, mul_comm]
    exact mul_dvd_mul_left 2 (ih m (hcop.dvd_of_dvd_mul_right h))

/-- Hull and Dobell: the period of s := a s + c modulo 2^k is 2^k if a = 1 modulo 4 and c is odd -/
theorem hull_dobell (a c : ℤ) (ha : a % 4 = 1) (hc : c % 2 = 1) (k : ℕ) (s : ℕ → ℤ)
    (hs : ∀ n, s (n + 1) ≡ a * s n + c [ZMOD 2 ^ k]) (n : ℕ) (h : s n ≡ s 0 [ZMOD 2 ^ k]) : 2 ^ k ∣ n := by
  have hsn : ∀ n, s n ≡ s 0 + geo a n * ((a - 1) * s 0 + c) [ZMOD 2 ^ k] := by
    intro n
    induction n with
    | zero => simp [geo]
    | succ n ih =>
      refine (hs n).trans (((ih.mul_left a).add_right c).trans ?_)
      rw [geo]
      have : a * (s 0 + geo a n * ((a - 1) * s 0 + c)) + c = s 0 + (a * geo a n + 1) * ((a - 1) * s 0 + c) := by ring
      rw [this]
  have h1 : s 0 + geo a n * ((a - 1) * s 0 + c) ≡ s 0 [ZMOD 2 ^ k] := (hsn n).symm.trans h
  have h2 : (2 : ℤ) ^ k ∣ geo a n * ((a - 1) * s 0 + c) := by
    have := h1.symm.dvd
    simpa using this
  obtain ⟨d, hd⟩ : ∃ d, (a - 1) * s 0 + c = 2 * d + 1 := by
    obtain ⟨b, rfl⟩ : ∃ b, a = 4 * b + 1 := ⟨a / 4, by omega⟩
    obtain ⟨e, rfl⟩ : ∃ e, c = 2 * e + 1 := ⟨c / 2, by omega⟩
    exact ⟨2 * b * s 0 + e, by ring⟩
  rw [hd] at h2
  have hcop : IsCoprime ((2 : ℤ) ^ k) (2 * d + 1) := IsCoprime.pow_left ⟨-d, 1, by ring⟩
  exact geo_dvd a ha k n (hcop.dvd_of_dvd_mul_right h2)

/-- the step, on unbounded numbers -/
def T (p x : ℕ) : ℕ := (x ^^^ 255) * p

theorem xor255 (q l : ℕ) (hl : l < 256) : (256 * q + l) ^^^ 255 = 256 * q + (255 - l) := by
  have h : ∀ l : Fin 256, l.1 ^^^ 255 = 255 - l.1 := by decide +kernel
  have hlo : ((256 * q + l) ^^^ 255) % 2 ^ 8 = 255 - l := by
    rw [Nat.xor_mod_two_pow, show (256 * q + l) % 2 ^ 8 = l by omega]
    exact h ⟨l, hl⟩
  have hhi : ((256 * q + l) ^^^ 255) / 2 ^ 8 = q := by
    rw [Nat.xor_div_two_pow, show (256 * q + l) / 2 ^ 8 = q by omega]
    simp
  omega

theorem T_add (p q y : ℕ) : T p (256 * q + y) = 256 * (q * p) + T p y := by
  have e : y = 256 * (y / 256) + y % 256 := by omega
  have hl : y % 256 < 256 := Nat.mod_lt _ (by decide)
  rw [T, T, e, ← Nat.add_assoc, ← Nat.mul_add, xor255 _ _ hl, xor255 _ _ hl]
  ring

theorem iter_add (p q y n : ℕ) : (T p)^[n] (256 * q + y) = 256 * (q * p ^ n) + (T p)^[n] y := by
  induction n with
  | zero => simp
  | succ n ih => rw [Function.iterate_succ_apply', ih, T_add, Function.iterate_succ_apply', pow_succ]; ring

/-- the low byte -/
theorem T_low (p x : ℕ) : (T p x : ℤ) ≡ -p * x + 255 * p [ZMOD 2 ^ 8] := by
  have hl : x % 256 < 256 := Nat.mod_lt _ (by decide)
  have e : x = 256 * (x / 256) + x % 256 := by omega
  have : T p x = (256 * (x / 256) + (255 - x % 256)) * p := by
    rw [T]; conv_lhs => rw [e]
    rw [xor255 _ _ hl]
  rw [this]
  refine (Int.modEq_iff_dvd.2 ⟨-2 * (x / 256 : ℕ) * p, ?_⟩)
  have e' : (x : ℤ) = 256 * ((x / 256 : ℕ) : ℤ) + ((x % 256 : ℕ) : ℤ) := by exact_mod_cast e
  push_cast [Nat.cast_sub (show x % 256 ≤ 255 by omega)]
  push_cast at e'
  linear_combination -(p : ℤ) * e'

/-- congruent arguments have congruent images -/
theorem iter_mod (p : ℕ) {w : ℕ} (hw : 8 ≤ w) (n : ℕ) {x y : ℕ} (h : x ≡ y [MOD 2 ^ w]) : (T p)^[n] x ≡ (T p)^[n] y [MOD 2 ^ w] := by
  have key : ∀ x, (T p)^[n] x ≡ (T p)^[n] (x % 2 ^ w) [MOD 2 ^ w] := by
    intro x
    obtain ⟨v, rfl⟩ : ∃ v, w = 8 + v := ⟨w - 8, by omega⟩
    have e : x = 256 * (2 ^ v * (x / 2 ^ (8 + v))) + x % 2 ^ (8 + v) := by
      rw [← Nat.mul_assoc, show 256 * 2 ^ v = 2 ^ (8 + v) by rw [Nat.pow_add], Nat.div_add_mod]
    conv_lhs => rw [e, iter_add]
    rw [show 256 * (2 ^ v * (x / 2 ^ (8 + v)) * p ^ n) = 2 ^ (8 + v) * (x / 2 ^ (8 + v) * p ^ n) by rw [Nat.pow_add]; ring]
    simp [Nat.ModEq]
  have hx := key x
  have hy := key y
  rw [show x % 2 ^ w = y % 2 ^ w from h] at hx
  exact hx.trans hy.symm

/-- what must be checked of a prime: it is 3 modulo 4, and 256 steps lead from every low byte to itself, carrying one -/
def Good (p : ℕ) : Prop := p % 4 = 3 ∧ ∀ l < 256, (T p)^[256] l % 512 = l + 256

theorem good_of (p : ℕ) (hp : p % 4 = 3)
    (h : ∀ l : Fin 256, (fun x => ((x ^^^ 255) * (p % 512)) % 512)^[256] l.1 = l.1 + 256) : Good p := by
  refine ⟨hp, fun l hl => ?_⟩
  rw [← h ⟨l, hl⟩]
  have : ∀ n, (T p)^[n] l % 512 = (fun x => ((x ^^^ 255) * (p % 512)) % 512)^[n] l % 512 := by
    intro n
    induction n with
    | zero => rfl
    | succ n ih =>
      rw [Function.iterate_succ_apply', Function.iterate_succ_apply']
      have e : (T p)^[1] ((T p)^[n] l) ≡ (T p)^[1] ((fun x => ((x ^^^ 255) * (p % 512)) % 512)^[n] l) [MOD 2 ^ 9] := iter_mod p (by decide) 1 ih
      refine Eq.trans e ?_
      generalize (fun x => ((x ^^^ 255) * (p % 512)) % 512)^[n] l = z
      show (z ^^^ 255) * p % 512 = (z ^^^ 255) * (p % 512) % 512 % 512
      rw [Nat.mod_mod, Nat.mul_mod_mod]
  rw [this, Nat.mod_eq_of_lt]
  exact (h ⟨l, hl⟩ ▸ (by omega : l + 256 < 512))

theorem period {p w : ℕ} (hg : Good p) (hw : 8 ≤ w) (x n : ℕ) (h : (T p)^[n] x ≡ x [MOD 2 ^ w]) : 2 ^ w ∣ n := by
  obtain ⟨hp, hl⟩ := hg
  -- the low byte
  have h8 : 2 ^ 8 ∣ n := by
    refine hull_dobell (-p) (255 * p) (by omega) (by omega) 8 (fun n => ((T p)^[n] x : ℕ)) (fun n => ?_) n ?_
    · rw [Function.iterate_succ_apply']; exact T_low p _
    · have : (T p)^[n] x ≡ x [MOD 2 ^ 8] := h.of_dvd (Nat.pow_dvd_pow 2 hw)
      exact_mod_cast (Int.natCast_modEq_iff.2 this)
  obtain ⟨m, rfl⟩ := h8
  obtain ⟨v, rfl⟩ : ∃ v, w = 8 + v := ⟨w - 8, by omega⟩
  rw [Nat.pow_add]
  refine Nat.mul_dvd_mul_left _ ?_
  -- the rest
  obtain ⟨q, l, hll, rfl⟩ : ∃ q l, l < 256 ∧ x = 256 * q + l := ⟨x / 256, x % 256, by omega, by omega⟩
  have hlv := hl l hll
  obtain ⟨C, hC⟩ : ∃ C, (T p)^[256] l = 256 * (2 * C + 1) + l := ⟨(T p)^[256] l / 512, by omega⟩
  have hq : ∀ m, (T p)^[2 ^ 8 * m] (256 * q + l) = 256 * ((fun q => q * p ^ 256 + (2 * C + 1))^[m] q) + l := by
    intro m
    induction m with
    | zero => rfl
    | succ m ih =>
      rw [Nat.mul_succ, Nat.add_comm, Function.iterate_add_apply, ih, show 2 ^ 8 = 256 by decide, iter_add, hC, Function.iterate_succ_apply']
      ring
  rw [hq] at h
  have h' : (fun q => q * p ^ 256 + (2 * C + 1))^[m] q ≡ q [MOD 2 ^ v] := by
    have := Nat.ModEq.add_right_cancel' l h
    rw [Nat.pow_add] at this
    exact Nat.ModEq.mul_left_cancel' (by decide) this
  have hp256 : ((p : ℤ) ^ 256) % 4 = 1 := by
    have : (p : ℤ) ^ 256 ≡ (-1) ^ 256 [ZMOD 4] := Int.ModEq.pow 256 (show (p : ℤ) % 4 = -1 % 4 by omega)
    rw [show ((-1 : ℤ)) ^ 256 = 1 by norm_num] at this
    exact this
  refine hull_dobell ((p : ℤ) ^ 256) (2 * C + 1) hp256 (by omega) v (fun m => (((fun q => q * p ^ 256 + (2 * C + 1))^[m] q : ℕ) : ℤ)) (fun m => ?_) m ?_
  · rw [Function.iterate_succ_apply']
    have : (((fun q => q * p ^ 256 + (2 * C + 1))^[m] q * p ^ 256 + (2 * C + 1) : ℕ) : ℤ) =
      (p : ℤ) ^ 256 * ((fun q => q * p ^ 256 + (2 * C + 1))^[m] q : ℕ) + (2 * C + 1) := by push_cast; ring
    simp only [this]; rfl
  · exact_mod_cast (Int.natCast_modEq_iff.2 h')

theorem good32 : Good 0x01000193 := good_of _ (by decide) (by decide +kernel)
theorem good64 : Good 0x00000100000001B3 := good_of _ (by decide) (by decide +kernel)

end Hash2.FnvPeriod

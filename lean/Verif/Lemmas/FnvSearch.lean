import Mathlib.Tactic.Ring
import Mathlib.Tactic.Linarith
import Mathlib.Tactic.LinearCombination
/-
For C77: small numbers x_k with x_0 + x_1 p + x_2 p^2 + ... = 0 modulo 2^w, for the primes of FNV-1a, p = 2^e + c: none with x_0 not 0, by a search that
the kernel evaluates. The search is over the numbers y_k = x_k + (their bound), which are not negative; it finds the y_k as digits of T = y_0 + y_1 c + y_2 c^2 + ...,
which is known modulo 2^e.
-/
namespace Hash2.FnvWindow

/-- f x, with x evaluated first -/
def force (x : Nat) (f : Nat → Bool) : Bool := Nat.rec (f 0) (fun n _ => f (n + 1)) x

theorem force_eq (x : Nat) (f : Nat → Bool) : force x f = f x := by cases x <;> rfl

/-- the last digit is T -/
def last (pw W C T S : Nat) : Bool := cond (Nat.ble T 510) (cond (Nat.beq ((S + T * pw) % W) C) false true) true

/-- a digit r, r + c or r + 2c, at most 1020, then the next digits -/
def lev (c pw : Nat) (next : Nat → Nat → Bool) (T S : Nat) : Bool :=
  force (T % c) fun r => force (T / c) fun t => force (S + r * pw) fun s =>
    cond (next t s) (cond (Nat.ble 1 t) (cond (next (t - 1) (s + c * pw)) (cond (Nat.ble (r + 2 * c) 1020) (cond (Nat.ble 2 t) (next (t - 2) (s + 2 * c * pw)) true) true) false) true) false

/-- the first digit r or r + c, at most 510 and not y, then the next digits -/
def first (c y : Nat) (next : Nat → Nat → Bool) (T : Nat) : Bool :=
  force (T % c) fun r => force (T / c) fun t =>
    cond (cond (Nat.beq r y) true (next t r)) (cond (Nat.ble (r + c) 510) (cond (Nat.ble 1 t) (next (t - 1) (r + c)) true) true) false

/-- for R, R + E, ..., R + E (n - 1) -/
def all (f : Nat → Bool) (R E : Nat) : Nat → Bool
  | 0 => true
  | n + 1 => cond (force (R + E * n) f) (all f R E n) false

theorem all_spec {f : Nat → Bool} {R E : Nat} : ∀ {n : Nat}, all f R E n = true → ∀ k, k < n → f (R + E * k) = true
  | 0, _, k, h => absurd h (Nat.not_lt_zero k)
  | n + 1, h, k, hk => by
    rw [all, force_eq, Bool.cond_false_right, Bool.and_eq_true] at h
    by_cases e : k = n
    · rw [e]; exact h.1
    · exact all_spec h.2 k (by omega)

theorem last_spec {pw W C T S : Nat} (h : last pw W C T S = true) (hT : T ≤ 510) : (S + T * pw) % W ≠ C := by
  intro e
  rw [last, show Nat.ble T 510 = true from Nat.ble_eq_true_of_le hT, show Nat.beq ((S + T * pw) % W) C = true by rw [e]; exact Nat.beq_refl C] at h
  exact absurd h (by decide)

theorem lev_spec {c pw : Nat} {next : Nat → Nat → Bool} {T S : Nat} (hc : 1020 < 3 * c) (h : lev c pw next T S = true) (y t : Nat) (hy : y ≤ 1020)
    (e : T = y + c * t) : next t (S + y * pw) = true := by
  rw [lev, force_eq, force_eq, force_eq, Bool.cond_false_right, Bool.and_eq_true, Bool.cond_true_right] at h
  obtain ⟨h1, h2⟩ := h
  have hc0 : 0 < c := by omega
  have hr : T % c = y % c := by rw [e, Nat.add_mul_mod_self_left]
  have hq : T / c = y / c + t := by rw [e, Nat.add_mul_div_left _ _ hc0]
  have hy3 : y / c < 3 := (Nat.div_lt_iff_lt_mul hc0).2 (by omega)
  have hyd := Nat.div_add_mod y c
  have hd : y / c = 0 ∨ y / c = 1 ∨ y / c = 2 := by clear hyd hq; generalize y / c = d at *; omega
  rcases hd with hd | hd | hd
  · rw [hq, hr, hd, Nat.zero_add] at h1
    rw [hd, Nat.mul_zero, Nat.zero_add] at hyd
    rwa [hyd] at h1
  · rw [hq, hr, hd, show Nat.ble 1 (1 + t) = true from Nat.ble_eq_true_of_le (by omega)] at h2
    simp only [Bool.not_true, Bool.false_or, Bool.cond_false_right, Bool.and_eq_true] at h2
    have := h2.1
    rw [show 1 + t - 1 = t by omega, Nat.add_assoc, ← Nat.add_mul, show y % c + c = y by rw [hd] at hyd; omega] at this
    exact this
  · rw [hq, hr, hd, show Nat.ble 1 (2 + t) = true from Nat.ble_eq_true_of_le (by omega)] at h2
    rw [hd] at hyd
    simp only [Bool.not_true, Bool.false_or, Bool.cond_false_right, Bool.and_eq_true] at h2
    have := h2.2
    rw [show Nat.ble (y % c + 2 * c) 1020 = true from Nat.ble_eq_true_of_le (by omega), show Nat.ble 2 (2 + t) = true from Nat.ble_eq_true_of_le (by omega)] at this
    simp only [cond_true] at this
    rw [show 2 + t - 2 = t by omega, Nat.add_assoc, ← Nat.add_mul, show y % c + 2 * c = y by omega] at this
    exact this

theorem first_spec {c y0 : Nat} {next : Nat → Nat → Bool} {T : Nat} (hc : 510 < 2 * c) (h : first c y0 next T = true) (y t : Nat) (hy : y ≤ 510) (hne : y ≠ y0)
    (e : T = y + c * t) : next t y = true := by
  rw [first, force_eq, force_eq, Bool.cond_false_right, Bool.and_eq_true, Bool.cond_true_right] at h
  obtain ⟨h1, h2⟩ := h
  have hc0 : 0 < c := by omega
  have hr : T % c = y % c := by rw [e, Nat.add_mul_mod_self_left]
  have hq : T / c = y / c + t := by rw [e, Nat.add_mul_div_left _ _ hc0]
  have hy3 : y / c < 2 := (Nat.div_lt_iff_lt_mul hc0).2 (by omega)
  have hyd := Nat.div_add_mod y c
  have hd : y / c = 0 ∨ y / c = 1 := by clear hyd hq; generalize y / c = d at *; omega
  rcases hd with hd | hd
  · rw [hd, Nat.mul_zero, Nat.zero_add] at hyd
    rw [hq, hr, hd, Nat.zero_add, hyd] at h1
    have : Nat.beq y y0 = false := by
      cases hb : Nat.beq y y0
      · rfl
      · exact absurd (Nat.eq_of_beq_eq_true hb) hne
    rw [this] at h1
    exact h1
  · rw [hd] at hyd
    rw [hq, hr, hd, show Nat.ble (y % c + c) 510 = true from Nat.ble_eq_true_of_le (by omega), show Nat.ble 1 (1 + t) = true from Nat.ble_eq_true_of_le (by omega)] at h2
    simp only [Bool.not_true, Bool.false_or, cond_true] at h2
    rw [show 1 + t - 1 = t by omega, show y % c + c = y by omega] at h2
    exact h2

theorem chain6 {c y0 p1 p2 p3 p4 p5 W C : Nat} (hc : 340 < c) {T : Nat}
    (h : first c y0 (lev c p1 (lev c p2 (lev c p3 (lev c p4 (last p5 W C))))) T = true) (a0 a1 a2 a3 a4 a5 : Nat) (h0 : a0 ≤ 510) (h1 : a1 ≤ 1020) (h2 : a2 ≤ 1020)
    (h3 : a3 ≤ 1020) (h4 : a4 ≤ 1020) (h5 : a5 ≤ 510) (hne : a0 ≠ y0) (e : T = a0 + c * (a1 + c * (a2 + c * (a3 + c * (a4 + c * a5))))) :
    (a0 + a1 * p1 + a2 * p2 + a3 * p3 + a4 * p4 + a5 * p5) % W ≠ C :=
  last_spec (lev_spec (by omega) (lev_spec (by omega) (lev_spec (by omega) (lev_spec (by omega) (first_spec (by omega) h a0 _ h0 hne e) a1 _ h1 rfl) a2 _ h2 rfl)
    a3 _ h3 rfl) a4 _ h4 rfl) h5

theorem chain3 {c y0 p1 p2 W C : Nat} (hc : 340 < c) {T : Nat}
    (h : first c y0 (lev c p1 (last p2 W C)) T = true) (a0 a1 a2 : Nat) (h0 : a0 ≤ 510) (h1 : a1 ≤ 1020) (h2 : a2 ≤ 510) (hne : a0 ≠ y0)
    (e : T = a0 + c * (a1 + c * a2)) : (a0 + a1 * p1 + a2 * p2) % W ≠ C :=
  last_spec (lev_spec (by omega) (first_spec (by omega) h a0 _ h0 hne e) a1 _ h1 rfl) h2

/-- for p = 2^40 + 435: the powers of p, and what the bounds of the x_k add, modulo 2^64 -/
def check64 (T : Nat) : Bool :=
  first 435 255 (lev 435 1099511628211 (lev 435 956575116354345 (lev 435 624165263380053675 (lev 435 11527715348014283921 (last 913917546033277539 18446744073709551616 11529562458945087852))))) T

/-- for p = 2^24 + 403 -/
def check32 (T : Nat) : Bool := first 403 255 (lev 403 16777619 (last 637696617 4294967296 3665498736)) T

theorem block0 : all check64 1066713868652 1099511627776 1815 = true := by decide +kernel
theorem block1 : all check64 1996680318282092 1099511627776 1815 = true := by decide +kernel
theorem block2 : all check64 3992293922695532 1099511627776 1815 = true := by decide +kernel
theorem block3 : all check64 5987907527108972 1099511627776 1813 = true := by decide +kernel

theorem search64 (k : Nat) (hk : k < 7258) : check64 (1066713868652 + 1099511627776 * k) = true := by
  by_cases h0 : k < 1815
  · exact all_spec block0 k h0
  by_cases h1 : k < 3630
  · have := all_spec block1 (k - 1815) (by omega)
    rwa [show 1996680318282092 + 1099511627776 * (k - 1815) = 1066713868652 + 1099511627776 * k by omega] at this
  by_cases h2 : k < 5445
  · have := all_spec block2 (k - 3630) (by omega)
    rwa [show 3992293922695532 + 1099511627776 * (k - 3630) = 1066713868652 + 1099511627776 * k by omega] at this
  · have := all_spec block3 (k - 5445) (by omega)
    rwa [show 5987907527108972 + 1099511627776 * (k - 5445) = 1066713868652 + 1099511627776 * k by omega] at this

theorem search32 (k : Nat) (hk : k < 5) : check32 (8065648 + 16777216 * k) = true :=
  all_spec (n := 5) (by decide +kernel) k hk

theorem up (x : Int) (b : Nat) (h : -(b : Int) ≤ x) : ∃ y : Nat, (y : Int) = x + b := ⟨(x + b).toNat, by omega⟩

theorem shifted {s : Nat} {k : Int} (h : (s : Int) = 2 ^ 64 * k + 6430996500109869050220) : s % 18446744073709551616 = 11529562458945087852 := by omega

theorem low_bits {T m : Nat} (h : (T + 1099511627776 * m) % 18446744073709551616 = 11529562458945087852) : T % 1099511627776 = 1066713868652 := by omega

theorem low_bits32 {T m : Nat} (h : (T + 16777216 * m) % 4294967296 = 3665498736) : T % 16777216 = 8065648 := by omega

/-- no relation between six powers of the 64 bit prime, with small coefficients, begins with a number other than 0 -/
theorem small64 (x0 x1 x2 x3 x4 x5 : Int) (h0 : -255 ≤ x0 ∧ x0 ≤ 255) (h1 : -510 ≤ x1 ∧ x1 ≤ 510) (h2 : -510 ≤ x2 ∧ x2 ≤ 510) (h3 : -510 ≤ x3 ∧ x3 ≤ 510)
    (h4 : -510 ≤ x4 ∧ x4 ≤ 510) (h5 : -255 ≤ x5 ∧ x5 ≤ 255)
    (h : (2 ^ 64 : Int) ∣ x0 + 1099511628211 * x1 + 956575116354345 * x2 + 624165263380053675 * x3 + 11527715348014283921 * x4 + 913917546033277539 * x5) : x0 = 0 := by
  obtain ⟨y0, e0⟩ := up x0 255 h0.1
  obtain ⟨y1, e1⟩ := up x1 510 h1.1
  obtain ⟨y2, e2⟩ := up x2 510 h2.1
  obtain ⟨y3, e3⟩ := up x3 510 h3.1
  obtain ⟨y4, e4⟩ := up x4 510 h4.1
  obtain ⟨y5, e5⟩ := up x5 255 h5.1
  by_contra hne
  have hS : (y0 + y1 * 1099511628211 + y2 * 956575116354345 + y3 * 624165263380053675 + y4 * 11527715348014283921 + y5 * 913917546033277539) % 18446744073709551616 = 11529562458945087852 := by
    obtain ⟨k, hk⟩ := h
    refine shifted (k := k) ?_
    push_cast
    rw [e0, e1, e2, e3, e4, e5]
    linear_combination hk
  obtain ⟨T, hT⟩ : ∃ T, T = y0 + 435 * (y1 + 435 * (y2 + 435 * (y3 + 435 * (y4 + 435 * y5)))) := ⟨_, rfl⟩
  have b0 : y0 ≤ 510 := by clear hS h; omega
  have b1 : y1 ≤ 1020 := by clear hS h; omega
  have b2 : y2 ≤ 1020 := by clear hS h; omega
  have b3 : y3 ≤ 1020 := by clear hS h; omega
  have b4 : y4 ≤ 1020 := by clear hS h; omega
  have b5 : y5 ≤ 510 := by clear hS h; omega
  have bn : y0 ≠ 255 := by clear hS h; omega
  clear e0 e1 e2 e3 e4 e5 h h0 h1 h2 h3 h4 h5 hne
  have hk : T / 1099511627776 < 7258 := by clear hS; omega
  have hR : T % 1099511627776 = 1066713868652 := by
    rw [show y0 + y1 * 1099511628211 + y2 * 956575116354345 + y3 * 624165263380053675 + y4 * 11527715348014283921 + y5 * 913917546033277539 =
      T + 1099511627776 * (y1 + 870 * y2 + 567675 * y3 + 10484396 * y4 + 831189 * y5) by rw [hT]; ring] at hS
    exact low_bits hS
  have hc : check64 T = true := by
    have := search64 (T / 1099511627776) hk
    have e : 1066713868652 + 1099511627776 * (T / 1099511627776) = T := by rw [← hR]; exact Nat.mod_add_div T 1099511627776
    rw [e] at this
    exact this
  exact chain6 (by decide) hc y0 y1 y2 y3 y4 y5 b0 b1 b2 b3 b4 b5 bn hT hS

/-- the same for three powers of the 32 bit prime -/
theorem small32 (x0 x1 x2 : Int) (h0 : -255 ≤ x0 ∧ x0 ≤ 255) (h1 : -510 ≤ x1 ∧ x1 ≤ 510) (h2 : -255 ≤ x2 ∧ x2 ≤ 255)
    (h : (2 ^ 32 : Int) ∣ x0 + 16777619 * x1 + 637696617 * x2) : x0 = 0 := by
  obtain ⟨y0, e0⟩ := up x0 255 h0.1
  obtain ⟨y1, e1⟩ := up x1 510 h1.1
  obtain ⟨y2, e2⟩ := up x2 255 h2.1
  by_contra hne
  have hS : (y0 + y1 * 16777619 + y2 * 637696617) % 4294967296 = 3665498736 := by omega
  obtain ⟨T, hT⟩ : ∃ T, T = y0 + 403 * (y1 + 403 * y2) := ⟨_, rfl⟩
  have b0 : y0 ≤ 510 := by clear hS h; omega
  have b1 : y1 ≤ 1020 := by clear hS h; omega
  have b2 : y2 ≤ 510 := by clear hS h; omega
  have bn : y0 ≠ 255 := by clear hS h; omega
  clear e0 e1 e2 h h0 h1 h2 hne
  have hk : T / 16777216 < 5 := by clear hS; omega
  have hR : T % 16777216 = 8065648 := by
    rw [show y0 + y1 * 16777619 + y2 * 637696617 = T + 16777216 * (y1 + 38 * y2) by rw [hT]; ring] at hS
    exact low_bits32 hS
  have hc : check32 T = true := by
    have := search32 (T / 16777216) hk
    have e : 8065648 + 16777216 * (T / 16777216) = T := by rw [← hR]; exact Nat.mod_add_div T 16777216
    rw [e] at this
    exact this
  exact chain3 (by decide) hc y0 y1 y2 b0 b1 b2 bn hT hS

end Hash2.FnvWindow

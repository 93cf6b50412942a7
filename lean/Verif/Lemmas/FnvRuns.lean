import Verif.Lemmas.FnvResults
import Verif.Spec.FnvRuns
import Mathlib.Dynamics.PeriodicPts.Defs
import Mathlib.Data.Nat.Prime.Basic
import Mathlib.Data.Fintype.EquivFin
import Mathlib.Tactic.Linarith
import Mathlib.Tactic.Positivity
/-
The period of x := (x ^ b) * p for any byte b.
-/
namespace Hash2.FnvRuns
open FnvPeriod

/-- functions whose low k bits depend on the low k bits of the argument, one-to-one, for every k: 2^k steps lead back modulo 2^k -/
theorem back {f : ℕ → ℕ} (hc : ∀ k x y, x ≡ y [MOD 2 ^ k] ↔ f x ≡ f y [MOD 2 ^ k]) :
    ∀ k x, f^[2 ^ k] x ≡ x [MOD 2 ^ k] := by
  have hn : ∀ n k x y, x ≡ y [MOD 2 ^ k] ↔ f^[n] x ≡ f^[n] y [MOD 2 ^ k] := by
    intro n k
    induction n with
    | zero => intro x y; exact Iff.rfl
    | succ n ih => intro x y; rw [Function.iterate_succ_apply, Function.iterate_succ_apply, ← ih]; exact hc k x y
  have two : ∀ k x y, x ≡ y [MOD 2 ^ k] → x ≡ y [MOD 2 ^ (k + 1)] ∨ x + 2 ^ k ≡ y [MOD 2 ^ (k + 1)] := by
    intro k x y h
    rcases Nat.le_total x y with hle | hle
    · obtain ⟨c, hc⟩ := (Nat.modEq_iff_dvd' hle).1 h
      have e : y = x + 2 ^ k * c := by omega
      rcases Nat.even_or_odd' c with ⟨d, rfl | rfl⟩
      · left; rw [e, Nat.ModEq, pow_succ, ← mul_assoc, Nat.add_mul_mod_self_left]
      · right
        rw [e, Nat.ModEq, show x + 2 ^ k * (2 * d + 1) = x + 2 ^ k + 2 ^ (k + 1) * d by rw [pow_succ]; ring, Nat.add_mul_mod_self_left]
    · obtain ⟨c, hc⟩ := (Nat.modEq_iff_dvd' hle).1 h.symm
      have e : x = y + 2 ^ k * c := by omega
      rcases Nat.even_or_odd' c with ⟨d, rfl | rfl⟩
      · left; rw [e, Nat.ModEq, pow_succ, ← mul_assoc, Nat.add_mul_mod_self_left]
      · right
        rw [e, Nat.ModEq, show y + 2 ^ k * (2 * d + 1) + 2 ^ k = y + 2 ^ (k + 1) * (d + 1) by rw [pow_succ]; ring, Nat.add_mul_mod_self_left]
  intro k
  induction k with
  | zero => intro x; exact Nat.modEq_one
  | succ k ih =>
    intro x
    have e2 : (2 : ℕ) ^ (k + 1) = 2 ^ k + 2 ^ k := by rw [pow_succ, Nat.mul_two]
    suffices f^[2 ^ k] (f^[2 ^ k] x) ≡ x [MOD 2 ^ (k + 1)] by
      rw [← Function.iterate_add_apply, ← e2] at this
      exact this
    have h1 := ih x
    have h2 := ih (f^[2 ^ k] x)
    rcases two k _ _ h1.symm with h | h
    · exact ((hn (2 ^ k) (k + 1) _ _).1 h).symm.trans h.symm
    · rcases two k _ _ h2.symm with h' | h'
      · have h3 := (hn (2 ^ k) (k + 1) x (f^[2 ^ k] x)).2 h'
        exact h'.symm.trans h3.symm
      · have : x + 2 ^ k + 2 ^ k ≡ f^[2 ^ k] (f^[2 ^ k] x) [MOD 2 ^ (k + 1)] := (h.add_right _).trans h'
        rw [Nat.add_assoc, ← Nat.mul_two, ← pow_succ] at this
        exact this.symm.trans (show (x + 2 ^ (k + 1)) % 2 ^ (k + 1) = x % 2 ^ (k + 1) by simp)

/-- the step, on unbounded numbers -/
def T (p b x : ℕ) : ℕ := (x ^^^ b) * p

theorem T_cong {p : ℕ} (hp : p % 2 = 1) (b k x y : ℕ) : x ≡ y [MOD 2 ^ k] ↔ T p b x ≡ T p b y [MOD 2 ^ k] := by
  have hcop : Nat.gcd (2 ^ k) p = 1 := Nat.Coprime.pow_left k ((Nat.coprime_two_left).2 (Nat.odd_iff.2 hp))
  have hx : x ≡ y [MOD 2 ^ k] ↔ x ^^^ b ≡ y ^^^ b [MOD 2 ^ k] := by
    unfold Nat.ModEq
    rw [Nat.xor_mod_two_pow, Nat.xor_mod_two_pow]
    exact ⟨fun h => by rw [h], fun h => by
      have := congrArg (· ^^^ b % 2 ^ k) h
      simpa only [Nat.xor_assoc, Nat.xor_self, Nat.xor_zero] using this⟩
  rw [hx]
  unfold T
  exact ⟨fun h => h.mul_right p, fun h => Nat.ModEq.cancel_right_of_coprime hcop h⟩

theorem xor_low (q l b : ℕ) (hl : l < 256) (hb : b < 256) : (256 * q + l) ^^^ b = 256 * q + (l ^^^ b) := by
  have hlb : l ^^^ b < 2 ^ 8 := Nat.xor_lt_two_pow hl hb
  have hlo : ((256 * q + l) ^^^ b) % 2 ^ 8 = l ^^^ b := by
    rw [Nat.xor_mod_two_pow, show (256 * q + l) % 2 ^ 8 = l by omega, Nat.mod_eq_of_lt hb]
  have hhi : ((256 * q + l) ^^^ b) / 2 ^ 8 = q := by
    rw [Nat.xor_div_two_pow, show (256 * q + l) / 2 ^ 8 = q by omega, show b / 2 ^ 8 = 0 by omega, Nat.xor_zero]
  omega

theorem T_add {p b : ℕ} (hb : b < 256) (q y : ℕ) : T p b (256 * q + y) = 256 * (q * p) + T p b y := by
  have e : y = 256 * (y / 256) + y % 256 := by omega
  have hl : y % 256 < 256 := Nat.mod_lt _ (by decide)
  rw [T, T, e, ← Nat.add_assoc, ← Nat.mul_add, xor_low _ _ _ hl hb, xor_low _ _ _ hl hb]
  ring

theorem iter_add {p b : ℕ} (hb : b < 256) (q y n : ℕ) : (T p b)^[n] (256 * q + y) = 256 * (q * p ^ n) + (T p b)^[n] y := by
  induction n with
  | zero => simp
  | succ n ih => rw [Function.iterate_succ_apply', ih, T_add hb, Function.iterate_succ_apply', pow_succ]; ring

theorem geo_dvd_iff (a : ℤ) (ha : a % 4 = 1) : ∀ (k n : ℕ), (2 : ℤ) ^ k ∣ geo a n ↔ 2 ^ k ∣ n := by
  intro k n
  refine ⟨geo_dvd a ha k n, ?_⟩
  rintro ⟨c, rfl⟩
  induction k generalizing c with
  | zero => simp
  | succ k ih =>
    rw [show 2 ^ (k + 1) * c = 2 * (2 ^ k * c) by rw [pow_succ]; ring, geo_two_mul]
    have hm := pow_mod_four a ha (2 ^ k * c)
    obtain ⟨d, hd⟩ : ∃ d, 1 + a ^ (2 ^ k * c) = 2 * d := ⟨(1 + a ^ (2 ^ k * c)) / 2, by omega⟩
    rw [hd, pow_succ]
    exact mul_dvd_mul (ih c) ⟨d, rfl⟩

/-- 256 m steps lead back if and only if m is a multiple of a power of two, which 256 steps tell -/
theorem lead_back {p b : ℕ} (hp : p % 2 = 1) (hb : b < 256) {v t : ℕ} (ht : t ≤ v) {x : ℕ} {d : ℤ} (hd : d % 2 = 1)
    (h : ((T p b)^[256] x : ℤ) - x ≡ 2 ^ (8 + t) * d [ZMOD 2 ^ (8 + v)]) (m : ℕ) :
    (T p b)^[256 * m] x ≡ x [MOD 2 ^ (8 + v)] ↔ 2 ^ (v - t) ∣ m := by
  obtain ⟨q, l, hl, rfl⟩ : ∃ q l, l < 256 ∧ x = 256 * q + l := ⟨x / 256, x % 256, by omega, by omega⟩
  have hback : (T p b)^[256] l ≡ l [MOD 2 ^ 8] := back (T_cong hp b) 8 l
  obtain ⟨C, hC⟩ : ∃ C, (T p b)^[256] l = 256 * C + l := ⟨(T p b)^[256] l / 256, by
    have : (T p b)^[256] l % 256 = l % 256 := hback
    omega⟩
  have hA : ((p : ℤ) ^ 256) % 4 = 1 := by
    have h2 : (p : ℤ) ^ 2 ≡ 1 [ZMOD 4] := by
      obtain ⟨e, rfl⟩ : ∃ e, p = 2 * e + 1 := ⟨p / 2, by omega⟩
      refine Int.modEq_iff_dvd.2 ⟨-(e ^ 2 + e : ℤ), ?_⟩
      push_cast; ring
    have := h2.pow 128
    rw [← pow_mul, one_pow] at this
    exact this
  have hq : ∀ m, ((T p b)^[256 * m] (256 * q + l) : ℤ) = 256 * (q + geo ((p : ℤ) ^ 256) m * (((p : ℤ) ^ 256 - 1) * q + C)) + l := by
    intro m
    induction m with
    | zero => simp [geo]
    | succ m ih =>
      obtain ⟨z, hz⟩ : ∃ z : ℕ, (T p b)^[256 * m] (256 * q + l) = 256 * z + l := by
        have h1 : ∀ m, (T p b)^[256 * m] (256 * q + l) ≡ l [MOD 2 ^ 8] := by
          intro m
          induction m with
          | zero => simp [Nat.ModEq]
          | succ m ih =>
            rw [Nat.mul_succ, Nat.add_comm, Function.iterate_add_apply]
            exact (back (T_cong hp b) 8 _).trans ih
        have : (T p b)^[256 * m] (256 * q + l) % 256 = l % 256 := h1 m
        exact ⟨(T p b)^[256 * m] (256 * q + l) / 256, by omega⟩
      rw [hz] at ih
      have ez : (z : ℤ) = q + geo ((p : ℤ) ^ 256) m * (((p : ℤ) ^ 256 - 1) * q + C) := by push_cast at ih; linarith
      rw [Nat.mul_succ, Nat.add_comm, Function.iterate_add_apply, hz, iter_add hb, hC]
      push_cast
      rw [ez, geo]
      ring
  have h1 := hq 1
  rw [Nat.mul_one] at h1
  rw [h1] at h
  have hD : (2 : ℤ) ^ v ∣ 2 ^ t * d - (((p : ℤ) ^ 256 - 1) * q + C) := by
    obtain ⟨c, hc⟩ := Int.modEq_iff_dvd.1 h
    refine ⟨c, ?_⟩
    rw [pow_add, pow_add] at hc
    push_cast [geo] at hc
    linarith
  rw [Nat.modEq_iff_dvd]
  push_cast
  rw [hq]
  have e : (256 * (q : ℤ) + l - (256 * (q + geo ((p : ℤ) ^ 256) m * (((p : ℤ) ^ 256 - 1) * q + C)) + l)) =
      2 ^ 8 * (-(geo ((p : ℤ) ^ 256) m * (((p : ℤ) ^ 256 - 1) * q + C))) := by ring
  rw [e, pow_add, mul_dvd_mul_iff_left (by norm_num), dvd_neg]
  have e2 : (2 : ℤ) ^ v ∣ geo ((p : ℤ) ^ 256) m * (((p : ℤ) ^ 256 - 1) * q + C) ↔ (2 : ℤ) ^ v ∣ geo ((p : ℤ) ^ 256) m * (2 ^ t * d) := by
    have : geo ((p : ℤ) ^ 256) m * (2 ^ t * d) = geo ((p : ℤ) ^ 256) m * (((p : ℤ) ^ 256 - 1) * q + C) +
        geo ((p : ℤ) ^ 256) m * (2 ^ t * d - (((p : ℤ) ^ 256 - 1) * q + C)) := by ring
    rw [this]
    exact (dvd_add_left (hD.mul_left _)).symm
  rw [e2, ← geo_dvd_iff _ hA]
  obtain ⟨u, rfl⟩ : ∃ u, v = t + u := ⟨v - t, by omega⟩
  rw [Nat.add_sub_cancel_left, pow_add, mul_left_comm, mul_dvd_mul_iff_left (by positivity)]
  obtain ⟨c, rfl⟩ : ∃ c, d = 2 * c + 1 := ⟨d / 2, by omega⟩
  have hcop : IsCoprime ((2 : ℤ) ^ u) (2 * c + 1) := IsCoprime.pow_left ⟨-c, 1, by ring⟩
  exact ⟨fun h => hcop.dvd_of_dvd_mul_right h, fun h => h.mul_right _⟩

/-! ### on words -/

section
variable {w : ℕ}

/-- one byte -/
def g (p : BitVec w) (b : Byte) (h : BitVec w) : BitVec w := Spec.FNV.feed p h [b]

theorem feed_replicate (p : BitVec w) (b : Byte) (n : ℕ) (h : BitVec w) : Spec.FNV.feed p h (List.replicate n b) = (g p b)^[n] h := by
  induction n generalizing h with
  | zero => rfl
  | succ n ih =>
    rw [Function.iterate_succ_apply, ← ih, List.replicate_succ]
    rfl

theorem iter_toNat (hw : 8 ≤ w) {p : BitVec w} (hp : p.toNat % 2 = 1) (b : Byte) (h : BitVec w) (n : ℕ) :
    ((g p b)^[n] h).toNat = (T p.toNat b.toNat)^[n] h.toNat % 2 ^ w := by
  induction n with
  | zero => simp [Nat.mod_eq_of_lt h.isLt]
  | succ n ih =>
    rw [Function.iterate_succ_apply', Function.iterate_succ_apply']
    generalize (g p b)^[n] h = s at ih ⊢
    have : 2 ^ 8 ≤ 2 ^ w := Nat.pow_le_pow_right (by decide) hw
    have hb : b.toNat < 2 ^ w := Nat.lt_of_lt_of_le b.isLt this
    have e1 : (g p b s).toNat = T p.toNat b.toNat s.toNat % 2 ^ w := by
      simp only [g, Spec.FNV.feed, List.foldl_cons, List.foldl_nil, BitVec.toNat_mul, BitVec.toNat_xor, BitVec.toNat_ofNat, T]
      rw [Nat.mod_eq_of_lt hb]
    rw [e1, ih]
    exact (T_cong hp b.toNat w _ _).1 (Nat.mod_modEq _ _)

theorem iter_eq (hw : 8 ≤ w) {p : BitVec w} (hp : p.toNat % 2 = 1) (b : Byte) (h : BitVec w) (n : ℕ) :
    (g p b)^[n] h = h ↔ (T p.toNat b.toNat)^[n] h.toNat ≡ h.toNat [MOD 2 ^ w] := by
  rw [Nat.ModEq, ← iter_toNat hw hp, Nat.mod_eq_of_lt h.isLt, BitVec.toNat_inj]

/-- the period is a power of two -/
theorem period (hw : 8 ≤ w) {p : BitVec w} (hp : p.toNat % 2 = 1) (b : Byte) (h : BitVec w) :
    ∃ k ≤ w, Function.minimalPeriod (g p b) h = 2 ^ k := by
  have h1 : Function.IsPeriodicPt (g p b) (2 ^ w) h := (iter_eq hw hp b h _).2 (back (T_cong hp _) w _)
  exact (Nat.dvd_prime_pow Nat.prime_two).1 h1.minimalPeriod_dvd

theorem iter_iff {f : BitVec w → BitVec w} {h : BitVec w} {P : ℕ} (hP : Function.minimalPeriod f h = P) (h0 : 0 < P) (n m : ℕ) :
    f^[n] h = f^[m] h ↔ n % P = m % P := by
  subst hP
  rw [← Function.iterate_mod_minimalPeriod_eq (n := n), ← Function.iterate_mod_minimalPeriod_eq (n := m)]
  exact Function.iterate_eq_iterate_iff_of_lt_minimalPeriod (Nat.mod_lt _ h0) (Nat.mod_lt _ h0)

/-- 256 steps tell the period -/
theorem period_eq {v t : ℕ} (ht : t < v) {p : BitVec (8 + v)} (hp : p.toNat % 2 = 1) (b : Byte) (h : BitVec (8 + v)) {d : ℤ} (hd : d % 2 = 1)
    (h256 : (((g p b)^[256] h).toNat : ℤ) - h.toNat = 2 ^ (8 + t) * d) : Function.minimalPeriod (g p b) h = 2 ^ (8 + v - t) := by
  obtain ⟨k, hk, hP⟩ := period (by omega) hp b h
  rw [hP]
  have key : ∀ m, 2 ^ k ∣ 256 * m ↔ 2 ^ (v - t) ∣ m := by
    intro m
    rw [← hP, ← Function.isPeriodicPt_iff_minimalPeriod_dvd]
    refine (iter_eq (by omega) hp b h _).trans (lead_back hp b.isLt ht.le hd ?_ m)
    rw [← h256, iter_toNat (by omega) hp]
    refine Int.ModEq.sub_right _ ?_
    exact_mod_cast (Int.natCast_modEq_iff.2 (Nat.mod_modEq _ _).symm)
  have h8 : ¬ k ≤ 8 := by
    intro h8
    have : (2 : ℕ) ^ k ∣ 256 * 1 := by
      rw [Nat.mul_one, show 256 = 2 ^ 8 by decide]; exact Nat.pow_dvd_pow 2 h8
    have := Nat.le_of_dvd (by decide) ((key 1).1 this)
    have : 2 ^ 1 ≤ 2 ^ (v - t) := Nat.pow_le_pow_right (by decide) (by omega)
    omega
  obtain ⟨j, rfl⟩ : ∃ j, k = 8 + j := ⟨k - 8, by omega⟩
  have key2 : ∀ m, 2 ^ j ∣ m ↔ 2 ^ (v - t) ∣ m := by
    intro m
    rw [← key m, pow_add, show (2 : ℕ) ^ 8 = 256 by decide]
    exact (Nat.mul_dvd_mul_iff_left (by decide)).symm
  have e : (2 : ℕ) ^ j = 2 ^ (v - t) := Nat.dvd_antisymm ((key2 _).2 dvd_rfl) ((key2 _).1 dvd_rfl)
  rw [pow_add, e, ← pow_add]
  congr 1
  omega

/-- if one state has the full period, so have all -/
theorem full {f : BitVec w → BitVec w} {h : BitVec w} (hP : Function.minimalPeriod f h = 2 ^ w) (x : BitVec w) :
    Function.minimalPeriod f x = 2 ^ w := by
  obtain ⟨i, rfl⟩ : ∃ i : ℕ, f^[i] h = x := by
    have hinj : Function.Injective fun i : Fin (2 ^ w) => BitVec.toFin (f^[i.1] h) := by
      intro i j hij
      have : f^[i.1] h = f^[j.1] h := by
        rw [BitVec.toFin_inj] at hij
        exact hij
      rw [iter_iff hP (Nat.two_pow_pos w), Nat.mod_eq_of_lt i.isLt, Nat.mod_eq_of_lt j.isLt] at this
      exact Fin.ext this
    obtain ⟨i, hi⟩ := (Finite.injective_iff_surjective.1 hinj) x.toFin
    exact ⟨i.1, BitVec.toFin_inj.1 hi⟩
  rw [Function.minimalPeriod_apply_iterate _ i, hP]
  exact Function.minimalPeriod_pos_iff_mem_periodicPts.1 (by rw [hP]; exact Nat.two_pow_pos w)
end

theorem run_bytes {w : ℕ} (p : BitVec w) (m : List Byte) (s : BitVec w) :
    ((Spec.FNV.machine p).run s (m.map .data ++ [.fin])).2 = [Spec.FNV.feed p s m] := by
  induction m generalizing s with
  | nil => rfl
  | cons b m ih => exact ih _

/-- runs after the state s -/
theorem runs {w : ℕ} {p : BitVec w} {b : Byte} {s : BitVec w} {k : ℕ} (hP : Function.minimalPeriod (g p b) s = 2 ^ k) (n m : ℕ) :
    Spec.FNV.feed p s (List.replicate n b) = Spec.FNV.feed p s (List.replicate m b) ↔ n % 2 ^ k = m % 2 ^ k := by
  rw [feed_replicate, feed_replicate]
  exact iter_iff hP (Nat.two_pow_pos k) n m

/-! ### the basis, every byte -/

/-- the steps on numbers, for the kernel -/
def steps (w p b : ℕ) : ℕ → ℕ → ℕ
  | 0, x => x
  | n + 1, x => steps w p b n ((x ^^^ b) * p % 2 ^ w)

theorem steps_eq {w : ℕ} (hw : 8 ≤ w) (p : BitVec w) (b : Byte) (n : ℕ) (h : BitVec w) : ((g p b)^[n] h).toNat = steps w p.toNat b.toNat n h.toNat := by
  induction n generalizing h with
  | zero => rfl
  | succ n ih =>
    rw [Function.iterate_succ_apply, ih, steps]
    have : 2 ^ 8 ≤ 2 ^ w := Nat.pow_le_pow_right (by decide) hw
    have hb : b.toNat < 2 ^ w := Nat.lt_of_lt_of_le b.isLt this
    congr 1
    simp only [g, Spec.FNV.feed, List.foldl_cons, List.foldl_nil, BitVec.toNat_mul, BitVec.toNat_xor, BitVec.toNat_ofNat]
    rw [Nat.mod_eq_of_lt hb]

/-- 2^(w + 8 - k) is the power of two in the difference after 256 steps -/
def check (w p x k b : ℕ) : Bool :=
  let d : ℤ := (steps w p b 256 x : ℤ) - x
  8 < k && k ≤ w && d % 2 ^ (w + 8 - k) == 0 && d / 2 ^ (w + 8 - k) % 2 == 1

theorem period_of_check {v : ℕ} {p : BitVec (8 + v)} (hp : p.toNat % 2 = 1) (b : Byte) (h : BitVec (8 + v)) {k : ℕ}
    (hc : check (8 + v) p.toNat h.toNat k b.toNat = true) : Function.minimalPeriod (g p b) h = 2 ^ k := by
  simp only [check, Bool.and_eq_true, beq_iff_eq, decide_eq_true_eq] at hc
  obtain ⟨⟨⟨h1, h2⟩, h3⟩, h4⟩ := hc
  have e : 8 + v + 8 - k = 8 + (8 + v - k) := by omega
  rw [e] at h3 h4
  have := period_eq (v := v) (t := 8 + v - k) (by omega) hp b h h4 (by
    rw [steps_eq (by omega)]
    exact (Int.mul_ediv_cancel' (Int.dvd_of_emod_eq_zero h3)).symm)
  rw [this]
  congr 1
  omega

theorem check32 : ∀ b : Fin 256, check 32 0x01000193 0x811C9DC5 (Spec.FNV.runLog32 (BitVec.ofFin b)) b.1 = true := by decide +kernel
theorem check64 : ∀ b : Fin 256, check 64 0x00000100000001B3 0xCBF29CE484222325 (Spec.FNV.runLog64 (BitVec.ofFin b)) b.1 = true := by decide +kernel

theorem period32 (b : Byte) : Function.minimalPeriod (g Spec.FNV.prime32 b) (Spec.FNV.basis Spec.FNV.prime32) = 2 ^ Spec.FNV.runLog32 b := by
  refine period_of_check (v := 24) (by decide) b _ ?_
  have e : (Spec.FNV.basis Spec.FNV.prime32).toNat = 0x811C9DC5 := by decide +kernel
  rw [e]
  exact check32 b.toFin

theorem period64 (b : Byte) : Function.minimalPeriod (g Spec.FNV.prime64 b) (Spec.FNV.basis Spec.FNV.prime64) = 2 ^ Spec.FNV.runLog64 b := by
  refine period_of_check (v := 56) (by decide) b _ ?_
  have e : (Spec.FNV.basis Spec.FNV.prime64).toNat = 0xCBF29CE484222325 := by decide +kernel
  rw [e]
  exact check64 b.toFin

end Hash2.FnvRuns

import Verif.Lemmas.FnvSearch
import Verif.Lemmas.Local
import Mathlib.Tactic.LinearCombination
import Mathlib.Data.List.Induction
/-
For C77: FNV-1a of two messages that differ in a few consecutive bytes.
-/
namespace Hash2.FnvWindow
open Spec

/-- x_0 + x_1 P + x_2 P^2 + ... -/
def hor (P : Int) : List Int → Int
  | [] => 0
  | x :: xs => x + P * hor P xs

/-- coefficients as they come up -/
def Small (L : List Int) : Prop := (∀ x ∈ L, -510 ≤ x ∧ x ≤ 510) ∧ ∀ x ∈ L.getLast?, -255 ≤ x ∧ x ≤ 255

/-- the number n of bytes is so small that there are no relations between powers of the prime -/
def NoRelation (w : Nat) (p : BitVec w) (n : Nat) : Prop :=
  ∀ x L, L.length + 1 ≤ n → -255 ≤ x ∧ x ≤ 255 → Small (x :: L) → (2 ^ w : Int) ∣ hor p.toNat (x :: L) → x = 0

variable {w : Nat}

theorem xor_high (hw : 8 ≤ w) (s : BitVec w) (b : Byte) : (s ^^^ BitVec.ofNat w b.toNat).toNat / 256 = s.toNat / 256 := by
  have hb : b.toNat < 2 ^ w := Nat.lt_of_lt_of_le b.isLt (Nat.pow_le_pow_right (by decide) hw)
  have e : b.toNat >>> 8 = 0 := by rw [Nat.shiftRight_eq_div_pow]; exact Nat.div_eq_of_lt b.isLt
  rw [BitVec.toNat_xor, BitVec.toNat_ofNat, Nat.mod_eq_of_lt hb]
  show _ / 2 ^ 8 = _ / 2 ^ 8
  rw [← Nat.shiftRight_eq_div_pow, ← Nat.shiftRight_eq_div_pow, Nat.shiftRight_xor_distrib, e, Nat.xor_zero]

theorem feed_snoc (p s : BitVec w) (bs : List Byte) (b : Byte) :
    FNV.feed p s (bs ++ [b]) = (FNV.feed p s bs ^^^ BitVec.ofNat w b.toNat) * p := by
  unfold FNV.feed
  rw [List.foldl_append]
  rfl

theorem mul_mod_dvd (x p : BitVec w) : (2 ^ w : Int) ∣ (((x * p).toNat : Int)) - x.toNat * p.toNat := by
  rw [BitVec.toNat_mul]
  push_cast
  exact ⟨-((x.toNat : Int) * p.toNat / 2 ^ w), by have := Int.emod_add_mul_ediv ((x.toNat : Int) * p.toNat) (2 ^ w); linear_combination this⟩

/-- the difference of two states after different bytes -/
theorem diff (hw : 8 ≤ w) (p s : BitVec w) (bs : List Byte) : ∀ cs : List Byte, bs.length = cs.length → ∃ L : List Int, L.length = bs.length ∧ Small L ∧
    (2 ^ w : Int) ∣ ((FNV.feed p s bs).toNat : Int) - (FNV.feed p s cs).toNat - p.toNat * hor p.toNat L := by
  induction bs using List.reverseRecOn with
  | nil =>
    intro cs h
    obtain rfl := List.eq_nil_of_length_eq_zero h.symm
    exact ⟨[], rfl, ⟨by simp, by simp⟩, by simp [hor]⟩
  | append_singleton bs b ih =>
    intro cs h
    rcases List.eq_nil_or_concat cs with rfl | ⟨cs, c, rfl⟩
    · simp at h
    rw [List.concat_eq_append] at h ⊢
    have h : bs.length = cs.length := by simpa using h
    obtain ⟨L, hl, ⟨h1, h2⟩, hd⟩ := ih cs h
    rw [feed_snoc, feed_snoc]
    have hb := xor_high hw (FNV.feed p s bs) b
    have hc := xor_high hw (FNV.feed p s cs) c
    have hsame : bs = [] → FNV.feed p s bs = FNV.feed p s cs := by
      rintro rfl
      obtain rfl := List.eq_nil_of_length_eq_zero h.symm
      rfl
    generalize FNV.feed p s bs = s1 at *
    generalize FNV.feed p s cs = t1 at *
    have m1 := mul_mod_dvd (s1 ^^^ BitVec.ofNat w b.toNat) p
    have m2 := mul_mod_dvd (t1 ^^^ BitVec.ofNat w c.toNat) p
    generalize ((s1 ^^^ BitVec.ofNat w b.toNat) * p).toNat = X at *
    generalize ((t1 ^^^ BitVec.ofNat w c.toNat) * p).toNat = Y at *
    generalize (s1 ^^^ BitVec.ofNat w b.toNat).toNat = u at *
    generalize (t1 ^^^ BitVec.ofNat w c.toNat).toNat = v at *
    refine ⟨((u : Int) - s1.toNat - (v - t1.toNat)) :: L, by simp [hl], ⟨?_, ?_⟩, ?_⟩
    · intro x hx
      rcases List.mem_cons.1 hx with rfl | hx
      · omega
      · exact h1 x hx
    · cases L with
      | nil =>
        have e := hsame (List.eq_nil_of_length_eq_zero (by simpa using hl.symm))
        intro x hx
        obtain rfl : _ = x := by simpa using hx
        rw [e] at hb ⊢
        omega
      | cons y L => rw [List.getLast?_cons_cons]; exact h2
    · rw [hor]
      obtain ⟨k, hk⟩ := hd
      obtain ⟨k1, hk1⟩ := m1
      obtain ⟨k2, hk2⟩ := m2
      exact ⟨k1 - k2 + p.toNat * k, by linear_combination hk1 - hk2 + (p.toNat : Int) * hk⟩

/-- **different bytes, few enough, lead to different states** -/
theorem feed_inj (hw : 8 ≤ w) (p q : BitVec w) (hp : p * q = 1#w) (N : Nat) (hN : NoRelation w p N) (s : BitVec w) (bs : List Byte) :
    ∀ cs : List Byte, bs.length = cs.length → bs.length ≤ N → FNV.feed p s bs = FNV.feed p s cs → bs = cs := by
  induction bs using List.reverseRecOn with
  | nil => intro cs h _ _; exact (List.eq_nil_of_length_eq_zero h.symm).symm
  | append_singleton bs b ih =>
    intro cs h hn e
    rcases List.eq_nil_or_concat cs with rfl | ⟨cs, c, rfl⟩
    · simp at h
    rw [List.concat_eq_append] at h e ⊢
    have h : bs.length = cs.length := by simpa using h
    have hn : bs.length + 1 ≤ N := by simpa using hn
    rw [feed_snoc, feed_snoc] at e
    have e := mul_inj q hp e
    obtain ⟨L, hl, ⟨h1, h2⟩, hd⟩ := diff hw p s bs cs h
    have hb := xor_high hw (FNV.feed p s bs) b
    have hc := xor_high hw (FNV.feed p s cs) c
    rw [e, hc] at hb
    have hx := hN ((FNV.feed p s cs).toNat - (FNV.feed p s bs).toNat) L (by omega) (by omega) ⟨fun x hx => ?_, ?_⟩ ?_
    · have e2 : FNV.feed p s bs = FNV.feed p s cs := BitVec.eq_of_toNat_eq (by omega)
      have e3 := ih cs h (by omega) e2
      subst e3
      rw [byte_word_inj hw (xor_left_cancel e)]
    · rcases List.mem_cons.1 hx with rfl | hx
      · omega
      · exact h1 x hx
    · cases L with
      | nil =>
        intro x hx
        obtain rfl : _ = x := by simpa using hx
        omega
      | cons y L => rw [List.getLast?_cons_cons]; exact h2
    · rw [hor]
      obtain ⟨k, hk⟩ := hd
      exact ⟨-k, by linear_combination -hk⟩

theorem noRelation64 : NoRelation 64 FNV.prime64 6 := by
  have key : ∀ x0 x1 x2 x3 x4 x5 : Int, -255 ≤ x0 ∧ x0 ≤ 255 → -510 ≤ x1 ∧ x1 ≤ 510 → -510 ≤ x2 ∧ x2 ≤ 510 → -510 ≤ x3 ∧ x3 ≤ 510 → -510 ≤ x4 ∧ x4 ≤ 510 →
      -255 ≤ x5 ∧ x5 ≤ 255 → (2 ^ 64 : Int) ∣ hor 1099511628211 [x0, x1, x2, x3, x4, x5] → x0 = 0 := by
    intro x0 x1 x2 x3 x4 x5 h0 h1 h2 h3 h4 h5 ⟨m, hm⟩
    refine small64 x0 x1 x2 x3 x4 x5 h0 h1 h2 h3 h4 h5 ⟨m - 65536 * x2 - 72057594123452416 * x3 - 79228162639644551293944856595 * x4 - 87112286104081500251499816140704456780207 * x5, ?_⟩
    simp only [hor] at hm
    linear_combination hm
  intro x L hl hx ⟨h1, h2⟩ hd
  rw [show (FNV.prime64.toNat : Int) = 1099511628211 from rfl] at hd
  have z1 : -510 ≤ (0 : Int) ∧ (0 : Int) ≤ 510 := by decide
  have z2 : -255 ≤ (0 : Int) ∧ (0 : Int) ≤ 255 := by decide
  match L with
  | [] => exact key x 0 0 0 0 0 hx z1 z1 z1 z1 z2 (by simpa [hor] using hd)
  | [a] => exact key x a 0 0 0 0 hx (h1 a (by simp)) z1 z1 z1 z2 (by simpa [hor] using hd)
  | [a, b] => exact key x a b 0 0 0 hx (h1 a (by simp)) (h1 b (by simp)) z1 z1 z2 (by simpa [hor] using hd)
  | [a, b, c] => exact key x a b c 0 0 hx (h1 a (by simp)) (h1 b (by simp)) (h1 c (by simp)) z1 z2 (by simpa [hor] using hd)
  | [a, b, c, d] => exact key x a b c d 0 hx (h1 a (by simp)) (h1 b (by simp)) (h1 c (by simp)) (h1 d (by simp)) z2 (by simpa [hor] using hd)
  | [a, b, c, d, e] => exact key x a b c d e hx (h1 a (by simp)) (h1 b (by simp)) (h1 c (by simp)) (h1 d (by simp)) (h2 e (by simp)) hd
  | _ :: _ :: _ :: _ :: _ :: _ :: _ => simp at hl

theorem noRelation32 : NoRelation 32 FNV.prime32 3 := by
  have key : ∀ x0 x1 x2 : Int, -255 ≤ x0 ∧ x0 ≤ 255 → -510 ≤ x1 ∧ x1 ≤ 510 → -255 ≤ x2 ∧ x2 ≤ 255 → (2 ^ 32 : Int) ∣ hor 16777619 [x0, x1, x2] → x0 = 0 := by
    intro x0 x1 x2 h0 h1 h2 ⟨m, hm⟩
    refine small32 x0 x1 x2 h0 h1 h2 ⟨m - 65539 * x2, ?_⟩
    simp only [hor] at hm
    linear_combination hm
  intro x L hl hx ⟨h1, h2⟩ hd
  rw [show (FNV.prime32.toNat : Int) = 16777619 from rfl] at hd
  have z1 : -510 ≤ (0 : Int) ∧ (0 : Int) ≤ 510 := by decide
  have z2 : -255 ≤ (0 : Int) ∧ (0 : Int) ≤ 255 := by decide
  match L with
  | [] => exact key x 0 0 hx z1 z2 (by simpa [hor] using hd)
  | [a] => exact key x a 0 hx (h1 a (by simp)) z2 (by simpa [hor] using hd)
  | [a, b] => exact key x a b hx (h1 a (by simp)) (h2 b (by simp)) hd
  | _ :: _ :: _ :: _ => simp at hl

end Hash2.FnvWindow

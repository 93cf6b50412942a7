import Verif.Lemmas.Integral
import Mathlib.Data.Fintype.EquivFin
/-
Lemmas about get_integral_result on parts of a value, and about widening and narrowing back (C49, C50).
-/
namespace Hash2.Integral

/-- the set of values of f on [b, b + 2^k), as a bit mask -/
def mask (f : Nat → Nat) : Nat → Nat → Nat
  | b, 0 => 2 ^ f b
  | b, k + 1 => mask f b k ||| mask f (b + 2 ^ k) k

theorem mask_mem {f : Nat → Nat} (k : Nat) : ∀ {b y : Nat}, (mask f b k).testBit y = true → ∃ x, b ≤ x ∧ x < b + 2 ^ k ∧ f x = y := by
  induction k with
  | zero =>
    intro b y h
    refine ⟨b, Nat.le_refl _, by simp, ?_⟩
    rw [mask, Nat.testBit_two_pow] at h
    simpa using h
  | succ k ih =>
    intro b y h
    rw [mask, Nat.testBit_or, Bool.or_eq_true] at h
    have hp : 2 ^ (k + 1) = 2 ^ k + 2 ^ k := by rw [Nat.pow_succ]; omega
    rcases h with h | h
    · obtain ⟨x, h1, h2, h3⟩ := ih h
      exact ⟨x, h1, by omega, h3⟩
    · obtain ⟨x, h1, h2, h3⟩ := ih h
      exact ⟨x, by omega, by omega, h3⟩

/-- a map of [0, 2^k) into itself that takes every value takes no value twice -/
theorem inj_of_mask {f : Nat → Nat} (k : Nat) (hf : ∀ x, f x < 2 ^ k) (h : mask f 0 k = 2 ^ 2 ^ k - 1) {x y : Nat}
    (hx : x < 2 ^ k) (hy : y < 2 ^ k) (e : f x = f y) : x = y := by
  let g : Fin (2 ^ k) → Fin (2 ^ k) := fun i => ⟨f i, hf i⟩
  have hs : Function.Surjective g := by
    intro z
    have : (mask f 0 k).testBit z = true := by
      rw [h, Nat.testBit_two_pow_sub_one]
      simp
    obtain ⟨x, _, h2, h3⟩ := mask_mem k this
    exact ⟨⟨x, by omega⟩, Fin.ext h3⟩
  have hi := Finite.injective_iff_surjective.2 hs
  have := hi (a₁ := ⟨x, hx⟩) (a₂ := ⟨y, hy⟩) (Fin.ext e)
  exact congrArg Fin.val this

/-- what is multiplied and cut: the result for a value that is x in window number k and zero elsewhere -/
def win (rs ts k x : Nat) : Nat := (x * 2 ^ (8 * ts * k)) * multiplier rs ts % 2 ^ (8 * rs) / 2 ^ (8 * (rs - ts))

/-- widening and narrowing back -/
def back (ts rs x : Nat) : Nat := x * multiplier ts rs % 2 ^ (8 * rs) * multiplier rs ts % 2 ^ (8 * rs) / 2 ^ (8 * (rs - ts))

theorem cut_lt {rs ts : Nat} (h : ts ≤ rs) (n : Nat) : n % 2 ^ (8 * rs) / 2 ^ (8 * (rs - ts)) < 2 ^ (8 * ts) := by
  rw [Nat.div_lt_iff_lt_mul (Nat.two_pow_pos _), ← Nat.pow_add, show 8 * ts + 8 * (rs - ts) = 8 * rs by omega]
  exact Nat.mod_lt _ (Nat.two_pow_pos _)

theorem mask41 : ([0, 1, 3].all fun k => mask (win 4 1 k) 0 8 == 2 ^ 2 ^ 8 - 1) = true := by decide +kernel
theorem mask41' (k : Nat) (hk : k ∈ [0, 1, 3]) : mask (win 4 1 k) 0 8 = 2 ^ 2 ^ 8 - 1 :=
  beq_iff_eq.1 (List.all_eq_true.1 mask41 k hk)
theorem mask81 : ([0, 1, 2, 3, 4, 5, 7].all fun k => mask (win 8 1 k) 0 8 == 2 ^ 2 ^ 8 - 1) = true := by decide +kernel
theorem mask81' (k : Nat) (hk : k ∈ [0, 1, 2, 3, 4, 5, 7]) : mask (win 8 1 k) 0 8 = 2 ^ 2 ^ 8 - 1 :=
  beq_iff_eq.1 (List.all_eq_true.1 mask81 k hk)
theorem mask82 : ([0, 1, 3].all fun k => mask (win 8 2 k) 0 16 == 2 ^ 2 ^ 16 - 1) = true := by decide +kernel
theorem mask82' (k : Nat) (hk : k ∈ [0, 1, 3]) : mask (win 8 2 k) 0 16 = 2 ^ 2 ^ 16 - 1 :=
  beq_iff_eq.1 (List.all_eq_true.1 mask82 k hk)
theorem maskBack14 : mask (back 1 4) 0 8 = 2 ^ 2 ^ 8 - 1 := by decide +kernel
theorem maskBack18 : mask (back 1 8) 0 8 = 2 ^ 2 ^ 8 - 1 := by decide +kernel
theorem maskBack28 : mask (back 2 8) 0 16 = 2 ^ 2 ^ 16 - 1 := by decide +kernel

/-- the upper half of the product with a constant h * 2^w + l -/
theorem hi_mod (w n : Nat) : n % 2 ^ (w + w) / 2 ^ w = n / 2 ^ w % 2 ^ w := by
  rw [Nat.pow_add, Nat.mod_mul_right_div_self]

theorem half84 (hi lo : Nat) (hl : lo < 2 ^ 32) :
    (hi * 2 ^ 32 + lo) * 0xBFFFFFFF00000001 % 2 ^ 64 / 2 ^ 32 = (hi + lo * 0xBFFFFFFF) % 2 ^ 32 := by
  rw [hi_mod 32]
  have : (hi * 2 ^ 32 + lo) * 0xBFFFFFFF00000001 = 2 ^ 32 * (hi + lo * 0xBFFFFFFF + 2 ^ 32 * (hi * 0xBFFFFFFF)) + lo := by omega
  rw [this, Nat.mul_add_div (by decide), Nat.div_eq_of_lt hl, Nat.add_zero, Nat.add_mul_mod_self_left]

theorem half42 (hi lo : Nat) (hl : lo < 2 ^ 16) :
    (hi * 2 ^ 16 + lo) * 0xBFFF0001 % 2 ^ 32 / 2 ^ 16 = (hi + lo * 0xBFFF) % 2 ^ 16 := by
  rw [hi_mod 16]
  have : (hi * 2 ^ 16 + lo) * 0xBFFF0001 = 2 ^ 16 * (hi + lo * 0xBFFF + 2 ^ 16 * (hi * 0xBFFF)) + lo := by omega
  rw [this, Nat.mul_add_div (by decide), Nat.div_eq_of_lt hl, Nat.add_zero, Nat.add_mul_mod_self_left]

theorem back48 (x : Nat) : back 4 8 x = (x * 2 ^ 30 + x * (2 ^ 31 - 1) / 2 ^ 32) % 2 ^ 32 := by
  show x * 0x7FFFFFFF7FFFFFFF % 2 ^ 64 * 0xBFFFFFFF00000001 % 2 ^ 64 / 2 ^ 32 = _
  rw [Nat.mod_mul_mod, Nat.mul_assoc, Nat.mul_mod, show 0x7FFFFFFF7FFFFFFF * 0xBFFFFFFF00000001 % 2 ^ 64 = 0x400000007FFFFFFF by decide,
    Nat.mod_mul_mod, hi_mod 32]
  congr 1
  omega

theorem back24 (x : Nat) : back 2 4 x = (x * 2 ^ 14 + x * (2 ^ 15 - 1) / 2 ^ 16) % 2 ^ 16 := by
  show x * 0x7FFF7FFF % 2 ^ 32 * 0xBFFF0001 % 2 ^ 32 / 2 ^ 16 = _
  rw [Nat.mod_mul_mod, Nat.mul_assoc, Nat.mul_mod, show 0x7FFF7FFF * 0xBFFF0001 % 2 ^ 32 = 0x40007FFF by decide,
    Nat.mod_mul_mod, hi_mod 16]
  congr 1
  omega

theorem back48_form (a i : Nat) (hi : i < 4) (hx : 4 * a + i < 2 ^ 32) : ∃ g, back 4 8 (4 * a + i) = (i * 2 ^ 30 + g) % 2 ^ 32 ∧
    ((4 * a + i = 0 ∧ g = 0) ∨ (0 < 4 * a + i ∧ (i % 2 = 0 ∨ 2 ^ 31 < 4 * a + i) ∧ g + 1 = 2 * a + i / 2) ∨
      (i % 2 = 1 ∧ 4 * a + i < 2 ^ 31 ∧ g = 2 * a + i / 2)) := by
  refine ⟨(4 * a + i) * (2 ^ 31 - 1) / 2 ^ 32, ?_, ?_⟩
  · rw [back48, Nat.add_mul, show 4 * a * 2 ^ 30 = a * 2 ^ 32 by omega, Nat.add_assoc, Nat.mul_comm a, Nat.mul_add_mod]
  · rcases Nat.eq_zero_or_pos (4 * a + i) with h0 | h0
    · exact .inl ⟨h0, by rw [h0]; rfl⟩
    · refine .inr ?_
      rcases Nat.lt_or_ge (4 * a + i) (2 ^ 31) with h1 | h1
      · rcases Nat.mod_two_eq_zero_or_one i with h2 | h2
        · exact .inl ⟨h0, .inl h2, by omega⟩
        · exact .inr ⟨h2, h1, by omega⟩
      · refine .inl ⟨h0, ?_, by omega⟩
        omega

theorem back48_collision {x y : Nat} (hx : x < 2 ^ 32) (hy : y < 2 ^ 32) (hxy : x < y) (e : back 4 8 x = back 4 8 y) :
    x = 0 ∧ y = 0x80000003 := by
  obtain ⟨a, i, hi, rfl⟩ : ∃ a i, i < 4 ∧ x = 4 * a + i := ⟨x / 4, x % 4, Nat.mod_lt _ (by decide), by omega⟩
  obtain ⟨b, j, hj, rfl⟩ : ∃ b j, j < 4 ∧ y = 4 * b + j := ⟨y / 4, y % 4, Nat.mod_lt _ (by decide), by omega⟩
  obtain ⟨g, hg, hg'⟩ := back48_form a i hi hx
  obtain ⟨k, hk, hk'⟩ := back48_form b j hj hy
  rw [hg, hk] at e
  clear hg hk
  have hi' : i = 0 ∨ i = 1 ∨ i = 2 ∨ i = 3 := by omega
  have hj' : j = 0 ∨ j = 1 ∨ j = 2 ∨ j = 3 := by omega
  rcases hi' with rfl | rfl | rfl | rfl <;> rcases hj' with rfl | rfl | rfl | rfl <;> omega

theorem back24_form (a i : Nat) (hi : i < 4) (hx : 4 * a + i < 2 ^ 16) : ∃ g, back 2 4 (4 * a + i) = (i * 2 ^ 14 + g) % 2 ^ 16 ∧
    ((4 * a + i = 0 ∧ g = 0) ∨ (0 < 4 * a + i ∧ (i % 2 = 0 ∨ 2 ^ 15 < 4 * a + i) ∧ g + 1 = 2 * a + i / 2) ∨
      (i % 2 = 1 ∧ 4 * a + i < 2 ^ 15 ∧ g = 2 * a + i / 2)) := by
  refine ⟨(4 * a + i) * (2 ^ 15 - 1) / 2 ^ 16, ?_, ?_⟩
  · rw [back24, Nat.add_mul, show 4 * a * 2 ^ 14 = a * 2 ^ 16 by omega, Nat.add_assoc, Nat.mul_comm a, Nat.mul_add_mod]
  · rcases Nat.eq_zero_or_pos (4 * a + i) with h0 | h0
    · exact .inl ⟨h0, by rw [h0]; rfl⟩
    · refine .inr ?_
      rcases Nat.lt_or_ge (4 * a + i) (2 ^ 15) with h1 | h1
      · rcases Nat.mod_two_eq_zero_or_one i with h2 | h2
        · exact .inl ⟨h0, .inl h2, by omega⟩
        · exact .inr ⟨h2, h1, by omega⟩
      · refine .inl ⟨h0, ?_, by omega⟩
        omega

theorem back24_collision {x y : Nat} (hx : x < 2 ^ 16) (hy : y < 2 ^ 16) (hxy : x < y) (e : back 2 4 x = back 2 4 y) :
    x = 0 ∧ y = 0x8003 := by
  obtain ⟨a, i, hi, rfl⟩ : ∃ a i, i < 4 ∧ x = 4 * a + i := ⟨x / 4, x % 4, Nat.mod_lt _ (by decide), by omega⟩
  obtain ⟨b, j, hj, rfl⟩ : ∃ b j, j < 4 ∧ y = 4 * b + j := ⟨y / 4, y % 4, Nat.mod_lt _ (by decide), by omega⟩
  obtain ⟨g, hg, hg'⟩ := back24_form a i hi hx
  obtain ⟨k, hk, hk'⟩ := back24_form b j hj hy
  rw [hg, hk] at e
  clear hg hk
  have hi' : i = 0 ∨ i = 1 ∨ i = 2 ∨ i = 3 := by omega
  have hj' : j = 0 ∨ j = 1 ∨ j = 2 ∨ j = 3 := by omega
  rcases hi' with rfl | rfl | rfl | rfl <;> rcases hj' with rfl | rfl | rfl | rfl <;> omega

end Hash2.Integral

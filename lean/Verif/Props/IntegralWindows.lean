import Verif.Lemmas.IntegralWindows
import Verif.Props.Integral
/-
C49, C50: get_integral_result on parts of a value, and widening followed by narrowing.
-/
namespace Hash2
open Integral

/-- **C49, halves.** Narrowing 64 bits to 32: the result is a sum of both halves, one of them multiplied with an odd number. -/
theorem integral_result_halves_64 (hi lo : BitVec 32) : get 8 4 (hi ++ lo) = .ok (hi + lo * 0xBFFFFFFF#32) := by
  rw [show get 8 4 (hi ++ lo) = _ from get_contract 8 4 (by decide) (by decide) _]
  congr 1
  apply BitVec.eq_of_toNat_eq
  have : (hi ++ lo).toNat = hi.toNat * 2 ^ 32 + lo.toNat := by
    rw [BitVec.toNat_append, Nat.shiftLeft_eq, Nat.mul_comm, Nat.two_pow_add_eq_or_of_lt lo.isLt]
  rw [BitVec.toNat_ofNat, this]
  show (hi.toNat * 2 ^ 32 + lo.toNat) * 0xBFFFFFFF00000001 % 2 ^ 64 / 2 ^ 32 % 2 ^ 32 = _
  rw [half84 _ _ lo.isLt, BitVec.toNat_add, BitVec.toNat_mul]
  simp

/-- **C49, halves.** Narrowing 32 bits to 16, the same. -/
theorem integral_result_halves_32 (hi lo : BitVec 16) : get 4 2 (hi ++ lo) = .ok (hi + lo * 0xBFFF#16) := by
  rw [show get 4 2 (hi ++ lo) = _ from get_contract 4 2 (by decide) (by decide) _]
  congr 1
  apply BitVec.eq_of_toNat_eq
  have : (hi ++ lo).toNat = hi.toNat * 2 ^ 16 + lo.toNat := by
    rw [BitVec.toNat_append, Nat.shiftLeft_eq, Nat.mul_comm, Nat.two_pow_add_eq_or_of_lt lo.isLt]
  rw [BitVec.toNat_ofNat, this]
  show (hi.toNat * 2 ^ 16 + lo.toNat) * 0xBFFF0001 % 2 ^ 32 / 2 ^ 16 % 2 ^ 16 = _
  rw [half42 _ _ lo.isLt, BitVec.toNat_add, BitVec.toNat_mul]
  simp

/-- multiplication with an odd constant is injective -/
private theorem odd_mul_inj {w : Nat} {m i a b : BitVec w} (hi : m * i = 1) (h : a * m = b * m) : a = b := by
  have := congrArg (· * i) h
  simpa [BitVec.mul_assoc, hi] using this

/-- **C49, halves.** Two values that differ in one half only, whatever the other half, have different results: both ways of
narrowing to half the size are defined and injective in either half. -/
theorem integral_result_half_distinct :
    (∀ hi lo lo' : BitVec 32, get 8 4 (hi ++ lo) = get 8 4 (hi ++ lo') → lo = lo') ∧
    (∀ hi hi' lo : BitVec 32, get 8 4 (hi ++ lo) = get 8 4 (hi' ++ lo) → hi = hi') ∧
    (∀ hi lo lo' : BitVec 16, get 4 2 (hi ++ lo) = get 4 2 (hi ++ lo') → lo = lo') ∧
    (∀ hi hi' lo : BitVec 16, get 4 2 (hi ++ lo) = get 4 2 (hi' ++ lo) → hi = hi') := by
  refine ⟨fun hi lo lo' h => ?_, fun hi hi' lo h => ?_, fun hi lo lo' h => ?_, fun hi hi' lo h => ?_⟩
  · rw [integral_result_halves_64, integral_result_halves_64] at h
    exact odd_mul_inj (i := 0x3fffffff#32) (by decide) ((BitVec.add_right_inj hi).1 (Except.ok.inj h))
  · rw [integral_result_halves_64, integral_result_halves_64] at h
    exact (BitVec.add_left_inj _).1 (Except.ok.inj h)
  · rw [integral_result_halves_32, integral_result_halves_32] at h
    exact odd_mul_inj (i := 0x3fff#16) (by decide) ((BitVec.add_right_inj hi).1 (Except.ok.inj h))
  · rw [integral_result_halves_32, integral_result_halves_32] at h
    exact (BitVec.add_left_inj _).1 (Except.ok.inj h)

example : get 8 4 0x0123456789ABCDEF#64 ≠ get 8 4 0x0123456789ABCDEE#64 := fun e =>
  absurd (integral_result_half_distinct.1 0x01234567#32 0x89ABCDEF#32 0x89ABCDEE#32 e) (by decide)

/-- the value of R that is x in part number k and zero elsewhere -/
def part (rs ts : Sz) (k : Nat) (x : BitVec (8 * ts.n)) : BitVec (8 * rs.n) := BitVec.ofNat (8 * rs.n) (x.toNat * 2 ^ (8 * ts.n * k))

private theorem get_part {rs ts : Sz} {k : Nat} (h : ts.n < rs.n) (h4 : 4 ≤ rs.n) (x : BitVec (8 * ts.n)) :
    get rs.n ts.n (part rs ts k x) = .ok (BitVec.ofNat (8 * ts.n) (win rs.n ts.n k x.toNat)) := by
  rw [get_contract _ _ h h4, part, BitVec.toNat_ofNat, Nat.mod_mul_mod, win]

private theorem part_inj {rs ts : Sz} {k : Nat} (h : ts.n < rs.n) (h4 : 4 ≤ rs.n)
    (a b w : Nat) (ha : rs.n = a) (hb : ts.n = b) (hw' : w = 8 * b) (hm : mask (win a b k) 0 w = 2 ^ 2 ^ w - 1) {x y : BitVec (8 * ts.n)}
    (e : get rs.n ts.n (part rs ts k x) = get rs.n ts.n (part rs ts k y)) : x = y := by
  have hw : ∀ x, win rs.n ts.n k x < 2 ^ (8 * ts.n) := fun x => cut_lt (Nat.le_of_lt h) _
  rw [get_part h h4, get_part h h4] at e
  have e := congrArg BitVec.toNat (Except.ok.inj e)
  rw [BitVec.toNat_ofNat, BitVec.toNat_ofNat, Nat.mod_eq_of_lt (hw _), Nat.mod_eq_of_lt (hw _)] at e
  subst ha hb hw'
  exact BitVec.eq_of_toNat_eq (inj_of_mask _ hw hm x.isLt y.isLt e)

private theorem low_append {w : Nat} (x : BitVec w) : (0#w ++ x).toNat = x.toNat := by
  rw [BitVec.toNat_append]
  simp
private theorem high_append {w : Nat} (x : BitVec w) : (x ++ 0#w).toNat = x.toNat * 2 ^ w := by
  rw [BitVec.toNat_append, Nat.shiftLeft_eq]
  simp
private theorem part_toNat {rs ts : Sz} {k m : Nat} (x : BitVec (8 * ts.n)) (hm : 8 * ts.n * k = m) (hx : x.toNat * 2 ^ m < 2 ^ (8 * rs.n)) :
    (part rs ts k x).toNat = x.toNat * 2 ^ m := by
  rw [part, BitVec.toNat_ofNat, hm, Nat.mod_eq_of_lt hx]
private theorem part42_0 (x : BitVec 16) : part .s4 .s2 0 x = 0#16 ++ x := by
  apply BitVec.eq_of_toNat_eq
  exact (part_toNat (rs := .s4) (ts := .s2) (k := 0) (m := 0) x rfl (show x.toNat * 1 < 2 ^ 32 by have := x.isLt; omega)).trans
    ((Nat.mul_one _).trans (low_append x).symm)
private theorem part42_1 (x : BitVec 16) : part .s4 .s2 1 x = x ++ 0#16 := by
  apply BitVec.eq_of_toNat_eq
  exact (part_toNat (rs := .s4) (ts := .s2) (k := 1) (m := 16) x rfl (show x.toNat * 2 ^ 16 < 2 ^ 32 by have := x.isLt; omega)).trans
    (high_append x).symm
private theorem part84_0 (x : BitVec 32) : part .s8 .s4 0 x = 0#32 ++ x := by
  apply BitVec.eq_of_toNat_eq
  exact (part_toNat (rs := .s8) (ts := .s4) (k := 0) (m := 0) x rfl (show x.toNat * 1 < 2 ^ 64 by have := x.isLt; omega)).trans
    ((Nat.mul_one _).trans (low_append x).symm)
private theorem part84_1 (x : BitVec 32) : part .s8 .s4 1 x = x ++ 0#32 := by
  apply BitVec.eq_of_toNat_eq
  exact (part_toNat (rs := .s8) (ts := .s4) (k := 1) (m := 32) x rfl (show x.toNat * 2 ^ 32 < 2 ^ 64 by have := x.isLt; omega)).trans
    (high_append x).symm

/-- **C49 (partial: see `integral_result_windows_collide`).** Two values of R that are zero outside of the same aligned part of the size
of T, and different there, have different results; except in three of the nineteen cases, and for R of two bytes (C32). -/
theorem integral_result_window_partial (rs ts : Sz) (k : Nat) (h : ts.n < rs.n) (h2 : rs ≠ .s2) (hk : ts.n * (k + 1) ≤ rs.n)
    (hne : ¬ (rs = .s4 ∧ ts = .s1 ∧ k = 2) ∧ ¬ (rs = .s8 ∧ ts = .s1 ∧ k = 6) ∧ ¬ (rs = .s8 ∧ ts = .s2 ∧ k = 2)) (x y : BitVec (8 * ts.n))
    (e : get rs.n ts.n (part rs ts k x) = get rs.n ts.n (part rs ts k y)) : x = y := by
  have h4 : 4 ≤ rs.n := by cases rs <;> cases ts <;> simp_all [Sz.n]
  cases rs <;> cases ts <;> simp only [Sz.n] at h h4 hk <;> try omega
  · have hk' : k ∈ [0, 1, 3] := by simp at hne ⊢; omega
    exact part_inj (by decide) (by decide) 4 1 8 rfl rfl rfl (mask41' k hk') e
  · have hk : k = 0 ∨ k = 1 := by omega
    rcases hk with rfl | rfl
    · exact integral_result_half_distinct.2.2.1 0#16 x y ((congrArg (get 4 2) (part42_0 x)).symm.trans (e.trans (congrArg (get 4 2) (part42_0 y))))
    · exact integral_result_half_distinct.2.2.2 x y 0#16 ((congrArg (get 4 2) (part42_1 x)).symm.trans (e.trans (congrArg (get 4 2) (part42_1 y))))
  · have hk' : k ∈ [0, 1, 2, 3, 4, 5, 7] := by simp at hne ⊢; omega
    exact part_inj (by decide) (by decide) 8 1 8 rfl rfl rfl (mask81' k hk') e
  · have hk' : k ∈ [0, 1, 3] := by simp at hne ⊢; omega
    exact part_inj (by decide) (by decide) 8 2 16 rfl rfl rfl (mask82' k hk') e
  · have hk : k = 0 ∨ k = 1 := by omega
    rcases hk with rfl | rfl
    · exact integral_result_half_distinct.1 0#32 x y ((congrArg (get 8 4) (part84_0 x)).symm.trans (e.trans (congrArg (get 8 4) (part84_0 y))))
    · exact integral_result_half_distinct.2.1 x y 0#32 ((congrArg (get 8 4) (part84_1 x)).symm.trans (e.trans (congrArg (get 8 4) (part84_1 y))))

example : get 8 2 (part .s8 .s2 3 0xFFFF#16) ≠ get 8 2 (part .s8 .s2 3 0x7FFF#16) := fun e =>
  absurd (integral_result_window_partial .s8 .s2 3 (by decide) (by decide) (by decide) (by decide) _ _ e) (show ¬ 0xFFFF#16 = 0x7FFF#16 by decide)

/-- **C49 is false in three cases.** (test/get_integral_result_4.cpp:101 and :118 claim the opposite of the last two, but shift a 32 bit
number by 48 and 32.) -/
theorem integral_result_windows_collide :
    get 4 1 0x00FD0000#32 = get 4 1 0#32 ∧ get 8 1 0x00FD000000000000#64 = get 8 1 0#64 ∧ get 8 2 0x0000FFFB00000000#64 = get 8 2 0#64 := by
  refine ⟨?_, ?_, ?_⟩
  · have k : ∀ r : BitVec 32, get 4 1 r = _ := get_contract 4 1 (by decide) (by decide)
    exact ((k _).trans (congrArg Except.ok (by decide +kernel))).trans (k _).symm
  · have k : ∀ r : BitVec 64, get 8 1 r = _ := get_contract 8 1 (by decide) (by decide)
    exact ((k _).trans (congrArg Except.ok (by decide +kernel))).trans (k _).symm
  · have k : ∀ r : BitVec 64, get 8 2 r = _ := get_contract 8 2 (by decide) (by decide)
    exact ((k _).trans (congrArg Except.ok (by decide +kernel))).trans (k _).symm

private theorem there_and_back (ts rs : Sz) (hl : ts.n < rs.n) (h4 : 4 ≤ rs.n) (x : BitVec (8 * ts.n)) :
    (get ts.n rs.n x >>= get rs.n ts.n) = .ok (BitVec.ofNat (8 * ts.n) (back ts.n rs.n x.toNat)) := by
  rw [get_wide ts rs (Nat.le_of_lt hl), Except.bind_ok, get_contract _ _ hl h4, BitVec.toNat_ofNat, back]

/-- **C50 (partial: see below).** Widening from one byte to four or eight, or from two to eight, and narrowing back is defined and
distinguishes all values. -/
theorem round_trip_partial (ts rs : Sz) (h : (ts, rs) = (.s1, .s4) ∨ (ts, rs) = (.s1, .s8) ∨ (ts, rs) = (.s2, .s8)) :
    (∀ x, ∃ y, (get ts.n rs.n x >>= get rs.n ts.n) = .ok y) ∧
    ∀ x x', (get ts.n rs.n x >>= get rs.n ts.n) = (get ts.n rs.n x' >>= get rs.n ts.n) → x = x' := by
  have hl : ts.n < rs.n ∧ 4 ≤ rs.n := by rcases h with h | h | h <;> cases h <;> decide
  have hm : ∃ a b w, ts.n = a ∧ rs.n = b ∧ w = 8 * a ∧ mask (back a b) 0 w = 2 ^ 2 ^ w - 1 := by
    rcases h with h | h | h <;> cases h
    · exact ⟨1, 4, 8, rfl, rfl, rfl, maskBack14⟩
    · exact ⟨1, 8, 8, rfl, rfl, rfl, maskBack18⟩
    · exact ⟨2, 8, 16, rfl, rfl, rfl, maskBack28⟩
  obtain ⟨a, b, w, ha, hb, hww, hm⟩ := hm
  have hw : ∀ x, back ts.n rs.n x < 2 ^ (8 * ts.n) := fun x => cut_lt (Nat.le_of_lt hl.1) _
  have key := there_and_back ts rs hl.1 hl.2
  refine ⟨fun x => ⟨_, key x⟩, fun x y e => ?_⟩
  rw [key, key] at e
  have e := congrArg BitVec.toNat (Except.ok.inj e)
  rw [BitVec.toNat_ofNat, BitVec.toNat_ofNat, Nat.mod_eq_of_lt (hw _), Nat.mod_eq_of_lt (hw _)] at e
  subst ha hb hww
  exact BitVec.eq_of_toNat_eq (inj_of_mask _ hw hm x.isLt y.isLt e)

example : (get 2 8 0x1234#16 >>= get 8 2) ≠ (get 2 8 0x1235#16 >>= get 8 2) := fun e =>
  absurd ((round_trip_partial .s2 .s8 (by decide)).2 0x1234#16 0x1235#16 e) (show ¬ 0x1234#16 = 0x1235#16 by decide)

/-- **C50, 16 and 32 bits.** Widening from two bytes to four and narrowing back loses exactly one distinction: that of 0 and 0x8003. -/
theorem round_trip_16_32 (x y : BitVec 16) (hxy : x.toNat < y.toNat) :
    (get 2 4 x >>= get 4 2) = (get 2 4 y >>= get 4 2) ↔ x = 0 ∧ y = 0x8003#16 := by
  have hw : ∀ x, back 2 4 x < 2 ^ 16 := fun x => cut_lt (rs := 4) (ts := 2) (by decide) _
  have key : ∀ x : BitVec 16, (get 2 4 x >>= get 4 2) = .ok (BitVec.ofNat 16 (back 2 4 x.toNat)) :=
    there_and_back .s2 .s4 (by decide) (by decide)
  constructor
  · intro e
    rw [key, key] at e
    have e := congrArg BitVec.toNat (Except.ok.inj e)
    rw [BitVec.toNat_ofNat, BitVec.toNat_ofNat, Nat.mod_eq_of_lt (hw _), Nat.mod_eq_of_lt (hw _)] at e
    obtain ⟨h1, h2⟩ := back24_collision x.isLt y.isLt hxy e
    exact ⟨BitVec.eq_of_toNat_eq h1, BitVec.eq_of_toNat_eq h2⟩
  · rintro ⟨rfl, rfl⟩
    rw [key, key]
    exact congrArg Except.ok (by decide +kernel)

/-- **C50, 32 and 64 bits.** Widening from four bytes to eight and narrowing back loses exactly one distinction: that of 0 and
0x80000003. (test/get_integral_result_5.cpp tries 65536 of the 2^32 values.) -/
theorem round_trip_32_64 (x y : BitVec 32) (hxy : x.toNat < y.toNat) :
    (get 4 8 x >>= get 8 4) = (get 4 8 y >>= get 8 4) ↔ x = 0 ∧ y = 0x80000003#32 := by
  have hw : ∀ x, back 4 8 x < 2 ^ 32 := fun x => cut_lt (rs := 8) (ts := 4) (by decide) _
  have key : ∀ x : BitVec 32, (get 4 8 x >>= get 8 4) = .ok (BitVec.ofNat 32 (back 4 8 x.toNat)) :=
    there_and_back .s4 .s8 (by decide) (by decide)
  constructor
  · intro e
    rw [key, key] at e
    have e := congrArg BitVec.toNat (Except.ok.inj e)
    rw [BitVec.toNat_ofNat, BitVec.toNat_ofNat, Nat.mod_eq_of_lt (hw _), Nat.mod_eq_of_lt (hw _)] at e
    obtain ⟨h1, h2⟩ := back48_collision x.isLt y.isLt hxy e
    exact ⟨BitVec.eq_of_toNat_eq h1, BitVec.eq_of_toNat_eq h2⟩
  · rintro ⟨rfl, rfl⟩
    rw [key, key]
    exact congrArg Except.ok (by decide +kernel)

example : (get 4 8 1#32 >>= get 8 4) ≠ (get 4 8 0xDEADBEEF#32 >>= get 8 4) := fun e =>
  absurd ((round_trip_32_64 1#32 0xDEADBEEF#32 (by decide)).1 e) (fun h => absurd h.1 (show ¬ 1#32 = 0#32 by decide))

/-- **C50 is false for one and two bytes**: narrowing back overflows (C32). (test/get_integral_result_4.cpp:83 does this.) -/
theorem round_trip_8_16_undefined : (get 1 2 2#8 >>= get 2 1) = .error .signedOverflow := by
  have k : ∀ (e : Except Fault (BitVec 16)) (v : BitVec 16), e = .ok v → (e >>= get 2 1) = get 2 1 v := fun e v h => h ▸ rfl
  exact (k _ _ (get_wide .s1 .s2 (by decide) 2#8)).trans ((uint16_to_uint8_overflow _).2 (by decide +kernel))

end Hash2

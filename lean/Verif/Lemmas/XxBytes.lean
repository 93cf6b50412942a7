import Verif.Lemmas.Local
import Mathlib.Data.BitVec
import Mathlib.Tactic.Ring
/-
For C78: two consecutive bytes at the end of a message, xxhash_32.
-/
namespace Hash2.XX32L
open Spec

/-- the step for a single byte -/
def step1 (a : BitVec 32) (b : Byte) : BitVec 32 := (a + BitVec.ofNat 32 b.toNat * XXH32.prime5).rotateLeft 11 * XXH32.prime1

/-- d times the prime, as it comes out of the first step -/
def dist (d : Nat) : Nat := d * XXH32.prime5.toNat % 2 ^ 32

/-- what has to be added before the second byte -/
def gap (d e : Nat) : Nat := (2048 * dist d + e) * (XXH32.prime1 * 0xae398151#32).toNat % 2 ^ 32

/-- no difference of two bytes compensates for another -/
theorem gap_big : ∀ d ∈ List.range 255, ∀ e ∈ [0, 1, 2 ^ 32 - 2048, 2 ^ 32 - 2047],
    255 < gap (d + 1) (dist (d + 1) / 2 ^ 21 + e) ∧ gap (d + 1) (dist (d + 1) / 2 ^ 21 + e) < 2 ^ 32 - 255 := by
  decide +kernel

theorem step1_eq : step1 = fun a b => (a + BitVec.ofNat 32 b.toNat * XXH32.prime5).rotateLeft 11 * XXH32.prime1 := rfl

theorem step1_inj' (b : Byte) {s t : BitVec 32} (h : step1 s b = step1 t b) : s = t := by
  unfold step1 at h
  exact step1_inj _ h

theorem step1_inj_byte' (a : BitVec 32) {b b' : Byte} (h : step1 a b = step1 a b') : b = b' := by
  unfold step1 at h
  exact step1_inj_byte a h

theorem rotl11 (x : BitVec 32) : (x.rotateLeft 11).toNat = x.toNat % 2 ^ 21 * 2048 + x.toNat / 2 ^ 21 := by
  rw [BitVec.rotateLeft_def, BitVec.toNat_or, BitVec.toNat_shiftLeft, BitVec.toNat_ushiftRight, Nat.shiftRight_eq_div_pow, Nat.shiftLeft_eq]
  have h := x.isLt
  show x.toNat * 2048 % 2 ^ 32 ||| x.toNat / 2 ^ 21 = _
  have e : x.toNat * 2048 % 2 ^ 32 = (x.toNat % 2 ^ 21) <<< 11 := by rw [Nat.shiftLeft_eq]; omega
  rw [e, ← Nat.shiftLeft_add_eq_or_of_lt (by omega), Nat.shiftLeft_eq]

theorem step_toNat (a p : BitVec 32) {x y d : Nat} (h : x = y + d) :
    (a + BitVec.ofNat 32 x * p).toNat = ((a + BitVec.ofNat 32 y * p).toNat + d * p.toNat % 2 ^ 32) % 2 ^ 32 := by
  subst h
  rw [BitVec.toNat_add, BitVec.toNat_add, BitVec.toNat_mul, BitVec.toNat_mul, BitVec.toNat_ofNat, BitVec.toNat_ofNat]
  generalize p.toNat = q
  rw [Nat.mod_mul_mod, Nat.mod_mul_mod, Nat.add_mul]
  generalize y * q = u
  generalize d * q = v
  omega

theorem two_lt (a : BitVec 32) {b b' c c' : Byte} (hlt : b'.toNat < b.toNat) : step1 (step1 a b) c ≠ step1 (step1 a b') c' := by
  intro h
  unfold step1 at h
  have h := rotl_inj 11 (mul_inj 0xe8b2f51#32 (by decide) h)
  obtain ⟨d, hd⟩ : ∃ d, b.toNat = b'.toNat + (d + 1) := ⟨b.toNat - b'.toNat - 1, by omega⟩
  have hb := b.isLt
  have hx : (a + BitVec.ofNat 32 b.toNat * XXH32.prime5).toNat
      = ((a + BitVec.ofNat 32 b'.toNat * XXH32.prime5).toNat + dist (d + 1)) % 2 ^ 32 := by
    exact step_toNat a _ hd
  have hg := gap_big d (List.mem_range.2 (by omega))
  have hD : dist (d + 1) < 2 ^ 32 := Nat.mod_lt _ (by decide)
  generalize a + BitVec.ofNat 32 b.toNat * XXH32.prime5 = x at *
  generalize a + BitVec.ofNat 32 b'.toNat * XXH32.prime5 = y at *
  have hr : ∃ e ∈ [0, 1, 2 ^ 32 - 2048, 2 ^ 32 - 2047], x.rotateLeft 11 = y.rotateLeft 11 + BitVec.ofNat 32 (2048 * dist (d + 1) + (dist (d + 1) / 2 ^ 21 + e)) := by
    have hy := y.isLt
    have hx' := x.isLt
    have : ∃ e ∈ [0, 1, 2 ^ 32 - 2048, 2 ^ 32 - 2047],
        x.toNat / 2 ^ 21 + 2 ^ 32 = y.toNat / 2 ^ 21 + dist (d + 1) / 2 ^ 21 + e ∨ x.toNat / 2 ^ 21 = y.toNat / 2 ^ 21 + dist (d + 1) / 2 ^ 21 + e := by
      simp only [List.mem_cons, List.not_mem_nil, or_false, exists_eq_or_imp, exists_eq_left]
      omega
    obtain ⟨e, he, h1⟩ := this
    refine ⟨e, he, BitVec.eq_of_toNat_eq ?_⟩
    rw [BitVec.toNat_add, rotl11, rotl11, BitVec.toNat_ofNat]
    rcases h1 with h1 | h1 <;> omega
  obtain ⟨e, he, hr⟩ := hr
  have hg := hg e he
  rw [hr] at h
  have h2 := congrArg (fun z => (z - y.rotateLeft 11 * XXH32.prime1) * 0xae398151#32) h
  have hp : XXH32.prime5 * 0xae398151#32 = 1#32 := by decide
  generalize y.rotateLeft 11 = Y at h2
  have e1 : ((Y + BitVec.ofNat 32 (2048 * dist (d + 1) + (dist (d + 1) / 2 ^ 21 + e))) * XXH32.prime1 + BitVec.ofNat 32 c.toNat * XXH32.prime5 - Y * XXH32.prime1) * 0xae398151#32
      = BitVec.ofNat 32 (2048 * dist (d + 1) + (dist (d + 1) / 2 ^ 21 + e)) * (XXH32.prime1 * 0xae398151#32) + BitVec.ofNat 32 c.toNat := by
    generalize BitVec.ofNat 32 (2048 * dist (d + 1) + (dist (d + 1) / 2 ^ 21 + e)) = G
    generalize BitVec.ofNat 32 c.toNat = C at *
    calc _ = G * (XXH32.prime1 * 0xae398151#32) + C * (XXH32.prime5 * 0xae398151#32) := by ring
      _ = _ := by rw [hp, BitVec.mul_one]
  have e2 : (Y * XXH32.prime1 + BitVec.ofNat 32 c'.toNat * XXH32.prime5 - Y * XXH32.prime1) * 0xae398151#32 = BitVec.ofNat 32 c'.toNat := by
    generalize BitVec.ofNat 32 c'.toNat = C at *
    calc _ = C * (XXH32.prime5 * 0xae398151#32) := by ring
      _ = _ := by rw [hp, BitVec.mul_one]
  rw [e1, e2] at h2
  have h3 := congrArg BitVec.toNat h2
  rw [BitVec.toNat_add, BitVec.toNat_mul, BitVec.toNat_ofNat, Nat.mod_mul_mod, BitVec.toNat_ofNat, BitVec.toNat_ofNat] at h3
  unfold gap at hg
  have hc := c.isLt
  have hc' := c'.isLt
  generalize (2048 * dist (d + 1) + (dist (d + 1) / 2 ^ 21 + e)) * (XXH32.prime1 * 0xae398151#32).toNat % 2 ^ 32 = G at *
  rw [Nat.mod_eq_of_lt (show c.toNat < 2 ^ 32 by omega), Nat.mod_eq_of_lt (show c'.toNat < 2 ^ 32 by omega), Nat.mod_eq_of_lt (show G + c.toNat < 2 ^ 32 by omega)] at h3
  omega

/-- the steps for two bytes are one-to-one in the bytes -/
theorem two_inj (a : BitVec 32) {b b' c c' : Byte} (h : step1 (step1 a b) c = step1 (step1 a b') c') : b = b' ∧ c = c' := by
  have hb : b = b' := by
    rcases Nat.lt_trichotomy b.toNat b'.toNat with h1 | h1 | h1
    · exact absurd h.symm (two_lt a h1)
    · exact BitVec.eq_of_toNat_eq h1
    · exact absurd h (two_lt a h1)
  subst hb
  exact ⟨rfl, step1_inj_byte' _ h⟩

/-- the last bytes of a message -/
theorem steps_window {m m' : List Byte} {i : Nat} (hd : DifferOnlyIn (fun j => i ≤ j ∧ j < i + 2) m m') (a : BitVec 32) :
    m.foldl step1 a ≠ m'.foldl step1 a := by
  intro e
  have cut : ∀ m : List Byte, m = m.take i ++ ((m.drop i).take 2 ++ (m.drop i).drop 2) := fun m => by rw [List.take_append_drop, List.take_append_drop]
  have h1 : m.take i = m'.take i := by
    apply List.ext_getElem?
    intro j
    rw [List.getElem?_take, List.getElem?_take]
    split
    · exact hd.same j (by omega)
    · rfl
  have h3 : (m.drop i).drop 2 = (m'.drop i).drop 2 := by
    apply List.ext_getElem?
    intro j
    rw [List.getElem?_drop, List.getElem?_drop, List.getElem?_drop, List.getElem?_drop]
    exact hd.same _ (by omega)
  have hl : ((m.drop i).take 2).length = ((m'.drop i).take 2).length := by simp only [List.length_take, List.length_drop, hd.length]
  have hl2 : ((m.drop i).take 2).length ≤ 2 := by simp only [List.length_take]; omega
  rw [cut m, cut m'] at e
  simp only [List.foldl_append] at e
  rw [h1, h3] at e
  have e := XX64L.foldl_inj e (fun _ _ _ h => step1_inj' _ h)
  have h2 : (m.drop i).take 2 = (m'.drop i).take 2 := by
    revert e hl hl2
    generalize (m.drop i).take 2 = x
    generalize (m'.drop i).take 2 = y
    intro hl hl2 e
    match x, y, hl, hl2, e with
    | [], [], _, _, _ => rfl
    | [b], [b'], _, _, e => rw [step1_inj_byte' _ e]
    | [b, c], [b', c'], _, _, e =>
      obtain ⟨h1, h2⟩ := two_inj _ e
      rw [h1, h2]
    | _ :: _ :: _ :: _, _, _, h, _ => simp at h
  exact hd.ne (by rw [cut m, cut m', h1, h2, h3])

theorem consume_two {m m' : List Byte} {i : Nat} (hd : DifferOnlyIn (fun j => 4 * (m.length / 4) ≤ j ∧ i ≤ j ∧ j < i + 2) m m') (a : BitVec 32) :
    XXH32.consume a m ≠ XXH32.consume a m' := by
  intro h
  unfold XXH32.consume at h
  simp only [← step1_eq] at h
  obtain ⟨h1, h2⟩ := hd.inRest (N := 4) (by decide) (fun j hj => hj.1)
  rw [h1] at h
  have hex := h2.exists
  exact steps_window (h2.mono (Q := fun j => i - 4 * (m.length / 4) ≤ j ∧ j < i - 4 * (m.length / 4) + 2) fun j _ hj => by omega) _ h

end Hash2.XX32L

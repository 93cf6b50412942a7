import Verif.Spec.Local
import Verif.Lemmas.Distinct
import Verif.Lemmas.Values
/-
Messages that differ in one place only.
-/
namespace Hash2.Spec

theorem foldl_range_ne {α β : Type} {f : α → β → α} (hf : ∀ b x y, f x b = f y b → x = y) (g g' : Nat → β) {i n : Nat} (hi : i < n)
    (hne : ∀ s, f s (g i) ≠ f s (g' i)) (heq : ∀ k, k ≠ i → g k = g' k) (s : α) :
    ((List.range n).map g).foldl f s ≠ ((List.range n).map g').foldl f s := by
  induction n with
  | zero => omega
  | succ n ih =>
    rw [List.range_succ, List.map_append, List.map_append, List.foldl_append, List.foldl_append]
    by_cases h : i = n
    · subst h
      have e : (List.range i).map g = (List.range i).map g' :=
        List.map_congr_left fun k hk => heq k (by rw [List.mem_range] at hk; omega)
      rw [e]
      exact hne _
    · intro e
      simp only [List.map_cons, List.map_nil, List.foldl_cons, List.foldl_nil] at e
      rw [heq n (fun h' => h h'.symm)] at e
      exact ih (by omega) (hf _ _ _ e)

variable {m m' : List Byte}

theorem block_agree {N k : Nat} (hN : 0 < N) (h : ∀ j, j / N = k → m[j]? = m'[j]?) :
    (m.drop (N * k)).take N = (m'.drop (N * k)).take N := by
  apply List.ext_getElem?
  intro j
  rw [List.getElem?_take, List.getElem?_take]
  split
  · rename_i hj
    rw [List.getElem?_drop, List.getElem?_drop]
    exact h _ (by rw [Nat.mul_add_div hN, Nat.div_eq_of_lt hj, Nat.add_zero])
  · rfl

theorem rest_agree {N : Nat} (hl : m.length = m'.length) (h : ∀ j, N * (m.length / N) ≤ j → m[j]? = m'[j]?) : rest N m = rest N m' := by
  unfold rest
  rw [← hl]
  apply List.ext_getElem?
  intro j
  rw [List.getElem?_drop, List.getElem?_drop]
  exact h _ (by omega)

theorem rest_getElem? {N : Nat} (m : List Byte) (j : Nat) : (rest N m)[j]? = m[N * (m.length / N) + j]? := by
  unfold rest
  rw [List.getElem?_drop]

/-- the difference is in a whole block: the others and the rest are the same -/
theorem DifferOnlyIn.block {N i : Nat} (hN : 0 < N) (hd : DifferOnlyIn (fun j => j / N = i) m m') (hi : i < m.length / N) :
    (m.drop (N * i)).take N ≠ (m'.drop (N * i)).take N ∧ rest N m = rest N m' := by
  constructor
  · intro e
    apply hd.ne
    apply List.ext_getElem?
    intro j
    by_cases hj : j / N = i
    · have e := congrArg (fun l => l[j % N]?) e
      simp only [List.getElem?_take, List.getElem?_drop, Nat.mod_lt _ hN, if_true] at e
      rwa [← hj, Nat.div_add_mod] at e
    · exact hd.same j hj
  · refine rest_agree hd.length fun j hj => hd.same j fun e => ?_
    have := Nat.div_mul_le_self j N
    have h2 : m.length / N ≤ j / N := (Nat.le_div_iff_mul_le hN).2 (by rw [Nat.mul_comm]; exact hj)
    omega

/-- the difference is in the rest: the blocks are the same -/
theorem DifferOnlyIn.inRest {N : Nat} {P : Nat → Prop} (hN : 0 < N) (hd : DifferOnlyIn P m m') (hP : ∀ j, P j → N * (m.length / N) ≤ j) :
    blocks N m = blocks N m' ∧ DifferOnlyIn (fun j => P (N * (m.length / N) + j)) (rest N m) (rest N m') := by
  have hb : blocks N m = blocks N m' := by
    unfold blocks
    rw [← hd.length]
    refine List.map_congr_left fun k hk => block_agree hN fun j hj => hd.same j fun e => ?_
    rw [List.mem_range] at hk
    have h2 : m.length / N ≤ j / N := (Nat.le_div_iff_mul_le hN).2 (by rw [Nat.mul_comm]; exact hP j e)
    omega
  refine ⟨hb, ⟨?_, ?_, ?_⟩⟩
  · rw [rest_length, rest_length, hd.length]
  · intro e
    apply hd.ne
    apply List.ext_getElem?
    intro j
    by_cases hj : N * (m.length / N) ≤ j
    · have e := congrArg (fun l => l[j - N * (m.length / N)]?) e
      simp only [rest_getElem?] at e
      rwa [← hd.length, show N * (m.length / N) + (j - N * (m.length / N)) = j by omega] at e
    · exact hd.same j fun h => hj (hP j h)
  · intro j hj
    rw [rest_getElem?, rest_getElem?, ← hd.length]
    exact hd.same _ hj

theorem DifferOnlyIn.mono {P Q : Nat → Prop} (hd : DifferOnlyIn P m m') (h : ∀ j, j < m.length → P j → Q j) : DifferOnlyIn Q m m' := by
  refine ⟨hd.length, hd.ne, fun j hj => ?_⟩
  by_cases hl : j < m.length
  · exact hd.same j fun hp => hj (h j hl hp)
  · rw [List.getElem?_eq_none (by omega), List.getElem?_eq_none (by have := hd.length; omega)]

/-- something differs -/
theorem DifferOnlyIn.exists {P : Nat → Prop} (hd : DifferOnlyIn P m m') : ∃ j, j < m.length ∧ P j := by
  by_contra h
  apply hd.ne
  apply List.ext_getElem?
  intro j
  by_cases hl : j < m.length
  · exact hd.same j fun hp => h ⟨j, hl, hp⟩
  · rw [List.getElem?_eq_none (by omega), List.getElem?_eq_none (by have := hd.length; omega)]

theorem DifferOnlyIn.byte {i : Nat} (hd : DifferOnlyIn (fun j => j = i) m m') :
    ∃ pre x y post, m = pre ++ x :: post ∧ m' = pre ++ y :: post ∧ x ≠ y := by
  obtain ⟨_, hi, rfl⟩ := hd.exists
  rename_i i
  have hi' : i < m'.length := hd.length ▸ hi
  have e1 : m.take i = m'.take i := by
    apply List.ext_getElem?
    intro j
    rw [List.getElem?_take, List.getElem?_take]
    split
    · exact hd.same j (by omega)
    · rfl
  have e2 : m.drop (i + 1) = m'.drop (i + 1) := by
    apply List.ext_getElem?
    intro j
    rw [List.getElem?_drop, List.getElem?_drop]
    exact hd.same _ (by omega)
  have hm : m = m.take i ++ m[i] :: m.drop (i + 1) := by rw [List.getElem_cons_drop, List.take_append_drop]
  have hm' : m' = m.take i ++ m'[i] :: m.drop (i + 1) := by rw [e1, e2, List.getElem_cons_drop, List.take_append_drop]
  exact ⟨_, _, _, _, hm, hm', fun e => hd.ne (by rw [hm, hm', e])⟩

/-- Messages that differ in one block of a block hash all of whose maps are one-to-one -/
theorem one_block {τ R : Type} (T : BlockHash τ R) (hN : 0 < T.N) (hc : ∀ b s t, T.compress s b = T.compress t b → s = t)
    (hb : ∀ s b b', b.length = T.N → b'.length = T.N → T.compress s b = T.compress s b' → b = b')
    (hr : ∀ tail n s t, (T.finish s tail n).2 = (T.finish t tail n).2 → s = t)
    (ht : ∀ s n t t', t.length = t'.length → t.length < T.N → (T.finish s t n).2 = (T.finish s t' n).2 → t = t')
    {i : Nat} (hd : DifferOnlyIn (fun j => j / T.N = i) m m') (st : τ) (n : Nat) :
    (T.finish ((blocks T.N m).foldl T.compress st) (rest T.N m) n).2 ≠
      (T.finish ((blocks T.N m').foldl T.compress st) (rest T.N m') n).2 := by
  by_cases hi : i < m.length / T.N
  · obtain ⟨h1, h2⟩ := hd.block hN hi
    intro e
    rw [h2] at e
    have e := hr _ _ _ _ e
    unfold blocks at e
    rw [← hd.length] at e
    have hlen : ∀ l : List Byte, l.length = m.length → ((l.drop (T.N * i)).take T.N).length = T.N := fun l hl => by
      refine blocks_mem_length (N := T.N) (l := l) ?_
      exact List.mem_map.2 ⟨i, List.mem_range.2 (hl ▸ hi), rfl⟩
    refine foldl_range_ne (hc) _ _ hi (fun s e => h1 (hb s _ _ (hlen m rfl) (hlen m' hd.length.symm) e)) (fun k hk => ?_) st e
    exact block_agree hN fun j hj => hd.same j (by omega)
  · obtain ⟨h1, h2⟩ := hd.inRest (P := fun j => j / T.N = i) hN (fun j hj => by
      have : T.N * (m.length / T.N) ≤ T.N * i := Nat.mul_le_mul_left _ (by omega)
      have := Nat.mul_div_le j T.N
      rw [hj] at this
      omega)
    rw [h1]
    exact fun e => h2.ne (ht _ _ _ _ h2.length (rest_length_lt hN _) e)

end Hash2.Spec

namespace Hash2
open Spec

theorem leWord_inj_same {w : Nat} {bs bs' : List Byte} (hl : bs.length = bs'.length) (hw : 8 * bs.length ≤ w) (e : leWord w bs = leWord w bs') :
    bs = bs' := by
  have e := congrArg BitVec.toNat e
  have hp : ∀ l : List Byte, l.length = bs.length → leNat l < 2 ^ w := fun l h => by
    have := leNat_lt l
    rw [h, show 256 = 2 ^ 8 from rfl, ← Nat.pow_mul] at this
    exact Nat.lt_of_lt_of_le this (Nat.pow_le_pow_right (by decide) hw)
  unfold leWord at e
  rw [BitVec.toNat_ofNat, BitVec.toNat_ofNat, Nat.mod_eq_of_lt (hp _ rfl), Nat.mod_eq_of_lt (hp _ hl.symm)] at e
  exact leNat_inj hl e

namespace MurL
open MURMUR3

theorem scramble_inj {x y : BitVec 32} (h : x86_32.scramble x = x86_32.scramble y) : x = y :=
  mul_inj 0xdee13bb1#32 (by decide) <| rotl_inj 15 <| mul_inj 0x56ed309b#32 (by decide) h

theorem body32_inj_block (h : BitVec 32) {x y : BitVec 32} (e : x86_32.body h x = x86_32.body h y) : x = y :=
  scramble_inj (xor_left_cancel (rotl_inj 13 (mul_inj 0xcccccccd#32 (by decide) ((BitVec.add_left_inj _).1 e))))

theorem finish32_inj_tail (h : BitVec 32) (n : Nat) {t t' : List Byte} (hl : t.length = t'.length) (ht : t.length < 4)
    (e : x86_32.finish h t n = x86_32.finish h t' n) : t = t' :=
  leWord_inj_same hl (by omega) (scramble_inj (xor_left_cancel ((BitVec.xor_left_inj _).1 (fmix32_inj e))))

theorem scramble1_inj {x y : BitVec 64} (h : x64_128.scramble1 x = x64_128.scramble1 y) : x = y :=
  mul_inj 0xa98409e882ce4d7d#64 (by decide) <| rotl_inj 31 <| mul_inj 0xa81e14edd9de2c7f#64 (by decide) h

theorem scramble2_inj {x y : BitVec 64} (h : x64_128.scramble2 x = x64_128.scramble2 y) : x = y :=
  mul_inj 0xa81e14edd9de2c7f#64 (by decide) <| rotl_inj 33 <| mul_inj 0xa98409e882ce4d7d#64 (by decide) h

theorem two_words {t t' : List Byte} (hl : t.length = t'.length) (ht : t.length ≤ 16) (h1 : leWord 64 (t.take 8) = leWord 64 (t'.take 8))
    (h2 : leWord 64 (t.drop 8) = leWord 64 (t'.drop 8)) : t = t' := by
  have e1 := leWord_inj_same (by simp [hl]) (by rw [List.length_take]; omega) h1
  have e2 := leWord_inj_same (by simp [hl]) (by rw [List.length_drop]; omega) h2
  rw [← List.take_append_drop 8 t, e1, e2, List.take_append_drop]

theorem body128_inj_block (s : x64_128.St) {t t' : List Byte} (hl : t.length = t'.length) (ht : t.length ≤ 16)
    (e : x64_128.body s t = x64_128.body s t') : t = t' := by
  simp only [x64_128.body, x64_128.St.mk.injEq] at e
  obtain ⟨h1, h2⟩ := e
  rw [h1] at h2
  have e2 := scramble2_inj (xor_left_cancel (rotl_inj 31 ((BitVec.add_left_inj _).1
    (mul_inj 0xcccccccccccccccd#64 (by decide) ((BitVec.add_left_inj _).1 h2)))))
  have e1 := scramble1_inj (xor_left_cancel (rotl_inj 27 ((BitVec.add_left_inj _).1
    (mul_inj 0xcccccccccccccccd#64 (by decide) ((BitVec.add_left_inj _).1 h1)))))
  exact two_words hl ht e1 e2

theorem finish128_inj_tail (s : x64_128.St) (n : Nat) {t t' : List Byte} (hl : t.length = t'.length) (ht : t.length ≤ 16)
    (h : x64_128.finish s t n = x64_128.finish s t' n) : t = t' := by
  unfold x64_128.finish at h
  simp only at h
  obtain ⟨h1, h2⟩ := two (out_inj h)
  obtain ⟨h1, h2⟩ := two ⟨fmix128_inj h1, fmix128_inj h2⟩
  exact two_words hl ht (scramble1_inj (xor_left_cancel ((BitVec.xor_left_inj _).1 h1)))
    (scramble2_inj (xor_left_cancel ((BitVec.xor_left_inj _).1 h2)))

theorem one_block32 (ctr : Nat) {m m' : List Byte} {i : Nat} (hd : DifferOnlyIn (fun j => j / 4 = i) m m') (st : BitVec 32) (n : Nat) :
    ((x86_32.obj ctr).finish ((blocks 4 m).foldl (x86_32.obj ctr).compress st) (rest 4 m) n).2 ≠
      ((x86_32.obj ctr).finish ((blocks 4 m').foldl (x86_32.obj ctr).compress st) (rest 4 m') n).2 :=
  one_block (x86_32.obj ctr) (show 0 < 4 by decide) (fun _ _ _ h => body32_inj _ h)
    (fun _ _ _ hl hl' h => leWord_inj_same (hl.trans hl'.symm) (by rw [hl]; exact (show 8 * 4 ≤ 32 by decide)) (body32_inj_block _ h))
    (fun _ _ _ _ h => finish32_inj _ _ h) (fun _ _ _ _ hl ht h => finish32_inj_tail _ _ hl ht h) hd st n

theorem one_block128 (ctr : Nat) {m m' : List Byte} {i : Nat} (hd : DifferOnlyIn (fun j => j / 16 = i) m m') (st : x64_128.St) (n : Nat) :
    ((x64_128.obj ctr).finish ((blocks 16 m).foldl (x64_128.obj ctr).compress st) (rest 16 m) n).2 ≠
      ((x64_128.obj ctr).finish ((blocks 16 m').foldl (x64_128.obj ctr).compress st) (rest 16 m') n).2 :=
  one_block (x64_128.obj ctr) (show 0 < 16 by decide) (fun _ _ _ h => body128_inj _ h)
    (fun _ _ _ hl hl' h => body128_inj_block _ (hl.trans hl'.symm) (by rw [hl]; exact (show 16 ≤ 16 by decide)) h)
    (fun _ _ _ _ h => finish128_inj _ _ h) (fun _ _ _ _ hl ht h => finish128_inj_tail _ _ hl (Nat.le_of_lt ht) h) hd st n

end MurL

/-- words of N bytes, then what is left: the change is in one of the words -/
theorem consume_block {α : Type} {N : Nat} (hN : 0 < N) {f : α → List Byte → α} {m m' : List Byte} {i : Nat}
    (hf : ∀ b s t, f s b = f t b → s = t) (hb : ∀ s b b', b.length = N → b'.length = N → f s b = f s b' → b = b')
    (hd : DifferOnlyIn (fun j => j / N = i) m m') (hi : i < m.length / N) (a : α) :
    (blocks N m).foldl f a ≠ (blocks N m').foldl f a := by
  obtain ⟨h1, _⟩ := hd.block hN hi
  unfold blocks
  rw [← hd.length]
  have hlen : ∀ l : List Byte, l.length = m.length → ((l.drop (N * i)).take N).length = N := fun l hl => by
    refine blocks_mem_length (N := N) (l := l) ?_
    exact List.mem_map.2 ⟨i, List.mem_range.2 (hl ▸ hi), rfl⟩
  refine foldl_range_ne hf _ _ hi (fun s e => h1 (hb s _ _ (hlen m rfl) (hlen m' hd.length.symm) e)) (fun k hk => ?_) a
  exact block_agree hN fun j hj => hd.same j (by omega)

theorem consume_block' {α : Type} {N : Nat} {f : α → List Byte → α} {m m' : List Byte} {a : α} (e : (blocks N m).foldl f a = (blocks N m').foldl f a)
    (hN : 0 < N) {i : Nat}
    (hf : ∀ b s t, f s b = f t b → s = t) (hb : ∀ s b b', b.length = N → b'.length = N → f s b = f s b' → b = b')
    (hd : DifferOnlyIn (fun j => j / N = i) m m') (hi : i < m.length / N) : False :=
  consume_block hN hf hb hd hi a e

theorem consume_byte {α : Type} {f : α → Byte → α} {m m' : List Byte} {i : Nat}
    (hf : ∀ b s t, f s b = f t b → s = t) (hb : ∀ s b b', f s b = f s b' → b = b')
    (hd : DifferOnlyIn (fun j => j = i) m m') (a : α) : m.foldl f a ≠ m'.foldl f a := by
  obtain ⟨pre, x, y, post, rfl, rfl, h⟩ := hd.byte
  intro e
  rw [List.foldl_append, List.foldl_append, List.foldl_cons, List.foldl_cons] at e
  exact h (hb _ _ _ (XX64L.foldl_inj e hf))

theorem consume_byte' {α : Type} {f : α → Byte → α} {m m' : List Byte} {a : α} (e : m.foldl f a = m'.foldl f a) {i : Nat}
    (hf : ∀ b s t, f s b = f t b → s = t) (hb : ∀ s b b', f s b = f s b' → b = b')
    (hd : DifferOnlyIn (fun j => j = i) m m') : False := consume_byte hf hb hd a e

theorem byte_word_inj {w : Nat} (hw : 8 ≤ w) {b b' : Byte} (e : BitVec.ofNat w b.toNat = BitVec.ofNat w b'.toNat) : b = b' := by
  have e := congrArg BitVec.toNat e
  rw [BitVec.toNat_ofNat, BitVec.toNat_ofNat] at e
  have hp : 2 ^ 8 ≤ 2 ^ w := Nat.pow_le_pow_right (by decide) hw
  have := b.isLt; have := b'.isLt
  rw [Nat.mod_eq_of_lt (by omega), Nat.mod_eq_of_lt (by omega)] at e
  exact BitVec.eq_of_toNat_eq e

/-- where a change in one unit is, seen from the words of 4 bytes -/
theorem unit4_cases {len : Nat} {u : Nat × Nat} (h : ∃ j, j < len ∧ unit4 len j = u) :
    (∃ i, i < len / 4 ∧ ∀ j, j < len → unit4 len j = u → j / 4 = i) ∨
      (∃ i, 4 * (len / 4) ≤ i ∧ ∀ j, j < len → unit4 len j = u → j = i) := by
  obtain ⟨j, hj, rfl⟩ := h
  unfold unit4
  split
  · left
    refine ⟨j / 4, by omega, fun k _ hk => ?_⟩
    split at hk <;> simp_all
  · right
    refine ⟨j, by omega, fun k _ hk => ?_⟩
    split at hk <;> simp_all

theorem unit8_cases {len : Nat} {u : Nat × Nat} (h : ∃ j, j < len ∧ unit8 len j = u) :
    (∃ i, i < len / 8 ∧ ∀ j, j < len → unit8 len j = u → j / 8 = i) ∨
      (∃ v, ∀ j, j < len → unit8 len j = u → 8 * (len / 8) ≤ j ∧ unit4 (len % 8) (j - 8 * (len / 8)) = v) := by
  obtain ⟨j, hj, rfl⟩ := h
  by_cases h8 : j < 8 * (len / 8)
  · left
    refine ⟨j / 8, by omega, fun k _ hk => ?_⟩
    simp only [unit8, if_pos h8] at hk
    split at hk
    · simp_all
    · split at hk <;> simp_all
  · right
    refine ⟨unit4 (len % 8) (j - 8 * (len / 8)), fun k hkl hk => ?_⟩
    have h4 : ∀ k, 8 * (len / 8) ≤ k → (k - 8 * (len / 8) < 4 * (len % 8 / 4) ↔ k < 4 * (len / 4)) := fun k hk => by omega
    simp only [unit8, if_neg h8] at hk
    by_cases k8 : k < 8 * (len / 8)
    · rw [if_pos k8] at hk
      split at hk <;> simp_all
    · refine ⟨by omega, ?_⟩
      rw [if_neg k8] at hk
      simp only [unit4, h4 k (by omega), h4 j (by omega)]
      split <;> split <;> simp_all <;> omega

namespace XX32L

theorem step4_inj_block (a : BitVec 32) {b b' : List Byte} (hl : b.length = 4) (hl' : b'.length = 4)
    (h : (a + leWord 32 b * XXH32.prime3).rotateLeft 17 * XXH32.prime4 = (a + leWord 32 b' * XXH32.prime3).rotateLeft 17 * XXH32.prime4) : b = b' :=
  leWord_inj_same (hl.trans hl'.symm) (by rw [hl]) (mul_inj 0xa89ed915#32 (by decide) ((BitVec.add_right_inj _).1
    (rotl_inj 17 (mul_inj 0xa0fe3bcf#32 (by decide) h))))

theorem step1_inj_byte (a : BitVec 32) {b b' : Byte}
    (h : (a + BitVec.ofNat 32 b.toNat * XXH32.prime5).rotateLeft 11 * XXH32.prime1
      = (a + BitVec.ofNat 32 b'.toNat * XXH32.prime5).rotateLeft 11 * XXH32.prime1) : b = b' :=
  byte_word_inj (by decide) (mul_inj 0xae398151#32 (by decide) ((BitVec.add_right_inj _).1
    (rotl_inj 11 (mul_inj 0xe8b2f51#32 (by decide) h))))

theorem consume_unit {m m' : List Byte} {u : Nat × Nat} (hd : DifferOnlyIn (fun j => unit4 m.length j = u) m m') (a : BitVec 32) :
    XXH32.consume a m ≠ XXH32.consume a m' := by
  intro h
  unfold XXH32.consume at h
  simp only at h
  rcases unit4_cases hd.exists with ⟨i, hi, hu⟩ | ⟨i, hi, hu⟩
  · have hd := hd.mono hu
    rw [(hd.block (by decide) hi).2] at h
    have h := XX64L.foldl_inj h (fun _ _ _ h => step1_inj _ h)
    exact consume_block' h (by decide) (fun _ _ _ h => step4_inj _ h) (fun _ _ _ hl hl' h => step4_inj_block _ hl hl' h) hd hi
  · have hd := (hd.mono hu)
    obtain ⟨h1, h2⟩ := hd.inRest (N := 4) (by decide) (fun j hj => by omega)
    rw [h1] at h
    exact consume_byte' h (fun _ _ _ h => step1_inj _ h) (fun _ _ _ h => step1_inj_byte _ h)
      (h2.mono (Q := fun j => j = i - 4 * (m.length / 4)) fun j _ hj => by omega)

end XX32L

namespace XX64L

theorem step8_inj_block (a : BitVec 64) {b b' : List Byte} (hl : b.length = 8) (hl' : b'.length = 8)
    (h : (a ^^^ XXH64.round 0 (leWord 64 b)).rotateLeft 27 * XXH64.prime1 + XXH64.prime4
      = (a ^^^ XXH64.round 0 (leWord 64 b')).rotateLeft 27 * XXH64.prime1 + XXH64.prime4) : b = b' :=
  leWord_inj_same (hl.trans hl'.symm) (by rw [hl]) (mul_inj 0xba79078168d4baf#64 (by decide) ((BitVec.add_right_inj _).1
    (rotl_inj 31 (mul_inj 0x887493432badb37#64 (by decide) (xor_left_cancel
    (rotl_inj 27 (mul_inj 0x887493432badb37#64 (by decide) ((BitVec.add_left_inj _).1 h))))))))

theorem step4_inj_block (a : BitVec 64) {b b' : List Byte} (hl : b.length = 4) (hl' : b'.length = 4)
    (h : (a ^^^ leWord 64 b * XXH64.prime1).rotateLeft 23 * XXH64.prime2 + XXH64.prime3
      = (a ^^^ leWord 64 b' * XXH64.prime1).rotateLeft 23 * XXH64.prime2 + XXH64.prime3) : b = b' :=
  leWord_inj_same (hl.trans hl'.symm) (by rw [hl]; decide) (mul_inj 0x887493432badb37#64 (by decide) (xor_left_cancel
    (rotl_inj 23 (mul_inj 0xba79078168d4baf#64 (by decide) ((BitVec.add_left_inj _).1 h)))))

theorem step1_inj_byte (a : BitVec 64) {b b' : Byte}
    (h : (a ^^^ BitVec.ofNat 64 b.toNat * XXH64.prime5).rotateLeft 11 * XXH64.prime1
      = (a ^^^ BitVec.ofNat 64 b'.toNat * XXH64.prime5).rotateLeft 11 * XXH64.prime1) : b = b' :=
  byte_word_inj (by decide) (mul_inj 0xc592c09fdfba7f0d#64 (by decide) (xor_left_cancel
    (rotl_inj 11 (mul_inj 0x887493432badb37#64 (by decide) h))))

theorem consume_unit {m m' : List Byte} {u : Nat × Nat} (hd : DifferOnlyIn (fun j => unit8 m.length j = u) m m') (a : BitVec 64) :
    XXH64.consume a m ≠ XXH64.consume a m' := by
  intro h
  unfold XXH64.consume at h
  simp only at h
  rcases unit8_cases hd.exists with ⟨i, hi, hu⟩ | ⟨v, hu⟩
  · have hd := hd.mono hu
    rw [(hd.block (by decide) hi).2] at h
    have h := foldl_inj h (fun _ _ _ h => step1_inj _ h)
    have h := foldl_inj h (fun _ _ _ h => step4_inj _ h)
    exact consume_block' h (by decide) (fun _ _ _ h => step8_inj _ h) (fun _ _ _ hl hl' h => step8_inj_block _ hl hl' h) hd hi
  · have hd := hd.mono hu
    obtain ⟨h1, h2⟩ := hd.inRest (N := 8) (by decide) (fun j hj => hj.1)
    rw [h1] at h
    have h2 := h2.mono (Q := fun j => unit4 (rest 8 m).length j = v) fun j _ hj => by
      rw [rest_length]
      have := hj.2
      rwa [Nat.add_sub_cancel_left] at this
    rcases unit4_cases h2.exists with ⟨i, hi, hu⟩ | ⟨i, hi, hu⟩
    · have hd := h2.mono hu
      rw [(hd.block (by decide) hi).2] at h
      have h := foldl_inj h (fun _ _ _ h => step1_inj _ h)
      exact consume_block' h (by decide) (fun _ _ _ h => step4_inj _ h) (fun _ _ _ hl hl' h => step4_inj_block _ hl hl' h) hd hi
    · have hd := h2.mono hu
      obtain ⟨h1, h2⟩ := hd.inRest (N := 4) (by decide) (fun j hj => by omega)
      rw [h1] at h
      exact consume_byte' h (fun _ _ _ h => step1_inj _ h) (fun _ _ _ h => step1_inj_byte _ h)
        (h2.mono (Q := fun j => j = i - 4 * ((rest 8 m).length / 4)) fun j _ hj => by omega)

end XX64L
end Hash2

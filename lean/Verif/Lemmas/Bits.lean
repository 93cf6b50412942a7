import Verif.Lemmas.Standards
/-
The round functions are injective in the state.
-/
namespace Hash2
open Spec

theorem rotl_inj {w : Nat} {x y : BitVec w} (r : Nat) (h : x.rotateLeft r = y.rotateLeft r) : x = y := by
  apply BitVec.eq_of_getElem_eq
  intro j hj
  have hr : r % w < w := Nat.mod_lt _ (by omega)
  by_cases hc : j + r % w < w
  · have := congrArg (fun b => b[j + r % w]) h
    simp only [BitVec.getElem_rotateLeft] at this
    rw [dif_neg (by omega), dif_neg (by omega)] at this
    simpa using this
  · have := congrArg (fun b => b[j + r % w - w]) h
    simp only [BitVec.getElem_rotateLeft] at this
    rw [dif_pos (by omega), dif_pos (by omega)] at this
    simpa [show w - r % w + (j + r % w - w) = j by omega] using this

theorem mul_inj {w : Nat} {x y c : BitVec w} (c' : BitVec w) (hc : c * c' = 1#w) (h : x * c = y * c) : x = y := by
  have := congrArg (· * c') h
  simpa [BitVec.mul_assoc, hc] using this

theorem xorshift_inj {w : Nat} {x y : BitVec w} (k : Nat) (hk : 0 < k) (h : x ^^^ (x >>> k) = y ^^^ (y >>> k)) : x = y := by
  have hd : (x ^^^ y) = (x ^^^ y) >>> k := by
    rw [BitVec.ushiftRight_xor_distrib]
    have h2 : x ^^^ (x >>> k) ^^^ (y ^^^ (y >>> k)) = 0#w := by rw [h, BitVec.xor_self]
    have h3 : (x ^^^ y) ^^^ (x >>> k ^^^ y >>> k) = 0#w := by
      rw [← h2]
      ac_rfl
    exact BitVec.xor_eq_zero_iff.1 h3
  have hz : (x ^^^ y).toNat = 0 := by
    have := congrArg BitVec.toNat hd
    rw [BitVec.toNat_ushiftRight, Nat.shiftRight_eq_div_pow] at this
    by_contra h0
    have := Nat.div_lt_self (Nat.pos_of_ne_zero h0) (show 1 < 2 ^ k from Nat.one_lt_two_pow (by omega))
    omega
  have : x ^^^ y = 0#w := BitVec.eq_of_toNat_eq (by simpa using hz)
  exact BitVec.xor_eq_zero_iff.1 this

/-! ### SipHash -/

namespace SIPL
variable {w : Nat} (V : SIP.Variant w)

theorem sipRound_inj {s t : SIP.St w} (h : SIP.sipRound V s = SIP.sipRound V t) : s = t := by
  obtain ⟨a, b, c, d⟩ := s
  obtain ⟨a', b', c', d'⟩ := t
  simp only [SIP.sipRound, SIP.St.mk.injEq] at h
  obtain ⟨h0, h1, h2, h3⟩ := h
  have i2 := rotl_inj _ h2
  rw [i2] at h1
  have i1 := rotl_inj _ ((BitVec.xor_left_inj _).1 h1)
  rw [h0] at h3
  have i3 := rotl_inj _ ((BitVec.xor_left_inj _).1 h3)
  rw [i3] at h0
  have i0 := rotl_inj _ ((BitVec.add_left_inj _).1 h0)
  rw [i1] at i2
  have j2 := (BitVec.add_left_inj _).1 i2
  rw [i0] at i1
  have e1 := rotl_inj _ ((BitVec.xor_left_inj _).1 i1)
  rw [j2] at i3
  have e3 := rotl_inj _ ((BitVec.xor_left_inj _).1 i3)
  rw [e1] at i0
  rw [e3] at j2
  rw [(BitVec.add_left_inj _).1 i0, (BitVec.add_left_inj _).1 j2, e1, e3]

theorem compress_inj (m : BitVec w) {s t : SIP.St w} (h : SIP.compress V s m = SIP.compress V t m) : s = t := by
  unfold SIP.compress at h
  simp only at h
  generalize hx : SIP.sipRound V (SIP.sipRound V { s with v3 := s.v3 ^^^ m }) = x at h
  generalize hy : SIP.sipRound V (SIP.sipRound V { t with v3 := t.v3 ^^^ m }) = y at h
  have hxy : x = y := by
    obtain ⟨x0, x1, x2, x3⟩ := x
    obtain ⟨y0, y1, y2, y3⟩ := y
    simp only [SIP.St.mk.injEq, BitVec.xor_left_inj] at h
    obtain ⟨rfl, rfl, rfl, rfl⟩ := h
    rfl
  rw [← hx, ← hy] at hxy
  have := sipRound_inj V (sipRound_inj V hxy)
  obtain ⟨a, b, c, d⟩ := s
  obtain ⟨a', b', c', d'⟩ := t
  simp only [SIP.St.mk.injEq, BitVec.xor_left_inj] at this
  obtain ⟨rfl, rfl, rfl, rfl⟩ := this
  rfl

theorem finalize_inj {s t : SIP.St w} (h : SIP.finalize V s = SIP.finalize V t) : s = t := by
  unfold SIP.finalize at h
  have := sipRound_inj V (sipRound_inj V (sipRound_inj V (sipRound_inj V h)))
  obtain ⟨a, b, c, d⟩ := s
  obtain ⟨a', b', c', d'⟩ := t
  simp only [SIP.St.mk.injEq, BitVec.xor_left_inj] at this
  obtain ⟨rfl, rfl, rfl, rfl⟩ := this
  rfl

end SIPL

/-! ### xxHash -/

namespace XX64L

theorem round_inj (l : BitVec 64) {x y : BitVec 64} (h : XXH64.round x l = XXH64.round y l) : x = y :=
  (BitVec.add_left_inj _).1 (rotl_inj 31 (mul_inj 0x887493432badb37#64 (by decide) h))

theorem stripe_inj (b : List Byte) {s t : Acc4 64} (h : XXH64.stripe s b = XXH64.stripe t b) : s = t := by
  obtain ⟨a1, a2, a3, a4⟩ := s
  obtain ⟨b1, b2, b3, b4⟩ := t
  simp only [XXH64.stripe, Acc4.mk.injEq] at h
  obtain ⟨h1, h2, h3, h4⟩ := h
  rw [round_inj _ h1, round_inj _ h2, round_inj _ h3, round_inj _ h4]

theorem avalanche_inj {x y : BitVec 64} (h : XXH64.avalanche x = XXH64.avalanche y) : x = y :=
  xorshift_inj 33 (by decide) <| mul_inj 0xba79078168d4baf#64 (by decide) <| xorshift_inj 29 (by decide) <|
    mul_inj 0xe9e9f4c41d6df849#64 (by decide) <| xorshift_inj 32 (by decide) h

theorem foldl_inj {α β : Type} {f : α → β → α} {l : List β} {x y : α}
    (h : l.foldl f x = l.foldl f y) (hf : ∀ b x y, f x b = f y b → x = y) : x = y := by
  induction l generalizing x y with
  | nil => exact h
  | cons b l ih => exact hf _ _ _ (ih h)

theorem step1_inj (z : BitVec 64) {x y : BitVec 64}
    (h : (x ^^^ z).rotateLeft 11 * XXH64.prime1 = (y ^^^ z).rotateLeft 11 * XXH64.prime1) : x = y :=
  (BitVec.xor_left_inj _).1 (rotl_inj 11 (mul_inj 0x887493432badb37#64 (by decide) h))

theorem step4_inj (z : BitVec 64) {x y : BitVec 64}
    (h : (x ^^^ z).rotateLeft 23 * XXH64.prime2 + XXH64.prime3 = (y ^^^ z).rotateLeft 23 * XXH64.prime2 + XXH64.prime3) : x = y :=
  (BitVec.xor_left_inj _).1 (rotl_inj 23 (mul_inj 0xba79078168d4baf#64 (by decide) ((BitVec.add_left_inj _).1 h)))

theorem step8_inj (z : BitVec 64) {x y : BitVec 64}
    (h : (x ^^^ z).rotateLeft 27 * XXH64.prime1 + XXH64.prime4 = (y ^^^ z).rotateLeft 27 * XXH64.prime1 + XXH64.prime4) : x = y :=
  (BitVec.xor_left_inj _).1 (rotl_inj 27 (mul_inj 0x887493432badb37#64 (by decide) ((BitVec.add_left_inj _).1 h)))

theorem consume_inj (r : List Byte) {x y : BitVec 64} (h : XXH64.consume x r = XXH64.consume y r) : x = y := by
  unfold XXH64.consume at h
  simp only at h
  have h := foldl_inj h (fun _ _ _ h => step1_inj _ h)
  have h := foldl_inj h (fun _ _ _ h => step4_inj _ h)
  exact foldl_inj h (fun _ _ _ h => step8_inj _ h)

/-- short messages: the seed determines the hash and is determined by it -/
theorem short_inj {msg : List Byte} (hm : msg.length < 32) {k k' : BitVec 64} (h : XXH64.hash k msg = XXH64.hash k' msg) : k = k' := by
  unfold XXH64.hash at h
  simp only [if_pos hm] at h
  exact (BitVec.add_left_inj _).1 ((BitVec.add_left_inj _).1 (consume_inj _ (avalanche_inj h)))

end XX64L

namespace XX32L

theorem round_inj (l : BitVec 32) {x y : BitVec 32} (h : XXH32.round x l = XXH32.round y l) : x = y :=
  (BitVec.add_left_inj _).1 (rotl_inj 13 (mul_inj 0xe8b2f51#32 (by decide) h))

theorem stripe_inj (b : List Byte) {s t : Acc4 32} (h : XXH32.stripe s b = XXH32.stripe t b) : s = t := by
  obtain ⟨a1, a2, a3, a4⟩ := s
  obtain ⟨b1, b2, b3, b4⟩ := t
  simp only [XXH32.stripe, Acc4.mk.injEq] at h
  obtain ⟨h1, h2, h3, h4⟩ := h
  rw [round_inj _ h1, round_inj _ h2, round_inj _ h3, round_inj _ h4]

theorem avalanche_inj {x y : BitVec 32} (h : XXH32.avalanche x = XXH32.avalanche y) : x = y :=
  xorshift_inj 15 (by decide) <| mul_inj 0xb6c92f47#32 (by decide) <| xorshift_inj 13 (by decide) <|
    mul_inj 0xa89ed915#32 (by decide) <| xorshift_inj 16 (by decide) h

theorem step1_inj (z : BitVec 32) {x y : BitVec 32}
    (h : (x + z).rotateLeft 11 * XXH32.prime1 = (y + z).rotateLeft 11 * XXH32.prime1) : x = y :=
  (BitVec.add_left_inj _).1 (rotl_inj 11 (mul_inj 0xe8b2f51#32 (by decide) h))

theorem step4_inj (z : BitVec 32) {x y : BitVec 32}
    (h : (x + z).rotateLeft 17 * XXH32.prime4 = (y + z).rotateLeft 17 * XXH32.prime4) : x = y :=
  (BitVec.add_left_inj _).1 (rotl_inj 17 (mul_inj 0xa0fe3bcf#32 (by decide) h))

theorem consume_inj (r : List Byte) {x y : BitVec 32} (h : XXH32.consume x r = XXH32.consume y r) : x = y := by
  unfold XXH32.consume at h
  simp only at h
  have h := XX64L.foldl_inj h (fun _ _ _ h => step1_inj _ h)
  exact XX64L.foldl_inj h (fun _ _ _ h => step4_inj _ h)

theorem short_inj {msg : List Byte} (hm : msg.length < 16) {k k' : BitVec 32} (h : XXH32.hash k msg = XXH32.hash k' msg) : k = k' := by
  unfold XXH32.hash at h
  simp only [if_pos hm] at h
  exact (BitVec.add_left_inj _).1 ((BitVec.add_left_inj _).1 (consume_inj _ (avalanche_inj h)))

end XX32L

/-! ### MurmurHash3 -/

namespace MurL
open MURMUR3

theorem body32_inj (k : BitVec 32) {x y : BitVec 32} (h : x86_32.body x k = x86_32.body y k) : x = y :=
  (BitVec.xor_left_inj _).1 (rotl_inj 13 (mul_inj 0xcccccccd#32 (by decide) ((BitVec.add_left_inj _).1 h)))

theorem fmix32_inj {x y : BitVec 32} (h : x86_32.fmix x = x86_32.fmix y) : x = y :=
  xorshift_inj 16 (by decide) <| mul_inj 0xa5cb9243#32 (by decide) <| xorshift_inj 13 (by decide) <|
    mul_inj 0x7ed1b41d#32 (by decide) <| xorshift_inj 16 (by decide) h

theorem finish32_inj (tail : List Byte) (n : Nat) {x y : BitVec 32} (h : x86_32.finish x tail n = x86_32.finish y tail n) : x = y :=
  (BitVec.xor_left_inj _).1 ((BitVec.xor_left_inj _).1 (fmix32_inj h))

theorem body128_inj (b : List Byte) {s t : x64_128.St} (h : x64_128.body s b = x64_128.body t b) : s = t := by
  obtain ⟨a, c⟩ := s
  obtain ⟨a', c'⟩ := t
  simp only [x64_128.body, x64_128.St.mk.injEq] at h
  obtain ⟨h1, h2⟩ := h
  rw [h1] at h2
  have e2 := (BitVec.xor_left_inj _).1 (rotl_inj 31 ((BitVec.add_left_inj _).1
    (mul_inj 0xcccccccccccccccd#64 (by decide) ((BitVec.add_left_inj _).1 h2))))
  subst e2
  have e1 := (BitVec.xor_left_inj _).1 (rotl_inj 27 ((BitVec.add_left_inj _).1
    (mul_inj 0xcccccccccccccccd#64 (by decide) ((BitVec.add_left_inj _).1 h1))))
  subst e1
  rfl

theorem fmix128_inj {x y : BitVec 64} (h : x64_128.fmix x = x64_128.fmix y) : x = y :=
  xorshift_inj 33 (by decide) <| mul_inj 0x4f74430c22a54005#64 (by decide) <| xorshift_inj 33 (by decide) <|
    mul_inj 0x9cb4b2f8129337db#64 (by decide) <| xorshift_inj 33 (by decide) h

theorem natLE8_inj {x y : BitVec 64} (h : natLE 8 x.toNat = natLE 8 y.toNat) : x = y := by
  exact BitVec.eq_of_toNat_eq (natLE_inj (by have := x.isLt; omega) (by have := y.isLt; omega) h)

theorem out_inj {a b a' b' : BitVec 64} (h : natLE 8 a.toNat ++ natLE 8 b.toNat = natLE 8 a'.toNat ++ natLE 8 b'.toNat) :
    a = a' ∧ b = b' := by
  obtain ⟨h1, h2⟩ := List.append_inj h (by simp [natLE_length])
  exact ⟨natLE8_inj h1, natLE8_inj h2⟩

theorem two {x y x' y' : BitVec 64} (h : x + y = x' + y' ∧ y + (x + y) = y' + (x' + y')) : x = x' ∧ y = y' := by
  obtain ⟨h1, h2⟩ := h
  rw [h1] at h2
  have e := (BitVec.add_left_inj _).1 h2
  subst e
  exact ⟨(BitVec.add_left_inj _).1 h1, rfl⟩

theorem finish128_inj (tail : List Byte) (n : Nat) {s t : x64_128.St} (h : x64_128.finish s tail n = x64_128.finish t tail n) : s = t := by
  unfold x64_128.finish at h
  simp only at h
  obtain ⟨h1, h2⟩ := two (out_inj h)
  obtain ⟨h1, h2⟩ := two ⟨fmix128_inj h1, fmix128_inj h2⟩
  have e1 := (BitVec.xor_left_inj _).1 ((BitVec.xor_left_inj _).1 h1)
  have e2 := (BitVec.xor_left_inj _).1 ((BitVec.xor_left_inj _).1 h2)
  cases s
  cases t
  cases e1
  cases e2
  rfl

end MurL

/-! ### SpookyHash -/

namespace SpookyL
open SPOOKY

theorem put_inj {n : Nat} (i j : Fin n) (hij : i ≠ j) (g : Word → Word → Word) (hg : ∀ z x y, g x z = g y z → x = y) {s t : Words n}
    (h : put s i (g (s i) (s j)) = put t i (g (t i) (t j))) : s = t := by
  have hj : ∀ k, k ≠ i → s k = t k := by
    intro k hk
    have := congrFun h k
    simpa [put, hk] using this
  funext k
  by_cases hk : k = i
  · subst hk
    have := congrFun h k
    simp only [put, if_pos] at this
    rw [hj j (Ne.symm hij)] at this
    exact hg _ _ _ this
  · exact hj k hk

theorem put_inj1 {n : Nat} (i : Fin n) (g : Word → Word) (hg : ∀ x y, g x = g y → x = y) {s t : Words n}
    (h : put s i (g (s i)) = put t i (g (t i))) : s = t := by
  funext k
  by_cases hk : k = i
  · subst hk
    have := congrFun h k
    simp only [put, if_pos] at this
    exact hg _ _ this
  · have := congrFun h k
    simpa [put, hk] using this

theorem idx1 : ∀ i : Fin 12, i + 11 ≠ i + 1 := by decide
theorem idx2 : ∀ i : Fin 12, i + 11 ≠ i := by decide
theorem idx3 : ∀ i : Fin 12, i + 2 ≠ i + 10 := by decide

theorem mixStep_inj (r : Nat) (d : Word) (i : Fin 12) {s t : Words 12} (h : mixStep r d i s = mixStep r d i t) : s = t := by
  unfold mixStep at h
  simp only at h
  have h := put_inj (i + 11) (i + 1) (idx1 i) (· + ·) (fun z x y h => (BitVec.add_left_inj _).1 h) h
  have h := put_inj1 i (·.rotateLeft r) (fun x y h => rotl_inj r h) h
  have h := put_inj (i + 11) i (idx2 i) (· ^^^ ·) (fun z x y h => (BitVec.xor_left_inj _).1 h) h
  have h := put_inj (i + 2) (i + 10) (idx3 i) (· ^^^ ·) (fun z x y h => (BitVec.xor_left_inj _).1 h) h
  exact put_inj1 i (· + d) (fun x y h => (BitVec.add_left_inj _).1 h) h

theorem mix_inj (b : List Byte) {s t : Words 12} (h : mix s b = mix t b) : s = t := by
  unfold mix at h
  exact XX64L.foldl_inj h (fun _ _ _ h => mixStep_inj _ _ _ h)

end SpookyL

end Hash2

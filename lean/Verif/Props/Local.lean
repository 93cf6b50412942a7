import Verif.Lemmas.Local
import Verif.Lemmas.Messages
import Verif.Spec.Platforms
import Verif.Props.HashAppend
/-
C42: a change in one place is always noticed. For the hash functions built from one-to-one steps, two messages of the same length
that differ only in one byte (FNV-1a), only in one block (MurmurHash3), only in one word of the last, incomplete stripe (xxHash)
do not just probably have different hash values: they have, for every seed. In particular two different integers of up to four or
eight bytes never collide.
-/
namespace Hash2
open Spec

/-- both runs end with a result, and the results are different -/
def AlgName.TellsApart (a : AlgName) (env : Env) (c : Ctor) (ops ops' : List Op) : Prop :=
  ∃ x y : a.impl.R, a.impl.exec env c (ops ++ [.result]) = .ok [x] ∧ a.impl.exec env c (ops' ++ [.result]) = .ok [y] ∧ x ≠ y

theorem AlgName.tellsApart {a : AlgName} {env : Env} {c : Ctor} {ops ops' : List Op} {m m' : List Byte} (hc : c.Valid)
    (h : stream ops = some (m.map .data)) (h' : stream ops' = some (m'.map .data)) (hn : a.NullOk env)
    (hr : a.Room env c (m.map .data ++ [.fin])) (hr' : a.Room env c (m'.map .data ++ [.fin]))
    (hne : (a.machine env.sizeBits).value (c.start (a.machine env.sizeBits)) m
      ≠ (a.machine env.sizeBits).value (c.start (a.machine env.sizeBits)) m') : a.TellsApart env c ops ops' :=
  ⟨_, _, AlgName.exec_message hc h (.inl hn) hr, AlgName.exec_message hc h' (.inl hn) hr', hne⟩

/-! ### every constructor leaves an object with no incomplete block -/

theorem mur32_start_tail (ctr : Nat) (c : Ctor) : (show Obj (BitVec 32) from c.start (MURMUR3.x86_32.machine ctr)).tail = [] := by
  cases c with
  | default => rfl
  | seed k => rfl
  | bytes p n =>
    show (if (p.bytes n).length ≤ 4 then _ else _ : Obj (BitVec 32)).tail = []
    split <;> rfl

theorem mur128_start_tail (ctr : Nat) (c : Ctor) :
    (show Obj MURMUR3.x64_128.St from c.start (MURMUR3.x64_128.machine ctr)).tail = [] := by
  cases c with
  | default => rfl
  | seed k => rfl
  | bytes p n =>
    show (if (p.bytes n).length ≤ 8 then _ else if (p.bytes n).length ≤ 16 then _ else _ : Obj MURMUR3.x64_128.St).tail = []
    split
    · rfl
    · split <;> rfl

theorem xx64_start_tail (c : Ctor) : (show Obj (Acc4 64) from c.start XXH64.machine).tail = [] := by
  cases c with
  | default => rfl
  | seed k => rfl
  | bytes p n =>
    show (if p.bytes n = [] then _ else _ : Obj (Acc4 64)).tail = []
    split <;> rfl

theorem xx32_start_tail (ctr : Nat) (c : Ctor) : (show Obj (Acc4 32) from c.start (XXH32.machine ctr)).tail = [] := by
  cases c with
  | default => rfl
  | seed k => rfl
  | bytes p n =>
    show (if p.bytes n = [] then _ else _ : Obj (Acc4 32)).tail = []
    split <;> rfl

/-! ### C42 -/

theorem fnv_change {w : Nat} (p p' : BitVec w) (hp : p * p' = 1) (hw : 8 ≤ w) {m m' : List Byte} {i : Nat}
    (hd : DifferOnlyIn (fun j => j = i) m m') (s : BitVec w) : FNV.feed p s m ≠ FNV.feed p s m' := by
  intro e
  refine consume_byte' (m := m) (m' := m') (f := fun h b => (h ^^^ BitVec.ofNat w b.toNat) * p) e (fun b s t h => ?_) (fun s b b' h => ?_) hd
  · exact (BitVec.xor_left_inj _).1 (mul_inj p' hp h)
  · exact byte_word_inj hw (xor_left_cancel (mul_inj p' hp h))

/-- **C42.** fnv1a_32, fnv1a_64: two messages that differ in one byte -/
theorem fnv1a_notices_byte (a : AlgName) (ha : a = .fnv1a_32 ∨ a = .fnv1a_64) (env : Env) (c : Ctor) (hc : c.Valid) (ops ops' : List Op)
    (m m' : List Byte) (h : stream ops = some (m.map .data)) (h' : stream ops' = some (m'.map .data)) (i : Nat)
    (hd : DifferOnlyIn (fun j => j = i) m m') : a.TellsApart env c ops ops' := by
  rcases ha with rfl | rfl
  · exact AlgName.tellsApart hc h h' trivial trivial trivial (fnv_change FNV.prime32 0x359c449b#32 (by decide) (by decide) hd _)
  · exact AlgName.tellsApart hc h h' trivial trivial trivial (fnv_change FNV.prime64 0xce965057aff6957b#64 (by decide) (by decide) hd _)

theorem mur32_change (ctr : Nat) (o : Obj (BitVec 32)) (ht : o.tail = []) {m m' : List Byte} {i : Nat}
    (hd : DifferOnlyIn (fun j => j / 4 = i) m m') :
    ((MURMUR3.x86_32.obj ctr).res ((MURMUR3.x86_32.obj ctr).absorb o m)).2
      ≠ ((MURMUR3.x86_32.obj ctr).res ((MURMUR3.x86_32.obj ctr).absorb o m')).2 := by
  simp only [BlockHash.res, BlockHash.absorb, ht, List.nil_append, ← hd.length]
  exact MurL.one_block32 _ hd _ _

theorem mur128_change (ctr : Nat) (o : Obj MURMUR3.x64_128.St) (ht : o.tail = []) {m m' : List Byte} {i : Nat}
    (hd : DifferOnlyIn (fun j => j / 16 = i) m m') :
    ((MURMUR3.x64_128.obj ctr).res ((MURMUR3.x64_128.obj ctr).absorb o m)).2
      ≠ ((MURMUR3.x64_128.obj ctr).res ((MURMUR3.x64_128.obj ctr).absorb o m')).2 := by
  simp only [BlockHash.res, BlockHash.absorb, ht, List.nil_append, ← hd.length]
  exact MurL.one_block128 _ hd _ _

theorem xx64_change (ctr : Nat) (o : Obj (Acc4 64)) (ht : o.tail = []) {m m' : List Byte}
    (hb : blocks 32 m = blocks 32 m') (hl : m.length = m'.length)
    (hd : ∀ a, XXH64.consume a (rest 32 m) ≠ XXH64.consume a (rest 32 m')) :
    ((XXH64.obj ctr).res ((XXH64.obj ctr).absorb o m)).2 ≠ ((XXH64.obj ctr).res ((XXH64.obj ctr).absorb o m')).2 := by
  simp only [BlockHash.res, BlockHash.absorb, ht, List.nil_append, ← hl]
  rw [show blocks (XXH64.obj ctr).N m = blocks (XXH64.obj ctr).N m' from hb]
  intro e
  exact hd _ (XX64L.avalanche_inj e)

theorem xx32_change (ctr : Nat) (o : Obj (Acc4 32)) (ht : o.tail = []) {m m' : List Byte}
    (hb : blocks 16 m = blocks 16 m') (hl : m.length = m'.length)
    (hd : ∀ a, XXH32.consume a (rest 16 m) ≠ XXH32.consume a (rest 16 m')) :
    ((XXH32.obj ctr).res ((XXH32.obj ctr).absorb o m)).2 ≠ ((XXH32.obj ctr).res ((XXH32.obj ctr).absorb o m')).2 := by
  simp only [BlockHash.res, BlockHash.absorb, ht, List.nil_append, ← hl]
  rw [show blocks (XXH32.obj ctr).N m = blocks (XXH32.obj ctr).N m' from hb]
  intro e
  exact hd _ (XX32L.avalanche_inj e)

/-- **C42.** murmur3_32: two messages that differ in one of the four byte blocks (the last one may be incomplete) -/
theorem murmur3_32_notices_block (env : Env) (c : Ctor) (hc : c.Valid) (ops ops' : List Op)
    (m m' : List Byte) (h : stream ops = some (m.map .data)) (h' : stream ops' = some (m'.map .data)) (i : Nat)
    (hd : DifferOnlyIn (fun j => j / 4 = i) m m') : AlgName.murmur3_32.TellsApart env c ops ops' :=
  AlgName.tellsApart hc h h' trivial trivial trivial (mur32_change env.sizeBits _ (mur32_start_tail env.sizeBits c) hd)

/-- **C42.** murmur3_128: two messages that differ in one of the 16 byte blocks (the last one may be incomplete) -/
theorem murmur3_128_notices_block (env : Env) (c : Ctor) (hc : c.Valid) (ops ops' : List Op)
    (m m' : List Byte) (h : stream ops = some (m.map .data)) (h' : stream ops' = some (m'.map .data)) (i : Nat)
    (hd : DifferOnlyIn (fun j => j / 16 = i) m m') : AlgName.murmur3_128.TellsApart env c ops ops' :=
  AlgName.tellsApart hc h h' trivial trivial trivial (mur128_change env.sizeBits _ (mur128_start_tail env.sizeBits c) hd)

/-- **C42.** xxhash_64: two messages that differ in one word (of 8 bytes, or the remaining 4, or one of the remaining bytes) of the
last, incomplete stripe of 32 bytes -/
theorem xxhash_64_notices_word (env : Env) (c : Ctor) (hc : c.Valid) (ops ops' : List Op)
    (m m' : List Byte) (h : stream ops = some (m.map .data)) (h' : stream ops' = some (m'.map .data)) (u : Nat × Nat)
    (hd : DifferOnlyIn (fun j => 32 * (m.length / 32) ≤ j ∧ unit8 m.length j = u) m m') : AlgName.xxhash_64.TellsApart env c ops ops' := by
  refine AlgName.tellsApart hc h h' trivial trivial trivial (xx64_change 64 _ (xx64_start_tail c)
    (hd.inRest (by decide) fun j hj => hj.1).1 hd.length ?_)
  have h2 := (hd.inRest (N := 32) (by decide) fun j hj => hj.1).2
  intro a
  obtain ⟨v, hv⟩ : ∃ v, ∀ j, j < (rest 32 m).length →
      (32 * (m.length / 32) ≤ 32 * (m.length / 32) + j ∧ unit8 m.length (32 * (m.length / 32) + j) = u) → unit8 (rest 32 m).length j = v := by
    refine ⟨(u.1, if u.1 = 8 then u.2 - 4 * (m.length / 32) else if u.1 = 4 then u.2 - 8 * (m.length / 32) else u.2 - 32 * (m.length / 32)), fun j _ hj => ?_⟩
    rw [rest_length]
    have := hj.2
    subst this
    unfold unit8
    have e8 : (j < 8 * (m.length % 32 / 8)) ↔ (32 * (m.length / 32) + j < 8 * (m.length / 8)) := by omega
    have e4 : (j < 4 * (m.length % 32 / 4)) ↔ (32 * (m.length / 32) + j < 4 * (m.length / 4)) := by omega
    simp only [e8, e4]
    split
    · simp only [Prod.mk.injEq, true_and, if_true]; omega
    · split
      · simp only [Prod.mk.injEq, true_and, if_true]; rw [if_neg (by decide)]; omega
      · simp only [Prod.mk.injEq, true_and, if_true]; rw [if_neg (by decide), if_neg (by decide)]; omega
  exact XX64L.consume_unit (h2.mono hv) a

/-- **C42.** xxhash_32: two messages that differ in one word (of 4 bytes, or one of the remaining bytes) of the last, incomplete stripe
of 16 bytes -/
theorem xxhash_32_notices_word (env : Env) (c : Ctor) (hc : c.Valid) (ops ops' : List Op)
    (m m' : List Byte) (h : stream ops = some (m.map .data)) (h' : stream ops' = some (m'.map .data)) (u : Nat × Nat)
    (hd : DifferOnlyIn (fun j => 16 * (m.length / 16) ≤ j ∧ unit4 m.length j = u) m m') : AlgName.xxhash_32.TellsApart env c ops ops' := by
  refine AlgName.tellsApart hc h h' trivial trivial trivial (xx32_change env.sizeBits _ (xx32_start_tail env.sizeBits c)
    (hd.inRest (by decide) fun j hj => hj.1).1 hd.length ?_)
  have h2 := (hd.inRest (N := 16) (by decide) fun j hj => hj.1).2
  intro a
  obtain ⟨v, hv⟩ : ∃ v, ∀ j, j < (rest 16 m).length →
      (16 * (m.length / 16) ≤ 16 * (m.length / 16) + j ∧ unit4 m.length (16 * (m.length / 16) + j) = u) → unit4 (rest 16 m).length j = v := by
    refine ⟨(u.1, if u.1 = 4 then u.2 - 4 * (m.length / 16) else u.2 - 16 * (m.length / 16)), fun j _ hj => ?_⟩
    rw [rest_length]
    have := hj.2
    subst this
    unfold unit4
    have e4 : (j < 4 * (m.length % 16 / 4)) ↔ (16 * (m.length / 16) + j < 4 * (m.length / 4)) := by omega
    simp only [e4]
    split
    · simp only [Prod.mk.injEq, true_and, if_true]; omega
    · simp only [Prod.mk.injEq, true_and, if_true]; rw [if_neg (by decide)]; omega
  exact XX32L.consume_unit (h2.mono hv) a

/-! ### integers never collide -/

/-- the algorithms and integer types for which C42 says that different integers have different hash values -/
def neverCollide : AlgName → Sz → Bool
  | .fnv1a_32, sz | .fnv1a_64, sz => sz == .s1
  | .murmur3_32, sz => sz != .s8
  | .murmur3_128, _ => true
  | .xxhash_32, sz => sz == .s1 || sz == .s4
  | .xxhash_64, sz => sz != .s2
  | _, _ => false

theorem IntTy.bits_inj {k : IntTy} {x y : k.Val} (h : (k.bits x).toNat = (k.bits y).toNat) : x = y := by
  have h := BitVec.eq_of_toNat_eq h
  cases k with
  | bool =>
    cases x with
    | false => cases y with
      | false => rfl
      | true => exact absurd h (by decide)
    | true => cases y with
      | false => exact absurd h (by decide)
      | true => rfl
  | uchar => exact h
  | int sz => exact h

theorem int_message_differ (L : Layout) (H : List Byte → W64) {k : IntTy} {x y : k.Val} (hxy : x ≠ y) :
    DifferOnlyIn (fun j => j < k.size.n) (message L H (.int k) x []) (message L H (.int k) y []) := by
  have hl : ∀ z : k.Val, (message L H (.int k) z []).length = k.size.n := fun z => by
    simp only [message]
    exact word_length _ _ _
  refine ⟨by rw [hl, hl], fun e => hxy ?_, fun j hj => ?_⟩
  · simp only [message] at e
    refine IntTy.bits_inj (word_inj (L := L) (k := k.size.n) ?_ ?_ e)
    · have := (k.bits x).isLt
      rwa [Nat.pow_mul] at this
    · have := (k.bits y).isLt
      rwa [Nat.pow_mul] at this
  · rw [List.getElem?_eq_none (by rw [hl]; omega), List.getElem?_eq_none (by rw [hl]; omega)]

theorem Sz.n_cases (sz : Sz) : sz.n = 1 ∧ sz = .s1 ∨ sz.n = 2 ∧ sz = .s2 ∨ sz.n = 4 ∧ sz = .s4 ∨ sz.n = 8 ∧ sz = .s8 := by
  cases sz <;> simp [Sz.n]

/-- **C42.** Two different integers: whatever the seed and the flavor, the hash values are different. -/
theorem integers_never_collide (a : AlgName) (k : IntTy) (ha : neverCollide a k.size = true) (env : Env) (c : Ctor) (hc : c.Valid) (f : Flavor)
    (hf : env.fp.roundDown = false) (x y : k.Val) (hxy : x ≠ y) :
    ∃ r s : a.impl.R, a.impl.execStmts env c [.append f (.int k) x, .call .result] = .ok [r] ∧
      a.impl.execStmts env c [.append f (.int k) y, .call .result] = .ok [s] ∧ r ≠ s := by
  have hn : a.NullOk env := by cases a <;> first | trivial | simp [neverCollide] at ha
  have hruns : ∀ z : k.Val, a.Runs env c [.append f (.int k) z, .call .result] := fun z => by
    refine ⟨hc, ?_, .inl hn, hf, ?_⟩
    · intro p hp
      simp only [List.mem_cons, List.not_mem_nil, or_false] at hp
      rcases hp with rfl | rfl
      · exact ⟨rfl, by simp [Spec.Valid], fun _ => rfl⟩
      · rfl
    · cases a <;> first | trivial | simp [neverCollide] at ha
  obtain ⟨rs, e1, e2⟩ := append_is_update_with_message a env c _ (hruns x)
  obtain ⟨rs', e1', e2'⟩ := append_is_update_with_message a env c _ (hruns y)
  have hd := int_message_differ (layout env f) (a.impl.number env c []) hxy
  have hlen : (message (layout env f) (a.impl.number env c []) (.int k) x []).length = k.size.n := by
    simp only [message]
    exact word_length _ _ _
  simp only [HashAlg.expand, HashAlg.messageOf] at e2 e2'
  revert hd hlen e2 e2'
  generalize message (layout env f) (a.impl.number env c []) (.int k) x [] = m
  generalize message (layout env f) (a.impl.number env c []) (.int k) y [] = m'
  intro e2 e2' hd hlen
  have hk := k.size.n_cases
  have key : a.TellsApart env c [.update (.mem m) m.length] [.update (.mem m') m'.length] := by
    cases a with
    | fnv1a_32 =>
      simp only [neverCollide, beq_iff_eq] at ha
      rw [ha] at hk hd
      exact fnv1a_notices_byte _ (.inl rfl) env c hc _ _ m m' (stream_once m) (stream_once m') 0 (hd.mono fun j _ hj => by simp [Sz.n] at hj; omega)
    | fnv1a_64 =>
      simp only [neverCollide, beq_iff_eq] at ha
      rw [ha] at hk hd
      exact fnv1a_notices_byte _ (.inr rfl) env c hc _ _ m m' (stream_once m) (stream_once m') 0 (hd.mono fun j _ hj => by simp [Sz.n] at hj; omega)
    | murmur3_32 =>
      simp only [neverCollide, bne_iff_ne, ne_eq] at ha
      refine murmur3_32_notices_block env c hc _ _ m m' (stream_once m) (stream_once m') 0 (hd.mono fun j _ hj => ?_)
      rcases hk with hk | hk | hk | hk
      · omega
      · omega
      · omega
      · exact absurd hk.2 ha
    | murmur3_128 =>
      exact murmur3_128_notices_block env c hc _ _ m m' (stream_once m) (stream_once m') 0 (hd.mono fun j _ hj => by omega)
    | xxhash_32 =>
      simp only [neverCollide, Bool.or_eq_true, beq_iff_eq] at ha
      refine xxhash_32_notices_word env c hc _ _ m m' (stream_once m) (stream_once m') (k.size.n, 0) (hd.mono fun j _ hj => ?_)
      rw [hlen]
      rcases ha with ha | ha
      · rw [ha] at hj ⊢; simp [Sz.n, unit4] at hj ⊢; omega
      · rw [ha] at hj ⊢
        have : j < 4 := hj
        exact ⟨by simp [Sz.n], by show unit4 4 j = (4, 0); unfold unit4; rw [if_pos (by omega), show j / 4 = 0 by omega]⟩
    | xxhash_64 =>
      simp only [neverCollide, bne_iff_ne, ne_eq] at ha
      refine xxhash_64_notices_word env c hc _ _ m m' (stream_once m) (stream_once m') (k.size.n, 0) (hd.mono fun j _ hj => ?_)
      rw [hlen]
      rcases hk with hk | hk | hk | hk
      · rw [hk.1] at hj ⊢; simp [unit8] at hj ⊢; omega
      · exact absurd hk.2 ha
      · rw [hk.1] at hj ⊢
        exact ⟨by simp, by unfold unit8; rw [if_neg (show ¬ j < 8 * (4 / 8) by omega), if_pos (by omega), show j / 4 = 0 by omega]⟩
      · rw [hk.1] at hj ⊢
        exact ⟨by simp, by unfold unit8; rw [if_pos (by omega), show j / 8 = 0 by omega]⟩
    | _ => simp [neverCollide] at ha
  obtain ⟨r, s, h1, h2, h3⟩ := key
  exact ⟨r, s, e1.trans (e2.symm.trans h1), e1'.trans (e2'.symm.trans h2), h3⟩

/-! ### the hypotheses are met -/

-- "abc" and "abd", with different splits
example : AlgName.fnv1a_64.TellsApart be32 (.seed 7) [.update (.mem abc) 1, .update (.mem [0x62, 0x63]) 2] [.update (.mem [0x61, 0x62, 0x64]) 3] :=
  fnv1a_notices_byte _ (.inr rfl) be32 (.seed 7) trivial _ _ abc [0x61, 0x62, 0x64] rfl rfl 2
    ⟨rfl, by decide, fun j hj => by rcases j with _ | _ | _ | j <;> first | rfl | exact absurd rfl hj⟩

-- the second block is different
example : AlgName.murmur3_32.TellsApart le64 (.bytes (.mem abc) 3) [.update (.mem [1, 2, 3, 4, 5, 6, 7, 8, 9]) 9] [.update (.mem [1, 2, 3, 4, 0, 0, 0, 0, 9]) 9] :=
  murmur3_32_notices_block le64 (.bytes (.mem abc) 3) (Nat.le_refl 3) _ _ [1, 2, 3, 4, 5, 6, 7, 8, 9] [1, 2, 3, 4, 0, 0, 0, 0, 9] rfl rfl 1
    ⟨rfl, by decide, fun j hj => by
      rcases j with _ | _ | _ | _ | _ | _ | _ | _ | j <;> first | rfl | exact absurd rfl hj⟩

-- 17 bytes, the last, incomplete, block is different
example : AlgName.murmur3_128.TellsApart le64 .default [.update (.mem (List.replicate 16 0 ++ [1])) 17] [.update (.mem (List.replicate 16 0 ++ [2])) 17] :=
  murmur3_128_notices_block le64 .default trivial _ _ (List.replicate 16 0 ++ [1]) (List.replicate 16 0 ++ [2]) rfl rfl 1
    ⟨rfl, by decide, fun j hj => by
      by_cases h : j < 16
      · rw [List.getElem?_append_left (by simpa using h), List.getElem?_append_left (by simpa using h)]
      · rw [List.getElem?_eq_none (by simp; omega), List.getElem?_eq_none (by simp; omega)]⟩

-- 12 bytes: the word of 4 bytes after the first 8 is different
example : AlgName.xxhash_64.TellsApart le64 (.seed 1) [.update (.mem [1, 2, 3, 4, 5, 6, 7, 8, 9, 10, 11, 12]) 12]
    [.update (.mem [1, 2, 3, 4, 5, 6, 7, 8, 0, 0, 0, 0]) 12] :=
  xxhash_64_notices_word le64 (.seed 1) trivial _ _ [1, 2, 3, 4, 5, 6, 7, 8, 9, 10, 11, 12] [1, 2, 3, 4, 5, 6, 7, 8, 0, 0, 0, 0] rfl rfl (4, 2)
    ⟨rfl, by decide, fun j hj => by
      rcases j with _ | _ | _ | _ | _ | _ | _ | _ | _ | _ | _ | _ | j <;> first | rfl | exact absurd (by decide) hj⟩

example : AlgName.xxhash_32.TellsApart be32 (.seed 1) [.update (.mem [1, 2, 3, 4, 5, 6]) 6] [.update (.mem [4, 3, 2, 1, 5, 6]) 6] :=
  xxhash_32_notices_word be32 (.seed 1) trivial _ _ [1, 2, 3, 4, 5, 6] [4, 3, 2, 1, 5, 6] rfl rfl (4, 0)
    ⟨rfl, by decide, fun j hj => by
      rcases j with _ | _ | _ | _ | _ | _ | j <;> first | rfl | exact absurd (by decide) hj⟩

-- std::uint64_t under xxhash_64( 5 )
example : ∃ r s : W64, AlgName.xxhash_64.impl.execStmts le64 (.seed 5) [.append default_flavor (.int (.int .s8)) (1#64 : BitVec 64), .call .result] = .ok [r] ∧
    AlgName.xxhash_64.impl.execStmts le64 (.seed 5) [.append default_flavor (.int (.int .s8)) (2#64 : BitVec 64), .call .result] = .ok [s] ∧ r ≠ s :=
  integers_never_collide .xxhash_64 (.int .s8) rfl le64 (.seed 5) trivial _ rfl (1#64 : BitVec 64) (2#64 : BitVec 64) (show (1#64 : BitVec 64) ≠ 2#64 by decide)

end Hash2

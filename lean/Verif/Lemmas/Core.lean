import Verif.Model.Core
/-
Lemmas about the C++ substrate: what memcpy, memset, read*, write* compute.
-/
namespace Hash2

@[simp] theorem Except.bind_ok {α β ε : Type} (a : α) (f : α → Except ε β) :
    ((Except.ok a : Except ε α) >>= f) = f a := rfl
@[simp] theorem Except.bind_ok' {α β ε : Type} (a : α) (f : α → Except ε β) :
    (Except.bind (Except.ok a : Except ε α) f) = f a := rfl
@[simp] theorem Except.bind_error {α β ε : Type} (e : ε) (f : α → Except ε β) :
    ((Except.error e : Except ε α) >>= f) = Except.error e := rfl
@[simp] theorem Except.pure_eq {α ε : Type} (a : α) : (pure a : Except ε α) = .ok a := rfl

@[simp] theorem check_true : check true = .ok () := rfl
theorem check_ok {p : Prop} [Decidable p] (h : p) : check (decide p) = .ok () := by simp [h]

/-! ### positional values -/

@[simp] theorem natLE_length (k v : Nat) : (natLE k v).length = k := by
  induction k generalizing v with
  | zero => rfl
  | succ k ih => simp [natLE, ih]

@[simp] theorem natBE_length (k v : Nat) : (natBE k v).length = k := by simp [natBE]

theorem leNat_lt (bs : List Byte) : leNat bs < 256 ^ bs.length := by
  induction bs with
  | nil => simp [leNat]
  | cons b bs ih =>
    have hb : b.toNat < 256 := b.isLt
    simp only [leNat, List.length_cons, Nat.pow_succ]
    omega

theorem leNat_natLE (k v : Nat) : leNat (natLE k v) = v % 256 ^ k := by
  induction k generalizing v with
  | zero => simp [natLE, leNat, Nat.mod_one]
  | succ k ih =>
    simp only [natLE, leNat, ih, BitVec.toNat_ofNat]
    rw [show (256 : Nat) ^ (k + 1) = 256 * 256 ^ k by rw [Nat.pow_succ, Nat.mul_comm], Nat.mod_mul]

theorem natLE_leNat (bs : List Byte) : natLE bs.length (leNat bs) = bs := by
  induction bs with
  | nil => rfl
  | cons b bs ih =>
    have hb : b.toNat < 256 := b.isLt
    simp only [List.length_cons, natLE, leNat]
    congr 1
    · apply BitVec.eq_of_toNat_eq
      simp only [BitVec.toNat_ofNat]
      omega
    · rw [show (b.toNat + 256 * leNat bs) / 256 = leNat bs by omega, ih]

theorem natLE_leNat' {k : Nat} {bs : List Byte} (h : bs.length = k) : natLE k (leNat bs) = bs := by
  subst h; exact natLE_leNat bs

theorem natLE_mod (k v : Nat) : natLE k (v % 256 ^ k) = natLE k v := by
  rw [← leNat_natLE]; exact natLE_leNat' (natLE_length k v)

theorem leNat_append (xs ys : List Byte) : leNat (xs ++ ys) = leNat xs + 256 ^ xs.length * leNat ys := by
  induction xs with
  | nil => simp [leNat]
  | cons b bs ih =>
    simp only [List.cons_append, leNat, ih, List.length_cons, Nat.pow_succ]
    rw [Nat.mul_add, Nat.mul_comm (256 ^ bs.length) 256, Nat.mul_assoc]
    omega

theorem leNat_inj {xs ys : List Byte} (hl : xs.length = ys.length) (h : leNat xs = leNat ys) : xs = ys := by
  rw [← natLE_leNat xs, ← natLE_leNat ys, hl, h]

theorem natLE_inj {k v w : Nat} (hv : v < 256 ^ k) (hw : w < 256 ^ k) (h : natLE k v = natLE k w) : v = w := by
  have := congrArg leNat h
  rwa [leNat_natLE, leNat_natLE, Nat.mod_eq_of_lt hv, Nat.mod_eq_of_lt hw] at this

theorem natLE_add (j k v : Nat) : natLE (j + k) v = natLE j v ++ natLE k (v / 256 ^ j) := by
  induction j generalizing v with
  | zero => simp [natLE]
  | succ j ih =>
    rw [show j + 1 + k = (j + k) + 1 by omega]
    simp only [natLE, ih, List.cons_append]
    rw [Nat.div_div_eq_div_mul, Nat.pow_succ, Nat.mul_comm 256]

theorem natLE_zero (k : Nat) : natLE k 0 = List.replicate k 0 := by
  induction k with
  | zero => rfl
  | succ k ih => simp [natLE, ih, List.replicate_succ]

/-! ### arrays -/

theorem aget_ok {α : Type} {a : List α} {i : Nat} (h : i < a.length) : aget a i = .ok a[i] := by
  simp [aget, List.getElem?_eq_getElem h]

theorem aget_append_left {α : Type} {a b : List α} {i : Nat} (h : i < a.length) :
    aget (a ++ b) i = .ok a[i] := by
  rw [aget_ok (by simp; omega)]; simp [List.getElem_append_left h]

theorem aset_ok {α : Type} {a : List α} {i : Nat} {x : α} (h : i < a.length) : aset a i x = .ok (a.set i x) := by
  simp [aset, h]

theorem csub_ok {a b : Nat} (h : b ≤ a) : csub a b = .ok (a - b) := by simp [csub, h]

theorem Ptr.get_mem {bs : List Byte} {i : Nat} (h : i < bs.length) : (Ptr.mem bs).get i = .ok bs[i] := by
  simp [Ptr.get, List.getElem?_eq_getElem h]

theorem Ptr.add_mem {bs : List Byte} {k : Nat} (h : k ≤ bs.length) :
    (Ptr.mem bs).add k = .ok (.mem (bs.drop k)) := by
  simp [Ptr.add, h]

@[simp] theorem Ptr.add_zero (p : Ptr) : p.add 0 = .ok p := by
  cases p <;> simp [Ptr.add]

@[simp] theorem csub_zero (n : Nat) : csub n 0 = .ok n := by simp [csub]

/-- writing one more byte after the ones already written -/
theorem aset_step (d : List Byte) (off : Nat) (xs : List Byte) (b : Byte) (h : off + xs.length < d.length) :
    aset (d.take off ++ xs ++ d.drop (off + xs.length)) (off + xs.length) b
      = .ok (d.take off ++ (xs ++ [b]) ++ d.drop (off + (xs ++ [b]).length)) := by
  have hl : (d.take off ++ xs).length = off + xs.length := by simp; omega
  rw [aset_ok (by simp; omega)]
  congr 1
  rw [List.set_append_right _ _ (by omega), hl, Nat.sub_self, List.drop_eq_getElem_cons h]
  simp [List.append_assoc, Nat.add_assoc]

theorem aset_first (d : List Byte) (off : Nat) (b : Byte) (h : off < d.length) :
    aset d off b = .ok (d.take off ++ [b] ++ d.drop (off + 1)) := by
  have := aset_step d off [] b (by simpa using h)
  simpa using this

/-! ### loops -/

theorem forLoop_add {α : Type} (f : Nat → α → M α) (i j k : Nat) (a : α) :
    forLoop f i (j + k) a = (forLoop f i j a >>= fun a => forLoop f (i + j) k a) := by
  induction j generalizing i a with
  | zero => simp [forLoop]
  | succ j ih =>
    rw [show j + 1 + k = (j + k) + 1 by omega]
    simp only [forLoop]
    cases f i a with
    | error e => rfl
    | ok a' =>
      simp only [Except.bind_ok, ih]
      rw [show i + 1 + j = i + (j + 1) by omega]

theorem forLoop_succ {α : Type} (f : Nat → α → M α) (i k : Nat) (a : α) :
    forLoop f i (k + 1) a = (forLoop f i k a >>= fun a => f (i + k) a) := by
  rw [forLoop_add]
  congr 1; funext a
  simp only [forLoop]
  cases f (i + k) a <;> rfl

/-- a counted loop each of whose iterations succeeds computes the iterated function -/
theorem forLoop_inv {α : Type} (f : Nat → α → M α) (i : Nat) (P : Nat → α → Prop) (a : α) (h0 : P 0 a)
    (k : Nat) (hs : ∀ j a, j < k → P j a → ∃ a', f (i + j) a = .ok a' ∧ P (j + 1) a') :
    ∃ a', forLoop f i k a = .ok a' ∧ P k a' := by
  induction k with
  | zero => exact ⟨a, rfl, h0⟩
  | succ k ih =>
    obtain ⟨a', e, h⟩ := ih (fun j a hj => hs j a (by omega))
    obtain ⟨a'', e', h'⟩ := hs k a' (by omega) h
    exact ⟨a'', by rw [forLoop_succ, e]; simpa using e', h'⟩

/-! ### memcpy, memset -/

theorem stdMemcpy_ok (d : List Byte) (off : Nat) (bs : List Byte) (n : Nat) (hn : n ≤ bs.length)
    (ho : off + n ≤ d.length) :
    stdMemcpy d off (.mem bs) n = .ok (d.take off ++ bs.take n ++ d.drop (off + n)) := by
  simp [stdMemcpy, hn, ho]

theorem memcpy_ok (env : Env) (d : List Byte) (off : Nat) (bs : List Byte) (n : Nat) (hn : n ≤ bs.length)
    (ho : off + n ≤ d.length) :
    memcpy env d off (.mem bs) n = .ok (d.take off ++ bs.take n ++ d.drop (off + n)) := by
  unfold memcpy
  split
  · exact stdMemcpy_ok d off bs n hn ho
  · obtain ⟨a, e, h⟩ := forLoop_inv (fun i d => do
        let b ← (Ptr.mem bs).get i
        aset d (off + i) b) 0 (fun j a => a = d.take off ++ bs.take j ++ d.drop (off + j)) d (by simp) n (by
      intro j a hj ha
      subst ha
      have hl : (bs.take j).length = j := by simp; omega
      refine ⟨_, ?_, rfl⟩
      simp only [Nat.zero_add]
      rw [Ptr.get_mem (by omega : j < bs.length)]
      simp only [Except.bind_ok]
      have := aset_step d off (bs.take j) bs[j] (by omega)
      rw [hl] at this
      rw [this, List.length_append, hl, List.take_append_getElem]
      rfl)
    rw [e, h]

theorem stdMemset_ok (d : List Byte) (off : Nat) (v : Byte) (n : Nat) (ho : off + n ≤ d.length) :
    stdMemset d off v n = .ok (d.take off ++ List.replicate n v ++ d.drop (off + n)) := by
  simp [stdMemset, ho]

theorem memset_ok (env : Env) (d : List Byte) (off : Nat) (v : Byte) (n : Nat) (ho : off + n ≤ d.length) :
    memset env d off v n = .ok (d.take off ++ List.replicate n v ++ d.drop (off + n)) := by
  unfold memset
  split
  · exact stdMemset_ok d off v n ho
  · obtain ⟨a, e, h⟩ := forLoop_inv (fun i d => aset d (off + i) v) 0
      (fun j a => a = d.take off ++ List.replicate j v ++ d.drop (off + j)) d (by simp) n (by
      intro j a hj ha
      subst ha
      refine ⟨_, ?_, rfl⟩
      simp only [Nat.zero_add]
      have := aset_step d off (List.replicate j v) v (by simp; omega)
      rw [List.length_replicate] at this
      rw [this, ← List.replicate_succ']
      simp)
    rw [e, h]

/-! ### reading -/

theorem or_shl_toNat {w : Nat} (a : BitVec w) (b : Byte) (k : Nat) (ha : a.toNat < 2 ^ k) (hk : k + 8 ≤ w) :
    (a ||| (b.zeroExtend w <<< k)).toNat = a.toNat + 2 ^ k * b.toNat := by
  have hb : b.toNat < 2 ^ 8 := b.isLt
  have h1 : b.toNat * 2 ^ k < 2 ^ w := by
    calc b.toNat * 2 ^ k < 2 ^ 8 * 2 ^ k := Nat.mul_lt_mul_of_pos_right hb (Nat.two_pow_pos k)
      _ = 2 ^ (k + 8) := by rw [← Nat.pow_add, Nat.add_comm]
      _ ≤ 2 ^ w := Nat.pow_le_pow_right (by omega) hk
  have h2 : b.toNat < 2 ^ w := Nat.lt_of_lt_of_le hb (Nat.pow_le_pow_right (by omega) (by omega))
  simp only [BitVec.toNat_or, BitVec.toNat_shiftLeft, BitVec.truncate_eq_setWidth, BitVec.toNat_setWidth]
  rw [Nat.mod_eq_of_lt h2, Nat.shiftLeft_eq, Nat.mod_eq_of_lt h1, Nat.or_comm, ← Nat.shiftLeft_eq,
    ← Nat.shiftLeft_add_eq_or_of_lt ha, Nat.shiftLeft_eq, Nat.mul_comm]
  omega

theorem zext_toNat {w : Nat} (b : Byte) (hw : 8 ≤ w) : (b.zeroExtend w).toNat = b.toNat := by
  have hb : b.toNat < 2 ^ 8 := b.isLt
  simp only [BitVec.truncate_eq_setWidth, BitVec.toNat_setWidth]
  exact Nat.mod_eq_of_lt (Nat.lt_of_lt_of_le hb (Nat.pow_le_pow_right (by omega) hw))

/-- four bytes, least significant first -/
theorem or4 (a b c d : Byte) :
    (a.zeroExtend 32 ||| (b.zeroExtend 32 <<< 8) ||| (c.zeroExtend 32 <<< 16) ||| (d.zeroExtend 32 <<< 24) : W32)
      = leWord 32 [a, b, c, d] := by
  have ha := a.isLt; have hb := b.isLt; have hc := c.isLt; have hd := d.isLt
  have e0 := zext_toNat (w := 32) a (by omega)
  have e1 := or_shl_toNat (a.zeroExtend 32) b 8 (by rw [e0]; omega) (by omega)
  have e2 := or_shl_toNat (a.zeroExtend 32 ||| (b.zeroExtend 32 <<< 8)) c 16 (by rw [e1, e0]; omega) (by omega)
  have e3 := or_shl_toNat _ d 24 (by rw [e2, e1, e0]; omega) (by omega)
  apply BitVec.eq_of_toNat_eq
  rw [e3, e2, e1, e0]
  simp only [leWord, leNat, BitVec.toNat_ofNat]
  omega

/-- eight bytes, least significant first -/
theorem or8 (a b c d e f g h : Byte) :
    (a.zeroExtend 64 ||| (b.zeroExtend 64 <<< 8) ||| (c.zeroExtend 64 <<< 16) ||| (d.zeroExtend 64 <<< 24)
      ||| (e.zeroExtend 64 <<< 32) ||| (f.zeroExtend 64 <<< 40) ||| (g.zeroExtend 64 <<< 48)
      ||| (h.zeroExtend 64 <<< 56) : W64)
      = leWord 64 [a, b, c, d, e, f, g, h] := by
  have ha := a.isLt; have hb := b.isLt; have hc := c.isLt; have hd := d.isLt
  have he := e.isLt; have hf := f.isLt; have hg := g.isLt; have hh := h.isLt
  have e0 := zext_toNat (w := 64) a (by omega)
  have e1 := or_shl_toNat (a.zeroExtend 64) b 8 (by rw [e0]; omega) (by omega)
  have e2 := or_shl_toNat _ c 16 (by rw [e1, e0]; omega) (by omega)
  have e3 := or_shl_toNat _ d 24 (by rw [e2, e1, e0]; omega) (by omega)
  have e4 := or_shl_toNat _ e 32 (by rw [e3, e2, e1, e0]; omega) (by omega)
  have e5 := or_shl_toNat _ f 40 (by rw [e4, e3, e2, e1, e0]; omega) (by omega)
  have e6 := or_shl_toNat _ g 48 (by rw [e5, e4, e3, e2, e1, e0]; omega) (by omega)
  have e7 := or_shl_toNat _ h 56 (by rw [e6, e5, e4, e3, e2, e1, e0]; omega) (by omega)
  apply BitVec.eq_of_toNat_eq
  rw [e7, e6, e5, e4, e3, e2, e1, e0]
  simp only [leWord, leNat, BitVec.toNat_ofNat]
  omega

theorem take4 {bs : List Byte} (h : 4 ≤ bs.length) : bs.take 4 = [bs[0], bs[1], bs[2], bs[3]] := by
  match bs, h with
  | a :: b :: c :: d :: t, _ => simp

theorem take8 {bs : List Byte} (h : 8 ≤ bs.length) :
    bs.take 8 = [bs[0], bs[1], bs[2], bs[3], bs[4], bs[5], bs[6], bs[7]] := by
  match bs, h with
  | a :: b :: c :: d :: e :: f :: g :: i :: t, _ => simp

theorem read32le_ok (env : Env) (bs : List Byte) (h : 4 ≤ bs.length) :
    read32le env (.mem bs) = .ok (leWord 32 (bs.take 4)) := by
  unfold read32le
  split
  · rename_i hc
    rw [loadObj, stdMemcpy_ok _ _ _ _ h (by simp)]
    simp [objWord, hc.2]
  · rw [Ptr.get_mem (by omega), Ptr.get_mem (by omega), Ptr.get_mem (by omega), Ptr.get_mem (by omega)]
    simp only [Except.bind_ok, Except.pure_eq]
    rw [or4, take4 h]

theorem read64le_ok (env : Env) (bs : List Byte) (h : 8 ≤ bs.length) :
    read64le env (.mem bs) = .ok (leWord 64 (bs.take 8)) := by
  unfold read64le
  split
  · rename_i hc
    rw [loadObj, stdMemcpy_ok _ _ _ _ h (by simp)]
    simp [objWord, hc.2]
  · rw [Ptr.get_mem (by omega), Ptr.get_mem (by omega), Ptr.get_mem (by omega), Ptr.get_mem (by omega),
      Ptr.get_mem (by omega), Ptr.get_mem (by omega), Ptr.get_mem (by omega), Ptr.get_mem (by omega)]
    simp only [Except.bind_ok, Except.pure_eq]
    rw [or8, take8 h]

theorem read32be_ok (bs : List Byte) (h : 4 ≤ bs.length) :
    read32be (.mem bs) = .ok (beWord 32 (bs.take 4)) := by
  unfold read32be
  rw [Ptr.get_mem (by omega), Ptr.get_mem (by omega), Ptr.get_mem (by omega), Ptr.get_mem (by omega)]
  simp only [Except.bind_ok, Except.pure_eq]
  rw [or4, take4 h]
  rfl

theorem read64be_ok (bs : List Byte) (h : 8 ≤ bs.length) :
    read64be (.mem bs) = .ok (beWord 64 (bs.take 8)) := by
  unfold read64be
  rw [Ptr.get_mem (by omega), Ptr.get_mem (by omega), Ptr.get_mem (by omega), Ptr.get_mem (by omega),
    Ptr.get_mem (by omega), Ptr.get_mem (by omega), Ptr.get_mem (by omega), Ptr.get_mem (by omega)]
  simp only [Except.bind_ok, Except.pure_eq]
  rw [or8, take8 h]
  rfl

/-! ### writing -/

theorem byteAt_eq {k : Nat} (hk : 8 ≤ k) (v : BitVec k) (s : Nat) :
    byteAt v s = BitVec.ofNat 8 (v.toNat / 2 ^ s) := by
  apply BitVec.eq_of_toNat_eq
  have h255 : (0xFF : BitVec k).toNat = 2 ^ 8 - 1 := by
    have : (255 : Nat) < 2 ^ k := Nat.lt_of_lt_of_le (by decide : 255 < 2 ^ 8) (Nat.pow_le_pow_right (by omega) hk)
    show 255 % 2 ^ k = _
    rw [Nat.mod_eq_of_lt this]
  simp only [byteAt, BitVec.truncate_eq_setWidth, BitVec.toNat_setWidth, BitVec.toNat_and,
    BitVec.toNat_ushiftRight, h255, Nat.and_two_pow_sub_one_eq_mod, BitVec.toNat_ofNat, Nat.shiftRight_eq_div_pow,
    Nat.mod_mod]

theorem natLE2 (v : Nat) : natLE 2 v = [BitVec.ofNat 8 (v / 2 ^ 0), BitVec.ofNat 8 (v / 2 ^ 8)] := by
  simp [natLE]

theorem natLE4 (v : Nat) : natLE 4 v = [BitVec.ofNat 8 (v / 2 ^ 0), BitVec.ofNat 8 (v / 2 ^ 8),
    BitVec.ofNat 8 (v / 2 ^ 16), BitVec.ofNat 8 (v / 2 ^ 24)] := by
  simp [natLE, Nat.div_div_eq_div_mul]

theorem natLE8 (v : Nat) : natLE 8 v = [BitVec.ofNat 8 (v / 2 ^ 0), BitVec.ofNat 8 (v / 2 ^ 8),
    BitVec.ofNat 8 (v / 2 ^ 16), BitVec.ofNat 8 (v / 2 ^ 24), BitVec.ofNat 8 (v / 2 ^ 32),
    BitVec.ofNat 8 (v / 2 ^ 40), BitVec.ofNat 8 (v / 2 ^ 48), BitVec.ofNat 8 (v / 2 ^ 56)] := by
  simp [natLE, Nat.div_div_eq_div_mul]

theorem aset2 (d : List Byte) (off : Nat) (a b : Byte) (h : off + 2 ≤ d.length) :
    (do let d ← aset d (off + 0) a
        aset d (off + 1) b) = .ok (d.take off ++ [a, b] ++ d.drop (off + 2)) := by
  rw [Nat.add_zero, aset_first _ _ _ (by omega)]
  exact aset_step d off [a] b (by simp; omega)

theorem aset4 (d : List Byte) (off : Nat) (a b c e : Byte) (h : off + 4 ≤ d.length) :
    (do let d ← aset d (off + 0) a
        let d ← aset d (off + 1) b
        let d ← aset d (off + 2) c
        aset d (off + 3) e) = .ok (d.take off ++ [a, b, c, e] ++ d.drop (off + 4)) := by
  rw [Nat.add_zero, aset_first _ _ _ (by omega)]
  have h1 := aset_step d off [a] b (by simp; omega)
  have h2 := aset_step d off [a, b] c (by simp; omega)
  have h3 := aset_step d off [a, b, c] e (by simp; omega)
  simp only [List.length_cons, List.length_nil, List.cons_append, List.nil_append, Nat.zero_add, Nat.reduceAdd] at h1 h2 h3
  simp only [Except.bind_ok, h1, h2, h3]

theorem aset8 (d : List Byte) (off : Nat) (a b c e f g i j : Byte) (h : off + 8 ≤ d.length) :
    (do let d ← aset d (off + 0) a
        let d ← aset d (off + 1) b
        let d ← aset d (off + 2) c
        let d ← aset d (off + 3) e
        let d ← aset d (off + 4) f
        let d ← aset d (off + 5) g
        let d ← aset d (off + 6) i
        aset d (off + 7) j) = .ok (d.take off ++ [a, b, c, e, f, g, i, j] ++ d.drop (off + 8)) := by
  rw [Nat.add_zero, aset_first _ _ _ (by omega)]
  have h1 := aset_step d off [a] b (by simp; omega)
  have h2 := aset_step d off [a, b] c (by simp; omega)
  have h3 := aset_step d off [a, b, c] e (by simp; omega)
  have h4 := aset_step d off [a, b, c, e] f (by simp; omega)
  have h5 := aset_step d off [a, b, c, e, f] g (by simp; omega)
  have h6 := aset_step d off [a, b, c, e, f, g] i (by simp; omega)
  have h7 := aset_step d off [a, b, c, e, f, g, i] j (by simp; omega)
  simp only [List.length_cons, List.length_nil, List.cons_append, List.nil_append, Nat.zero_add, Nat.reduceAdd]
    at h1 h2 h3 h4 h5 h6 h7
  simp only [Except.bind_ok, h1, h2, h3, h4, h5, h6, h7]

theorem write16le_ok (env : Env) (d : List Byte) (off : Nat) (v : BitVec 16) (h : off + 2 ≤ d.length) :
    write16le env d off v = .ok (d.take off ++ natLE 2 v.toNat ++ d.drop (off + 2)) := by
  unfold write16le
  split
  · rename_i hc
    rw [hc.2, stdMemcpy_ok _ _ _ _ (by simp [objBytes]) h]
    simp [objBytes, List.take_of_length_le]
  · rw [aset2 _ _ _ _ h, natLE2, byteAt_eq (by omega), byteAt_eq (by omega)]

theorem write32le_ok (env : Env) (d : List Byte) (off : Nat) (v : W32) (h : off + 4 ≤ d.length) :
    write32le env d off v = .ok (d.take off ++ natLE 4 v.toNat ++ d.drop (off + 4)) := by
  unfold write32le
  split
  · rename_i hc
    rw [hc.2, stdMemcpy_ok _ _ _ _ (by simp [objBytes]) h]
    simp [objBytes, List.take_of_length_le]
  · rw [aset4 _ _ _ _ _ _ h, natLE4, byteAt_eq (by omega), byteAt_eq (by omega), byteAt_eq (by omega),
      byteAt_eq (by omega)]

theorem write64le_ok (env : Env) (d : List Byte) (off : Nat) (v : W64) (h : off + 8 ≤ d.length) :
    write64le env d off v = .ok (d.take off ++ natLE 8 v.toNat ++ d.drop (off + 8)) := by
  unfold write64le
  split
  · rename_i hc
    rw [hc.2, stdMemcpy_ok _ _ _ _ (by simp [objBytes]) h]
    simp [objBytes, List.take_of_length_le]
  · rw [aset8 _ _ _ _ _ _ _ _ _ _ h, natLE8, byteAt_eq (by omega), byteAt_eq (by omega), byteAt_eq (by omega),
      byteAt_eq (by omega), byteAt_eq (by omega), byteAt_eq (by omega), byteAt_eq (by omega), byteAt_eq (by omega)]

theorem write16be_ok (d : List Byte) (off : Nat) (v : BitVec 16) (h : off + 2 ≤ d.length) :
    write16be d off v = .ok (d.take off ++ natBE 2 v.toNat ++ d.drop (off + 2)) := by
  unfold write16be
  rw [aset2 _ _ _ _ h, natBE, natLE2, byteAt_eq (by omega), byteAt_eq (by omega)]
  rfl

theorem write32be_ok (d : List Byte) (off : Nat) (v : W32) (h : off + 4 ≤ d.length) :
    write32be d off v = .ok (d.take off ++ natBE 4 v.toNat ++ d.drop (off + 4)) := by
  unfold write32be
  rw [aset4 _ _ _ _ _ _ h, natBE, natLE4, byteAt_eq (by omega), byteAt_eq (by omega), byteAt_eq (by omega),
    byteAt_eq (by omega)]
  rfl

theorem write64be_ok (d : List Byte) (off : Nat) (v : W64) (h : off + 8 ≤ d.length) :
    write64be d off v = .ok (d.take off ++ natBE 8 v.toNat ++ d.drop (off + 8)) := by
  unfold write64be
  rw [aset8 _ _ _ _ _ _ _ _ _ _ h, natBE, natLE8, byteAt_eq (by omega), byteAt_eq (by omega), byteAt_eq (by omega),
    byteAt_eq (by omega), byteAt_eq (by omega), byteAt_eq (by omega), byteAt_eq (by omega), byteAt_eq (by omega)]
  rfl

theorem seedBytes8 (env : Env) (seed : W64) :
    write64le env (List.replicate 8 0) 0 seed = .ok (natLE 8 seed.toNat) := by
  rw [write64le_ok _ _ _ _ (by simp)]; simp

/-- a loop writing successive words covers the array -/
theorem forLoop_write {β : Type} (w : Nat) (get : Nat → M β) (wr : List Byte → Nat → β → M (List Byte))
    (enc : β → List Byte) (henc : ∀ v, (enc v).length = w)
    (hwr : ∀ d off v, off + w ≤ d.length → wr d off v = .ok (d.take off ++ enc v ++ d.drop (off + w)))
    (vs : List β) (hget : ∀ i (h : i < vs.length), get i = .ok vs[i]) (d : List Byte) (hd : w * vs.length ≤ d.length) :
    forLoop (fun i d => do
      let v ← get i
      wr d (i * w) v) 0 vs.length d = .ok ((vs.flatMap enc) ++ d.drop (w * vs.length)) := by
  obtain ⟨a, e, h⟩ := forLoop_inv (fun i d => do
      let v ← get i
      wr d (i * w) v) 0 (fun j a => a = (vs.take j).flatMap enc ++ d.drop (w * j)) d (by simp) vs.length (by
    intro j a hj ha
    subst ha
    refine ⟨_, ?_, rfl⟩
    have hlen : ((vs.take j).flatMap enc).length = j * w := by
      rw [List.length_flatMap]
      have : (vs.take j).map (fun v => (enc v).length) = List.replicate j w := by
        rw [List.eq_replicate_iff]
        refine ⟨by simp; omega, ?_⟩
        intro b hb
        obtain ⟨v, _, rfl⟩ := List.mem_map.1 hb
        exact henc v
      rw [this]; simp
    have hjw : w * j + w ≤ d.length := by
      have : w * (j + 1) ≤ w * vs.length := Nat.mul_le_mul_left w hj
      rw [Nat.mul_add] at this; omega
    simp only [Nat.zero_add]
    rw [hget j hj]
    simp only [Except.bind_ok]
    rw [hwr _ _ _ (by rw [List.length_append, hlen, List.length_drop, Nat.mul_comm j w]; omega)]
    congr 1
    rw [List.take_append_of_le_length (by omega), List.take_of_length_le (by omega),
      ← List.take_append_getElem hj, List.flatMap_append]
    rw [List.drop_append, List.drop_of_length_le (by omega), List.nil_append, hlen, List.drop_drop]
    simp only [List.flatMap_cons, List.flatMap_nil, List.append_nil]
    rw [show w * j + (j * w + w - j * w) = w * (j + 1) by rw [Nat.mul_add]; omega])
  rw [e, h]; simp

end Hash2

import Verif.Lemmas.XX64
import Verif.Spec.Murmur
/-
murmur3_32 and murmur3_128 implement MurmurHash3.
-/
namespace Hash2
open Spec

theorem sizeBits_cases (env : Env) : env.sizeBits = 64 ∨ env.sizeBits = 32 := by unfold Env.sizeBits; split <;> simp

theorem uninit_length (env : Env) (k : Nat) : (uninit env k).length = k := by simp [uninit]

theorem leNat_zeros (xs : List Byte) (k : Nat) : leNat (xs ++ List.replicate k 0) = leNat xs := by
  rw [leNat_append, ← natLE_zero, leNat_natLE]; simp

theorem leWord_zeros (w : Nat) (xs : List Byte) (k : Nat) : leWord w (xs ++ List.replicate k 0) = leWord w xs := by
  rw [leWord, leNat_zeros, leWord]

/-- the two halves of a 128-bit result -/
theorem write2 {α : Type} (env : Env) (a b : W64) (k : List Byte → M α) :
    (write64le env (uninit env 16) 0 a >>= fun r => write64le env r 8 b >>= k) = k (natLE 8 a.toNat ++ natLE 8 b.toNat) := by
  rw [write64le_ok _ _ _ _ (by rw [uninit_length]; omega)]
  simp only [Except.bind_ok]
  rw [write64le_ok _ _ _ _ (by simp [uninit_length])]
  simp only [Except.bind_ok]
  rw [List.take_zero, List.nil_append, List.take_left' (natLE_length _ _),
    List.drop_of_length_le (by simp [uninit_length]), List.append_nil]

end Hash2

namespace Hash2.Mur32
open Spec MURMUR3

theorem scr (k : W32) : rotl (k * c1) 15 * c2 = x86_32.scramble k := by
  rw [rotl_eq _ (by decide : 15 < 32)]; rfl

theorem mix_ok (h k : W32) : mix h k = x86_32.body h k := by
  simp only [mix, scr, x86_32.body, rotl_eq _ (by decide : 13 < 32)]
  rfl

theorem block_ok (env : Env) (h : W32) (b more : List Byte) (hb : b.length = 4) :
    block env (.mem (b ++ more)) h = .ok ((x86_32.obj env.sizeBits).compress h b) := by
  unfold block
  rw [read32le_ok env _ (by simp; omega), List.take_left' hb]
  simp only [Except.bind_ok, Except.pure_eq, mix_ok]
  rfl

theorem add_shl {a : W32} (b : Byte) (k : Nat) (ha : a.toNat < 2 ^ k) (hk : k + 8 ≤ 32) :
    a + (b.zeroExtend 32 <<< k) = a ||| (b.zeroExtend 32 <<< k) := by
  have hb : b.toNat < 2 ^ 8 := b.isLt
  have h1 : b.toNat * 2 ^ k < 2 ^ (8 + k) := by rw [Nat.pow_add]; exact Nat.mul_lt_mul_of_pos_right hb (Nat.two_pow_pos k)
  have h2 : (2 : Nat) ^ (8 + k) ≤ 2 ^ 32 := Nat.pow_le_pow_right (by omega) (by omega)
  have hz : (b.zeroExtend 32 <<< k).toNat = b.toNat * 2 ^ k := by
    rw [BitVec.toNat_shiftLeft, zext_toNat b (by omega), Nat.shiftLeft_eq, Nat.mod_eq_of_lt (by omega)]
  have h3 : a.toNat + 2 ^ k * b.toNat < 2 ^ 32 := by
    have : (b.toNat + 1) * 2 ^ k ≤ 2 ^ 8 * 2 ^ k := Nat.mul_le_mul_right _ hb
    rw [← Nat.pow_add, Nat.add_mul] at this
    rw [Nat.mul_comm]; omega
  apply BitVec.eq_of_toNat_eq
  rw [or_shl_toNat a b k ha hk, BitVec.toNat_add, hz, Nat.mul_comm, Nat.mod_eq_of_lt h3]

theorem tailWord_ok (s : BlockState W32) (tail more : List Byte) (hb : s.buf = tail ++ more) (hm : s.m = tail.length)
    (hlt : tail.length < 4) : tailWord s = .ok (leWord 32 tail) := by
  match tail, hlt with
  | [], _ => unfold tailWord; rw [hm]; rfl
  | [a], _ =>
    unfold tailWord; rw [hm]
    simp only [hb, List.length_cons, List.length_nil, Nat.zero_add, aget, List.cons_append, List.getElem?_cons_zero, Except.bind_ok,
      Except.pure_eq, zeroExtend_ofNat, leWord, leNat, Nat.mul_zero, Nat.add_zero]
  | [a, b], _ =>
    unfold tailWord; rw [hm]
    have ha : (a.zeroExtend 32).toNat < 2 ^ 8 := by rw [zext_toNat a (by omega)]; exact a.isLt
    have e := or4 a b 0 0
    simp only [BitVec.truncate_eq_setWidth, BitVec.ofNat_eq_ofNat, BitVec.setWidth_zero, BitVec.zero_shiftLeft, BitVec.or_zero] at e
    simp only [hb, List.length_cons, List.length_nil, Nat.zero_add, aget, List.cons_append, List.getElem?_cons_zero, Except.bind_ok,
      List.getElem?_cons_succ, Except.pure_eq, add_shl b 8 ha (by omega), BitVec.truncate_eq_setWidth]
    rw [e]
    exact congrArg _ (leWord_zeros 32 [a, b] 2)
  | [a, b, c], _ =>
    unfold tailWord; rw [hm]
    have ha : (a.zeroExtend 32).toNat < 2 ^ 8 := by rw [zext_toNat a (by omega)]; exact a.isLt
    have hab : (a.zeroExtend 32 ||| (b.zeroExtend 32 <<< 8) : W32).toNat < 2 ^ 16 := by
      rw [or_shl_toNat _ b 8 ha (by omega)]
      have := b.isLt; omega
    have e := or4 a b c 0
    simp only [BitVec.truncate_eq_setWidth, BitVec.ofNat_eq_ofNat, BitVec.setWidth_zero, BitVec.zero_shiftLeft, BitVec.or_zero] at e
    simp only [hb, List.length_cons, List.length_nil, Nat.zero_add, aget, List.cons_append, List.getElem?_cons_zero, Except.bind_ok,
      List.getElem?_cons_succ, Except.pure_eq, add_shl b 8 ha (by omega), add_shl c 16 hab (by omega), BitVec.truncate_eq_setWidth]
    rw [e]
    exact congrArg _ (leWord_zeros 32 [a, b, c] 1)

theorem result_ok (env : Env) (s : BlockState W32) (o : Obj W32) (h : Hash2.Rel (cfg env) s ⟨o.st, o.tail, o.n⟩) :
    ∃ buf, result env s = .ok (⟨((x86_32.obj env.sizeBits).res o).1.st, buf, 0, ((x86_32.obj env.sizeBits).res o).1.n⟩,
        ((x86_32.obj env.sizeBits).res o).2) ∧
      buf = List.replicate 4 0 ∧ ((x86_32.obj env.sizeBits).res o).1.n % 4 = 0 ∧
        ((x86_32.obj env.sizeBits).res o).1.n < 2 ^ env.sizeBits := by
  have hm : s.m = o.tail.length := h.m
  have hn : s.n = o.n := h.n
  have hst : s.st = o.st := h.st
  have hlt : o.tail.length < 4 := h.wf.tail_lt
  have hbl : s.buf.length = 4 := h.buf_len
  have hsync : s.m = s.n % 4 := h.sync
  have hbuf : s.buf.take o.tail.length = o.tail := by rw [← hm]; exact h.buf
  refine ⟨List.replicate 4 0, ?_, rfl, ?_, Nat.mod_lt _ (Nat.two_pow_pos _)⟩
  · unfold result
    rw [check_ok hsync, tailWord_ok s o.tail (s.buf.drop o.tail.length) (by
      conv => rhs; arg 1; rw [← hbuf]
      exact (List.take_append_drop _ _).symm) hm hlt]
    simp only [Except.bind_ok]
    rw [csub_ok (by omega), memset_ok _ _ _ _ _ (by omega)]
    simp only [Except.bind_ok, Except.pure_eq]
    rw [List.drop_of_length_le (by omega), hn, hm, hst]
    simp only [scr, BlockHash.res, x86_32.obj, x86_32.finish, id, List.take_zero, List.nil_append, List.append_nil]
    rfl
  · show (o.n + (4 - o.tail.length)) % 2 ^ env.sizeBits % 4 = 0
    rw [hm, hn] at hsync
    rcases sizeBits_cases env with h | h <;> rw [h] <;> omega

def ok (env : Env) : StreamOk (cfg env) (result env) (x86_32.obj env.sizeBits) where
  u := id
  v := id
  uv _ := rfl
  vu _ := rfl
  hN := rfl
  ctr := rfl
  early := rfl
  pos := Nat.succ_pos 3
  tr := block_ok env
  res_ok := result_ok env

theorem fits (env : Env) (o : Obj W32) (bs : List Byte) : (ok env).fits o bs := .inl (by
  show 4 ∣ 2 ^ env.sizeBits
  rcases sizeBits_cases env with h | h <;> rw [h] <;> decide)

theorem start_ok (env : Env) (t : W32) : (ok env).RelO ⟨t, uninit env 4, 0, 0⟩ (Obj.start t) :=
  (ok env).start t (buf := uninit env 4) (uninit_length env 4) (fun h => by cases h)

theorem seed_ok (env : Env) (k : W64) : (ok env).RelO (initSeed env k) ((x86_32.machine env.sizeBits).seed k) := by
  have h0 : k.truncate 32 = BitVec.ofNat 32 k.toNat := by apply BitVec.eq_of_toNat_eq; simp
  have h1 : (k >>> 32).truncate 32 = BitVec.ofNat 32 (k.toNat / 2 ^ 32) := by
    apply BitVec.eq_of_toNat_eq; simp [Nat.shiftRight_eq_div_pow]
  have h := start_ok env (if BitVec.ofNat 32 (k.toNat / 2 ^ 32) = 0 then BitVec.ofNat 32 k.toNat
    else x86_32.body (BitVec.ofNat 32 k.toNat) (BitVec.ofNat 32 (k.toNat / 2 ^ 32)))
  unfold initSeed
  simp only [h0, h1, mix_ok, ne_eq, ite_not]
  exact h

theorem bytes_ok (env : Env) (bs more : List Byte) :
    ∃ s, initBytes env (.mem (bs ++ more)) bs.length = .ok s ∧ (ok env).RelO s ((x86_32.machine env.sizeBits).bytes bs) := by
  unfold initBytes
  show ∃ s, _ ∧ (ok env).RelO s (if bs.length ≤ 4 then _ else _)
  by_cases h0 : bs.length = 0
  · rw [if_pos h0, if_pos (by omega)]
    have : bs = [] := by simpa using h0
    subst this
    exact ⟨_, rfl, start_ok env 0⟩
  · rw [if_neg h0]
    by_cases h4 : bs.length ≤ 4
    · rw [if_pos h4, if_pos h4, stdMemcpy_ok _ _ _ _ (by simp) (by simpa using h4)]
      simp only [Except.bind_ok, List.take_zero, List.nil_append, Nat.zero_add, List.take_left', List.drop_replicate]
      rw [read32le_ok env _ (by simp; omega), List.take_of_length_le (by simp; omega), leWord_zeros]
      exact ⟨_, rfl, start_ok env _⟩
    · rw [if_neg h4, if_neg h4, read32le_ok env _ (by simp; omega), Ptr.add_mem (by simp; omega), csub_ok (by omega)]
      simp only [Except.bind_ok]
      rw [List.take_append_of_le_length (by omega), List.drop_append_of_le_length (by omega)]
      obtain ⟨s1, e1, r1⟩ := (ok env).upd env (start_ok env (leWord 32 (bs.take 4))) (bs.drop 4) more (fits env _ _)
      obtain ⟨s2, e2, r2⟩ := (ok env).res' r1
      refine ⟨s2, ?_, r2⟩
      rw [List.length_drop] at e1
      unfold upd
      rw [e1]
      simp only [Except.bind_ok]
      rw [e2]
      rfl

def implements (env : Env) : Implements murmur3_32 env (x86_32.machine env.sizeBits) :=
  StreamOk.implements env cfg result (ok env) (fun env => .ok (initSeed env 0)) (fun env k => .ok (initSeed env k)) initBytes
    (fun _ r => Integral.get 4 8 r) _ _ _ (fun _ => True)
    ⟨_, rfl, seed_ok env 0⟩ (fun k => ⟨_, rfl, seed_ok env k⟩)
    (fun bs more _ => bytes_ok env bs more) ⟨_, rfl, start_ok env 0⟩

end Hash2.Mur32

namespace Hash2.Mur128
open Spec MURMUR3

def rep (s : x64_128.St) : St := ⟨s.h1, s.h2⟩

theorem scr1 (k : W64) : rotl (k * c1) 31 * c2 = x64_128.scramble1 k := by
  rw [rotl_eq _ (by decide : 31 < 64)]; rfl

theorem scr2 (k : W64) : rotl (k * c2) 33 * c1 = x64_128.scramble2 k := by
  rw [rotl_eq _ (by decide : 33 < 64)]; rfl

theorem block_ok (env : Env) (s : x64_128.St) (b more : List Byte) (hb : b.length = 16) :
    block env (.mem (b ++ more)) (rep s) = .ok (rep (x64_128.body s b)) := by
  unfold block
  rw [Ptr.add_mem (by simp), Ptr.add_mem (by simp; omega)]
  simp only [Except.bind_ok]
  rw [read64le_ok env _ (by simp; omega), read64le_ok env _ (by simp; omega)]
  simp only [Except.bind_ok, Except.pure_eq, List.drop_zero]
  rw [List.take_append_of_le_length (by omega), List.drop_append_of_le_length (by omega),
    List.take_append_of_le_length (by simp; omega), List.take_of_length_le (l := b.drop 8) (by simp; omega)]
  simp only [scr1, scr2, rep, x64_128.body, rotl_eq _ (by decide : 31 < 64), rotl_eq _ (by decide : 27 < 64)]
  rfl

theorem fmix_ok (k : W64) : fmix k = x64_128.fmix k := rfl

/-- the words of the zero padded tail -/
theorem take8_pad (tail : List Byte) (h : tail.length < 16) :
    leWord 64 ((tail ++ List.replicate (16 - tail.length) 0).take 8) = leWord 64 (tail.take 8) ∧
    leWord 64 (((tail ++ List.replicate (16 - tail.length) 0).drop 8).take 8) = leWord 64 (tail.drop 8) := by
  constructor
  · rw [List.take_append, List.take_replicate, leWord_zeros]
  · rw [List.drop_append, List.drop_replicate, List.take_append, List.take_replicate, leWord_zeros,
      List.take_of_length_le (by simp; omega)]

theorem result_ok (env : Env) (s : BlockState St) (o : Obj x64_128.St) (h : Hash2.Rel (cfg env) s ⟨rep o.st, o.tail, o.n⟩) :
    ∃ buf, result env s = .ok (⟨rep ((x64_128.obj env.sizeBits).res o).1.st, buf, 0, ((x64_128.obj env.sizeBits).res o).1.n⟩,
        ((x64_128.obj env.sizeBits).res o).2) ∧
      buf = List.replicate 16 0 ∧ ((x64_128.obj env.sizeBits).res o).1.n % 16 = 0 ∧
        ((x64_128.obj env.sizeBits).res o).1.n < 2 ^ env.sizeBits := by
  have hm : s.m = o.tail.length := h.m
  have hn : s.n = o.n := h.n
  have hst : s.st = rep o.st := h.st
  have hlt : o.tail.length < 16 := h.wf.tail_lt
  have hbl : s.buf.length = 16 := h.buf_len
  have hsync : s.m = s.n % 16 := h.sync
  have hbuf : s.buf.take o.tail.length = o.tail := by rw [← hm]; exact h.buf
  refine ⟨List.replicate 16 0, ?_, rfl, ?_, Nat.mod_lt _ (Nat.two_pow_pos _)⟩
  · unfold result
    rw [check_ok hsync]
    simp only [Except.bind_ok]
    rw [csub_ok (by omega)]
    simp only [Except.bind_ok]
    rw [memset_ok _ _ _ _ _ (by omega), hm, hbuf, show o.tail.length + (16 - o.tail.length) = 16 by omega,
      List.drop_of_length_le (by omega), List.append_nil]
    simp only [Except.bind_ok]
    have hl : (o.tail ++ List.replicate (16 - o.tail.length) (0 : Byte)).length = 16 := by simp; omega
    rw [Ptr.add_mem (by omega), Ptr.add_mem (by omega)]
    simp only [Except.bind_ok]
    rw [read64le_ok env _ (by rw [List.length_drop, hl]; decide), read64le_ok env _ (by rw [List.length_drop, hl]; decide)]
    simp only [Except.bind_ok, List.drop_zero]
    rw [(take8_pad _ hlt).1, (take8_pad _ hlt).2, memset_ok _ _ _ _ _ (by omega)]
    simp only [Except.bind_ok]
    rw [List.drop_of_length_le (i := 0 + 16) (by omega)]
    rw [write2]
    rw [hn, hst]
    simp only [scr1, scr2, fmix_ok, rep, BlockHash.res, x64_128.obj, x64_128.finish, id, List.take_zero, List.nil_append,
      List.append_nil, Except.pure_eq]
  · show (o.n + (16 - o.tail.length)) % 2 ^ env.sizeBits % 16 = 0
    rw [hm, hn] at hsync
    rcases sizeBits_cases env with h | h <;> rw [h] <;> omega

def ok (env : Env) : StreamOk (cfg env) (result env) (x64_128.obj env.sizeBits) where
  u := rep
  v q := ⟨q.h1, q.h2⟩
  uv _ := rfl
  vu _ := rfl
  hN := rfl
  ctr := rfl
  early := rfl
  pos := Nat.succ_pos 15
  tr := block_ok env
  res_ok := result_ok env

theorem fits (env : Env) (o : Obj x64_128.St) (bs : List Byte) : (ok env).fits o bs := .inl (by
  show 16 ∣ 2 ^ env.sizeBits
  rcases sizeBits_cases env with h | h <;> rw [h] <;> decide)

theorem start_ok (env : Env) (t : x64_128.St) : (ok env).RelO ⟨rep t, uninit env 16, 0, 0⟩ (Obj.start t) :=
  (ok env).start t (buf := uninit env 16) (uninit_length env 16) (fun h => by cases h)

theorem bytes_ok (env : Env) (bs more : List Byte) :
    ∃ s, initBytes env (.mem (bs ++ more)) bs.length = .ok s ∧ (ok env).RelO s ((x64_128.machine env.sizeBits).bytes bs) := by
  unfold initBytes
  show ∃ s, _ ∧ (ok env).RelO s (if bs.length ≤ 8 then _ else if bs.length ≤ 16 then _ else _)
  by_cases h0 : bs.length = 0
  · rw [if_pos h0, if_pos (by omega)]
    have : bs = [] := by simpa using h0
    subst this
    exact ⟨_, rfl, start_ok env ⟨0, 0⟩⟩
  · rw [if_neg h0]
    by_cases h8 : bs.length ≤ 8
    · rw [if_pos h8, if_pos h8, stdMemcpy_ok _ _ _ _ (by simp) (by simpa using h8)]
      simp only [Except.bind_ok, List.take_zero, List.nil_append, Nat.zero_add, List.take_left', List.drop_replicate]
      rw [read64le_ok env _ (by simp; omega), List.take_of_length_le (by simp; omega), leWord_zeros]
      exact ⟨_, rfl, start_ok env ⟨leWord 64 bs, leWord 64 bs⟩⟩
    · rw [if_neg h8, if_neg h8]
      by_cases h16 : bs.length ≤ 16
      · rw [if_pos h16, if_pos h16, stdMemcpy_ok _ _ _ _ (by simp) (by simp; omega)]
        simp only [Except.bind_ok, List.take_zero, List.nil_append, Nat.zero_add, List.take_left', List.drop_replicate]
        rw [Ptr.add_mem (by simp), Ptr.add_mem (by simp; omega)]
        simp only [Except.bind_ok]
        rw [read64le_ok env _ (by simp; omega), read64le_ok env _ (by simp; omega)]
        simp only [Except.bind_ok, List.drop_zero]
        rw [List.take_append_of_le_length (by omega), List.drop_append_of_le_length (by omega), List.take_append,
          List.take_replicate, leWord_zeros, List.take_of_length_le (l := bs.drop 8) (by simp; omega)]
        exact ⟨_, rfl, start_ok env ⟨leWord 64 (bs.take 8), leWord 64 (bs.drop 8)⟩⟩
      · rw [if_neg h16, if_neg h16, Ptr.add_mem (by simp), Ptr.add_mem (by simp; omega)]
        simp only [Except.bind_ok]
        rw [read64le_ok env _ (by simp; omega), read64le_ok env _ (by simp; omega), Ptr.add_mem (by simp; omega), csub_ok (by omega)]
        simp only [Except.bind_ok, List.drop_zero]
        rw [List.take_append_of_le_length (by omega), List.drop_append_of_le_length (by omega),
          List.take_append_of_le_length (by simp; omega), List.drop_append_of_le_length (by omega)]
        obtain ⟨s1, e1, r1⟩ := (ok env).upd env
          (start_ok env ⟨leWord 64 (bs.take 8), leWord 64 ((bs.drop 8).take 8)⟩) (bs.drop 16) more (fits env _ _)
        obtain ⟨s2, e2, r2⟩ := (ok env).res' r1
        refine ⟨s2, ?_, r2⟩
        rw [List.length_drop] at e1
        unfold upd
        change update env (cfg env) ⟨⟨leWord 64 (bs.take 8), leWord 64 ((bs.drop 8).take 8)⟩, uninit env 16, 0, 0⟩ _ _ = _ at e1
        rw [e1]
        simp only [Except.bind_ok]
        rw [e2]
        rfl

def implements (env : Env) : Implements murmur3_128 env (x64_128.machine env.sizeBits) :=
  StreamOk.implements env cfg result (ok env) (fun env => .ok (initSeed env 0)) (fun env k => .ok (initSeed env k)) initBytes
    (fun env r => Integral.getDigest env 8 r) _ _ _ (fun _ => True)
    ⟨_, rfl, start_ok env ⟨0, 0⟩⟩ (fun k => ⟨_, rfl, start_ok env ⟨k, k⟩⟩)
    (fun bs more _ => bytes_ok env bs more) ⟨_, rfl, start_ok env ⟨0, 0⟩⟩

end Hash2.Mur128

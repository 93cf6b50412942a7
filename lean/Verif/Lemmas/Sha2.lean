import Verif.Lemmas.Rounds
import Verif.Spec.Sha2
/-
The sha2_* classes implement the functions of FIPS 180-4.
-/
namespace Hash2.Sha2
open Spec

/-- representation of a chaining value -/
def rep {w : Nat} (q : SHA2.St w) : Q8 (BitVec w) := ⟨q.a, q.b, q.c, q.d, q.e, q.f, q.g, q.h⟩
def unrep {w : Nat} (q : Q8 (BitVec w)) : SHA2.St w := ⟨q.a, q.b, q.c, q.d, q.e, q.f, q.g, q.h⟩

namespace S256
theorem Sigma0_eq (x : W32) : Sigma0 x = SHA2.v256.S0 x := by
  simp only [Sigma0, SHA2.v256, rotr_eq _ (by decide : 2 < 32), rotr_eq _ (by decide : 13 < 32), rotr_eq _ (by decide : 22 < 32)]
theorem Sigma1_eq (x : W32) : Sigma1 x = SHA2.v256.S1 x := by
  simp only [Sigma1, SHA2.v256, rotr_eq _ (by decide : 6 < 32), rotr_eq _ (by decide : 11 < 32), rotr_eq _ (by decide : 25 < 32)]
theorem sigma0_eq (x : W32) : sigma0 x = SHA2.v256.s0 x := by
  simp only [sigma0, SHA2.v256, rotr_eq _ (by decide : 7 < 32), rotr_eq _ (by decide : 18 < 32)]
theorem sigma1_eq (x : W32) : sigma1 x = SHA2.v256.s1 x := by
  simp only [sigma1, SHA2.v256, rotr_eq _ (by decide : 17 < 32), rotr_eq _ (by decide : 19 < 32)]
theorem Ch_eq (x y z : W32) : Ch x y z = SHA2.Ch x y z := rfl
theorem Maj_eq (x y z : W32) : Maj x y z = SHA2.Maj x y z := rfl

theorem K_eq : K256 = (List.range 64).map (SHA2.K 32) := by decide +kernel

theorem K_get (t : Nat) (h : t < 64) : aget K256 t = .ok (SHA2.K 32 t) := by
  rw [K_eq, aget_ok (by simpa using h)]; simp

/-- the array W[] before step i -/
def wArr (blk : List Byte) (i : Nat) : List W32 := (List.range i).map (SHA2.W SHA2.v256 blk) ++ List.replicate (64 - i) 0

theorem wArr_get (blk : List Byte) (i j : Nat) (h : j < i) : aget (wArr blk i) j = .ok (SHA2.W SHA2.v256 blk j) := by
  rw [wArr, aget_append_left (by simpa using h)]; simp

theorem wArr_set (blk : List Byte) (i : Nat) (h : i < 64) :
    aset (wArr blk i) i (SHA2.W SHA2.v256 blk i) = .ok (wArr blk (i + 1)) := by
  have := aset_append ((List.range i).map (SHA2.W SHA2.v256 blk)) (SHA2.W SHA2.v256 blk i) 0 (64 - (i + 1))
  rw [show 64 - (i + 1) + 1 = 64 - i by omega] at this
  simp only [List.length_map, List.length_range] at this
  rw [wArr, this, wArr, List.range_succ, List.map_append]; rfl

theorem sched_ok (blk : List Byte) (i : Nat) (h16 : 16 ≤ i) (hi : i < 64) :
    sched256 i (wArr blk i) = .ok (wArr blk (i + 1)) := by
  unfold sched256
  rw [csub_ok (by omega), csub_ok (by omega), csub_ok (by omega), csub_ok (by omega)]
  simp only [Except.bind_ok]
  rw [wArr_get _ _ _ (by omega), wArr_get _ _ _ (by omega), wArr_get _ _ _ (by omega), wArr_get _ _ _ (by omega)]
  simp only [Except.bind_ok]
  have := wArr_set blk i hi
  rw [SHA2.W, if_neg (by omega : ¬ i < 16)] at this
  rw [sigma0_eq, sigma1_eq, this]

theorem round_ok (blk : List Byte) (t : Nat) (ht : t < 64) (q : SHA2.St 32) :
    round256 (wArr blk 64) t (rep q) = .ok (rep (SHA2.step SHA2.v256 blk t q)) := by
  unfold round256
  rw [K_get t ht, wArr_get _ _ _ ht]
  simp only [Except.bind_ok, Except.pure_eq, Sigma0_eq, Sigma1_eq, Ch_eq, Maj_eq, rep, SHA2.step]

theorem transform_ok (st : SHA2.St 32) (b more : List Byte) (hb : b.length = 64) :
    transform256 (.mem (b ++ more)) (rep st) = .ok (rep (SHA2.compress SHA2.v256 st b)) := by
  unfold transform256
  have hl := forLoop_load read32be (beWord 32) 4 read32be_ok b more 16 48 (by omega)
  rw [hl]
  simp only [Except.bind_ok]
  have h0 : (List.range 16).map (fun i => beWord 32 ((b.drop (4 * i)).take 4)) ++ List.replicate 48 0 = wArr b 16 := by
    unfold wArr
    congr 1
    apply List.map_congr_left
    intro i hi
    rw [List.mem_range] at hi
    rw [SHA2.W, if_pos hi]; rfl
  rw [h0]
  obtain ⟨w, e, h⟩ := forLoop_inv sched256 16 (fun j w => w = wArr b (16 + j)) (wArr b 16) rfl 48 (by
    intro j w hj hw
    subst hw
    exact ⟨_, sched_ok b (16 + j) (by omega) (by omega), rfl⟩)
  rw [e]
  simp only [Except.bind_ok]
  subst h
  obtain ⟨q, e, h⟩ := forLoop_steps (round256 (wArr b 64)) (SHA2.step SHA2.v256 b) (fun _ q t => q = rep t) 64
    (by
      intro i hi q t hq
      subst hq
      exact ⟨_, round_ok b i hi t, rfl⟩) (rep st) st rfl
  show (forLoop (round256 (wArr b 64)) 0 64 (rep st) >>= _) = _
  rw [e]
  subst h
  simp only [Except.bind_ok, Except.pure_eq]
  unfold SHA2.compress
  simp only [rep]
  have hr : SHA2.v256.rounds = 64 := rfl
  rw [hr]
  simp only [BitVec.add_comm]

end S256

namespace S512
theorem Sigma0_eq (x : W64) : Sigma0 x = SHA2.v512.S0 x := by
  simp only [Sigma0, SHA2.v512, rotr_eq _ (by decide : 28 < 64), rotr_eq _ (by decide : 34 < 64), rotr_eq _ (by decide : 39 < 64)]
theorem Sigma1_eq (x : W64) : Sigma1 x = SHA2.v512.S1 x := by
  simp only [Sigma1, SHA2.v512, rotr_eq _ (by decide : 14 < 64), rotr_eq _ (by decide : 18 < 64), rotr_eq _ (by decide : 41 < 64)]
theorem sigma0_eq (x : W64) : sigma0 x = SHA2.v512.s0 x := by
  simp only [sigma0, SHA2.v512, rotr_eq _ (by decide : 1 < 64), rotr_eq _ (by decide : 8 < 64)]
theorem sigma1_eq (x : W64) : sigma1 x = SHA2.v512.s1 x := by
  simp only [sigma1, SHA2.v512, rotr_eq _ (by decide : 19 < 64), rotr_eq _ (by decide : 61 < 64)]
theorem Ch_eq (x y z : W64) : Ch x y z = SHA2.Ch x y z := rfl
theorem Maj_eq (x y z : W64) : Maj x y z = SHA2.Maj x y z := rfl

theorem K_eq : K512 = (List.range 80).map (SHA2.K 64) := by decide +kernel

theorem K_get (t : Nat) (h : t < 80) : aget K512 t = .ok (SHA2.K 64 t) := by
  rw [K_eq, aget_ok (by simpa using h)]; simp

/-- the array W[] before step i -/
def wArr (blk : List Byte) (i : Nat) : List W64 := (List.range i).map (SHA2.W SHA2.v512 blk) ++ List.replicate (80 - i) 0

theorem wArr_get (blk : List Byte) (i j : Nat) (h : j < i) : aget (wArr blk i) j = .ok (SHA2.W SHA2.v512 blk j) := by
  rw [wArr, aget_append_left (by simpa using h)]; simp

theorem wArr_set (blk : List Byte) (i : Nat) (h : i < 80) :
    aset (wArr blk i) i (SHA2.W SHA2.v512 blk i) = .ok (wArr blk (i + 1)) := by
  have := aset_append ((List.range i).map (SHA2.W SHA2.v512 blk)) (SHA2.W SHA2.v512 blk i) 0 (80 - (i + 1))
  rw [show 80 - (i + 1) + 1 = 80 - i by omega] at this
  simp only [List.length_map, List.length_range] at this
  rw [wArr, this, wArr, List.range_succ, List.map_append]; rfl

theorem sched_ok (blk : List Byte) (i : Nat) (h16 : 16 ≤ i) (hi : i < 80) :
    sched512 i (wArr blk i) = .ok (wArr blk (i + 1)) := by
  unfold sched512
  rw [csub_ok (by omega), csub_ok (by omega), csub_ok (by omega), csub_ok (by omega)]
  simp only [Except.bind_ok]
  rw [wArr_get _ _ _ (by omega), wArr_get _ _ _ (by omega), wArr_get _ _ _ (by omega), wArr_get _ _ _ (by omega)]
  simp only [Except.bind_ok]
  have := wArr_set blk i hi
  rw [SHA2.W, if_neg (by omega : ¬ i < 16)] at this
  rw [sigma0_eq, sigma1_eq, this]

theorem round_ok (blk : List Byte) (t : Nat) (ht : t < 80) (q : SHA2.St 64) :
    round512 (wArr blk 80) t (rep q) = .ok (rep (SHA2.step SHA2.v512 blk t q)) := by
  unfold round512
  rw [K_get t ht, wArr_get _ _ _ ht]
  simp only [Except.bind_ok, Except.pure_eq, Sigma0_eq, Sigma1_eq, Ch_eq, Maj_eq, rep, SHA2.step]

theorem transform_ok (st : SHA2.St 64) (b more : List Byte) (hb : b.length = 128) :
    transform512 (.mem (b ++ more)) (rep st) = .ok (rep (SHA2.compress SHA2.v512 st b)) := by
  unfold transform512
  have hl := forLoop_load read64be (beWord 64) 8 read64be_ok b more 16 64 (by omega)
  rw [hl]
  simp only [Except.bind_ok]
  have h0 : (List.range 16).map (fun i => beWord 64 ((b.drop (8 * i)).take 8)) ++ List.replicate 64 0 = wArr b 16 := by
    unfold wArr
    congr 1
    apply List.map_congr_left
    intro i hi
    rw [List.mem_range] at hi
    rw [SHA2.W, if_pos hi]; rfl
  rw [h0]
  obtain ⟨w, e, h⟩ := forLoop_inv sched512 16 (fun j w => w = wArr b (16 + j)) (wArr b 16) rfl 64 (by
    intro j w hj hw
    subst hw
    exact ⟨_, sched_ok b (16 + j) (by omega) (by omega), rfl⟩)
  rw [e]
  simp only [Except.bind_ok]
  subst h
  obtain ⟨q, e, h⟩ := forLoop_steps (round512 (wArr b 80)) (SHA2.step SHA2.v512 b) (fun _ q t => q = rep t) 80
    (by
      intro i hi q t hq
      subst hq
      exact ⟨_, round_ok b i hi t, rfl⟩) (rep st) st rfl
  show (forLoop (round512 (wArr b 80)) 0 80 (rep st) >>= _) = _
  rw [e]
  subst h
  simp only [Except.bind_ok, Except.pure_eq]
  unfold SHA2.compress
  simp only [rep]
  have hr : SHA2.v512.rounds = 80 := rfl
  rw [hr]
  simp only [BitVec.add_comm]

end S512

deriving instance DecidableEq for Except

theorem take_natBE {k m v : Nat} (h : k ≤ m) : (natBE k v).take m = natBE k v :=
  List.take_of_length_le (by simpa using h)

theorem natBE_mod (k v : Nat) : natBE k (v % 256 ^ k) = natBE k v := by
  rw [natBE, natLE_mod]; rfl

theorem enc256 (len : Nat) :
    write64be (List.replicate 8 0) 0 (BitVec.ofNat 64 (len % 2 ^ 64 * 8)) = .ok (natBE 8 (8 * len)) := by
  rw [write64be_ok _ _ _ (by simp)]
  have : (BitVec.ofNat 64 (len % 2 ^ 64 * 8)).toNat = 8 * len % 256 ^ 8 := by
    rw [BitVec.toNat_ofNat]; omega
  rw [this, natBE_mod]
  simp

theorem enc512 (len : Nat) :
    write64be (List.replicate 16 0) 8 (BitVec.ofNat 64 (len % 2 ^ 64 * 8)) = .ok (natBE 16 (8 * len % 2 ^ 64)) := by
  rw [write64be_ok _ _ _ (by simp)]
  have : (BitVec.ofNat 64 (len % 2 ^ 64 * 8)).toNat = 8 * len % 2 ^ 64 := by
    rw [BitVec.toNat_ofNat]; omega
  have hlt : 8 * len % 2 ^ 64 / 256 ^ 8 = 0 := Nat.div_eq_of_lt (by omega)
  have h16 : natBE 16 (8 * len % 2 ^ 64) = List.replicate 8 0 ++ natBE 8 (8 * len % 2 ^ 64) := by
    rw [natBE, show (16 : Nat) = 8 + 8 from rfl, natLE_add, hlt, natLE_zero, List.reverse_append, List.reverse_replicate]
    rfl
  rw [this, h16]
  simp

theorem sha256_out (env : Env) (st : SHA2.St 32) : sha256Out env (rep st) = .ok ((SHA2.encode st).take 32) := by
  unfold sha256Out
  have := forLoop_write 4 (Q8.get (rep st)) write32be (fun v => natBE 4 v.toNat)
    (by simp) (fun d off v h => write32be_ok d off v h) [st.a, st.b, st.c, st.d, st.e, st.f, st.g, st.h]
    (by
      intro i hi
      match i, hi with
      | 0, _ => rfl
      | 1, _ => rfl
      | 2, _ => rfl
      | 3, _ => rfl
      | 4, _ => rfl
      | 5, _ => rfl
      | 6, _ => rfl
      | 7, _ => rfl) (List.replicate 32 0) (by simp)
  simp only [List.length_cons, List.length_nil, Nat.zero_add, Nat.reduceAdd] at this
  rw [this]
  simp [SHA2.encode, List.take_append, take_natBE]

theorem sha224_out (env : Env) (st : SHA2.St 32) : sha224Out env (rep st) = .ok ((SHA2.encode st).take 28) := by
  unfold sha224Out
  have := forLoop_write 4 (Q8.get (rep st)) write32be (fun v => natBE 4 v.toNat)
    (by simp) (fun d off v h => write32be_ok d off v h) [st.a, st.b, st.c, st.d, st.e, st.f, st.g]
    (by
      intro i hi
      match i, hi with
      | 0, _ => rfl
      | 1, _ => rfl
      | 2, _ => rfl
      | 3, _ => rfl
      | 4, _ => rfl
      | 5, _ => rfl
      | 6, _ => rfl) (List.replicate 28 0) (by simp)
  simp only [List.length_cons, List.length_nil, Nat.zero_add, Nat.reduceAdd] at this
  rw [this]
  simp [SHA2.encode, List.take_append, take_natBE]

theorem sha512_out (env : Env) (st : SHA2.St 64) : sha512Out env (rep st) = .ok ((SHA2.encode st).take 64) := by
  unfold sha512Out
  have := forLoop_write 8 (Q8.get (rep st)) write64be (fun v => natBE 8 v.toNat)
    (by simp) (fun d off v h => write64be_ok d off v h) [st.a, st.b, st.c, st.d, st.e, st.f, st.g, st.h]
    (by
      intro i hi
      match i, hi with
      | 0, _ => rfl
      | 1, _ => rfl
      | 2, _ => rfl
      | 3, _ => rfl
      | 4, _ => rfl
      | 5, _ => rfl
      | 6, _ => rfl
      | 7, _ => rfl) (List.replicate 64 0) (by simp)
  simp only [List.length_cons, List.length_nil, Nat.zero_add, Nat.reduceAdd] at this
  rw [this]
  simp [SHA2.encode, List.take_append, take_natBE]

theorem sha384_out (env : Env) (st : SHA2.St 64) : sha384Out env (rep st) = .ok ((SHA2.encode st).take 48) := by
  unfold sha384Out
  have := forLoop_write 8 (Q8.get (rep st)) write64be (fun v => natBE 8 v.toNat)
    (by simp) (fun d off v h => write64be_ok d off v h) [st.a, st.b, st.c, st.d, st.e, st.f]
    (by
      intro i hi
      match i, hi with
      | 0, _ => rfl
      | 1, _ => rfl
      | 2, _ => rfl
      | 3, _ => rfl
      | 4, _ => rfl
      | 5, _ => rfl) (List.replicate 48 0) (by simp)
  simp only [List.length_cons, List.length_nil, Nat.zero_add, Nat.reduceAdd] at this
  rw [this]
  simp [SHA2.encode, List.take_append, take_natBE]

theorem sha512_256_out (env : Env) (st : SHA2.St 64) : sha512_256Out env (rep st) = .ok ((SHA2.encode st).take 32) := by
  unfold sha512_256Out
  have := forLoop_write 8 (Q8.get (rep st)) write64be (fun v => natBE 8 v.toNat)
    (by simp) (fun d off v h => write64be_ok d off v h) [st.a, st.b, st.c, st.d]
    (by
      intro i hi
      match i, hi with
      | 0, _ => rfl
      | 1, _ => rfl
      | 2, _ => rfl
      | 3, _ => rfl) (List.replicate 32 0) (by simp)
  simp only [List.length_cons, List.length_nil, Nat.zero_add, Nat.reduceAdd] at this
  rw [this]
  simp [SHA2.encode, List.take_append, take_natBE]

theorem half (v : W64) : natBE 4 ((v >>> 32).truncate 32 : W32).toNat = (natBE 8 v.toNat).take 4 := by
  have h : ((v >>> 32).truncate 32 : W32).toNat = v.toNat / 2 ^ 32 := by
    have := v.isLt
    simp only [BitVec.truncate_eq_setWidth, BitVec.toNat_setWidth, BitVec.toNat_ushiftRight, Nat.shiftRight_eq_div_pow]
    omega
  rw [h, natBE, natBE, show 8 = 4 + 4 from rfl, natLE_add, List.reverse_append, List.take_left' (by simp)]

theorem sha512_224_out (env : Env) (st : SHA2.St 64) : sha512_224Out env (rep st) = .ok ((SHA2.encode st).take 28) := by
  unfold sha512_224Out
  have := forLoop_write 8 (Q8.get (rep st)) write64be (fun v => natBE 8 v.toNat)
    (by simp) (fun d off v h => write64be_ok d off v h) [st.a, st.b, st.c]
    (by
      intro i hi
      match i, hi with
      | 0, _ => rfl
      | 1, _ => rfl
      | 2, _ => rfl) (List.replicate 28 0) (by simp)
  simp only [List.length_cons, List.length_nil, Nat.zero_add, Nat.reduceAdd] at this
  rw [this]
  have hg : (rep st).get 3 = .ok st.d := rfl
  rw [hg]
  simp only [Except.bind_ok]
  rw [write32be_ok _ _ _ (by simp), half]
  rw [List.drop_of_length_le (i := 3 * 8 + 4) (by simp)]
  simp [SHA2.encode, List.take_append, take_natBE]

/-- the last step of the derivation of the initial values of SHA-512/t -/
theorem ivT_eq (name blk : List Byte) (iv : Q8 W64) (hb : name ++ (SHA2.md64 SHA2.ivGen 64).pad name.length = blk)
    (hl : blk.length = 128) (h : transform512 (.mem blk) (rep SHA2.ivGen) = .ok iv) : iv = rep (SHA2.ivT name) := by
  have ht := S512.transform_ok SHA2.ivGen blk [] hl
  rw [List.append_nil, h] at ht
  have hc : SHA2.ivT name = SHA2.compress SHA2.v512 SHA2.ivGen blk := by
    unfold SHA2.ivT Md.chain
    rw [hb]
    show List.foldl (SHA2.compress SHA2.v512) SHA2.ivGen (blocks 128 blk) = _
    have := blocks_append (N := 128) (b := blk) (l := []) (by decide) hl
    rw [List.append_nil, blocks_short (l := []) (by simp)] at this
    rw [this]; rfl
  rw [hc]
  exact Except.ok.inj ht

theorem iv512_224 : sha512_224IV = rep (SHA2.ivT SHA2.name224) :=
  ivT_eq SHA2.name224 (SHA2.name224 ++ (SHA2.md64 SHA2.ivGen 64).pad 11) _ rfl (by decide +kernel) (by decide +kernel)

theorem iv512_256 : sha512_256IV = rep (SHA2.ivT SHA2.name256) :=
  ivT_eq SHA2.name256 (SHA2.name256 ++ (SHA2.md64 SHA2.ivGen 64).pad 11) _ rfl (by decide +kernel) (by decide +kernel)

set_option maxRecDepth 4096 in
def sha256_ok (env : Env) : MdOk sha256Md SHA2.sha256 env where
  u := rep
  v := unrep
  uv _ := rfl
  vu _ := rfl
  hN := rfl
  ctr := rfl
  clear := rfl
  pos := by decide
  dvd := by decide
  hL := by decide
  thr := rfl
  over := rfl
  padLen := rfl
  bitsLen := rfl
  tr := S256.transform_ok
  iv := by decide +kernel
  enc := enc256
  encLen _ := by simp [SHA2.sha256, SHA2.md32]
  out := sha256_out env

/-- sha2_256 implements the function of FIPS 180-4 -/
def sha256_implements (env : Env) : Implements sha2_256.toHash env (SHA2.sha256).machine := (sha256_ok env).implements 64

set_option maxRecDepth 4096 in
def sha224_ok (env : Env) : MdOk sha224Md SHA2.sha224 env where
  u := rep
  v := unrep
  uv _ := rfl
  vu _ := rfl
  hN := rfl
  ctr := rfl
  clear := rfl
  pos := by decide
  dvd := by decide
  hL := by decide
  thr := rfl
  over := rfl
  padLen := rfl
  bitsLen := rfl
  tr := S256.transform_ok
  iv := by decide +kernel
  enc := enc256
  encLen _ := by simp [SHA2.sha224, SHA2.md32]
  out := sha224_out env

/-- sha2_224 implements the function of FIPS 180-4 -/
def sha224_implements (env : Env) : Implements sha2_224.toHash env (SHA2.sha224).machine := (sha224_ok env).implements 64

set_option maxRecDepth 4096 in
def sha512_ok (env : Env) : MdOk sha512Md SHA2.sha512.mod64 env where
  u := rep
  v := unrep
  uv _ := rfl
  vu _ := rfl
  hN := rfl
  ctr := rfl
  clear := rfl
  pos := by decide
  dvd := by decide
  hL := by decide
  thr := rfl
  over := rfl
  padLen := rfl
  bitsLen := rfl
  tr := S512.transform_ok
  iv := by decide +kernel
  enc := enc512
  encLen _ := by simp [SHA2.sha512, SHA2.md64, Md.mod64]
  out := sha512_out env

/-- sha2_512 implements the function of FIPS 180-4, up to the reduction of the length -/
def sha512_implements (env : Env) : Implements sha2_512.toHash env (SHA2.sha512.mod64).machine := (sha512_ok env).implements 128

set_option maxRecDepth 4096 in
def sha384_ok (env : Env) : MdOk sha384Md SHA2.sha384.mod64 env where
  u := rep
  v := unrep
  uv _ := rfl
  vu _ := rfl
  hN := rfl
  ctr := rfl
  clear := rfl
  pos := by decide
  dvd := by decide
  hL := by decide
  thr := rfl
  over := rfl
  padLen := rfl
  bitsLen := rfl
  tr := S512.transform_ok
  iv := by decide +kernel
  enc := enc512
  encLen _ := by simp [SHA2.sha384, SHA2.md64, Md.mod64]
  out := sha384_out env

/-- sha2_384 implements the function of FIPS 180-4, up to the reduction of the length -/
def sha384_implements (env : Env) : Implements sha2_384.toHash env (SHA2.sha384.mod64).machine := (sha384_ok env).implements 128

set_option maxRecDepth 4096 in
def sha512_224_ok (env : Env) : MdOk sha512_224Md SHA2.sha512_224.mod64 env where
  u := rep
  v := unrep
  uv _ := rfl
  vu _ := rfl
  hN := rfl
  ctr := rfl
  clear := rfl
  pos := by decide
  dvd := by decide
  hL := by decide
  thr := rfl
  over := rfl
  padLen := rfl
  bitsLen := rfl
  tr := S512.transform_ok
  iv := iv512_224
  enc := enc512
  encLen _ := by simp [SHA2.sha512_224, SHA2.md64, Md.mod64]
  out := sha512_224_out env

/-- sha2_512_224 implements the function of FIPS 180-4, up to the reduction of the length -/
def sha512_224_implements (env : Env) : Implements sha2_512_224.toHash env (SHA2.sha512_224.mod64).machine := (sha512_224_ok env).implements 128

set_option maxRecDepth 4096 in
def sha512_256_ok (env : Env) : MdOk sha512_256Md SHA2.sha512_256.mod64 env where
  u := rep
  v := unrep
  uv _ := rfl
  vu _ := rfl
  hN := rfl
  ctr := rfl
  clear := rfl
  pos := by decide
  dvd := by decide
  hL := by decide
  thr := rfl
  over := rfl
  padLen := rfl
  bitsLen := rfl
  tr := S512.transform_ok
  iv := iv512_256
  enc := enc512
  encLen _ := by simp [SHA2.sha512_256, SHA2.md64, Md.mod64]
  out := sha512_256_out env

/-- sha2_512_256 implements the function of FIPS 180-4, up to the reduction of the length -/
def sha512_256_implements (env : Env) : Implements sha2_512_256.toHash env (SHA2.sha512_256.mod64).machine := (sha512_256_ok env).implements 128

end Hash2.Sha2

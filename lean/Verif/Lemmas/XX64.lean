import Verif.Lemmas.Stream
import Verif.Spec.XX
/-
xxhash_64 implements XXH64.
-/
namespace Hash2

/-- one by one is the same as in blocks of one -/
theorem foldl_blocks1 {α : Type} (g : α → Byte → α) (bs : List Byte) (a : α) :
    (Spec.blocks 1 bs).foldl (fun a b => g a (b.headD 0)) a = bs.foldl g a := by
  induction bs generalizing a with
  | nil => rfl
  | cons b bs ih =>
    rw [show b :: bs = [b] ++ bs from rfl, Spec.blocks_append (N := 1) (b := [b]) (by omega) rfl]
    simp only [List.foldl_cons, List.headD_cons, List.singleton_append]
    exact ih _

theorem zeroExtend_ofNat {k w : Nat} (b : BitVec k) : b.zeroExtend w = BitVec.ofNat w b.toNat := by
  apply BitVec.eq_of_toNat_eq; simp

theorem leWord_zext {bs : List Byte} (h : bs.length = 4) : (leWord 32 bs).zeroExtend 64 = leWord 64 bs := by
  rw [zeroExtend_ofNat, leWord, leWord, BitVec.toNat_ofNat]
  have := leNat_lt bs
  rw [h] at this
  rw [Nat.mod_eq_of_lt (by omega)]

end Hash2

namespace Hash2.XX64
open Spec

def rep (s : Acc4 64) : Q4 W64 := ⟨s.a1, s.a2, s.a3, s.a4⟩

theorem P1_eq : P1 = XXH64.prime1 := by decide +kernel
theorem P2_eq : P2 = XXH64.prime2 := by decide +kernel
theorem P3_eq : P3 = XXH64.prime3 := by decide +kernel
theorem P4_eq : P4 = XXH64.prime4 := by decide +kernel
theorem P5_eq : P5 = XXH64.prime5 := by decide +kernel

theorem round_ok (a l : W64) : round a l = XXH64.round a l := by
  simp only [round, XXH64.round, rotl_eq _ (by decide : 31 < 64), P1_eq, P2_eq]

theorem merge_ok (a l : W64) : merge_round a l = XXH64.merge a l := by
  simp only [merge_round, XXH64.merge, round_ok, P1_eq, P4_eq]

theorem block_ok (env : Env) (s : Acc4 64) (b more : List Byte) (hb : b.length = 32) :
    block env (.mem (b ++ more)) (rep s) = .ok (rep (XXH64.stripe s b)) := by
  have hr : ∀ i, i < 4 → read64le env (.mem ((b ++ more).drop (8 * i))) = .ok (XXH64.lane b i) := by
    intro i hi
    rw [read64le_ok env _ (by simp; omega), List.drop_append_of_le_length (by omega),
      List.take_append_of_le_length (by simp; omega)]
    rfl
  unfold block
  rw [Ptr.add_mem (by simp), Ptr.add_mem (by simp; omega), Ptr.add_mem (by simp; omega), Ptr.add_mem (by simp; omega)]
  simp only [Except.bind_ok]
  have h0 := hr 0 (by omega); have h1 := hr 1 (by omega); have h2 := hr 2 (by omega); have h3 := hr 3 (by omega)
  simp only [Nat.mul_zero, Nat.reduceMul] at h0 h1 h2 h3
  rw [h0, h1, h2, h3]
  simp only [Except.bind_ok, Except.pure_eq, round_ok]
  rfl

theorem tail8_eq (env : Env) (fuel : Nat) (p : Ptr) (m : Nat) (h : W64) :
    tail8 env fuel p m h = whileBlocks 8 (fun p h => do
      let v ← read64le env p
      return rotl (h ^^^ round 0 v) 27 * P1 + P4) fuel p m h := by
  induction fuel generalizing p m h with
  | zero => rfl
  | succ fuel ih =>
    unfold tail8 whileBlocks
    split
    · cases read64le env p <;> simp [ih]
    · rfl

theorem tail4_eq (env : Env) (fuel : Nat) (p : Ptr) (m : Nat) (h : W64) :
    tail4 env fuel p m h = whileBlocks 4 (fun p h => do
      let v ← read32le env p
      return rotl (h ^^^ (v.zeroExtend 64 * P1)) 23 * P2 + P3) fuel p m h := by
  induction fuel generalizing p m h with
  | zero => rfl
  | succ fuel ih =>
    unfold tail4 whileBlocks
    split
    · cases read32le env p <;> simp [ih]
    · rfl

theorem tail1_eq (fuel : Nat) (p : Ptr) (m : Nat) (h : W64) :
    tail1 fuel p m h = (whileBlocks 1 (fun p h => do
      let b ← p.get 0
      return rotl (h ^^^ (b.zeroExtend 64 * P5)) 11 * P1) fuel p m h).map (fun r => r.2.2) := by
  induction fuel generalizing p m h with
  | zero =>
    unfold tail1 whileBlocks
    by_cases h0 : 0 < m
    · rw [if_pos h0, if_pos (show 1 ≤ m from h0)]; rfl
    · rw [if_neg h0, if_neg (show ¬ 1 ≤ m from h0)]; rfl
  | succ fuel ih =>
    unfold tail1 whileBlocks
    by_cases h0 : 0 < m
    · rw [if_pos h0, if_pos (show 1 ≤ m from h0)]
      cases p.get 0 with
      | error e => rfl
      | ok b =>
        simp only [Except.bind_ok, Except.pure_eq]
        cases p.add 1 with
        | error e => rfl
        | ok q => simp only [Except.bind_ok, ih]; rfl
    · rw [if_neg h0, if_neg (show ¬ 1 ≤ m from h0)]; rfl

/-- the three loops over the incomplete block -/
theorem tail_ok (env : Env) (tail more : List Byte) (h : W64) :
    (do
      let (p, m, h) ← tail8 env (tail.length + 1) (.mem (tail ++ more)) tail.length h
      let (p, m, h) ← tail4 env (m + 1) p m h
      tail1 (m + 1) p m h) = .ok (XXH64.consume h tail) := by
  rw [tail8_eq, whileBlocks_ok (f := fun acc b => (acc ^^^ XXH64.round 0 (leWord 64 b)).rotateLeft 27 * XXH64.prime1 + XXH64.prime4)
    (by omega) (by
      intro st b more hb
      rw [read64le_ok env _ (by simp; omega), List.take_left' hb]
      simp only [Except.bind_ok, Except.pure_eq, round_ok, rotl_eq _ (by decide : 27 < 64), P1_eq, P4_eq]) _ _ _ _ (by omega)]
  simp only [Except.bind_ok]
  rw [tail4_eq, whileBlocks_ok (f := fun acc b => (acc ^^^ leWord 64 b * XXH64.prime1).rotateLeft 23 * XXH64.prime2 + XXH64.prime3)
    (by omega) (by
      intro st b more hb
      rw [read32le_ok env _ (by simp; omega), List.take_left' hb]
      simp only [Except.bind_ok, Except.pure_eq, leWord_zext hb, rotl_eq _ (by decide : 23 < 64), P1_eq, P2_eq, P3_eq])
    _ _ _ _ (by omega)]
  simp only [Except.bind_ok]
  rw [tail1_eq, whileBlocks_ok
    (f := fun acc b => (acc ^^^ BitVec.ofNat 64 (b.headD 0).toNat * XXH64.prime5).rotateLeft 11 * XXH64.prime1)
    (by omega) (by
      intro st b more hb
      match b, hb with
      | [b], _ =>
        simp only [List.singleton_append, Ptr.get, List.getElem?_cons_zero, Except.bind_ok, Except.pure_eq, List.headD_cons,
          zeroExtend_ofNat, rotl_eq _ (by decide : 11 < 64), P1_eq, P5_eq]) _ _ _ _ (by omega)]
  simp only [Except.map]
  rw [foldl_blocks1 (fun (acc : W64) b => (acc ^^^ BitVec.ofNat 64 b.toNat * XXH64.prime5).rotateLeft 11 * XXH64.prime1)]
  rfl

theorem finalMix_ok (h : W64) : finalMix h = XXH64.avalanche h := by
  simp only [finalMix, XXH64.avalanche, P2_eq, P3_eq]

/-- the value before the remaining input -/
theorem converge_ok (a : Acc4 64) (n : Nat) :
    (if 32 ≤ n then
      merge_round (merge_round (merge_round (merge_round
        (rotl (rep a).a 1 + rotl (rep a).b 7 + rotl (rep a).c 12 + rotl (rep a).d 18) (rep a).a) (rep a).b) (rep a).c) (rep a).d
     else (rep a).c + P5)
      = (if n < 32 then a.a3 + XXH64.prime5 else XXH64.converge a) := by
  by_cases h : n < 32
  · rw [if_neg (by omega), if_pos h, P5_eq]; rfl
  · rw [if_pos (by omega), if_neg h]
    simp only [XXH64.converge, merge_ok, rep, rotl_eq _ (by decide : 1 < 64), rotl_eq _ (by decide : 7 < 64),
      rotl_eq _ (by decide : 12 < 64), rotl_eq _ (by decide : 18 < 64)]

theorem result_ok (env : Env) (s : BlockState (Q4 W64)) (o : Obj (Acc4 64))
    (h : Hash2.Rel (cfg env) s ⟨rep o.st, o.tail, o.n⟩) :
    ∃ buf, result env s = .ok (⟨rep ((XXH64.obj 64).res o).1.st, buf, 0, ((XXH64.obj 64).res o).1.n⟩,
        ((XXH64.obj 64).res o).2) ∧
      buf = List.replicate 32 0 ∧ ((XXH64.obj 64).res o).1.n % 32 = 0 ∧ ((XXH64.obj 64).res o).1.n < 2 ^ 64 := by
  have hm : s.m = o.tail.length := h.m
  have hn : s.n = o.n := h.n
  have hst : s.st = rep o.st := h.st
  have hlt : o.tail.length < 32 := h.wf.tail_lt
  have hbl : s.buf.length = 32 := h.buf_len
  have hsync : s.m = s.n % 32 := h.sync
  have hbuf : s.buf.take o.tail.length = o.tail := by rw [← hm]; exact h.buf
  refine ⟨List.replicate 32 0, ?_, rfl, ?_, Nat.mod_lt _ (Nat.two_pow_pos _)⟩
  · have htail := tail_ok env o.tail (s.buf.drop o.tail.length)
      ((if o.n < 32 then o.st.a3 + XXH64.prime5 else XXH64.converge o.st) + BitVec.ofNat 64 o.n)
    rw [← hbuf, List.length_take, Nat.min_eq_left (by omega), List.take_append_drop, hbuf, ← converge_ok] at htail
    unfold result
    rw [check_ok hsync]
    simp only [Except.bind_ok]
    simp only [hm, hn, hst]
    simp only at htail ⊢
    revert htail
    generalize tail8 env (o.tail.length + 1) (Ptr.mem s.buf) o.tail.length _ = x8
    intro htail
    cases x8 with
    | error e => simp at htail
    | ok r8 =>
      obtain ⟨p, m, h8⟩ := r8
      simp only [Except.bind_ok] at htail ⊢
      generalize tail4 env (m + 1) p m h8 = x4 at htail ⊢
      cases x4 with
      | error e => simp at htail
      | ok r4 =>
        obtain ⟨p, m, h4⟩ := r4
        simp only [Except.bind_ok] at htail ⊢
        rw [htail]
        simp only [Except.bind_ok]
        rw [csub_ok (by omega), memset_ok _ _ _ _ _ (by omega)]
        simp only [Except.bind_ok, Except.pure_eq, converge_ok]
        rw [List.drop_of_length_le (by omega)]
        simp [BlockHash.res, XXH64.obj, rep, finalMix_ok]
  · show (o.n + (32 - o.tail.length)) % 2 ^ 64 % 32 = 0
    rw [hm, hn] at hsync
    omega

def ok (env : Env) : StreamOk (cfg env) (result env) (XXH64.obj 64) where
  u := rep
  v q := ⟨q.a, q.b, q.c, q.d⟩
  uv _ := rfl
  vu _ := rfl
  hN := rfl
  ctr := rfl
  early := rfl
  pos := by decide
  tr := block_ok env
  res_ok := result_ok env

theorem fits (env : Env) (o : Obj (Acc4 64)) (bs : List Byte) : (ok env).fits o bs := .inl ⟨2 ^ 59, rfl⟩

theorem start_ok (env : Env) (t : Acc4 64) : (ok env).RelO ⟨rep t, List.replicate 32 0, 0, 0⟩ (Obj.start t) :=
  (ok env).start t (buf := List.replicate 32 0) rfl (fun _ => rfl)

theorem init_ok (env : Env) : (ok env).RelO init (Obj.start (XXH64.start 0)) := by
  have h := start_ok env (XXH64.start 0)
  have e : rep (XXH64.start 0) = iv := by decide +kernel
  rw [e] at h
  exact h

theorem bytes_ok (env : Env) (bs more : List Byte) :
    ∃ s, initBytes env (.mem (bs ++ more)) bs.length = .ok s ∧ (ok env).RelO s (XXH64.machine.bytes bs) := by
  unfold initBytes ctorBytes
  by_cases h0 : bs = []
  · subst h0
    exact ⟨init, by simp, init_ok env⟩
  · obtain ⟨s1, e1, r1⟩ := (ok env).upd env (init_ok env) bs more (fits env _ _)
    obtain ⟨s2, e2, r2⟩ := (ok env).res' r1
    refine ⟨s2, ?_, ?_⟩
    · unfold upd
      rw [if_pos (by simpa using h0), e1]
      simp only [Except.bind_ok]
      rw [e2]
      rfl
    · show (ok env).RelO s2 (if bs = [] then _ else _)
      rw [if_neg h0]; exact r2

/-- xxhash_64 implements XXH64 -/
def implements (env : Env) : Implements xxhash_64 env XXH64.machine :=
  StreamOk.implements env cfg result (ok env) (fun _ => .ok init) (fun _ k => .ok (initSeed k)) initBytes
    (fun _ r => Integral.get 8 8 r) _ _ _ (fun _ => True)
    ⟨_, rfl, init_ok env⟩
    (fun k => ⟨_, rfl, by
      have h := start_ok env (XXH64.start k)
      have e : rep (XXH64.start k) = initV k := by simp only [rep, XXH64.start, initV, P1_eq, P2_eq]
      rw [e] at h
      exact h⟩)
    (fun bs more _ => bytes_ok env bs more)
    (bytes_ok env [] [] |> fun ⟨s, e, h⟩ => ⟨s, by simpa [initBytes, ctorBytes] using e, h⟩)

end Hash2.XX64

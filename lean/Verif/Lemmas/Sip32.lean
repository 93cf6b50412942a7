import Verif.Lemmas.Stream
import Verif.Spec.Sip
/-
siphash_32 implements HalfSipHash-2-4.
-/
namespace Hash2.Sip32
open Spec

def rep (s : SIP.St 32) : Q4 W32 := ⟨s.v0, s.v1, s.v2, s.v3⟩

theorem sipround_ok (s : SIP.St 32) : sipround (rep s) = rep (SIP.sipRound SIP.sip32 s) := by
  simp only [sipround, rep, SIP.sipRound, SIP.sip32, rotl_eq _ (by decide : 5 < 32), rotl_eq _ (by decide : 8 < 32), rotl_eq _ (by decide : 16 < 32), rotl_eq _ (by decide : 13 < 32), rotl_eq _ (by decide : 7 < 32)]

theorem update_ok (env : Env) (s : SIP.St 32) (b more : List Byte) (hb : b.length = 4) :
    update_ env (.mem (b ++ more)) (rep s) = .ok (rep (SIP.compress SIP.sip32 s (leWord 32 b))) := by
  unfold update_
  rw [read32le_ok env _ (by simp; omega), List.take_left' hb]
  simp only [Except.bind_ok, Except.pure_eq]
  have h1 : ({ rep s with d := (rep s).d ^^^ leWord 32 b } : Q4 W32) = rep { s with v3 := s.v3 ^^^ leWord 32 b } := rfl
  rw [h1, sipround_ok, sipround_ok]
  rfl

theorem finalize_ok (s : SIP.St 32) :
    sipround (sipround (sipround (sipround { rep s with c := (rep s).c ^^^ 0xFF }))) = rep (SIP.finalize SIP.sip32 s) := by
  have h1 : ({ rep s with c := (rep s).c ^^^ 0xFF } : Q4 W32) = rep { s with v2 := s.v2 ^^^ 0xff } := rfl
  rw [h1, sipround_ok, sipround_ok, sipround_ok, sipround_ok]
  rfl

theorem result_ok (env : Env) (s : BlockState (Q4 W32)) (o : Obj (SIP.St 32))
    (h : Hash2.Rel (cfg env) s ⟨rep o.st, o.tail, o.n⟩) :
    ∃ buf, result env s = .ok (⟨rep ((SIP.obj SIP.sip32 32).res o).1.st, buf, 0, ((SIP.obj SIP.sip32 32).res o).1.n⟩,
        ((SIP.obj SIP.sip32 32).res o).2) ∧
      buf = List.replicate 4 0 ∧ ((SIP.obj SIP.sip32 32).res o).1.n % 4 = 0 ∧
        ((SIP.obj SIP.sip32 32).res o).1.n < 2 ^ 32 := by
  have hm : s.m = o.tail.length := h.m
  have hn : s.n = o.n := h.n
  have hst : s.st = rep o.st := h.st
  have hlt : o.tail.length < 4 := h.wf.tail_lt
  have hbl : s.buf.length = 4 := h.buf_len
  have hsync : s.m = s.n % 4 := h.sync
  have hbuf : s.buf.take o.tail.length = o.tail := by rw [← hm]; exact h.buf
  refine ⟨List.replicate 4 0, ?_, rfl, ?_, Nat.mod_lt _ (Nat.two_pow_pos _)⟩
  · unfold result
    rw [check_ok hsync]
    simp only [Except.bind_ok]
    rw [csub_ok (by omega)]
    simp only [Except.bind_ok]
    rw [memset_ok _ _ _ _ _ (by omega), hm, hbuf, show o.tail.length + (4 - o.tail.length) = 4 by omega,
      List.drop_of_length_le (by omega), List.append_nil]
    simp only [Except.bind_ok]
    have hb7 : aset (o.tail ++ List.replicate (4 - o.tail.length) 0) 3 (BitVec.ofNat 8 (s.n % 256))
        = .ok (o.tail ++ List.replicate (3 - o.tail.length) 0 ++ [BitVec.ofNat 8 (s.n % 256)]) := by
      have := aset_append (o.tail ++ List.replicate (3 - o.tail.length) 0) (BitVec.ofNat 8 (s.n % 256)) 0 0
      rw [List.append_assoc, List.replicate_append_replicate, show 3 - o.tail.length + (0 + 1) = 4 - o.tail.length by omega,
        show (o.tail ++ List.replicate (3 - o.tail.length) (0 : Byte)).length = 3 by simp; omega] at this
      simpa using this
    rw [hb7]
    simp only [Except.bind_ok]
    have hl8 : (o.tail ++ List.replicate (3 - o.tail.length) (0 : Byte) ++ [BitVec.ofNat 8 (s.n % 256)]).length = 4 := by
      simp; omega
    have hu := update_ok env o.st (o.tail ++ List.replicate (3 - o.tail.length) (0 : Byte) ++ [BitVec.ofNat 8 (s.n % 256)]) [] hl8
    rw [List.append_nil] at hu
    rw [hst, hu]
    simp only [Except.bind_ok]
    rw [memset_ok _ _ _ _ _ (by omega)]
    simp only [Except.bind_ok, Except.pure_eq, finalize_ok]
    rw [List.drop_of_length_le (by omega), hn]
    simp [BlockHash.res, SIP.obj, SIP.lastWord, SIP.sip32, rep]
  · show (o.n + (4 - o.tail.length)) % 2 ^ 32 % 4 = 0
    rw [hm, hn] at hsync
    omega

def ok (env : Env) : StreamOk (cfg env) (result env) (SIP.obj SIP.sip32 32) where
  u := rep
  v q := ⟨q.a, q.b, q.c, q.d⟩
  uv _ := rfl
  vu _ := rfl
  hN := rfl
  ctr := rfl
  early := rfl
  pos := by decide
  tr := update_ok env
  res_ok := result_ok env

theorem fits (env : Env) (o : Obj (SIP.St 32)) (bs : List Byte) : (ok env).fits o bs := .inl (by decide)

theorem start_ok (env : Env) (t : SIP.St 32) : (ok env).RelO ⟨rep t, List.replicate 4 0, 0, 0⟩ (Obj.start t) :=
  (ok env).start t (buf := List.replicate 4 0) rfl (fun _ => rfl)

theorem iv_ok : iv = rep (SIP.start SIP.sip32 0 0) := by decide +kernel

theorem bytes_ok (env : Env) (bs more : List Byte) :
    ∃ s, initBytes env (.mem (bs ++ more)) bs.length = .ok s ∧ (ok env).RelO s (SIP.byteSeed SIP.sip32 32 bs) := by
  unfold initBytes
  have h2 : 2 * SIP.sip32.bytes = 8 := rfl
  by_cases h16 : bs.length = 8
  · rw [if_pos h16, Ptr.add_mem (by simp), Ptr.add_mem (by simp; omega)]
    simp only [Except.bind_ok]
    rw [read32le_ok env _ (by simp; omega), read32le_ok env _ (by simp; omega)]
    simp only [Except.bind_ok, Except.pure_eq, List.drop_zero]
    rw [List.take_append_of_le_length (by omega), List.drop_append_of_le_length (by omega),
      List.take_append_of_le_length (by simp; omega), List.take_of_length_le (l := bs.drop 4) (by simp; omega)]
    refine ⟨_, rfl, ?_⟩
    rw [SIP.byteSeed, h2, if_pos h16]
    exact start_ok env (SIP.start SIP.sip32 (leWord 32 (bs.take 4)) (leWord 32 (bs.drop 4)))
  · rw [if_neg h16, SIP.byteSeed, h2, if_neg h16]
    by_cases h0 : bs = []
    · subst h0
      refine ⟨init, by simp, ?_⟩
      rw [if_pos rfl]
      have := start_ok env (SIP.start SIP.sip32 0 0)
      rw [← iv_ok] at this
      exact this
    · have hne : bs.length ≠ 0 := by simpa using h0
      rw [if_pos hne, if_neg h0]
      have hi : (ok env).RelO init (Obj.start (SIP.start SIP.sip32 0 0)) := by
        have := start_ok env (SIP.start SIP.sip32 0 0)
        rw [← iv_ok] at this
        exact this
      obtain ⟨s1, e1, r1⟩ := (ok env).upd env hi bs more (fits env _ _)
      obtain ⟨s2, e2, r2⟩ := (ok env).res' r1
      refine ⟨s2, ?_, r2⟩
      unfold upd
      rw [e1]
      simp only [Except.bind_ok]
      rw [e2]
      rfl

/-- siphash_32 implements HalfSipHash-2-4 -/
def implements (env : Env) : Implements siphash_32 env SIP.machine32 :=
  StreamOk.implements env cfg result (ok env) (fun _ => .ok init) (fun _ k => .ok (initSeed k)) initBytes
    (fun _ r => Integral.get 4 8 r) _ _ _ (fun _ => True)
    ⟨_, rfl, by
      have := start_ok env (SIP.start SIP.sip32 0 0)
      rw [← iv_ok] at this
      exact this⟩
    (fun k => ⟨_, rfl, by
      have h := start_ok env (SIP.start SIP.sip32 (BitVec.ofNat 32 k.toNat) (BitVec.ofNat 32 (k.toNat / 2 ^ 32)))
      have e0 : (k.truncate 32 : W32) = BitVec.ofNat 32 k.toNat := by
        apply BitVec.eq_of_toNat_eq; simp
      have e1 : ((k >>> 32).truncate 32 : W32) = BitVec.ofNat 32 (k.toNat / 2 ^ 32) := by
        apply BitVec.eq_of_toNat_eq; simp [Nat.shiftRight_eq_div_pow]
      have e : rep (SIP.start SIP.sip32 (BitVec.ofNat 32 k.toNat) (BitVec.ofNat 32 (k.toNat / 2 ^ 32)))
          = (initSeed k).st := by
        simp only [initSeed, e0, e1]
        rfl
      rw [e] at h
      exact h⟩)
    (fun bs more _ => bytes_ok env bs more)
    (bytes_ok env [] [] |> fun ⟨s, e, h⟩ => ⟨s, by simpa [initBytes] using e, h⟩)

end Hash2.Sip32

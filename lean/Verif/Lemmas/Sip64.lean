import Verif.Lemmas.Stream
import Verif.Spec.Sip
/-
siphash_64 implements SipHash-2-4.
-/
namespace Hash2.Sip64
open Spec

def rep (s : SIP.St 64) : Q4 W64 := ⟨s.v0, s.v1, s.v2, s.v3⟩

theorem sipround_ok (s : SIP.St 64) : sipround (rep s) = rep (SIP.sipRound SIP.sip64 s) := by
  simp only [sipround, rep, SIP.sipRound, SIP.sip64, rotl_eq _ (by decide : 13 < 64), rotl_eq _ (by decide : 16 < 64), rotl_eq _ (by decide : 32 < 64), rotl_eq _ (by decide : 17 < 64), rotl_eq _ (by decide : 21 < 64)]

theorem update_ok (env : Env) (s : SIP.St 64) (b more : List Byte) (hb : b.length = 8) :
    update_ env (.mem (b ++ more)) (rep s) = .ok (rep (SIP.compress SIP.sip64 s (leWord 64 b))) := by
  unfold update_
  rw [read64le_ok env _ (by simp; omega), List.take_left' hb]
  simp only [Except.bind_ok, Except.pure_eq]
  have h1 : ({ rep s with d := (rep s).d ^^^ leWord 64 b } : Q4 W64) = rep { s with v3 := s.v3 ^^^ leWord 64 b } := rfl
  rw [h1, sipround_ok, sipround_ok]
  rfl

theorem finalize_ok (s : SIP.St 64) :
    sipround (sipround (sipround (sipround { rep s with c := (rep s).c ^^^ 0xFF }))) = rep (SIP.finalize SIP.sip64 s) := by
  have h1 : ({ rep s with c := (rep s).c ^^^ 0xFF } : Q4 W64) = rep { s with v2 := s.v2 ^^^ 0xff } := rfl
  rw [h1, sipround_ok, sipround_ok, sipround_ok, sipround_ok]
  rfl

theorem result_ok (env : Env) (s : BlockState (Q4 W64)) (o : Obj (SIP.St 64))
    (h : Hash2.Rel (cfg env) s ⟨rep o.st, o.tail, o.n⟩) :
    ∃ buf, result env s = .ok (⟨rep ((SIP.obj SIP.sip64 64).res o).1.st, buf, 0, ((SIP.obj SIP.sip64 64).res o).1.n⟩,
        ((SIP.obj SIP.sip64 64).res o).2) ∧
      buf = List.replicate 8 0 ∧ ((SIP.obj SIP.sip64 64).res o).1.n % 8 = 0 ∧
        ((SIP.obj SIP.sip64 64).res o).1.n < 2 ^ 64 := by
  have hm : s.m = o.tail.length := h.m
  have hn : s.n = o.n := h.n
  have hst : s.st = rep o.st := h.st
  have hlt : o.tail.length < 8 := h.wf.tail_lt
  have hbl : s.buf.length = 8 := h.buf_len
  have hsync : s.m = s.n % 8 := h.sync
  have hbuf : s.buf.take o.tail.length = o.tail := by rw [← hm]; exact h.buf
  refine ⟨List.replicate 8 0, ?_, rfl, ?_, Nat.mod_lt _ (Nat.two_pow_pos _)⟩
  · unfold result
    rw [check_ok hsync]
    simp only [Except.bind_ok]
    rw [csub_ok (by omega)]
    simp only [Except.bind_ok]
    rw [memset_ok _ _ _ _ _ (by omega), hm, hbuf, show o.tail.length + (8 - o.tail.length) = 8 by omega,
      List.drop_of_length_le (by omega), List.append_nil]
    simp only [Except.bind_ok]
    have hb7 : aset (o.tail ++ List.replicate (8 - o.tail.length) 0) 7 (BitVec.ofNat 8 (s.n % 256))
        = .ok (o.tail ++ List.replicate (7 - o.tail.length) 0 ++ [BitVec.ofNat 8 (s.n % 256)]) := by
      have := aset_append (o.tail ++ List.replicate (7 - o.tail.length) 0) (BitVec.ofNat 8 (s.n % 256)) 0 0
      rw [List.append_assoc, List.replicate_append_replicate, show 7 - o.tail.length + (0 + 1) = 8 - o.tail.length by omega,
        show (o.tail ++ List.replicate (7 - o.tail.length) (0 : Byte)).length = 7 by simp; omega] at this
      simpa using this
    rw [hb7]
    simp only [Except.bind_ok]
    have hl8 : (o.tail ++ List.replicate (7 - o.tail.length) (0 : Byte) ++ [BitVec.ofNat 8 (s.n % 256)]).length = 8 := by
      simp; omega
    have hu := update_ok env o.st (o.tail ++ List.replicate (7 - o.tail.length) (0 : Byte) ++ [BitVec.ofNat 8 (s.n % 256)]) [] hl8
    rw [List.append_nil] at hu
    rw [hst, hu]
    simp only [Except.bind_ok]
    rw [memset_ok _ _ _ _ _ (by omega)]
    simp only [Except.bind_ok, Except.pure_eq, finalize_ok]
    rw [List.drop_of_length_le (by omega), hn]
    simp [BlockHash.res, SIP.obj, SIP.lastWord, SIP.sip64, rep]
  · show (o.n + (8 - o.tail.length)) % 2 ^ 64 % 8 = 0
    rw [hm, hn] at hsync
    omega

def ok (env : Env) : StreamOk (cfg env) (result env) (SIP.obj SIP.sip64 64) where
  u := rep
  v q := ⟨q.a, q.b, q.c, q.d⟩
  uv _ := rfl
  vu _ := rfl
  hN := rfl
  ctr := rfl
  early := rfl
  pos := by decide
  tr := update_ok env
  res_ok := result_ok env

theorem fits (env : Env) (o : Obj (SIP.St 64)) (bs : List Byte) : (ok env).fits o bs := .inl (by decide)

theorem start_ok (env : Env) (t : SIP.St 64) : (ok env).RelO ⟨rep t, List.replicate 8 0, 0, 0⟩ (Obj.start t) :=
  (ok env).start t (buf := List.replicate 8 0) rfl (fun _ => rfl)

theorem iv_ok : iv = rep (SIP.start SIP.sip64 0 0) := by decide +kernel

theorem bytes_ok (env : Env) (bs more : List Byte) :
    ∃ s, initBytes env (.mem (bs ++ more)) bs.length = .ok s ∧ (ok env).RelO s (SIP.byteSeed SIP.sip64 64 bs) := by
  unfold initBytes
  have h2 : 2 * SIP.sip64.bytes = 16 := rfl
  by_cases h16 : bs.length = 16
  · rw [if_pos h16, Ptr.add_mem (by simp), Ptr.add_mem (by simp; omega)]
    simp only [Except.bind_ok]
    rw [read64le_ok env _ (by simp; omega), read64le_ok env _ (by simp; omega)]
    simp only [Except.bind_ok, Except.pure_eq, List.drop_zero]
    rw [List.take_append_of_le_length (by omega), List.drop_append_of_le_length (by omega),
      List.take_append_of_le_length (by simp; omega), List.take_of_length_le (l := bs.drop 8) (by simp; omega)]
    refine ⟨_, rfl, ?_⟩
    rw [SIP.byteSeed, h2, if_pos h16]
    exact start_ok env (SIP.start SIP.sip64 (leWord 64 (bs.take 8)) (leWord 64 (bs.drop 8)))
  · rw [if_neg h16, SIP.byteSeed, h2, if_neg h16]
    by_cases h0 : bs = []
    · subst h0
      refine ⟨init, by simp, ?_⟩
      rw [if_pos rfl]
      have := start_ok env (SIP.start SIP.sip64 0 0)
      rw [← iv_ok] at this
      exact this
    · have hne : bs.length ≠ 0 := by simpa using h0
      rw [if_pos hne, if_neg h0]
      have hi : (ok env).RelO init (Obj.start (SIP.start SIP.sip64 0 0)) := by
        have := start_ok env (SIP.start SIP.sip64 0 0)
        rw [← iv_ok] at this
        exact this
      obtain ⟨s1, e1, r1⟩ := (ok env).upd env hi bs more (fits env _ _)
      obtain ⟨s2, e2, r2⟩ := (ok env).res' r1
      refine ⟨s2, ?_, r2⟩
      unfold upd
      rw [e1]
      simp only [Except.bind_ok]
      rw [e2]
      rfl

/-- siphash_64 implements SipHash-2-4 -/
def implements (env : Env) : Implements siphash_64 env SIP.machine64 :=
  StreamOk.implements env cfg result (ok env) (fun _ => .ok init) (fun _ k => .ok (initSeed k)) initBytes
    (fun _ r => Integral.get 8 8 r) _ _ _ (fun _ => True)
    ⟨_, rfl, by
      have := start_ok env (SIP.start SIP.sip64 0 0)
      rw [← iv_ok] at this
      exact this⟩
    (fun k => ⟨_, rfl, by
      have h := start_ok env (SIP.start SIP.sip64 k 0)
      have e : rep (SIP.start SIP.sip64 k 0) = ⟨iv.a ^^^ k, iv.b, iv.c ^^^ k, iv.d⟩ := by
        simp [rep, SIP.start, SIP.sip64, iv]
      rw [e] at h
      exact h⟩)
    (fun bs more _ => bytes_ok env bs more)
    (bytes_ok env [] [] |> fun ⟨s, e, h⟩ => ⟨s, by simpa [initBytes] using e, h⟩)

end Hash2.Sip64

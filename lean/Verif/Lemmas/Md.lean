import Verif.Lemmas.Implements
import Verif.Spec.Md
/-
The Merkle-Damgard classes implement the abstract hash object of Spec/Md.lean, given that their transform(), length encoding
and output are those of the specification.
-/
namespace Hash2
open Spec

/-- what has to be shown for each class -/
structure MdOk {σ τ : Type} (D : MdCfg σ) (T : Md τ) (env : Env) where
  /-- the representation of a chaining value -/
  u : τ → σ
  v : σ → τ
  uv : ∀ x, u (v x) = x
  vu : ∀ x, v (u x) = x
  hN : (D.cfg env).N = T.N
  ctr : (D.cfg env).ctrBits = 64
  clear : (D.cfg env).clear = true
  pos : 0 < T.N
  dvd : T.N ∣ 2 ^ 64
  hL : T.L < T.N
  thr : D.pad.thr = T.N - T.L
  over : D.pad.over = 2 * T.N - T.L
  padLen : D.pad.padLen = T.N
  bitsLen : D.pad.bitsLen = T.L
  tr : ∀ st b more, b.length = T.N → (D.cfg env).transform (.mem (b ++ more)) (u st) = .ok (u (T.compress st b))
  iv : D.iv = u T.iv
  enc : ∀ len, D.pad.writeBits env (List.replicate T.L 0) (BitVec.ofNat 64 (len % 2 ^ 64 * 8)) = .ok (T.encLen (8 * len))
  encLen : ∀ n, (T.encLen n).length = T.L
  out : ∀ st, D.out env (u st) = .ok (T.out st)

theorem mdPad_eq {σ : Type} (env : Env) (c : BlockCfg σ) (P : PadCfg) (s : BlockState σ) :
    mdPad env c P s = ((if P.assertFirst then check (s.m = s.n % c.N) else .ok ()) >>= fun _ =>
      P.writeBits env (List.replicate P.bitsLen 0) (BitVec.ofNat 64 (s.n * 8)) >>= fun bits =>
      (if s.m < P.thr then csub P.thr s.m else csub P.over s.m) >>= fun k =>
      update env c s (.mem (0x80#8 :: List.replicate (P.padLen - 1) 0)) k >>= fun s =>
      update env c s (.mem bits) P.bitsLen >>= fun s =>
      check (s.m = 0) >>= fun _ => .ok s) := by
  unfold mdPad
  by_cases h1 : P.assertFirst = true <;> by_cases h2 : s.m < P.thr <;> simp [h1, h2]

namespace MdOk
variable {σ τ : Type} {D : MdCfg σ} {T : Md τ} {env : Env} (K : MdOk D T env)
include K

/-- the engine's abstract state after a log of processed bytes -/
def abs (log : List Byte) : AState σ := ⟨K.u (T.chain log), rest T.N log, log.length % 2 ^ 64⟩

/-- processing of a block, on the representation -/
def f (st : σ) (b : List Byte) : σ := K.u (T.compress (K.v st) b)

theorem engine : EngineOk (D.cfg env) K.f where
  pos := by rw [K.hN]; exact K.pos
  tr st b more h := by
    have := K.tr (K.v st) b more (by rw [← K.hN]; exact h)
    rwa [K.uv] at this

theorem foldl_f (bl : List (List Byte)) (t : τ) : bl.foldl K.f (K.u t) = K.u (bl.foldl T.compress t) := by
  induction bl generalizing t with
  | nil => rfl
  | cons b bl ih => simp only [List.foldl_cons, f, K.vu]; exact ih _

theorem abs_absorb (log bs : List Byte) :
    (K.abs log).absorb K.f (D.cfg env).N (D.cfg env).ctrBits bs = K.abs (log ++ bs) := by
  have h := blocks_split K.pos log bs
  simp only [AState.absorb, abs, K.hN, K.ctr, K.foldl_f, Md.chain, h.1, h.2, List.foldl_append, List.length_append,
    Nat.mod_add_mod]

theorem abs_nil : K.abs [] = ⟨K.u T.iv, [], 0⟩ := by
  have := K.pos
  simp [abs, Md.chain, blocks_short (N := T.N) (l := []) (by simpa using this),
    rest_short (N := T.N) (l := []) (by simpa using this)]

/-- update() -/
theorem upd {s : BlockState σ} {log : List Byte} (h : Hash2.Rel (D.cfg env) s (K.abs log)) (bs more : List Byte) :
    ∃ s', D.update env s (.mem (bs ++ more)) bs.length = .ok s' ∧ Hash2.Rel (D.cfg env) s' (K.abs (log ++ bs)) := by
  have := Hash2.update_ok env K.engine h bs more (by rw [K.ctr, K.hN]; exact Nat.mod_mod_of_dvd _ K.dvd)
  rw [K.abs_absorb] at this
  exact this

theorem pad_length (len : Nat) : (len + (T.pad len).length) % T.N = 0 := by
  have hp := K.pos
  simp only [Md.pad, List.cons_append, List.length_cons, List.length_append, List.length_replicate, K.encLen]
  have e : len + ((T.N - (len + 1 + T.L) % T.N) % T.N + T.L + 1)
      = (len + 1 + T.L) + (T.N - (len + 1 + T.L) % T.N) % T.N := by omega
  rw [e, Nat.add_mod_mod]
  have h1 := Nat.mod_lt (len + 1 + T.L) hp
  have h2 := Nat.div_add_mod (len + 1 + T.L) T.N
  have e2 : (len + 1 + T.L) + (T.N - (len + 1 + T.L) % T.N) = T.N * ((len + 1 + T.L) / T.N) + T.N := by omega
  rw [e2, Nat.add_mod_right, Nat.mul_mod_right]

/-- number of padding bytes before the length -/
theorem zeros (len m : Nat) (hm : m = len % T.N) :
    (if m < T.N - T.L then T.N - T.L - m else 2 * T.N - T.L - m)
      = (T.N - (len + 1 + T.L) % T.N) % T.N + 1 := by
  have hp := K.pos
  have hL := K.hL
  have hlt : m < T.N := by rw [hm]; exact Nat.mod_lt _ hp
  have e : (len + 1 + T.L) % T.N = (m + 1 + T.L) % T.N := by
    rw [hm, Nat.add_assoc, Nat.add_assoc, Nat.mod_add_mod]
  rw [e]
  by_cases h : m < T.N - T.L
  · rw [if_pos h]
    by_cases h2 : m + 1 + T.L = T.N
    · rw [h2, Nat.mod_self, Nat.sub_zero, Nat.mod_self]; omega
    · rw [Nat.mod_eq_of_lt (by omega : m + 1 + T.L < T.N), Nat.mod_eq_of_lt (by omega)]; omega
  · rw [if_neg h]
    have h3 : (m + 1 + T.L) % T.N = m + 1 + T.L - T.N := by
      rw [Nat.mod_eq_sub_mod (by omega), Nat.mod_eq_of_lt (by omega)]
    rw [h3]
    by_cases h4 : m + 1 + T.L - T.N = 0
    · omega
    · rw [Nat.mod_eq_of_lt (by omega)]; omega

/-- the padding part of result() -/
theorem pad_ok {s : BlockState σ} {log : List Byte} (h : Hash2.Rel (D.cfg env) s (K.abs log)) :
    ∃ s', mdPad env (D.cfg env) D.pad s = .ok s' ∧
      Hash2.Rel (D.cfg env) s' (K.abs (log ++ T.pad log.length)) ∧ s'.st = K.u (T.chain (log ++ T.pad log.length)) := by
  have hp := K.pos
  have hn : s.n = log.length % 2 ^ 64 := h.n
  have hm : s.m = log.length % T.N := by rw [h.m]; exact rest_length _ _
  have hz := K.zeros log.length s.m hm
  rw [mdPad_eq]
  have hfirst : (if D.pad.assertFirst = true then check (decide (s.m = s.n % (D.cfg env).N)) else .ok ()) = .ok () := by
    split
    · exact check_ok h.sync
    · rfl
  rw [hfirst]
  simp only [Except.bind_ok, hn, K.bitsLen, K.enc, K.thr, K.over, K.padLen]
  have hk : (if s.m < T.N - T.L then csub (T.N - T.L) s.m else csub (2 * T.N - T.L) s.m)
      = .ok ((T.N - (log.length + 1 + T.L) % T.N) % T.N + 1) := by
    rw [← hz]
    have := Nat.mod_lt log.length hp
    have hL := K.hL
    split
    · rw [csub_ok (by omega)]
    · rw [csub_ok (by omega)]
  rw [hk]
  simp only [Except.bind_ok]
  generalize hzc : (T.N - (log.length + 1 + T.L) % T.N) % T.N = z at *
  have hzl : z < T.N := by rw [← hzc]; exact Nat.mod_lt _ hp
  have hpad : (0x80#8 :: List.replicate (T.N - 1) 0 : List Byte)
      = (0x80#8 :: List.replicate z 0) ++ List.replicate (T.N - 1 - z) 0 := by
    rw [List.cons_append, List.replicate_append_replicate]; congr 2; omega
  rw [hpad]
  obtain ⟨s1, e1, h1⟩ := K.upd h (0x80#8 :: List.replicate z 0) (List.replicate (T.N - 1 - z) 0)
  simp only [List.length_cons, List.length_replicate] at e1
  rw [MdCfg.update] at e1
  rw [e1]
  simp only [Except.bind_ok]
  obtain ⟨s2, e2, h2⟩ := K.upd h1 (T.encLen (8 * log.length)) []
  rw [List.append_nil, K.encLen, MdCfg.update] at e2
  rw [e2]
  have hlog : log ++ 0x80#8 :: List.replicate z 0 ++ T.encLen (8 * log.length) = log ++ T.pad log.length := by
    rw [Md.pad, hzc, List.append_assoc]
  rw [hlog] at h2
  simp only [Except.bind_ok]
  have hm2 : s2.m = 0 := by
    rw [h2.m]
    show (rest T.N _).length = 0
    rw [rest_length, List.length_append]; exact K.pad_length _
  rw [check_ok hm2]
  exact ⟨s2, rfl, h2, h2.st⟩

theorem res {s : BlockState σ} {log : List Byte} (h : Hash2.Rel (D.cfg env) s (K.abs log)) :
    ∃ s', D.result env s = .ok (s', T.hash log) ∧ Hash2.Rel (D.cfg env) s' (K.abs (log ++ T.pad log.length)) := by
  obtain ⟨s', e, h', hst⟩ := K.pad_ok h
  refine ⟨s', ?_, h'⟩
  simp only [MdCfg.result, e, Except.bind_ok, hst, K.out, Except.pure_eq, Md.hash]

theorem init : Hash2.Rel (D.cfg env) (D.init env) (K.abs []) := by
  have hp := K.pos
  rw [K.abs_nil]
  refine ⟨K.iv, by simp [MdCfg.init], rfl, rfl, rfl, ⟨?_, ?_⟩, ?_, ?_⟩
  · rw [K.hN]; exact hp
  · exact Nat.two_pow_pos _
  · simp [MdCfg.init]
  · intro _; simp [MdCfg.init]

/-- the class implements the abstract hash object -/
def implements (bs : Nat) : Implements (D.alg bs).toHash env T.machine where
  Rel s log := Hash2.Rel (D.cfg env) s (K.abs log)
  nullSafe := (D.cfg env).early = true ∨ env.loops = true
  fits _ _ := True
  fits_nil _ _ _ := trivial
  fits_append _ _ _ := by simp
  absorb_nil _ _ _ := List.append_nil _
  absorb_append _ _ _ := (List.append_assoc _ _ _).symm
  update_ok s a bs more h _ := K.upd h bs more
  null_ok hs s a h := by
    show Hash2.update env (D.cfg env) s .null 0 = .ok s
    cases he : (D.cfg env).early with
    | true => exact update_zero_early env h he _
    | false =>
      have hc : env.loops = true := by simpa [he] using hs
      by_cases hm : s.m = 0
      · exact update_null_empty env K.engine h hm
      · exact update_null_loops env h he hc (by omega)
  result_ok s a h := K.res h
  init_ok := ⟨_, rfl, K.init⟩
  seed_ok k := by
    show ∃ s, ctorSeed D.update D.result (D.init env) env k = .ok s ∧ _
    unfold ctorSeed
    by_cases hk : k = 0
    · subst hk
      exact ⟨D.init env, by simp, by simpa [Md.machine] using K.init⟩
    · obtain ⟨s1, e1, h1⟩ := K.upd K.init (natLE 8 k.toNat) []
      rw [List.append_nil, natLE_length] at e1
      obtain ⟨s2, e2, h2⟩ := K.res h1
      refine ⟨s2, ?_, ?_⟩
      · rw [if_pos hk, seedBytes, seedBytes8]
        simp only [Except.bind_ok, e1, e2, Except.pure_eq]
      · show Hash2.Rel _ s2 (K.abs (if k = 0 then [] else _))
        rw [if_neg hk]
        simpa using h2
  bytesFit _ := True
  bytes_ok bs more _ := by
    show ∃ s, ctorBytes D.update D.result (D.init env) env (.mem (bs ++ more)) bs.length = .ok s ∧ _
    unfold ctorBytes
    by_cases hk : bs = []
    · subst hk
      exact ⟨D.init env, by simp, by simpa [Md.machine] using K.init⟩
    · obtain ⟨s1, e1, h1⟩ := K.upd K.init bs more
      obtain ⟨s2, e2, h2⟩ := K.res h1
      refine ⟨s2, ?_, ?_⟩
      · simp [hk, e1, e2]
      · simpa [Md.machine, hk] using h2
  bytes_null_ok := ⟨D.init env, by simp [DigestAlg.toHash, MdCfg.alg, ctorBytes], by simpa [Md.machine] using K.init⟩

end MdOk

end Hash2

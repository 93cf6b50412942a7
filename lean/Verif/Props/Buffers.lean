import Verif.Lemmas.Buffers
import Verif.Spec.Platforms
/-
C21: no plaintext is left in an object.
-/
namespace Hash2
open Spec

/-- **C21.** after result() the buffers of any object, with any history, contain only zeros -/
theorem buffers_zero_after_result (a : AlgName) (env : Env) (c : Ctor) (ops : List Op) (ts : List Tok) (hc : c.Valid)
    (hs : stream ops = some ts) (hn : a.NullOk env ∨ NoNull ops) (hr : a.Room env c ts) :
    ∃ s, a.impl.reach env c (ops ++ [.result]) = .ok s ∧ ∀ b ∈ a.buffers s, AllZero b := by
  obtain ⟨s, e, r⟩ := AlgName.construct_ok hc hr
  obtain ⟨s1, e1, r1⟩ := (a.impls env).run_ok r ops ts hs (hn.imp AlgName.nullSafe id) (AlgName.fits hr)
  obtain ⟨s2, e2, r2⟩ := (a.impls env).result_ok s1 _ r1
  refine ⟨s2, ?_, a.result_zero env s1 s2 _ _ r1 e2⟩
  simp only [HashAlg.reach, e, Except.bind_ok, HashAlg.run_append, e1, HashAlg.run, e2, Except.pure_eq]

/-- **C21.** after construction from a byte sequence the buffers contain only zeros, or (murmur3 and spooky2, which do not
initialise theirs) what was in memory before -/
theorem buffers_after_byte_seed (a : AlgName) (env : Env) (p : Ptr) (n : Nat) (hv : p.Readable n)
    (hr : a.Room env (.bytes p n) []) :
    ∃ s, a.impl.construct env (.bytes p n) = .ok s ∧
      ∀ b ∈ a.buffers s, AllZero b ∨ ((a = .murmur3_32 ∨ a = .murmur3_128 ∨ a = .spooky2_128) ∧ b = uninit env b.length) := by
  obtain ⟨s, e, r⟩ := AlgName.construct_ok (a := a) (c := .bytes p n) hv hr
  refine ⟨s, e, ?_⟩
  cases a with
  | digest d => exact fun b hb => .inl (d.zero env s _ r ((d.init_aligned env).2 _) b hb)
  | fnv1a_32 => intro b hb; cases hb
  | fnv1a_64 => intro b hb; cases hb
  | siphash_64 =>
    intro b hb
    refine .inl (Sip64.initBytes_zero env p n hv s e b hb)
  | siphash_32 =>
    intro b hb
    refine .inl (Sip32.initBytes_zero env p n hv s e b hb)
  | xxhash_64 =>
    intro b hb
    refine .inl (XX64.initBytes_zero env p n hv s e b hb)
  | xxhash_32 =>
    intro b hb
    refine .inl (XX32.initBytes_zero env p n hv s e b hb)
  | murmur3_32 =>
    intro b hb
    exact (Mur32.initBytes_zero env p n hv s e b hb).imp id (fun h => ⟨.inl rfl, h⟩)
  | murmur3_128 =>
    intro b hb
    exact (Mur128.initBytes_zero env p n hv s e b hb).imp id (fun h => ⟨.inr (.inl rfl), h⟩)
  | spooky2_128 =>
    intro b hb
    exact (Spooky.initBytes_zero env p n hv hr s e b hb).imp id (fun h => ⟨.inr (.inr rfl), h⟩)

/-- **C21.** At any time the buffer of an MD5, SHA-1, SHA-2 or RIPEMD object contains the incomplete block of what it has processed,
and zeros: no byte of an earlier block is left in it. -/
theorem buffer_holds_only_pending (d : DigestName) {σ : Type} (D : Md σ) (hd : d.md = some ⟨σ, D⟩) (env : Env) (ops : List Op)
    (ts : List Tok) (hs : stream ops = some ts) (hn : d.isSha2 = false ∨ env.loops = true ∨ NoNull ops) :
    ∃ s, (AlgName.digest d).impl.reach env .default ops = .ok s ∧
      d.buffers s = [rest d.B (D.log ts) ++ List.replicate (d.B - (D.log ts).length % d.B) 0] := by
  have hn : (AlgName.digest d).NullOk env ∨ NoNull ops := by
    rcases hn with h | h | h
    exacts [.inl (.inl h), .inl (.inr h), .inr h]
  obtain ⟨s, e, r⟩ := AlgName.reach_ok (a := .digest d) (c := .default) trivial hs hn trivial
  refine ⟨s, e, ?_⟩
  have hm := DigestName.machine_of_md hd
  have key : ∀ {σ τ : Type} {M : MdCfg σ} {T : Md τ} (K : MdOk M T env) (s : BlockState σ),
      Hash2.Rel (M.cfg env) s (K.abs (T.machine.run ([] : List Byte) ts).1) →
      [s.buf] = [rest T.N (T.log ts) ++ List.replicate (T.N - (T.log ts).length % T.N) 0] := by
    intro σ τ M T K s h
    rw [Md.run_log] at h
    rw [K.buf_eq h, rest_length]
    rfl
  cases d <;> simp only [DigestName.md, Option.some.injEq, Sigma.mk.injEq, reduceCtorEq] at hd <;> obtain ⟨rfl, hd⟩ := hd <;> cases hd
  · exact key (Md5.ok env) s r
  · exact key (Sha1.ok env) s r
  · exact key (Sha2.sha256_ok env) s r
  · exact key (Sha2.sha224_ok env) s r
  · exact key (Sha2.sha512_ok env) s r
  · exact key (Sha2.sha384_ok env) s r
  · exact key (Sha2.sha512_224_ok env) s r
  · exact key (Sha2.sha512_256_ok env) s r
  · exact key (Rip128.ok env) s r
  · exact key (Rip160.ok env) s r

example : ∃ s, (AlgName.digest (.hmac .md5_128)).impl.reach le64 (.bytes (.mem abc) 3) [.update (.mem abc) 3, .result] = .ok s ∧
    ∀ b ∈ (AlgName.digest (.hmac .md5_128)).buffers s, AllZero b :=
  buffers_zero_after_result _ _ (.bytes (.mem abc) 3) [.update (.mem abc) 3] _ (by decide : 3 ≤ 3) rfl (.inl (.inl rfl)) trivial
example : ∃ s, AlgName.spooky2_128.impl.reach be32 (.bytes (.mem abc) 3) [.update (.mem abc) 3, .result] = .ok s ∧
    ∀ b ∈ AlgName.spooky2_128.buffers s, AllZero b :=
  buffers_zero_after_result _ _ (.bytes (.mem abc) 3) [.update (.mem abc) 3] _ (by decide : 3 ≤ 3) rfl (.inl trivial) (show (_ : Nat) < 2 ^ be32.sizeBits from by decide)

end Hash2

import Verif.Lemmas.Platform
import Verif.Spec.NullCalls
/-
When update( nullptr, 0 ) is harmless for the SHA-2 classes.
-/
namespace Hash2
open Spec

theorem md_null_empty {σ τ : Type} {D : MdCfg σ} {T : Md τ} {env : Env} (K : MdOk D T env)
    {s : BlockState σ} {log : List Byte} (h : Hash2.Rel (D.cfg env) s (K.abs log))
    (hm : log.length % T.N = 0) : D.update env s .null 0 = .ok s :=
  update_null_empty env K.engine h (by
    rw [h.m]
    show (rest T.N log).length = 0
    rw [rest_length]; exact hm)

theorem DigestName.null_empty (d : DigestName) (hd : d.isSha2 = true) (env : Env)
    (s : d.impl.State) (a : d.machine.S) (h : (d.impls env).1.Rel s a) (hp : d.pending a = 0) :
    d.impl.update env s .null 0 = .ok s := by
  induction d with
  | hmac H ih =>
    have h' := (hmacImpls_rel (H.impls env).1 (H.impls env).2.1 (H.impls env).2.2.1 (H.impls env).2.2.2.1 s a).1 h
    show Hmac.update H.impl env s .null 0 = _
    unfold Hmac.update
    rw [ih hd s.inner a.2 h'.2 hp]
    rfl
  | sha2_256 => exact md_null_empty (Sha2.sha256_ok env) h hp
  | sha2_224 => exact md_null_empty (Sha2.sha224_ok env) h hp
  | sha2_512 => exact md_null_empty (Sha2.sha512_ok env) h hp
  | sha2_384 => exact md_null_empty (Sha2.sha384_ok env) h hp
  | sha2_512_224 => exact md_null_empty (Sha2.sha512_224_ok env) h hp
  | sha2_512_256 => exact md_null_empty (Sha2.sha512_256_ok env) h hp
  | _ => cases hd

private theorem log_pad {σ τ : Type} {D : MdCfg σ} {T : Md τ} {env : Env} (K : MdOk D T env) (log : List Byte) :
    (log ++ T.pad log.length).length % T.N = 0 := by
  rw [List.length_append]; exact K.pad_length _

theorem DigestName.pending_res (d : DigestName) (hd : d.isSha2 = true) (a : d.machine.S) : d.pending (d.machine.res a).1 = 0 := by
  induction d with
  | hmac H ih => exact ih hd a.2
  | sha2_256 => exact log_pad (Sha2.sha256_ok le64) a
  | sha2_224 => exact log_pad (Sha2.sha224_ok le64) a
  | sha2_512 => exact log_pad (Sha2.sha512_ok le64) a
  | sha2_384 => exact log_pad (Sha2.sha384_ok le64) a
  | sha2_512_224 => exact log_pad (Sha2.sha512_224_ok le64) a
  | sha2_512_256 => exact log_pad (Sha2.sha512_256_ok le64) a
  | _ => cases hd

theorem DigestName.pending_keyed (H : DigestName) (key : List Byte) : H.pending (Machine.hmac.keyed H.machine H.B key).2 = 0 := by
  show H.pending (H.machine.absorb H.machine.init _) = 0
  rw [DigestName.pending_absorb, H.pending_init, List.length_map, Hmac.hmacKey_length _ _ _ (.inr (H.resLen key)), Nat.zero_add, Nat.mod_self]

private theorem seed_pending {σ τ : Type} {D : MdCfg σ} {T : Md τ} {env : Env} (K : MdOk D T env) (k : W64) :
    List.length (α := Byte) (if k = 0 then [] else natLE 8 k.toNat ++ T.pad 8) % T.N = 0 := by
  split
  · exact Nat.zero_mod _
  · have := log_pad K (natLE 8 k.toNat)
    rwa [natLE_length] at this

private theorem bytes_pending {σ τ : Type} {D : MdCfg σ} {T : Md τ} {env : Env} (K : MdOk D T env) (k : List Byte) :
    List.length (α := Byte) (if k = [] then [] else k ++ T.pad k.length) % T.N = 0 := by
  split
  · exact Nat.zero_mod _
  · exact log_pad K k

theorem DigestName.pending_start (d : DigestName) (hd : d.isSha2 = true) (c : Ctor) : d.pending (c.start d.machine) = 0 := by
  cases c with
  | default => exact d.pending_init
  | seed k =>
    cases d with
    | hmac H => exact H.pending_keyed _
    | sha2_256 => exact seed_pending (Sha2.sha256_ok le64) k
    | sha2_224 => exact seed_pending (Sha2.sha224_ok le64) k
    | sha2_512 => exact seed_pending (Sha2.sha512_ok le64) k
    | sha2_384 => exact seed_pending (Sha2.sha384_ok le64) k
    | sha2_512_224 => exact seed_pending (Sha2.sha512_224_ok le64) k
    | sha2_512_256 => exact seed_pending (Sha2.sha512_256_ok le64) k
    | _ => cases hd
  | bytes p n =>
    cases d with
    | hmac H => exact H.pending_keyed _
    | sha2_256 => exact bytes_pending (Sha2.sha256_ok le64) _
    | sha2_224 => exact bytes_pending (Sha2.sha224_ok le64) _
    | sha2_512 => exact bytes_pending (Sha2.sha512_ok le64) _
    | sha2_384 => exact bytes_pending (Sha2.sha384_ok le64) _
    | sha2_512_224 => exact bytes_pending (Sha2.sha512_224_ok le64) _
    | sha2_512_256 => exact bytes_pending (Sha2.sha512_256_ok le64) _
    | _ => cases hd

/-- `NullMidBlock`, given that k bytes have been fed already -/
def nullMid (B : Nat) : Nat → List Op → Bool
  | _, [] => false
  | k, .update .null _ :: ops => k % B != 0 || nullMid B k ops
  | k, .update (.mem _) n :: ops => nullMid B (k + n) ops
  | _, .result :: ops => nullMid B 0 ops

private def since (k : Nat) (ops : List Op) : Nat :=
  ops.foldl (fun k op => match op with | .update _ n => k + n | .result => 0) k

theorem nullMid_iff (B : Nat) : ∀ (ops : List Op) (k : Nat) (_ : (stream ops).isSome), nullMid B k ops = true ↔
    ∃ before after, ops = before ++ .update .null 0 :: after ∧ since k before % B ≠ 0 := by
  intro ops
  induction ops with
  | nil => intro k _; simp [nullMid]
  | cons op ops ih =>
    intro k hs
    have hs' : (stream ops).isSome ∧ op.toks.isSome := by
      simp only [stream] at hs
      cases h1 : op.toks <;> cases h2 : stream ops <;> simp_all
    have step : (∃ before after, op :: ops = before ++ .update .null 0 :: after ∧ since k before % B ≠ 0) ↔
        (op = .update .null 0 ∧ k % B ≠ 0) ∨
        ∃ before after, ops = before ++ .update .null 0 :: after ∧ since k (op :: before) % B ≠ 0 := by
      constructor
      · rintro ⟨before, after, e, h⟩
        cases before with
        | nil => cases e; exact .inl ⟨rfl, h⟩
        | cons o before => cases e; exact .inr ⟨before, after, rfl, h⟩
      · rintro (⟨rfl, h⟩ | ⟨before, after, rfl, h⟩)
        · exact ⟨[], ops, rfl, h⟩
        · exact ⟨op :: before, after, rfl, h⟩
    rw [step]
    cases op with
    | result =>
      rw [show nullMid B k (.result :: ops) = nullMid B 0 ops from rfl, ih 0 hs'.1]
      simp [since]
    | update p n =>
      cases p with
      | null =>
        have hn : n = 0 := by
          by_contra h
          simp [Op.toks, h] at hs'
        subst hn
        rw [show nullMid B k (.update .null 0 :: ops) = (k % B != 0 || nullMid B k ops) from rfl, Bool.or_eq_true, ih k hs'.1]
        simp [since]
      | mem bs =>
        rw [show nullMid B k (.update (.mem bs) n :: ops) = nullMid B (k + n) ops from rfl, ih (k + n) hs'.1]
        simp [since]

theorem Implements.run_null {A : HashAlg} {env : Env} {S : Machine A.R} (I : Implements A env S) (hf : ∀ a bs, I.fits a bs)
    (pending : S.S → Nat) (B : Nat) (p_absorb : ∀ a bs, pending (S.absorb a bs) = (pending a + bs.length) % B)
    (p_res : ∀ a, pending (S.res a).1 = 0) (ok : ∀ s a, I.Rel s a → pending a = 0 → A.update env s .null 0 = .ok s)
    (bad : ∀ s a, I.Rel s a → pending a ≠ 0 → A.update env s .null 0 = .error .nullMemcpy) :
    ∀ (ops : List Op) (ts : List Tok) (s : A.State) (a : S.S) (k : Nat), I.Rel s a → pending a = k % B →
    stream ops = some ts →
    A.run env s ops = .error .nullMemcpy ∧ nullMid B k ops = true ∨
    (∃ s', A.run env s ops = .ok (s', (S.run a ts).2)) ∧ nullMid B k ops = false := by
  intro ops
  induction ops with
  | nil =>
    intro ts s a k h hp hv
    simp only [stream, Option.some.injEq] at hv; subst hv
    exact .inr ⟨⟨s, rfl⟩, rfl⟩
  | cons op ops ih =>
    intro ts s a k h hp hv
    simp only [stream, Option.bind_eq_bind, Option.pure_def, Option.bind_eq_some_iff, Option.some.injEq] at hv
    obtain ⟨t, ht, ts', hts', rfl⟩ := hv
    cases op with
    | result =>
      simp only [Op.toks, Option.some.injEq] at ht; subst ht
      obtain ⟨s1, e1, h1⟩ := I.result_ok s a h
      rcases ih ts' s1 _ 0 h1 (by rw [p_res, Nat.zero_mod]) hts' with ⟨e2, h2⟩ | ⟨⟨s2, e2⟩, h2⟩
      · left
        refine ⟨?_, h2⟩
        simp only [HashAlg.run, e1, Except.bind_ok, e2]; rfl
      · right
        refine ⟨⟨s2, ?_⟩, h2⟩
        simp only [HashAlg.run, e1, Except.bind_ok, e2]
        simp [Machine.run]
    | update p n =>
      cases p with
      | null =>
        simp only [Op.toks] at ht
        split at ht
        · rename_i hz; subst hz
          simp only [Option.some.injEq] at ht; subst ht
          by_cases hk : k % B = 0
          · have e1 : A.update env s .null 0 = .ok s := ok s a h (hp.trans hk)
            have hm : nullMid B k (.update .null 0 :: ops) = nullMid B k ops := by simp [nullMid, hk]
            rw [hm]
            rcases ih ts' s a k h hp hts' with ⟨e2, h2⟩ | ⟨⟨s2, e2⟩, h2⟩
            · left
              refine ⟨?_, h2⟩
              simp only [HashAlg.run, e1, Except.bind_ok, e2]
            · right
              refine ⟨⟨s2, ?_⟩, h2⟩
              simp only [HashAlg.run, e1, Except.bind_ok, e2, List.nil_append]
          · left
            have e1 : A.update env s .null 0 = .error .nullMemcpy := bad s a h (by rw [hp]; exact hk)
            refine ⟨?_, by simp [nullMid, hk]⟩
            simp only [HashAlg.run, e1]; rfl
        · exact absurd ht (by simp)
      | mem bs =>
        simp only [Op.toks] at ht
        split at ht
        · rename_i hle
          simp only [Option.some.injEq] at ht; subst ht
          have hrd := I.run_data h (bs.take n)
          have hlen : (bs.take n).length = n := by simp; omega
          have hstep : ∃ s', A.update env s (.mem bs) n = .ok s' ∧ I.Rel s' (S.absorb a (bs.take n)) := by
            have := I.update_ok s a (bs.take n) (bs.drop n) h (hf _ _)
            rwa [List.take_append_drop, hlen] at this
          obtain ⟨s1, e1, h1⟩ := hstep
          rcases ih ts' s1 _ (k + n) h1 (by rw [p_absorb, hp, hlen, Nat.mod_add_mod]) hts' with ⟨e2, h2⟩ | ⟨⟨s2, e2⟩, h2⟩
          · left
            refine ⟨?_, h2⟩
            simp only [HashAlg.run, e1, Except.bind_ok, e2]
          · right
            refine ⟨⟨s2, ?_⟩, h2⟩
            simp only [HashAlg.run, e1, Except.bind_ok, e2]
            rw [Machine.run_append, hrd.1, List.nil_append]
        · exact absurd ht (by simp)

theorem stream_withoutNull (ops : List Op) (ts : List Tok) (h : stream ops = some ts) : stream (withoutNull ops) = some ts := by
  induction ops generalizing ts with
  | nil => exact h
  | cons op ops ih =>
    simp only [stream, Option.bind_eq_bind, Option.pure_def, Option.bind_eq_some_iff, Option.some.injEq] at h
    obtain ⟨t, ht, ts', hts', rfl⟩ := h
    have := ih ts' hts'
    cases op with
    | result => simp only [withoutNull, List.filter_cons] at this ⊢; simp [stream, this, ht]
    | update p n =>
      cases p with
      | null =>
        simp only [Op.toks] at ht
        split at ht
        · cases ht; simpa [withoutNull, List.filter_cons] using this
        · cases ht
      | mem bs => simp only [withoutNull, List.filter_cons] at this ⊢; simp [stream, this, ht]

theorem withoutNull_noNull (ops : List Op) : NoNull (withoutNull ops) := by
  intro n h
  have := (List.mem_filter.1 h).2
  cases this

/-- **When a program on a SHA-2 object faults.** -/
theorem sha2_exec_null (d : DigestName) (hd : d.isSha2 = true) (env : Env) (he : env.loops = false) (c : Ctor) (hc : c.Valid)
    (ops : List Op) (ts : List Tok) (hs : stream ops = some ts) :
    (NullMidBlock d.B ops → d.impl.toHash.exec env c ops = .error .nullMemcpy) ∧
    (¬ NullMidBlock d.B ops → d.impl.toHash.exec env c ops = .ok (d.machine.run (c.start d.machine) ts).2) := by
  obtain ⟨s, e, r⟩ := AlgName.construct_ok (a := .digest d) (env := env) (ts := ts) hc trivial
  have hm : NullMidBlock d.B ops ↔ nullMid d.B 0 ops = true := (nullMid_iff d.B ops 0 (by simp [hs])).symm
  have R := (d.impls env).1.run_null (d.impls env).2.1.fits d.pending d.B d.pending_absorb (d.pending_res hd)
    (fun s a => d.null_empty hd env s a) (fun s a => d.null_fault hd env he s a) ops ts s _ 0 r ((d.pending_start hd c).trans (Nat.zero_mod _).symm) hs
  rw [hm]
  have key : ∀ {A : HashAlg} {s : A.State}, A.construct env c = .ok s →
      (∀ f, A.run env s ops = .error f → A.exec env c ops = .error f) ∧ ∀ x rs, A.run env s ops = .ok (x, rs) → A.exec env c ops = .ok rs := by
    intro A s e
    constructor
    · intro f h
      simp only [HashAlg.exec, e, Except.bind_ok, h]; rfl
    · intro x rs h
      simp only [HashAlg.exec, e, Except.bind_ok, h]; rfl
  constructor
  · intro h
    rcases R with ⟨e2, _⟩ | ⟨_, h2⟩
    · exact (key e).1 _ e2
    · rw [h] at h2; cases h2
  · intro h
    rcases R with ⟨_, h2⟩ | ⟨⟨s2, e2⟩, _⟩
    · exact absurd h2 h
    · exact (key e).2 _ _ e2

end Hash2

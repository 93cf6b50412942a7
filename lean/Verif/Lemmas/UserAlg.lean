import Verif.Spec.UserAlg
import Verif.Lemmas.Programs
import Verif.Lemmas.Standards
/-
A class that meets the requirements on hash algorithms implements an abstract machine: its states up to equivalence.
-/
namespace Hash2
open Spec

section
variable {A : HashAlg} {env : Env} {S : Machine A.R} (I : Implements A env S)

theorem Implements.construct_ok (hb : ∀ bs, I.bytesFit bs) {c : Ctor} (hc : c.Valid) :
    ∃ s, A.construct env c = .ok s ∧ I.Rel s (c.start S) := by
  cases c with
  | default => exact I.init_ok
  | seed k => exact I.seed_ok k
  | bytes p n =>
    cases p with
    | null =>
      have : n = 0 := hc
      subst this
      exact I.bytes_null_ok
    | mem bs =>
      have hle : n ≤ bs.length := hc
      have := I.bytes_ok (bs.take n) (bs.drop n) (hb _)
      rw [List.take_append_drop, List.length_take, Nat.min_eq_left hle] at this
      exact this

theorem Implements.exec_ok (hb : ∀ bs, I.bytesFit bs) (hf : ∀ a bs, I.fits a bs) {c : Ctor} (hc : c.Valid) {ops : List Op} {ts : List Tok}
    (hs : stream ops = some ts) (hn : I.nullSafe ∨ NoNull ops) : A.exec env c ops = .ok (S.run (c.start S) ts).2 := by
  obtain ⟨s, e, r⟩ := I.construct_ok hb hc
  obtain ⟨s', e', _⟩ := I.run_ok r ops ts hs hn (Implements.fitsAll_of _ hf _ _)
  simp only [HashAlg.exec, e, Except.bind_ok, e', Except.pure_eq]

theorem Implements.exec_message (hb : ∀ bs, I.bytesFit bs) (hf : ∀ a bs, I.fits a bs) {c : Ctor} (hc : c.Valid) {ops : List Op} {msg : List Byte}
    (h : stream ops = some (msg.map .data)) (hn : I.nullSafe ∨ NoNull ops) :
    A.exec env c (ops ++ [.result]) = .ok [S.value (c.start S) msg] := by
  rw [I.exec_ok hb hf hc (stream_result ops _ h) (hn.imp id (fun h n hm => by
    rcases List.mem_append.1 hm with hm | hm
    · exact h n hm
    · simp at hm))]
  obtain ⟨s, _, r⟩ := I.construct_ok hb hc
  rw [Machine.run_append, (I.run_data r msg).1]
  rfl
end

namespace Requirements
variable {A : HashAlg} {env : Env} (L : Requirements A env)

/-- states up to equivalence -/
def Cls : Type := Quot fun s s' : { s : A.State // L.equiv s s } => L.equiv s.1 s'.1

def cls (s : A.State) (h : L.equiv s s) : L.Cls := Quot.mk _ ⟨s, h⟩

theorem cls_eq {s s' : A.State} (h : L.equiv s s') (h1 : L.equiv s s) (h2 : L.equiv s' s') : L.cls s h1 = L.cls s' h2 :=
  Quot.sound h

theorem upd_exists (s : { s : A.State // L.equiv s s }) (bs : List Byte) :
    ∃ t, A.update env s.1 (.mem bs) bs.length = .ok t ∧ L.equiv t t := by
  obtain ⟨t, t', -, e', h⟩ := L.update_same s.1 s.1 bs [] s.2
  exact ⟨t', e', L.right _ _ h⟩

theorem res_exists (s : { s : A.State // L.equiv s s }) : ∃ x : A.State × A.R, A.result env s.1 = .ok x ∧ L.equiv x.1 x.1 := by
  obtain ⟨t, t', r, e, -, h⟩ := L.result_same s.1 s.1 s.2
  exact ⟨(t, r), e, L.left _ _ h⟩

noncomputable def absorbCls (q : L.Cls) (bs : List Byte) : L.Cls :=
  q.lift (fun s => L.cls _ (L.upd_exists s bs).choose_spec.2) (by
    intro s s' h
    obtain ⟨t, t', e, e', ht⟩ := L.update_same s.1 s'.1 bs [] h
    rw [List.append_nil] at e
    have h1 := (L.upd_exists s bs).choose_spec
    have h2 := (L.upd_exists s' bs).choose_spec
    have e1 := Except.ok.inj (h1.1.symm.trans e)
    have e2 := Except.ok.inj (h2.1.symm.trans e')
    refine L.cls_eq ?_ h1.2 h2.2
    rw [e1, e2]; exact ht)

theorem absorbCls_eq {s t : A.State} {bs : List Byte} (h : L.equiv s s) (e : A.update env s (.mem bs) bs.length = .ok t) (ht : L.equiv t t) :
    L.absorbCls (L.cls s h) bs = L.cls t ht := by
  have h1 := (L.upd_exists ⟨s, h⟩ bs).choose_spec
  have e1 := Except.ok.inj (h1.1.symm.trans e)
  refine L.cls_eq ?_ h1.2 ht
  rw [e1]; exact ht

noncomputable def resCls (q : L.Cls) : L.Cls × A.R :=
  q.lift (fun s => (L.cls _ (L.res_exists s).choose_spec.2, (L.res_exists s).choose.2)) (by
    intro s s' h
    obtain ⟨t, t', r, e, e', ht⟩ := L.result_same s.1 s'.1 h
    have h1 := (L.res_exists s).choose_spec
    have h2 := (L.res_exists s').choose_spec
    have e1 := Except.ok.inj (h1.1.symm.trans e)
    have e2 := Except.ok.inj (h2.1.symm.trans e')
    refine Prod.ext (L.cls_eq ?_ h1.2 h2.2) ?_
    · rw [e1, e2]; exact ht
    · show (L.res_exists s).choose.2 = (L.res_exists s').choose.2
      rw [e1, e2])

theorem resCls_eq {s t : A.State} {r : A.R} (h : L.equiv s s) (e : A.result env s = .ok (t, r)) (ht : L.equiv t t) :
    L.resCls (L.cls s h) = (L.cls t ht, r) := by
  have h1 := (L.res_exists ⟨s, h⟩).choose_spec
  have e1 := Except.ok.inj (h1.1.symm.trans e)
  refine Prod.ext (L.cls_eq ?_ h1.2 ht) ?_
  · rw [e1]; exact ht
  · show (L.res_exists ⟨s, h⟩).choose.2 = r
    rw [e1]

theorem bytes_exists (bs : List Byte) : ∃ s, A.initBytes env (.mem bs) bs.length = .ok s ∧ L.equiv s s := by
  obtain ⟨s, s', -, e', -, -, h⟩ := L.bytes_ctor bs []
  exact ⟨s', e', h⟩

/-- the abstract machine -/
noncomputable def machine : Machine A.R where
  S := L.Cls
  absorb := L.absorbCls
  res := L.resCls
  init := L.cls _ L.default_ctor.choose_spec.2
  seed k := L.cls _ (L.seed_ctor k).choose_spec.2
  bytes bs := L.cls _ (L.bytes_exists bs).choose_spec.2

noncomputable def implements : Implements A env L.machine where
  Rel s q := ∃ h : L.equiv s s, L.cls s h = q
  nullSafe := L.AcceptsNull
  fits _ _ := True
  fits_nil _ _ _ := trivial
  fits_append _ _ _ := by simp
  absorb_nil := by
    rintro s _ ⟨h, rfl⟩
    obtain ⟨t, e, ht⟩ := L.upd_exists ⟨s, h⟩ []
    exact (L.absorbCls_eq h e ht).trans (L.cls_eq (L.update_nothing s t h e) ht h)
  absorb_append := by
    intro q xs ys
    induction q using Quot.ind with
    | _ s =>
    obtain ⟨t, e, ht⟩ := L.upd_exists s xs
    obtain ⟨u, e2, hu⟩ := L.upd_exists ⟨t, ht⟩ ys
    obtain ⟨w, e3, hw⟩ := L.upd_exists s (xs ++ ys)
    show L.absorbCls (L.cls s.1 s.2) (xs ++ ys) = L.absorbCls (L.absorbCls (L.cls s.1 s.2) xs) ys
    rw [L.absorbCls_eq s.2 e ht, L.absorbCls_eq ht e2 hu, L.absorbCls_eq s.2 e3 hw]
    exact L.cls_eq (L.update_twice s.1 xs ys t u w s.2 e e2 e3) hw hu
  update_ok := by
    rintro s _ bs more ⟨h, rfl⟩ -
    obtain ⟨t, t', e, e', ht⟩ := L.update_same s s bs more h
    refine ⟨t, e, L.left _ _ ht, ?_⟩
    exact (L.cls_eq ht (L.left _ _ ht) (L.right _ _ ht)).trans (L.absorbCls_eq h e' (L.right _ _ ht)).symm
  null_ok := fun hn s _ ⟨h, _⟩ => hn s h
  result_ok := by
    rintro s _ ⟨h, rfl⟩
    obtain ⟨t, t', r, e, -, ht⟩ := L.result_same s s h
    have := L.resCls_eq h e (L.left _ _ ht)
    refine ⟨t, ?_, L.left _ _ ht, ?_⟩
    · rw [e]; exact congrArg (fun x => Except.ok (t, Prod.snd x)) this.symm
    · exact congrArg Prod.fst this.symm
  init_ok := ⟨_, L.default_ctor.choose_spec.1, L.default_ctor.choose_spec.2, rfl⟩
  seed_ok k := ⟨_, (L.seed_ctor k).choose_spec.1, (L.seed_ctor k).choose_spec.2, rfl⟩
  bytesFit _ := True
  bytes_ok bs more _ := by
    obtain ⟨s, s', e, e', h, h1, h2⟩ := L.bytes_ctor bs more
    have hs := (L.bytes_exists bs).choose_spec
    refine ⟨s, e, h1, L.cls_eq ?_ h1 hs.2⟩
    rw [Except.ok.inj (hs.1.symm.trans e')]; exact h
  bytes_null_ok := by
    obtain ⟨s, s', e, e', h, h1, h2⟩ := L.null_ctor
    have hs := (L.bytes_exists []).choose_spec
    refine ⟨s, e, h1, L.cls_eq ?_ h1 hs.2⟩
    rw [Except.ok.inj (hs.1.symm.trans e')]; exact h

theorem fits (s : L.machine.S) (ts : List Tok) : L.implements.FitsAll s ts := Implements.fitsAll_of _ (fun _ _ => trivial) _ _

theorem exec_ok {c : Ctor} (hc : c.Valid) {ops : List Op} {ts : List Tok} (hs : stream ops = some ts) (hn : L.AcceptsNull ∨ NoNull ops) :
    A.exec env c ops = .ok (L.machine.run (c.start L.machine) ts).2 :=
  L.implements.exec_ok (fun _ => trivial) (fun _ _ => trivial) hc hs hn

theorem runs_ok {c : Ctor} (hc : c.Valid) {ps : List Stmt} (hv : ∀ p ∈ ps, p.Valid env) (hn : L.AcceptsNull ∨ ∀ p ∈ ps, p.NoNull env)
    (hr : env.fp.roundDown = false) (hi : ∀ s t r, A.result env s = .ok (t, r) → ∃ x, A.integral env r = .ok x) :
    ∃ ts, stream (A.expand env c [] ps) = some ts ∧ (L.AcceptsNull ∨ NoNull (A.expand env c [] ps)) ∧
      A.execStmts env c ps = .ok (L.machine.run (c.start L.machine) ts).2 := by
  obtain ⟨s, e, r⟩ := L.implements.construct_ok (fun _ => trivial) hc
  have hi' : ∀ a, A.integral env (L.machine.res a).2 = .ok (A.numberOf env (L.machine.res a).2) := by
    intro a
    obtain ⟨s, hs⟩ : ∃ s : { s : A.State // L.equiv s s }, L.cls s.1 s.2 = a := by
      induction a using Quot.ind with
      | _ s => exact ⟨s, rfl⟩
    obtain ⟨t, et, -⟩ := L.implements.result_ok s.1 a ⟨s.2, hs⟩
    obtain ⟨x, hx⟩ := hi s.1 t _ et
    unfold HashAlg.numberOf
    rw [hx]
  obtain ⟨ts, s', h1, h2, h3, h4, -⟩ := stmts_ok L.implements (P := L.AcceptsNull) id e r hr hi' ps [] [] s rfl
    (.inr (by intro n; simp)) r hv hn (fun ts _ => L.fits _ _)
  refine ⟨ts, h1, h2, ?_⟩
  unfold HashAlg.execStmts
  rw [e, Except.bind_ok, h4]
  rfl

end Requirements

theorem AlgName.fits_any {a : AlgName} (ha : a ≠ .spooky2_128) (env : Env) (s : (a.machine env.sizeBits).S) (bs : List Byte) :
    (a.impls env).fits s bs := by
  cases a with
  | digest d => exact (d.impls env).2.1.fits _ _
  | siphash_64 => exact .inl ⟨2 ^ 61, rfl⟩
  | siphash_32 => exact .inl ⟨2 ^ 30, rfl⟩
  | xxhash_64 => exact .inl ⟨2 ^ 59, rfl⟩
  | xxhash_32 =>
    refine .inl ?_
    show 16 ∣ 2 ^ env.sizeBits
    rcases sizeBits_cases env with h | h <;> rw [h] <;> decide
  | fnv1a_32 => exact trivial
  | fnv1a_64 => exact trivial
  | murmur3_32 =>
    refine .inl ?_
    show 4 ∣ 2 ^ env.sizeBits
    rcases sizeBits_cases env with h | h <;> rw [h] <;> decide
  | murmur3_128 =>
    refine .inl ?_
    show 16 ∣ 2 ^ env.sizeBits
    rcases sizeBits_cases env with h | h <;> rw [h] <;> decide
  | spooky2_128 => exact absurd rfl ha

theorem AlgName.bytesFit_any {a : AlgName} (ha : a ≠ .spooky2_128) (env : Env) (bs : List Byte) : (a.impls env).bytesFit bs := by
  cases a with
  | digest d => exact (d.impls env).2.2.2.2 _
  | spooky2_128 => exact absurd rfl ha
  | _ => trivial

/-- conversely, a class that implements a machine without limits meets the requirements -/
def Implements.requirements {A : HashAlg} {env : Env} {S : Machine A.R} (I : Implements A env S) (hf : ∀ s a bs, I.Rel s a → I.fits a bs)
    (hb : ∀ bs, I.bytesFit bs) : Requirements A env where
  equiv s s' := ∃ a, I.Rel s a ∧ I.Rel s' a
  default_ctor := let ⟨s, e, r⟩ := I.init_ok; ⟨s, e, _, r, r⟩
  seed_ctor k := let ⟨s, e, r⟩ := I.seed_ok k; ⟨s, e, _, r, r⟩
  bytes_ctor bs more := by
    obtain ⟨s, e, r⟩ := I.bytes_ok bs more (hb _)
    obtain ⟨s', e', r'⟩ := I.bytes_ok bs [] (hb _)
    rw [List.append_nil] at e'
    exact ⟨s, s', e, e', ⟨_, r, r'⟩, ⟨_, r, r⟩, ⟨_, r', r'⟩⟩
  null_ctor := by
    obtain ⟨s, e, r⟩ := I.bytes_null_ok
    obtain ⟨s', e', r'⟩ := I.bytes_ok [] [] (hb _)
    exact ⟨s, s', e, e', ⟨_, r, r'⟩, ⟨_, r, r⟩, ⟨_, r', r'⟩⟩
  update_same := by
    rintro s s' bs more ⟨a, r, r'⟩
    obtain ⟨t, e, h⟩ := I.update_ok s a bs more r (hf _ _ _ r)
    obtain ⟨t', e', h'⟩ := I.update_ok s' a bs [] r' (hf _ _ _ r')
    rw [List.append_nil] at e'
    exact ⟨t, t', e, e', _, h, h'⟩
  update_twice := by
    rintro s xs ys t u t' ⟨a, r, -⟩ e1 e2 e3
    obtain ⟨t1, h1, r1⟩ := I.update_ok s a xs [] r (hf _ _ _ r)
    rw [List.append_nil, e1] at h1
    cases h1
    obtain ⟨t2, h2, r2⟩ := I.update_ok t _ ys [] r1 (hf _ _ _ r1)
    rw [List.append_nil, e2] at h2
    cases h2
    obtain ⟨t3, h3, r3⟩ := I.update_ok s a (xs ++ ys) [] r (hf _ _ _ r)
    rw [List.append_nil, e3] at h3
    cases h3
    rw [I.absorb_append] at r3
    exact ⟨_, r3, r2⟩
  update_nothing := by
    rintro s t ⟨a, r, -⟩ e
    obtain ⟨t1, h1, r1⟩ := I.update_ok s a [] [] r (hf _ _ _ r)
    rw [show ([] ++ [] : List Byte) = [] from rfl, List.length_nil, e] at h1
    cases h1
    rw [I.absorb_nil s a r] at r1
    exact ⟨_, r1, r⟩
  result_same := by
    rintro s s' ⟨a, r, r'⟩
    obtain ⟨t, e, h⟩ := I.result_ok s a r
    obtain ⟨t', e', h'⟩ := I.result_ok s' a r'
    exact ⟨t, t', _, e, e', _, h, h'⟩
  left := fun _ _ ⟨a, r, _⟩ => ⟨a, r, r⟩
  right := fun _ _ ⟨a, _, r⟩ => ⟨a, r, r⟩

/-- hmac over the algorithm of a user: results are not longer than a block -/
theorem Requirements.good {H : DigestAlg} {env : Env} (L : Requirements H.toHash env)
    (hlen : ∀ s t r, H.result env s = .ok (t, r) → r.length ≤ H.blockSize) : Hmac.Good L.implements where
  fits _ _ := trivial
  resLen s a h := by
    obtain ⟨t, e, -⟩ := L.implements.result_ok s a h
    exact hlen s t _ e

end Hash2

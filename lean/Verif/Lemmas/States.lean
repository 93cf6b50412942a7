import Verif.Lemmas.Future
/-
The state of a digest object as a function of the bytes it has processed.
-/
namespace Hash2
open Spec

/-- two objects are equal exactly if chaining value, incomplete block and length are -/
theorem MdOk.state_eq {σ τ : Type} {D : MdCfg σ} {T : Md τ} {env : Env} (K : MdOk D T env) {s s' : BlockState σ} {l l' : List Byte}
    (h : Hash2.Rel (D.cfg env) s (K.abs l)) (h' : Hash2.Rel (D.cfg env) s' (K.abs l')) :
    s = s' ↔ T.chain l = T.chain l' ∧ rest T.N l = rest T.N l' ∧ l.length % 2 ^ 64 = l'.length % 2 ^ 64 := by
  have hst : s.st = K.u (T.chain l) := h.st
  have hst' : s'.st = K.u (T.chain l') := h'.st
  have hn : s.n = l.length % 2 ^ 64 := h.n
  have hn' : s'.n = l'.length % 2 ^ 64 := h'.n
  have hm : s.m = (rest T.N l).length := h.m
  have hm' : s'.m = (rest T.N l').length := h'.m
  constructor
  · rintro rfl
    refine ⟨?_, ?_, hn.symm.trans hn'⟩
    · rw [← K.vu (T.chain l), ← hst, hst', K.vu]
    · exact h.buf.symm.trans h'.buf
  · rintro ⟨h1, h2, h3⟩
    have hb := h.clear K.clear
    have hb' := h'.clear K.clear
    have e : (K.abs l) = (K.abs l') := by unfold MdOk.abs; rw [h1, h2, h3]
    rw [e] at hb
    obtain ⟨st, buf, m, n⟩ := s
    obtain ⟨st', buf', m', n'⟩ := s'
    simp only at hst hst' hn hn' hm hm' hb hb'
    rw [hst, hst', hn, hn', hm, hm', hb, hb', h1, h2, h3]

theorem Spec.Md.start_log {σ : Type} (D : Md σ) (c : Ctor) (ts : List Tok) :
    (D.machine.run (c.start D.machine) ts).1 = D.log (c.history ++ ts) := by
  have e : c.start D.machine = (D.machine.run D.machine.init c.history).1 := by
    have q : ∀ k : List Byte, (if k = [] then [] else k ++ D.pad k.length : List Byte) =
        (D.machine.run D.machine.init (if k = [] then [] else k.map Tok.data ++ [Tok.fin])).1 := by
      intro k
      by_cases h : k = []
      · rw [if_pos h, if_pos h]; rfl
      · rw [if_neg h, if_neg h, Machine.run_append]
        have r : ∀ (k l : List Byte), (D.machine.run l (k.map Tok.data)).1 = l ++ k := by
          intro k
          induction k with
          | nil => intro l; exact (List.append_nil l).symm
          | cons b k ih => intro l; refine (ih (l ++ [b])).trans ?_; rw [List.append_assoc]; rfl
        have r := r k []
        show k ++ D.pad k.length = (fun l : List Byte => l ++ D.pad l.length) (D.machine.run [] (k.map Tok.data)).1
        rw [r]; rfl
    cases c with
    | default => rfl
    | seed k =>
      refine Eq.trans ?_ (q (if k = 0 then [] else natLE 8 k.toNat))
      show (if k = 0 then [] else natLE 8 k.toNat ++ D.pad 8 : List Byte) = _
      by_cases h : k = 0
      · rw [if_pos h, if_pos h, if_pos rfl]
      · rw [if_neg h, if_neg h, if_neg, natLE_length]
        intro e; have := congrArg List.length e; simp at this
    | bytes p n => exact q (p.bytes n)
  rw [e]
  have e2 : (D.machine.run D.machine.init (c.history ++ ts)).1 = D.log (c.history ++ ts) := Md.run_log D (c.history ++ ts) []
  rw [Machine.run_append] at e2
  exact e2


theorem MdOk.reached_eq {σ τ : Type} {D : MdCfg σ} {T : Md τ} {env : Env} (K : MdOk D T env) {s s' : BlockState σ} {c c' : Ctor} {ts ts' : List Tok}
    (h : Hash2.Rel (D.cfg env) s (K.abs (T.machine.run (c.start T.machine) ts).1))
    (h' : Hash2.Rel (D.cfg env) s' (K.abs (T.machine.run (c'.start T.machine) ts').1)) :
    s = s' ↔ T.chain (T.log (c.history ++ ts)) = T.chain (T.log (c'.history ++ ts')) ∧
      rest T.N (T.log (c.history ++ ts)) = rest T.N (T.log (c'.history ++ ts')) ∧
      (T.log (c.history ++ ts)).length % 2 ^ 64 = (T.log (c'.history ++ ts')).length % 2 ^ 64 := by
  rw [← T.start_log c ts, ← T.start_log c' ts']
  exact K.state_eq h h'

theorem DigestName.reached_eq {d : DigestName} {σ : Type} {D : Md σ} (hd : d.md = some ⟨σ, D⟩) {env : Env} {c c' : Ctor} {ts ts' : List Tok} {s s' : d.impl.toHash.State}
    (h : (d.impls env).1.Rel s (d.machine.run (c.start d.machine) ts).1) (h' : (d.impls env).1.Rel s' (d.machine.run (c'.start d.machine) ts').1) :
    s = s' ↔ D.chain (D.log (c.history ++ ts)) = D.chain (D.log (c'.history ++ ts')) ∧
      rest D.N (D.log (c.history ++ ts)) = rest D.N (D.log (c'.history ++ ts')) ∧
      (D.log (c.history ++ ts)).length % 2 ^ 64 = (D.log (c'.history ++ ts')).length % 2 ^ 64 := by
  cases d <;> simp only [DigestName.md, Option.some.injEq, Sigma.mk.injEq, reduceCtorEq] at hd <;>
    (obtain ⟨rfl, hd⟩ := hd; cases hd)
  · exact (Md5.ok env).reached_eq h h'
  · exact (Sha1.ok env).reached_eq h h'
  · exact (Sha2.sha256_ok env).reached_eq h h'
  · exact (Sha2.sha224_ok env).reached_eq h h'
  · exact (Sha2.sha512_ok env).reached_eq h h'
  · exact (Sha2.sha384_ok env).reached_eq h h'
  · exact (Sha2.sha512_224_ok env).reached_eq h h'
  · exact (Sha2.sha512_256_ok env).reached_eq h h'
  · exact (Rip128.ok env).reached_eq h h'
  · exact (Rip160.ok env).reached_eq h h'

end Hash2

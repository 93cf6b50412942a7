import Verif.Spec.Calls
import Verif.Lemmas.Engine
/-
The refinement between a modelled class and an abstract machine, and its consequence for whole histories of calls.
-/
namespace Hash2
open Spec

/-- The class `A` on platform `env` implements the machine `S`. -/
structure Implements (A : HashAlg) (env : Env) (S : Machine A.R) where
  /-- the object is in this abstract state -/
  Rel : A.State → S.S → Prop
  /-- update( nullptr, 0 ) is fine in any state -/
  nullSafe : Prop
  /-- there is room in the byte counter -/
  fits : S.S → List Byte → Prop
  fits_nil : ∀ s a, Rel s a → fits a []
  fits_append : ∀ a xs ys, fits a (xs ++ ys) ↔ fits a xs ∧ fits (S.absorb a xs) ys
  absorb_nil : ∀ s a, Rel s a → S.absorb a [] = a
  absorb_append : ∀ a xs ys, S.absorb a (xs ++ ys) = S.absorb (S.absorb a xs) ys
  update_ok : ∀ s a bs more, Rel s a → fits a bs →
    ∃ s', A.update env s (.mem (bs ++ more)) bs.length = .ok s' ∧ Rel s' (S.absorb a bs)
  null_ok : nullSafe → ∀ s a, Rel s a → A.update env s .null 0 = .ok s
  result_ok : ∀ s a, Rel s a → ∃ s', A.result env s = .ok (s', (S.res a).2) ∧ Rel s' (S.res a).1
  init_ok : ∃ s, A.init env = .ok s ∧ Rel s S.init
  seed_ok : ∀ k, ∃ s, A.initSeed env k = .ok s ∧ Rel s (S.seed k)
  bytesFit : List Byte → Prop
  bytes_ok : ∀ bs more, bytesFit bs →
    ∃ s, A.initBytes env (.mem (bs ++ more)) bs.length = .ok s ∧ Rel s (S.bytes bs)
  bytes_null_ok : ∃ s, A.initBytes env .null 0 = .ok s ∧ Rel s (S.bytes [])

/-- the stream never overflows the byte counter -/
def Implements.FitsAll {A : HashAlg} {env : Env} {S : Machine A.R} (I : Implements A env S) : S.S → List Tok → Prop
  | _, [] => True
  | a, .data b :: ts => I.fits a [b] ∧ I.FitsAll (S.absorb a [b]) ts
  | a, .fin :: ts => I.FitsAll (S.res a).1 ts

theorem Machine.run_append {R : Type} (M : Machine R) (s : M.S) (xs ys : List Tok) :
    M.run s (xs ++ ys) = ((M.run (M.run s xs).1 ys).1, (M.run s xs).2 ++ (M.run (M.run s xs).1 ys).2) := by
  induction xs generalizing s with
  | nil => simp [Machine.run]
  | cons t ts ih =>
    cases t with
    | data b => simp only [List.cons_append, Machine.run, ih]
    | fin => simp [Machine.run, ih]

section
variable {A : HashAlg} {env : Env} {S : Machine A.R} (I : Implements A env S)
include I

theorem Implements.run_data {s : A.State} {a : S.S} (h : I.Rel s a) (bs : List Byte) :
    S.run a (bs.map .data) = (S.absorb a bs, []) ∧ (I.FitsAll a (bs.map .data) ↔ I.fits a bs) := by
  have h0 := I.absorb_nil s a h
  have hf0 := I.fits_nil s a h
  clear h
  -- generalise to all states reached from a
  have key : ∀ (bs : List Byte) (pre : List Byte),
      S.run (S.absorb a pre) (bs.map .data) = (S.absorb a (pre ++ bs), []) ∧
      (I.fits a pre → (I.FitsAll (S.absorb a pre) (bs.map .data) ↔ I.fits (S.absorb a pre) bs)) := by
    intro bs
    induction bs with
    | nil =>
      intro pre
      refine ⟨by simp [Machine.run], fun hp => ?_⟩
      have := (I.fits_append a pre []).1 (by simpa using hp)
      simp [Implements.FitsAll, this.2]
    | cons b bs ih =>
      intro pre
      have := ih (pre ++ [b])
      rw [I.absorb_append] at this
      constructor
      · simp only [List.map_cons, Machine.run]
        rw [this.1, List.append_assoc]; rfl
      · intro hp
        simp only [List.map_cons, Implements.FitsAll]
        rw [show b :: bs = [b] ++ bs from rfl, I.fits_append]
        constructor
        · rintro ⟨h1, h2⟩
          exact ⟨h1, (this.2 ((I.fits_append a pre [b]).2 ⟨hp, h1⟩)).1 h2⟩
        · rintro ⟨h1, h2⟩
          exact ⟨h1, (this.2 ((I.fits_append a pre [b]).2 ⟨hp, h1⟩)).2 h2⟩
  have := key bs []
  rw [h0] at this
  exact ⟨by simpa using this.1, this.2 hf0⟩

theorem Implements.fitsAll_append {a : S.S} (xs ys : List Tok) :
    I.FitsAll a (xs ++ ys) ↔ I.FitsAll a xs ∧ I.FitsAll (S.run a xs).1 ys := by
  induction xs generalizing a with
  | nil => simp [Implements.FitsAll, Machine.run]
  | cons t ts ih =>
    cases t with
    | data b => simp only [List.cons_append, Implements.FitsAll, Machine.run, ih, and_assoc]
    | fin => simp only [List.cons_append, Implements.FitsAll, Machine.run, ih]

/-- **Any history of valid calls returns what the machine returns for the stream it sends.** -/
theorem Implements.run_ok {s : A.State} {a : S.S} (h : I.Rel s a) (ops : List Op) (ts : List Tok)
    (hv : stream ops = some ts) (hn : I.nullSafe ∨ NoNull ops) (hf : I.FitsAll a ts) :
    ∃ s', A.run env s ops = .ok (s', (S.run a ts).2) ∧ I.Rel s' (S.run a ts).1 := by
  induction ops generalizing s a ts with
  | nil =>
    simp only [stream, Option.some.injEq] at hv; subst hv
    exact ⟨s, rfl, h⟩
  | cons op ops ih =>
    simp only [stream, Option.bind_eq_bind, Option.pure_def, Option.bind_eq_some_iff, Option.some.injEq] at hv
    obtain ⟨t, ht, ts', hts', rfl⟩ := hv
    have hn' : I.nullSafe ∨ NoNull ops := hn.imp id (fun h n hm => h n (List.mem_cons_of_mem _ hm))
    rw [I.fitsAll_append] at hf
    cases op with
    | result =>
      simp only [Op.toks, Option.some.injEq] at ht; subst ht
      obtain ⟨s1, e1, h1⟩ := I.result_ok s a h
      obtain ⟨s2, e2, h2⟩ := ih h1 ts' hts' hn' (by simpa [Machine.run] using hf.2)
      refine ⟨s2, ?_, ?_⟩
      · simp only [HashAlg.run, e1, Except.bind_ok, e2]
        simp [Machine.run]
      · simpa [Machine.run] using h2
    | update p n =>
      cases p with
      | null =>
        simp only [Op.toks] at ht
        split at ht
        · rename_i hz; subst hz
          simp only [Option.some.injEq] at ht; subst ht
          have hns : I.nullSafe := hn.resolve_right (fun h => h 0 (List.mem_cons_self ..))
          obtain ⟨s2, e2, h2⟩ := ih h ts' hts' hn' (by simpa [Machine.run] using hf.2)
          refine ⟨s2, ?_, by simpa using h2⟩
          simp only [HashAlg.run, I.null_ok hns s a h, Except.bind_ok, e2, List.nil_append]
        · exact absurd ht (by simp)
      | mem bs =>
        simp only [Op.toks] at ht
        split at ht
        · rename_i hle
          simp only [Option.some.injEq] at ht; subst ht
          have hrd := I.run_data h (bs.take n)
          rw [hrd.2, hrd.1] at hf
          have hlen : (bs.take n).length = n := by simp; omega
          have hstep : ∃ s', A.update env s (.mem bs) n = .ok s' ∧ I.Rel s' (S.absorb a (bs.take n)) := by
            have := I.update_ok s a (bs.take n) (bs.drop n) h hf.1
            rwa [List.take_append_drop, hlen] at this
          obtain ⟨s1, e1, h1⟩ := hstep
          obtain ⟨s2, e2, h2⟩ := ih h1 ts' hts' hn' hf.2
          refine ⟨s2, ?_, ?_⟩
          · simp only [HashAlg.run, e1, Except.bind_ok, e2, Machine.run_append, hrd.1, List.nil_append]
          · rw [Machine.run_append, hrd.1]; exact h2
        · exact absurd ht (by simp)

end

end Hash2

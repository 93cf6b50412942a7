import Verif.Spec.Threads
import Verif.Lemmas.Core
/-
Lemmas for C63.
-/
namespace Hash2

variable {A : HashAlg} {env : Env}

/-- the new state of the object a step changes, and the results returned -/
def HashAlg.effect (A : HashAlg) (env : Env) (o : Objects A) : Act → M (A.State × List A.R)
  | .construct _ c => do
    let s ← A.construct env c
    return (s, [])
  | .copy _ j => do
    let s ← o.get j
    return (s, [])
  | .stmt i p => do
    let s ← o.get i
    A.runStmts env s [p]

theorem runActs_cons (o : Objects A) (x : Act) (as : List Act) :
    A.runActs env o (x :: as) = (do
      let (s, rs) ← A.effect env o x
      let out ← A.runActs env (o.set x.target s) as
      return rs.map (fun r => (x.target, r)) ++ out) := by
  have nil : ∀ (o' : Objects A) (i : Nat), A.runActs env o' as = (do
      let out ← A.runActs env o' as
      return ([] : List A.R).map (fun r => (i, r)) ++ out) := by
    intro o' i
    cases A.runActs env o' as <;> rfl
  cases x with
  | construct i c =>
    simp only [HashAlg.runActs, HashAlg.effect, bind_assoc, pure_bind]
    exact congrArg _ (funext fun s => nil _ i)
  | copy i j =>
    simp only [HashAlg.runActs, HashAlg.effect, bind_assoc, pure_bind]
    exact congrArg _ (funext fun s => nil _ i)
  | stmt i p => simp only [HashAlg.runActs, HashAlg.effect, bind_assoc, Act.target]

theorem effect_congr {o o' : Objects A} {x : Act} (h : ∀ k ∈ x.uses, o k = o' k) : A.effect env o x = A.effect env o' x := by
  have get : ∀ j ∈ x.uses, o.get j = o'.get j := fun j hj => by unfold Objects.get; rw [h j hj]
  cases x with
  | construct i c => rfl
  | copy i j => simp only [HashAlg.effect, get j (by simp [Act.uses])]
  | stmt i p => simp only [HashAlg.effect, get i (by simp [Act.uses])]

/-- only the objects used matter -/
theorem runActs_congr {as : List Act} : ∀ {o o' : Objects A}, (∀ x ∈ as, ∀ k ∈ x.uses, o k = o' k) → A.runActs env o as = A.runActs env o' as := by
  induction as with
  | nil => intros; rfl
  | cons x as ih =>
    intro o o' h
    rw [runActs_cons, runActs_cons, effect_congr (h x (List.mem_cons_self ..))]
    refine congrArg _ (funext fun q => ?_)
    obtain ⟨st, rs⟩ := q
    simp only
    rw [ih (o := o.set x.target st) (o' := o'.set x.target st) fun y hy k hk => ?_]
    unfold Objects.set
    split
    · rfl
    · exact h y (List.mem_cons_of_mem _ hy) k hk

theorem runActs_out {as : List Act} : ∀ {o : Objects A} {out : List (Nat × A.R)}, A.runActs env o as = .ok out →
    ∀ q ∈ out, q.1 ∈ as.map Act.target := by
  induction as with
  | nil => intro o out h q hq; cases h; cases hq
  | cons x as ih =>
    intro o out h q hq
    rw [runActs_cons] at h
    cases e : A.effect env o x with
    | error _ => rw [e] at h; cases h
    | ok sr =>
      rw [e] at h
      obtain ⟨s, rs⟩ := sr
      simp only [Except.bind_ok] at h
      cases e' : A.runActs env (o.set x.target s) as with
      | error _ => rw [e'] at h; cases h
      | ok out' =>
        rw [e'] at h
        simp only [Except.bind_ok] at h
        cases h
        rcases List.mem_append.1 hq with hq | hq
        · obtain ⟨r, _, rfl⟩ := List.mem_map.1 hq
          simp
        · exact List.mem_cons_of_mem _ (ih e' q hq)

theorem program_cons_self (i : Nat) (x : Act) (s : Schedule) : Schedule.program ((i, x) :: s) i = x :: Schedule.program s i := by
  simp [Schedule.program]

theorem program_cons_ne {i j : Nat} (h : i ≠ j) (x : Act) (s : Schedule) : Schedule.program ((i, x) :: s) j = Schedule.program s j := by
  simp [Schedule.program, h]

theorem mem_program {s : Schedule} {i : Nat} {x : Act} : x ∈ s.program i ↔ (i, x) ∈ s := by
  simp [Schedule.program]

end Hash2

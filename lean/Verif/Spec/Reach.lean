import Verif.Spec.Algorithms
/-
Vocabulary of the statements about the internal state of objects.
-/
namespace Hash2
open Spec

/-- the object after a whole program: construct, call -/
def HashAlg.reach (A : HashAlg) (env : Env) (c : Ctor) (ops : List Op) : M A.State := do
  let s ← A.construct env c
  let (s, _) ← A.run env s ops
  return s

/-- two programs leave their objects, without undefined behaviour, in different states -/
def HashAlg.EndDifferent (A : HashAlg) (env : Env) (c c' : Ctor) (ops : List Op) : Prop :=
  ∃ s s', A.reach env c ops = .ok s ∧ A.reach env c' ops = .ok s' ∧ s ≠ s'

/-- two programs return, without undefined behaviour, results that differ in every place -/
def HashAlg.ResultsDiffer (A : HashAlg) (env : Env) (c c' : Ctor) (ops : List Op) : Prop :=
  ∃ rs rs', A.exec env c ops = .ok rs ∧ A.exec env c' ops = .ok rs' ∧ List.Forall₂ (· ≠ ·) rs rs'

end Hash2

import Verif.Model.Objects
/-
Threads (C63): a schedule is the sequence in which the steps of several threads are made. Of the model only the vocabulary of
steps is used.
-/
namespace Hash2

/-- the object a step changes -/
def Act.target : Act → Nat
  | .construct i _ => i
  | .copy i _ => i
  | .stmt i _ => i

/-- the object a step changes, and the one it reads -/
def Act.uses : Act → List Nat
  | .construct i _ => [i]
  | .copy i j => [i, j]
  | .stmt i _ => [i]

/-- the steps made, each with the thread that makes it -/
abbrev Schedule := List (Nat × Act)

/-- the program of a thread -/
def Schedule.program (s : Schedule) (thread : Nat) : List Act := (s.filter fun x => x.1 = thread).map Prod.snd

/-- no data race: an object that a thread changes is not used, not even read, by any other thread -/
def Schedule.NoRace (s : Schedule) : Prop := ∀ x ∈ s, ∀ y ∈ s, x.1 ≠ y.1 → x.2.target ∉ y.2.uses

/-- what was returned to a thread: the results of the objects it changes -/
def Schedule.returned {R : Type} (s : Schedule) (thread : Nat) (out : List (Nat × R)) : List (Nat × R) :=
  out.filter fun x => x.1 ∈ (s.program thread).map Act.target

end Hash2

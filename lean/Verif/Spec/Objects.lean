import Verif.Model.Objects
/-
The own history of every object in a program with several hash objects.
-/
namespace Hash2

/-- what has been done to an object: how it was constructed, or how that was of which it is a copy, and the statements since -/
structure Life where
  ctor : Ctor
  past : List Stmt

/-- an object after a step that changed it -/
structure Moment where
  obj : Nat
  life : Life
  /-- the step was a call of result() -/
  asked : Bool

/-- what a step makes of the lives so far; nothing if it uses an object that does not exist -/
def moment (o : Nat → Option Life) : Act → Option Moment
  | .construct i c => some ⟨i, ⟨c, []⟩, false⟩
  | .copy i j => (o j).map fun l => ⟨i, l, false⟩
  | .stmt i (.call .result) => (o i).map fun l => ⟨i, ⟨l.ctor, l.past ++ [.call .result]⟩, true⟩
  | .stmt i p => (o i).map fun l => ⟨i, ⟨l.ctor, l.past ++ [p]⟩, false⟩

/-- the moments of a program, in order; nothing if it uses an object that does not exist -/
def moments : (Nat → Option Life) → List Act → Option (List Moment)
  | _, [] => some []
  | o, a :: as =>
    (moment o a).bind fun m =>
    (moments (fun k => if k = m.obj then some m.life else o k) as).bind fun ms =>
    some (m :: ms)

/-- the life of an object, as a program with this object alone -/
def HashAlg.alone (A : HashAlg) (env : Env) (l : Life) : M (List A.R) := A.execStmts env l.ctor l.past

end Hash2

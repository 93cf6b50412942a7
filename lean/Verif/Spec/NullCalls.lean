import Verif.Spec.Calls
/-
Vocabulary for null pointers in a history of calls.
-/
namespace Hash2

/-- the number of bytes fed since the last result(), or since construction -/
def sinceResult (ops : List Op) : Nat :=
  ops.foldl (fun k op => match op with | .update _ n => k + n | .result => 0) 0

/-- some call passes a null pointer while the number of bytes fed since the last result() is not a multiple of B -/
def NullMidBlock (B : Nat) (ops : List Op) : Prop :=
  ∃ before after, ops = before ++ .update .null 0 :: after ∧ sinceResult before % B ≠ 0

/-- the calls that do not pass a null pointer -/
def withoutNull (ops : List Op) : List Op :=
  ops.filter fun | .update .null _ => false | _ => true

end Hash2

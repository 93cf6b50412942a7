import Verif.Spec.History
/-
For C57. Nothing here refers to the code.
-/
namespace Hash2.Spec

/-- the number of bytes passed since the last request for the result (or the beginning) -/
def sinceResult (ts : List Tok) : Nat :=
  ts.foldl (fun n t => match t with | .data _ => n + 1 | .fin => 0) 0

example : sinceResult [.data 1, .fin, .data 2, .data 3] = 2 := rfl

end Hash2.Spec

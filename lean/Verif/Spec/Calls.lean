import Verif.Model.Alg
import Verif.Spec.History
/-
Vocabulary of the statements about sequences of calls: which calls are valid, and what they feed to the object.
-/
namespace Hash2
open Spec

/-- the tokens a call sends, if it is a valid call: n bytes are readable at p, or n is 0 -/
def Op.toks : Op → Option (List Tok)
  | .update .null n => if n = 0 then some [] else none
  | .update (.mem bs) n => if n ≤ bs.length then some ((bs.take n).map .data) else none
  | .result => some [.fin]

/-- the stream a history of valid calls sends -/
def stream : List Op → Option (List Tok)
  | [] => some []
  | op :: ops => do
    let t ← op.toks
    let ts ← stream ops
    return t ++ ts

/-- no call passes a null pointer -/
def NoNull (ops : List Op) : Prop := ∀ n, Op.update .null n ∉ ops

end Hash2

import Verif.Model.DigestOps
/-
Digest objects as arrays, for C64: what place i of object d holds after a sequence of statements, read off the statements
from the last to the first: the last statement that wrote the place decides.
-/
namespace Hash2.Spec
open Digest

/-- the statement respects the documented requirements: indices less than N, arrays of N bytes, and front() and back() only for N > 0 -/
def DigestOp.Valid (N : Nat) : Op → Prop
  | .clear _ | .assign _ _ => True
  | .load _ v => v.length = N
  | .put _ i _ | .putVia _ i _ => i < N
  | .putFront _ _ | .putBack _ _ => 0 < N

/-- what place i of object d holds after the statements, given in reverse order (the last one first); `ini` is what the objects hold at first -/
def placeRev (N : Nat) (ini : Nat → Nat → Byte) : List Op → Nat → Nat → Byte
  | [], d, i => ini d i
  | o :: before, d, i =>
    match o with
    | .clear d' => if d = d' then 0 else placeRev N ini before d i
    | .load d' v => if d = d' then v.getD i 0 else placeRev N ini before d i
    | .assign d' e => if d = d' then placeRev N ini before e i else placeRev N ini before d i
    | .put d' j x => if d = d' ∧ i = j then x else placeRev N ini before d i
    | .putVia d' j x => if d = d' ∧ i = j then x else placeRev N ini before d i
    | .putFront d' x => if d = d' ∧ i = 0 then x else placeRev N ini before d i
    | .putBack d' x => if d = d' ∧ i = N - 1 then x else placeRev N ini before d i

/-- what place i of object d holds after the statements -/
def place (N : Nat) (ini : Nat → Nat → Byte) (ops : List Op) (d i : Nat) : Byte := placeRev N ini ops.reverse d i


end Hash2.Spec

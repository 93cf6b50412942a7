import Verif.Spec.Algorithms
/-
The byte counter of spooky2_128: when it wraps.
-/
namespace Hash2

/-- the number of bytes counted after construction: a seed of more than 16 bytes is a message, of which the last block is completed -/
def Ctor.counted (w : Nat) : Ctor → Nat
  | .bytes _ n => if n ≤ 16 then 0 else if ((n - 16) / 192 + 1) * 192 < 2 ^ w then ((n - 16) / 192 + 1) * 192 else 0
  | _ => 0

/-- **The calls that an object of spooky2_128 does not survive**, of which the counter stands at k, in a std::size_t of w bits.
Some update() makes the counter exceed its range, and the disagreement with the number of buffered bytes is noticed: at once, unless the
data just go into the buffer after bytes it already holds; otherwise by the next call, if there is one. A result() completes the last
block, and starts counting at 0 again if the counter would exceed its range. -/
def SpookyWraps (w : Nat) : (k : Nat) → List Op → Prop
  | _, [] => False
  | k, .update _ n :: ops =>
    if k + n < 2 ^ w then SpookyWraps w (k + n) ops
    else k % 192 = 0 ∨ 192 ≤ k % 192 + n ∨ ops ≠ []
  | k, .result :: ops => SpookyWraps w (if (k / 192 + 1) * 192 < 2 ^ w then (k / 192 + 1) * 192 else 0) ops

/-- lengths are of type std::size_t -/
def Op.LengthFits (w : Nat) : Op → Prop
  | .update _ n => n < 2 ^ w
  | .result => True

/-- lengths are of type std::size_t -/
def Ctor.LengthFits (w : Nat) : Ctor → Prop
  | .bytes _ n => n < 2 ^ w
  | _ => True

end Hash2

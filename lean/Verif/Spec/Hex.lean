import Verif.Spec.Bytes
/-
Hexadecimal notation, for C35. Nothing here refers to the code.
-/
namespace Hash2.Spec

/-- the character of a digit: '0' to '9', 'a' to 'f' -/
def hexDigit (d : Nat) : Byte := if d < 10 then BitVec.ofNat 8 ('0'.toNat + d) else BitVec.ofNat 8 ('a'.toNat + (d - 10))

/-- two digits for each byte, the high one first -/
def hex : List Byte → List Byte
  | [] => []
  | b :: bs => hexDigit (b.toNat / 16) :: hexDigit (b.toNat % 16) :: hex bs

end Hash2.Spec

import Verif.Spec.Bytes
/-
Cutting a message into blocks of N bytes. Nothing here refers to the code.
-/
namespace Hash2.Spec

/-- the whole blocks of a message: block number i is bytes N*i .. N*i + N - 1 -/
def blocks (N : Nat) (msg : List Byte) : List (List Byte) :=
  (List.range (msg.length / N)).map fun i => (msg.drop (N * i)).take N

/-- what remains after the whole blocks -/
def rest (N : Nat) (msg : List Byte) : List Byte := msg.drop (N * (msg.length / N))

end Hash2.Spec

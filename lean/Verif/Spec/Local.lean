import Verif.Spec.Bytes
/-
Messages that differ in one place only (C42). Nothing here refers to the code.
-/
namespace Hash2.Spec

/-- two different messages of the same length, with the same bytes at all positions outside of P -/
structure DifferOnlyIn (P : Nat → Prop) (m m' : List Byte) : Prop where
  length : m.length = m'.length
  ne : m ≠ m'
  same : ∀ j, ¬ P j → m[j]? = m'[j]?

/-- the part of a message of `len` bytes to which position j belongs when it is cut, from the start, into 8 byte words, what is
left into 4 byte words, what is then left into bytes: its size and its number -/
def unit8 (len j : Nat) : Nat × Nat :=
  if j < 8 * (len / 8) then (8, j / 8) else if j < 4 * (len / 4) then (4, j / 4) else (1, j)

/-- the same with 4 byte words and bytes -/
def unit4 (len j : Nat) : Nat × Nat :=
  if j < 4 * (len / 4) then (4, j / 4) else (1, j)

end Hash2.Spec

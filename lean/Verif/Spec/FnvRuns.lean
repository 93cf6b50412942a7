import Verif.Spec.Calls
/-
FNV-1a of runs of one byte.
-/
namespace Hash2
open Spec

/-- **For runs of the byte b, the period of fnv1a_32 is 2 to this power** -/
def Spec.FNV.runLog32 (b : Byte) : Nat :=
  if b.toNat % 2 = 1 then 32
  else if b.toNat % 8 = 0 ∨ b.toNat % 8 = 6 then 30
  else if b.toNat % 16 = 4 ∨ b.toNat % 16 = 10 then 29
  else if b.toNat % 32 = 12 ∨ b.toNat % 32 = 18 then 28
  else if b.toNat % 64 = 28 ∨ b.toNat % 64 = 34 then 27
  else if b.toNat % 128 = 60 ∨ b.toNat % 128 = 66 then 26
  else if b = 0x02 ∨ b = 0xFC then 24
  else if b = 0x82 then 23
  else 21 -- 0x7C

/-- **For runs of the byte b, the period of fnv1a_64 is 2 to this power** -/
def Spec.FNV.runLog64 (b : Byte) : Nat :=
  if b.toNat % 2 = 1 then 64
  else if b.toNat % 8 = 0 ∨ b.toNat % 8 = 6 then 62
  else if b.toNat % 16 = 4 ∨ b.toNat % 16 = 10 then 61
  else if b.toNat % 32 = 12 ∨ b.toNat % 32 = 18 then 60
  else if b.toNat % 64 = 2 ∨ b.toNat % 64 = 60 then 58
  else if b.toNat % 128 = 34 ∨ b.toNat % 128 = 92 then 57
  else if b = 0x1C ∨ b = 0x62 then 56
  else if b = 0x9C then 54
  else 52 -- 0xE2

/-- update( p, n ) where the n bytes at p are all b; result() -/
def runOfBytes (b : Byte) (n : Nat) : List Op := [.update (.mem (List.replicate n b)) n, .result]

end Hash2

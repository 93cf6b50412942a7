import Verif.Spec.History
/-
FNV-1a (G. Fowler, L. C. Noll, K.-P. Vo, D. Eastlake, draft-eastlake-fnv). Nothing here refers to the code.
-/
namespace Hash2.Spec.FNV

variable {w : Nat}

/-- "hash = offset_basis; for each octet to be hashed: hash = hash xor octet; hash = hash * FNV_Prime" -/
def feed (prime : BitVec w) (h : BitVec w) (msg : List Byte) : BitVec w :=
  msg.foldl (fun h octet => (h ^^^ BitVec.ofNat w octet.toNat) * prime) h

/-- 2^24 + 2^8 + 0x93 and 2^40 + 2^8 + 0xb3 -/
def prime32 : BitVec 32 := BitVec.ofNat 32 (2 ^ 24 + 2 ^ 8 + 0x93)
def prime64 : BitVec 64 := BitVec.ofNat 64 (2 ^ 40 + 2 ^ 8 + 0xb3)

/-- the offset basis is the FNV-0 hash (multiply, then xor, starting from 0) of the following 32 octets -/
def basisText : List Byte := "chongo <Landon Curt Noll> /\\../\\".toList.map fun c => BitVec.ofNat 8 c.toNat

def basis (prime : BitVec w) : BitVec w :=
  basisText.foldl (fun h octet => h * prime ^^^ BitVec.ofNat w octet.toNat) 0

/-- FNV-1a -/
def hash (prime : BitVec w) (msg : List Byte) : BitVec w := feed prime (basis prime) msg

/-- The hash object: a seed is a prefix of the message (the seed 0 is the empty prefix); asking for the result is as feeding
the octet 0xFF afterwards. -/
def machine (prime : BitVec w) : Machine (BitVec w) where
  S := BitVec w
  absorb := feed prime
  res h := (feed prime h [0xFF], h)
  init := basis prime
  seed k := if k = 0 then basis prime else feed prime (basis prime) (natLE 8 k.toNat)
  bytes k := feed prime (basis prime) k

end Hash2.Spec.FNV

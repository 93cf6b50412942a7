/-
Elementary vocabulary shared by the specifications: bytes, and the positional value of a byte
string in the two byte orders. Nothing here refers to the code.
-/
namespace Hash2

abbrev Byte := BitVec 8
abbrev W32 := BitVec 32
abbrev W64 := BitVec 64

/-- value of a byte string, least significant byte first -/
def leNat : List Byte → Nat
  | [] => 0
  | b :: bs => b.toNat + 256 * leNat bs

/-- value of a byte string, most significant byte first -/
def beNat (bs : List Byte) : Nat := leNat bs.reverse

/-- the `k` low-order bytes of `v`, least significant first -/
def natLE : Nat → Nat → List Byte
  | 0, _ => []
  | k + 1, v => BitVec.ofNat 8 v :: natLE k (v / 256)

/-- the `k` low-order bytes of `v`, most significant first -/
def natBE (k v : Nat) : List Byte := (natLE k v).reverse

/-- the word whose little-endian bytes are `bs` -/
def leWord (w : Nat) (bs : List Byte) : BitVec w := BitVec.ofNat w (leNat bs)

/-- the word whose big-endian bytes are `bs` -/
def beWord (w : Nat) (bs : List Byte) : BitVec w := BitVec.ofNat w (beNat bs)

end Hash2

import Verif.Spec.Stream
/-
MurmurHash3 (A. Appleby, MurmurHash3.cpp): MurmurHash3_x86_32 and MurmurHash3_x64_128. Nothing here refers to the code.
-/
namespace Hash2.Spec.MURMUR3

namespace x86_32

def c1 : BitVec 32 := 0xcc9e2d51
def c2 : BitVec 32 := 0x1b873593

/-- the scrambling of a word of the message -/
def scramble (k : BitVec 32) : BitVec 32 := (k * c1).rotateLeft 15 * c2

/-- body: one block of 4 bytes -/
def body (h : BitVec 32) (k : BitVec 32) : BitVec 32 := (h ^^^ scramble k).rotateLeft 13 * 5 + 0xe6546b64

def fmix (h : BitVec 32) : BitVec 32 :=
  let h := (h ^^^ (h >>> 16)) * 0x85ebca6b
  let h := (h ^^^ (h >>> 13)) * 0xc2b2ae35
  h ^^^ (h >>> 16)

/-- tail and finalization -/
def finish (h : BitVec 32) (tail : List Byte) (len : Nat) : BitVec 32 :=
  fmix (h ^^^ scramble (leWord 32 tail) ^^^ BitVec.ofNat 32 len)

/-- MurmurHash3_x86_32( msg, len, seed ) -/
def hash (seed : BitVec 32) (msg : List Byte) : BitVec 32 :=
  finish (((blocks 4 msg).map (leWord 32)).foldl body seed) (rest 4 msg) msg.length

def obj (ctr : Nat) : BlockHash (BitVec 32) (BitVec 32) where
  N := 4
  ctr := ctr
  compress h b := body h (leWord 32 b)
  finish h tail n := (h, finish h tail n)

/-- the object: of a 64-bit seed the lower half is the seed, the upper half, if not zero, is processed as a block; of a byte
sequence the first four bytes (completed with zeros) are the seed, the others are processed as a message whose result is
discarded -/
def machine (ctr : Nat) : Machine (BitVec 32) :=
  (obj ctr).machine (Obj.start 0)
    (fun k =>
      let lo := BitVec.ofNat 32 k.toNat
      let hi := BitVec.ofNat 32 (k.toNat / 2 ^ 32)
      Obj.start (if hi = 0 then lo else body lo hi))
    (fun bs =>
      if bs.length ≤ 4 then Obj.start (leWord 32 bs)
      else ((obj ctr).res ((obj ctr).absorb (Obj.start (leWord 32 (bs.take 4))) (bs.drop 4))).1)

end x86_32

namespace x64_128

def c1 : BitVec 64 := 0x87c37b91114253d5
def c2 : BitVec 64 := 0x4cf5ad432745937f

structure St where
  (h1 h2 : BitVec 64)
  deriving DecidableEq, Repr

def scramble1 (k : BitVec 64) : BitVec 64 := (k * c1).rotateLeft 31 * c2
def scramble2 (k : BitVec 64) : BitVec 64 := (k * c2).rotateLeft 33 * c1

/-- body: one block of 16 bytes -/
def body (s : St) (b : List Byte) : St :=
  let h1 := ((s.h1 ^^^ scramble1 (leWord 64 (b.take 8))).rotateLeft 27 + s.h2) * 5 + 0x52dce729
  let h2 := ((s.h2 ^^^ scramble2 (leWord 64 (b.drop 8))).rotateLeft 31 + h1) * 5 + 0x38495ab5
  ⟨h1, h2⟩

def fmix (k : BitVec 64) : BitVec 64 :=
  let k := (k ^^^ (k >>> 33)) * 0xff51afd7ed558ccd
  let k := (k ^^^ (k >>> 33)) * 0xc4ceb9fe1a85ec53
  k ^^^ (k >>> 33)

/-- tail (k1 is made of its first 8 bytes, k2 of the others) and finalization -/
def finish (s : St) (tail : List Byte) (len : Nat) : List Byte :=
  let h1 := s.h1 ^^^ scramble1 (leWord 64 (tail.take 8)) ^^^ BitVec.ofNat 64 len
  let h2 := s.h2 ^^^ scramble2 (leWord 64 (tail.drop 8)) ^^^ BitVec.ofNat 64 len
  let h1 := h1 + h2
  let h2 := h2 + h1
  let h1 := fmix h1
  let h2 := fmix h2
  let h1 := h1 + h2
  let h2 := h2 + h1
  natLE 8 h1.toNat ++ natLE 8 h2.toNat

/-- MurmurHash3_x64_128, with separate seeds for the two halves of the state (the original has only one) -/
def hash (seed1 seed2 : BitVec 64) (msg : List Byte) : List Byte :=
  finish ((blocks 16 msg).foldl body ⟨seed1, seed2⟩) (rest 16 msg) msg.length

def obj (ctr : Nat) : BlockHash St (List Byte) where
  N := 16
  ctr := ctr
  compress := body
  finish s tail n := (s, finish s tail n)

/-- the object: an integer is the seed; so is a byte sequence of at most 8 bytes; of a longer one the first 16 bytes (completed
with zeros) are the two seeds, the others are processed as a message whose result is discarded -/
def machine (ctr : Nat) : Machine (List Byte) :=
  (obj ctr).machine (Obj.start ⟨0, 0⟩) (fun k => Obj.start ⟨k, k⟩)
    (fun bs =>
      if bs.length ≤ 8 then Obj.start ⟨leWord 64 bs, leWord 64 bs⟩
      else if bs.length ≤ 16 then Obj.start ⟨leWord 64 (bs.take 8), leWord 64 (bs.drop 8)⟩
      else ((obj ctr).res ((obj ctr).absorb
        (Obj.start ⟨leWord 64 (bs.take 8), leWord 64 ((bs.drop 8).take 8)⟩) (bs.drop 16))).1)

end x64_128

end Hash2.Spec.MURMUR3

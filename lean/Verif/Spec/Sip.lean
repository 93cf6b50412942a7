import Verif.Spec.Stream
/-
SipHash-2-4 (J.-P. Aumasson, D. J. Bernstein, "SipHash: a fast short-input PRF", section 2) and HalfSipHash-2-4 (the reference
code of the same authors, halfsiphash.c). Nothing here refers to the code.
-/
namespace Hash2.Spec.SIP

structure St (w : Nat) where
  (v0 v1 v2 v3 : BitVec w)
  deriving DecidableEq, Repr

/-- word size in bytes, rotation amounts, initial constants, and the combination that is the result -/
structure Variant (w : Nat) where
  bytes : Nat
  (ra rb rc rd re : Nat)
  iv : St w
  out : St w → BitVec w

variable {w : Nat}

/-- SipRound: two layers of additions, rotations and exclusive ors -/
def sipRound (V : Variant w) (s : St w) : St w :=
  -- first layer
  let v0 := s.v0 + s.v1
  let v2 := s.v2 + s.v3
  let v1 := s.v1.rotateLeft V.ra ^^^ v0
  let v3 := s.v3.rotateLeft V.rb ^^^ v2
  let v0 := v0.rotateLeft V.rc
  -- second layer
  let v2 := v2 + v1
  let v0 := v0 + v3
  let v1 := v1.rotateLeft V.rd ^^^ v2
  let v3 := v3.rotateLeft V.re ^^^ v0
  let v2 := v2.rotateLeft V.rc
  ⟨v0, v1, v2, v3⟩

/-- initialization with the key -/
def start (V : Variant w) (k0 k1 : BitVec w) : St w :=
  ⟨V.iv.v0 ^^^ k0, V.iv.v1 ^^^ k1, V.iv.v2 ^^^ k0, V.iv.v3 ^^^ k1⟩

/-- compression of one word: v3 ^= m, two rounds, v0 ^= m -/
def compress (V : Variant w) (s : St w) (m : BitVec w) : St w :=
  let s := sipRound V (sipRound V { s with v3 := s.v3 ^^^ m })
  { s with v0 := s.v0 ^^^ m }

/-- finalization: v2 ^= 0xff, four rounds -/
def finalize (V : Variant w) (s : St w) : St w :=
  sipRound V (sipRound V (sipRound V (sipRound V { s with v2 := s.v2 ^^^ 0xff })))

/-- the last word: "the remaining bytes, followed by null bytes and ending with a byte encoding the positive integer b mod 256" -/
def lastWord (V : Variant w) (tail : List Byte) (len : Nat) : BitVec w :=
  leWord w (tail ++ List.replicate (V.bytes - 1 - tail.length) 0 ++ [BitVec.ofNat 8 (len % 256)])

/-- the keyed hash of a message -/
def hash (V : Variant w) (k0 k1 : BitVec w) (msg : List Byte) : BitVec w :=
  let words := (blocks V.bytes msg).map (leWord w) ++ [lastWord V (rest V.bytes msg) msg.length]
  V.out (finalize V (words.foldl (compress V) (start V k0 k1)))

/-- SipHash -/
def sip64 : Variant 64 where
  bytes := 8
  ra := 13
  rb := 16
  rc := 32
  rd := 17
  re := 21
  iv := ⟨0x736f6d6570736575, 0x646f72616e646f6d, 0x6c7967656e657261, 0x7465646279746573⟩
  out s := s.v0 ^^^ s.v1 ^^^ s.v2 ^^^ s.v3

/-- HalfSipHash, 32-bit output -/
def sip32 : Variant 32 where
  bytes := 4
  ra := 5
  rb := 8
  rc := 16
  rd := 13
  re := 7
  iv := ⟨0, 0, 0x6c796765, 0x74656462⟩
  out s := s.v1 ^^^ s.v3

/-- the hash object; the length is counted modulo 2^ctr -/
def obj (V : Variant w) (ctr : Nat) : BlockHash (St w) (BitVec w) where
  N := V.bytes
  ctr := ctr
  compress s b := compress V s (leWord w b)
  finish s tail n :=
    let s := finalize V (compress V s (lastWord V tail n))
    (s, V.out s)

/-- a seed that is not of the size of a key is processed as if it were a message whose result is discarded -/
def byteSeed (V : Variant w) (ctr : Nat) (bs : List Byte) : Obj (St w) :=
  if bs.length = 2 * V.bytes then Obj.start (start V (leWord w (bs.take V.bytes)) (leWord w (bs.drop V.bytes)))
  else if bs = [] then Obj.start (start V 0 0)
  else ((obj V ctr).res ((obj V ctr).absorb (Obj.start (start V 0 0)) bs)).1

/-- siphash_64: a 64-bit seed is the first half of the key -/
def machine64 : Machine (BitVec 64) :=
  (obj sip64 64).machine (Obj.start (start sip64 0 0)) (fun k => Obj.start (start sip64 k 0)) (byteSeed sip64 64)

/-- siphash_32: a 64-bit seed is the key -/
def machine32 : Machine (BitVec 32) :=
  (obj sip32 32).machine (Obj.start (start sip32 0 0))
    (fun k => Obj.start (start sip32 (BitVec.ofNat 32 k.toNat) (BitVec.ofNat 32 (k.toNat / 2 ^ 32)))) (byteSeed sip32 32)

end Hash2.Spec.SIP

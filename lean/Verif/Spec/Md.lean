import Verif.Spec.Blocks
import Verif.Spec.History
/-
Merkle-Damgard hash functions: RFC 1321 section 3, FIPS 180-4 section 5 and 6, the RIPEMD paper section 3.
Nothing here refers to the code.
-/
namespace Hash2.Spec

/-- the parameters of a Merkle-Damgard hash function -/
structure Md (σ : Type) where
  /-- block size in bytes -/
  N : Nat
  /-- size in bytes of the encoded message length -/
  L : Nat
  /-- encoding of the length of the message, given in bits -/
  encLen : Nat → List Byte
  /-- initial chaining value -/
  iv : σ
  /-- compression function -/
  compress : σ → List Byte → σ
  /-- digest from the last chaining value -/
  out : σ → List Byte

/-- "append the bit 1, then k zero bits, k minimal such that the length field ends a block, then the length": what is appended
to a message of `len` bytes -/
def Md.pad {σ : Type} (D : Md σ) (len : Nat) : List Byte :=
  0x80#8 :: List.replicate ((D.N - (len + 1 + D.L) % D.N) % D.N) 0 ++ D.encLen (8 * len)

/-- chaining value after the whole blocks of a message -/
def Md.chain {σ : Type} (D : Md σ) (msg : List Byte) : σ := (blocks D.N msg).foldl D.compress D.iv

/-- the digest of a message -/
def Md.hash {σ : Type} (D : Md σ) (msg : List Byte) : List Byte := D.out (D.chain (msg ++ D.pad msg.length))

/-- the same function, except that the length of the message in bits is reduced modulo 2^64 -/
def Md.mod64 {σ : Type} (D : Md σ) : Md σ := { D with encLen := fun bits => D.encLen (bits % 2 ^ 64) }

/-- The message an object has processed after a stream: the bytes, and for every request for the result the padding of all that
went before. -/
def Md.log {σ : Type} (D : Md σ) (ts : List Tok) : List Byte :=
  ts.foldl (fun l t => match t with
    | .data b => l ++ [b]
    | .fin => l ++ D.pad l.length) []

/-- The hash object: its state is the stream of bytes processed so far, in which every request for the result has appended the
padding. A seed is processed as if it were a message whose result is discarded. -/
def Md.machine {σ : Type} (D : Md σ) : Machine (List Byte) where
  S := List Byte
  absorb log bs := log ++ bs
  res log := (log ++ D.pad log.length, D.hash log)
  init := []
  seed k := if k = 0 then [] else natLE 8 k.toNat ++ D.pad 8
  bytes k := if k = [] then [] else k ++ D.pad k.length

end Hash2.Spec

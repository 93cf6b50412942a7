import Verif.Spec.Algorithms
/-
Vocabulary for the statements about what a digest tells about the object that returned it.
-/
namespace Hash2
open Spec

/-- the number of bytes processed after a stream, paddings included, by an object that has processed n -/
def Spec.Md.processed {σ : Type} (D : Md σ) (n : Nat) (ts : List Tok) : Nat :=
  ts.foldl (fun n t => match t with
    | .data _ => n + 1
    | .fin => n + (D.pad n).length) n

/-- the number of bytes processed by a constructor: a seed is processed like a message, with padding -/
def Spec.Md.processedBy {σ : Type} (D : Md σ) : Ctor → Nat
  | .default => 0
  | .seed k => if k = 0 then 0 else 8 + (D.pad 8).length
  | .bytes _ n => if n = 0 then 0 else n + (D.pad n).length

/-- the digests that consist of the whole chaining value: not the truncated ones -/
def DigestName.showsAll : DigestName → Bool
  | .md5_128 | .sha1_160 | .sha2_256 | .sha2_512 | .ripemd_128 | .ripemd_160 => true
  | _ => false

/-- the bytes a constructor is given: an integer seed as 8 bytes, none if it is 0 -/
def Ctor.key : Ctor → List Byte
  | .default => []
  | .seed k => if k = 0 then [] else natLE 8 k.toNat
  | .bytes p n => p.bytes n

/-- for a digest, being constructed from a non-empty key is as being fed the key and asked for the result -/
def Ctor.history (c : Ctor) : List Tok := if c.key = [] then [] else c.key.map .data ++ [.fin]

/-- what murmur3 counts while processing a stream, having counted n: bytes; a request for the result completes the block (a whole block is
counted if there was no incomplete one) -/
def Spec.MURMUR3.counted (N n : Nat) (ts : List Tok) : Nat :=
  ts.foldl (fun n t => match t with
    | .data _ => n + 1
    | .fin => N * (n / N + 1)) n

/-- what murmur3 has counted after a constructor: of a byte sequence, what follows the first N bytes is processed as a message -/
def Spec.MURMUR3.countedBy (N : Nat) : Ctor → Nat
  | .default => 0
  | .seed _ => 0
  | .bytes _ n => if n ≤ N then 0 else N * ((n - N) / N + 1)

end Hash2

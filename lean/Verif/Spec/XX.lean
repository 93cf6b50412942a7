import Verif.Spec.Stream
/-
xxHash (Y. Collet, "xxHash fast digest algorithm", xxhash_spec.md): XXH64 and XXH32. Nothing here refers to the code.
-/
namespace Hash2.Spec

/-- the four accumulators -/
structure Acc4 (w : Nat) where
  (a1 a2 a3 a4 : BitVec w)
  deriving DecidableEq, Repr

namespace XXH64

abbrev Word := BitVec 64
def prime1 : Word := 0x9E3779B185EBCA87
def prime2 : Word := 0xC2B2AE3D27D4EB4F
def prime3 : Word := 0x165667B19E3779F9
def prime4 : Word := 0x85EBCA77C2B2AE63
def prime5 : Word := 0x27D4EB2F165667C5

/-- step 1: initialise the accumulators -/
def start (seed : Word) : Acc4 64 := ⟨seed + prime1 + prime2, seed + prime2, seed, seed - prime1⟩

/-- "round(accN, laneN)" -/
def round (acc lane : Word) : Word := (acc + lane * prime2).rotateLeft 31 * prime1

/-- lane i of a stripe -/
def lane (stripe : List Byte) (i : Nat) : Word := leWord 64 ((stripe.drop (8 * i)).take 8)

/-- step 2: process a stripe of 32 bytes -/
def stripe (a : Acc4 64) (s : List Byte) : Acc4 64 :=
  ⟨round a.a1 (lane s 0), round a.a2 (lane s 1), round a.a3 (lane s 2), round a.a4 (lane s 3)⟩

/-- "mergeAccumulator(acc, accN)" -/
def merge (acc accN : Word) : Word := (acc ^^^ round 0 accN) * prime1 + prime4

/-- step 3: accumulator convergence -/
def converge (a : Acc4 64) : Word :=
  let acc := a.a1.rotateLeft 1 + a.a2.rotateLeft 7 + a.a3.rotateLeft 12 + a.a4.rotateLeft 18
  merge (merge (merge (merge acc a.a1) a.a2) a.a3) a.a4

/-- step 5: consume the remaining input: 8 bytes at a time, then 4, then one by one -/
def consume (acc : Word) (remaining : List Byte) : Word :=
  let acc := (blocks 8 remaining).foldl (fun acc b => (acc ^^^ round 0 (leWord 64 b)).rotateLeft 27 * prime1 + prime4) acc
  let remaining := rest 8 remaining
  let acc := (blocks 4 remaining).foldl (fun acc b => (acc ^^^ leWord 64 b * prime1).rotateLeft 23 * prime2 + prime3) acc
  let remaining := rest 4 remaining
  remaining.foldl (fun acc b => (acc ^^^ BitVec.ofNat 64 b.toNat * prime5).rotateLeft 11 * prime1) acc

/-- step 6: final mix (avalanche) -/
def avalanche (acc : Word) : Word :=
  let acc := (acc ^^^ (acc >>> 33)) * prime2
  let acc := (acc ^^^ (acc >>> 29)) * prime3
  acc ^^^ (acc >>> 32)

/-- XXH64; "special case: input is less than 32 bytes" -/
def hash (seed : Word) (msg : List Byte) : Word :=
  let acc := if msg.length < 32 then seed + prime5 else converge ((blocks 32 msg).foldl stripe (start seed))
  avalanche (consume (acc + BitVec.ofNat 64 msg.length) (rest 32 msg))

/-- the hash object. For a message of less than 32 bytes the seed is found in the third accumulator. After a result the object
continues with accumulators modified by the value before the final mix. -/
def obj (ctr : Nat) : BlockHash (Acc4 64) Word where
  N := 32
  ctr := ctr
  compress := stripe
  finish a tail n :=
    let acc := if n < 32 then a.a3 + prime5 else converge a
    let acc := consume (acc + BitVec.ofNat 64 n) tail
    (⟨a.a1 + acc, a.a2 + acc, a.a3 - acc, a.a4 - acc⟩, avalanche acc)

/-- xxhash_64: an integer is the seed; a byte sequence is processed like a message whose result is discarded -/
def machine : Machine Word :=
  (obj 64).machine (Obj.start (start 0)) (fun k => Obj.start (start k))
    (fun bs => if bs = [] then Obj.start (start 0) else ((obj 64).res ((obj 64).absorb (Obj.start (start 0)) bs)).1)

end XXH64

namespace XXH32

abbrev Word := BitVec 32
def prime1 : Word := 0x9E3779B1
def prime2 : Word := 0x85EBCA77
def prime3 : Word := 0xC2B2AE3D
def prime4 : Word := 0x27D4EB2F
def prime5 : Word := 0x165667B1

def start (seed : Word) : Acc4 32 := ⟨seed + prime1 + prime2, seed + prime2, seed, seed - prime1⟩

def round (acc lane : Word) : Word := (acc + lane * prime2).rotateLeft 13 * prime1

def lane (stripe : List Byte) (i : Nat) : Word := leWord 32 ((stripe.drop (4 * i)).take 4)

/-- a stripe of 16 bytes -/
def stripe (a : Acc4 32) (s : List Byte) : Acc4 32 :=
  ⟨round a.a1 (lane s 0), round a.a2 (lane s 1), round a.a3 (lane s 2), round a.a4 (lane s 3)⟩

def converge (a : Acc4 32) : Word :=
  a.a1.rotateLeft 1 + a.a2.rotateLeft 7 + a.a3.rotateLeft 12 + a.a4.rotateLeft 18

def consume (acc : Word) (remaining : List Byte) : Word :=
  let acc := (blocks 4 remaining).foldl (fun acc b => (acc + leWord 32 b * prime3).rotateLeft 17 * prime4) acc
  let remaining := rest 4 remaining
  remaining.foldl (fun acc b => (acc + BitVec.ofNat 32 b.toNat * prime5).rotateLeft 11 * prime1) acc

def avalanche (acc : Word) : Word :=
  let acc := (acc ^^^ (acc >>> 15)) * prime2
  let acc := (acc ^^^ (acc >>> 13)) * prime3
  acc ^^^ (acc >>> 16)

/-- XXH32 -/
def hash (seed : Word) (msg : List Byte) : Word :=
  let acc := if msg.length < 16 then seed + prime5 else converge ((blocks 16 msg).foldl stripe (start seed))
  avalanche (consume (acc + BitVec.ofNat 32 msg.length) (rest 16 msg))

/-- the hash object; the length is counted modulo 2^ctr, ctr being the number of bits of std::size_t -/
def obj (ctr : Nat) : BlockHash (Acc4 32) Word where
  N := 16
  ctr := ctr
  compress := stripe
  finish a tail n :=
    let acc := if n < 16 then a.a3 + prime5 else converge a
    let acc := consume (acc + BitVec.ofNat 32 n) tail
    (⟨a.a1 + acc, a.a2 + acc, a.a3 - acc, a.a4 - acc⟩, avalanche acc)

/-- xxhash_32: of a 64-bit integer the lower half is the seed; the upper half, if not zero, is mixed into each accumulator -/
def seeded (k : BitVec 64) : Acc4 32 :=
  let lo := BitVec.ofNat 32 k.toNat
  let hi := BitVec.ofNat 32 (k.toNat / 2 ^ 32)
  let a := start lo
  if hi = 0 then a else ⟨round a.a1 hi, round a.a2 hi, round a.a3 hi, round a.a4 hi⟩

def machine (ctr : Nat) : Machine Word :=
  (obj ctr).machine (Obj.start (start 0)) (fun k => Obj.start (seeded k))
    (fun bs => if bs = [] then Obj.start (start 0) else ((obj ctr).res ((obj ctr).absorb (Obj.start (start 0)) bs)).1)

end XXH32

end Hash2.Spec

import Verif.Spec.Stream
import Mathlib.Data.Fin.VecNotation
/-
SpookyHash V2 (B. Jenkins, SpookyV2.h, SpookyV2.cpp), the mixing functions written as loops over indices modulo 4 and modulo 12.
Nothing here refers to the code.
-/
namespace Hash2.Spec.SPOOKY

abbrev Word := BitVec 64

/-- an array of n words -/
abbrev Words (n : Nat) := Fin n → Word

/-- s[ i ] = x -/
def put {n : Nat} (s : Words n) (i : Fin n) (x : Word) : Words n := fun j => if j = i then x else s j

/-- sc_const: "a constant which is not zero, is odd, is a not-very-regular mix of 1's and 0's" -/
def sc : Word := 0xdeadbeefdeadbeef

/-- word i of a block -/
def word (blk : List Byte) (i : Nat) : Word := leWord 64 ((blk.drop (8 * i)).take 8)

/-! ### short messages -/

/-- one of the 12 steps of ShortMix, at index a: h[a] = Rot64(h[a], r); h[a] += h[a+1]; h[a+2] ^= h[a] -/
def shortMixStep (r : Nat) (a : Fin 4) (h : Words 4) : Words 4 :=
  let h := put h a ((h a).rotateLeft r)
  let h := put h a (h a + h (a + 1))
  put h (a + 2) (h (a + 2) ^^^ h a)

def shortMixRot : List Nat := [50, 52, 30, 41, 54, 48, 38, 37, 62, 34, 5, 36]

def shortMix (h : Words 4) : Words 4 :=
  (List.range 12).foldl (fun h i => shortMixStep (shortMixRot.getD i 0) (Fin.ofNat 4 (i + 2)) h) h

/-- one of the 11 steps of ShortEnd, at index a: h[a+1] ^= h[a]; h[a] = Rot64(h[a], r); h[a+1] += h[a] -/
def shortEndStep (r : Nat) (a : Fin 4) (h : Words 4) : Words 4 :=
  let h := put h (a + 1) (h (a + 1) ^^^ h a)
  let h := put h a ((h a).rotateLeft r)
  put h (a + 1) (h (a + 1) + h a)

def shortEndRot : List Nat := [15, 52, 26, 51, 28, 9, 47, 54, 32, 25, 63]

def shortEnd (h : Words 4) : Words 4 :=
  (List.range 11).foldl (fun h i => shortEndStep (shortEndRot.getD i 0) (Fin.ofNat 4 (i + 2)) h) h

/-- add two words of the message to c and d -/
def addCD (h : Words 4) (b : List Byte) : Words 4 := put (put h 2 (h 2 + word b 0)) 3 (h 3 + word b 1)
/-- add two words of the message to a and b -/
def addAB (h : Words 4) (b : List Byte) : Words 4 := put (put h 0 (h 0 + word b 0)) 1 (h 1 + word b 1)

/-- handle a complete set of 32 bytes -/
def short32 (h : Words 4) (b : List Byte) : Words 4 := addAB (shortMix (addCD h (b.take 16))) (b.drop 16)

/-- Short: messages of less than 192 bytes -/
def short (seed1 seed2 : Word) (msg : List Byte) : Word × Word :=
  let h : Words 4 := ![seed1, seed2, sc, sc]
  let h := (blocks 32 msg).foldl short32 h
  -- handle the case of 16+ remaining bytes
  let h := (blocks 16 (rest 32 msg)).foldl (fun h b => shortMix (addCD h b)) h
  -- handle the last 0..15 bytes, and the length
  let last := rest 16 (rest 32 msg)
  let h := if last = [] then put (put h 2 (h 2 + sc)) 3 (h 3 + sc) else addCD h (last ++ List.replicate (16 - last.length) 0)
  let h := put h 3 (h 3 + (BitVec.ofNat 64 msg.length <<< 56))
  let h := shortEnd h
  (h 0, h 1)

/-! ### long messages -/

/-- one of the 12 steps of Mix: s[i] += data; s[i+2] ^= s[i+10]; s[i+11] ^= s[i]; s[i] = Rot64(s[i], r); s[i+11] += s[i+1] -/
def mixStep (r : Nat) (d : Word) (i : Fin 12) (s : Words 12) : Words 12 :=
  let s := put s i (s i + d)
  let s := put s (i + 2) (s (i + 2) ^^^ s (i + 10))
  let s := put s (i + 11) (s (i + 11) ^^^ s i)
  let s := put s i ((s i).rotateLeft r)
  put s (i + 11) (s (i + 11) + s (i + 1))

def mixRot : List Nat := [11, 32, 43, 31, 17, 28, 39, 57, 55, 54, 22, 46]

/-- Mix: a block of 96 bytes -/
def mix (s : Words 12) (b : List Byte) : Words 12 :=
  (List.range 12).foldl (fun s i => mixStep (mixRot.getD i 0) (word b i) (Fin.ofNat 12 i) s) s

/-- one of the 12 steps of EndPartial: h[i+11] += h[i+1]; h[i+2] ^= h[i+11]; h[i+1] = Rot64(h[i+1], r) -/
def endStep (r : Nat) (i : Fin 12) (h : Words 12) : Words 12 :=
  let h := put h (i + 11) (h (i + 11) + h (i + 1))
  let h := put h (i + 2) (h (i + 2) ^^^ h (i + 11))
  put h (i + 1) ((h (i + 1)).rotateLeft r)

def endRot : List Nat := [44, 15, 34, 21, 38, 33, 10, 13, 38, 53, 42, 54]

def endPartial (h : Words 12) : Words 12 :=
  (List.range 12).foldl (fun h i => endStep (endRot.getD i 0) (Fin.ofNat 12 i) h) h

/-- End: the last block is added, then EndPartial three times -/
def finalBlock (s : Words 12) (b : List Byte) : Words 12 :=
  endPartial (endPartial (endPartial (fun i => s i + word b i)))

/-- the last partial block (0..95 bytes) is completed with zeros, its last byte being the number of its bytes -/
def lastBlock (tail : List Byte) : List Byte :=
  tail ++ List.replicate (95 - tail.length) 0 ++ [BitVec.ofNat 8 tail.length]

def start (seed1 seed2 : Word) : Words 12 :=
  ![seed1, seed2, sc, seed1, seed2, sc, seed1, seed2, sc, seed1, seed2, sc]

/-- SpookyHash::Hash128 -/
def hash128 (seed1 seed2 : Word) (msg : List Byte) : Word × Word :=
  if msg.length < 192 then short seed1 seed2 msg
  else
    let s := finalBlock ((blocks 96 msg).foldl mix (start seed1 seed2)) (lastBlock (rest 96 msg))
    (s 0, s 1)

def outBytes (h : Word × Word) : List Byte := natLE 8 h.1.toNat ++ natLE 8 h.2.toNat

/-! ### the object: blocks of 192 bytes -/

/-- the end of the message -/
def finish (s : Words 12) (tail : List Byte) (n : Nat) : Words 12 :=
  if n < 192 then
    let (h0, h1) := short (s 0) (s 1) tail
    put (put s 0 h0) 1 h1
  else finalBlock ((blocks 96 tail).foldl mix s) (lastBlock (rest 96 tail))

def obj (ctr : Nat) : BlockHash (Words 12) (List Byte) where
  N := 192
  ctr := ctr
  compress s b := (blocks 96 b).foldl mix s
  finish s tail n := (finish s tail n, outBytes (finish s tail n 0, finish s tail n 1))
  renum n := if n < 192 then 0 else n

/-- an integer is the first seed; of a byte sequence the first 16 bytes (completed with zeros) are the two seeds, the others are
processed as a message whose result is discarded -/
def machine (ctr : Nat) : Machine (List Byte) :=
  (obj ctr).machine (Obj.start (start 0 0)) (fun k => Obj.start (start k 0))
    (fun bs =>
      if bs.length ≤ 16 then Obj.start (start (leWord 64 (bs.take 8)) (leWord 64 (bs.drop 8)))
      else ((obj ctr).res ((obj ctr).absorb
        (Obj.start (start (leWord 64 (bs.take 8)) (leWord 64 ((bs.drop 8).take 8)))) (bs.drop 16))).1)

end Hash2.Spec.SPOOKY

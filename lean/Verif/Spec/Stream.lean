import Verif.Spec.Blocks
import Verif.Spec.History
/-
Hash objects that process a message block by block and finish with the incomplete block and the length: SipHash, xxHash,
MurmurHash3, SpookyHash. Nothing here refers to the code.
-/
namespace Hash2.Spec

/-- the object: chaining value after the complete blocks, incomplete block, number of bytes processed -/
structure Obj (τ : Type) where
  st : τ
  tail : List Byte
  n : Nat

/-- the parameters of such a hash function -/
structure BlockHash (τ R : Type) where
  /-- block size in bytes -/
  N : Nat
  /-- the length is counted modulo 2^ctr -/
  ctr : Nat
  /-- processing of a complete block -/
  compress : τ → List Byte → τ
  /-- end of the message: from chaining value, incomplete block and length to the result, and the chaining value with which
  the object continues -/
  finish : τ → List Byte → Nat → τ × R
  /-- the length with which the object continues, given the length rounded up to blocks -/
  renum : Nat → Nat := id

variable {τ R : Type}

def BlockHash.absorb (T : BlockHash τ R) (o : Obj τ) (bs : List Byte) : Obj τ :=
  { st := (blocks T.N (o.tail ++ bs)).foldl T.compress o.st
    tail := rest T.N (o.tail ++ bs)
    n := (o.n + bs.length) % 2 ^ T.ctr }

/-- After the result the object continues as if the incomplete block had been completed (a whole block is counted if there
was none). -/
def BlockHash.res (T : BlockHash τ R) (o : Obj τ) : Obj τ × R :=
  ({ st := (T.finish o.st o.tail o.n).1
     tail := []
     n := T.renum ((o.n + (T.N - o.tail.length)) % 2 ^ T.ctr) },
   (T.finish o.st o.tail o.n).2)

/-- an object that has processed nothing -/
def Obj.start (st : τ) : Obj τ := ⟨st, [], 0⟩

/-- the hash object, given its initial states -/
def BlockHash.machine (T : BlockHash τ R) (init : Obj τ) (seed : BitVec 64 → Obj τ) (bytes : List Byte → Obj τ) : Machine R where
  S := Obj τ
  absorb := T.absorb
  res := T.res
  init := init
  seed := seed
  bytes := bytes

end Hash2.Spec

import Verif.Model.Digest
/-
Model of include/boost/hash2/fnv1a.hpp. The class template fnv1a<T> is modelled for a width w, basis and prime.
-/
namespace Hash2.Fnv

/-- fnv1a_const<T>, fnv1a.hpp:26-38 -/
structure Const (w : Nat) where
  (basis prime : BitVec w)

/-- fnv1a.hpp:28-32 -/
def c32 : Const 32 := ⟨0x811C9DC5#32, 0x01000193#32⟩
/-- fnv1a.hpp:34-38 -/
def c64 : Const 64 := ⟨0xCBF29CE484222325#64, 0x00000100000001B3#64⟩

/-- void update( unsigned char const * p, std::size_t n ), fnv1a.hpp:70-81; the overload for void const* (83-87) casts the pointer
and calls it -/
def update {w : Nat} (c : Const w) (st : BitVec w) (p : Ptr) (n : Nat) : M (BitVec w) :=
  forLoop (fun i h => do
    let b ← p.get i
    let h := h ^^^ b.zeroExtend w
    let h := h * c.prime
    return h) 0 n st

/-- T result(), fnv1a.hpp:89-100 -/
def result {w : Nat} (c : Const w) (st : BitVec w) : BitVec w × BitVec w :=
  ((st ^^^ BitVec.ofNat w 0xFF) * c.prime, st)

/-- explicit fnv1a( std::uint64_t seed ), fnv1a.hpp:52-60 -/
def initSeed {w : Nat} (c : Const w) (env : Env) (seed : W64) : M (BitVec w) :=
  if seed ≠ 0 then do
    let tmp ← seedBytes env seed
    update c c.basis (.mem tmp) 8
  else return c.basis

/-- fnv1a( unsigned char const * p, std::size_t n ), fnv1a.hpp:62-68 -/
def initBytes {w : Nat} (c : Const w) (p : Ptr) (n : Nat) : M (BitVec w) :=
  if n ≠ 0 then update c c.basis p n else return c.basis

end Hash2.Fnv

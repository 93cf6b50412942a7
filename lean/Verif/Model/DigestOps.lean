import Verif.Model.Digest
/-
Model of include/boost/hash2/digest.hpp and of include/boost/hash2/detail/memcmp.hpp. A digest<N> is the list of its N bytes;
a char is a byte.
-/
namespace Hash2

/-- std::memcmp( p, q, n ), called in detail/memcmp.hpp:23, 32. The C standard fixes only the sign of the result; the model returns -1, 0
or 1. -/
def stdMemcmp (p q : Ptr) (n : Nat) : M Int :=
  match p, q with
  | .mem bs, .mem cs =>
    if n ≤ bs.length ∧ n ≤ cs.length then
      .ok (match compare ((bs.take n).map BitVec.toNat) ((cs.take n).map BitVec.toNat) with
        | .lt => -1
        | .eq => 0
        | .gt => 1)
    else .error .oob
  | _, _ => .error .nullMemcpy

/-- the loop of detail::memcmp, detail/memcmp.hpp:36-41, from index i with cnt iterations to go -/
def memcmpLoop (p q : Ptr) : Nat → Nat → M Int
  | _, 0 => .ok 0
  | i, cnt + 1 => do
    let a ← p.get i
    let b ← q.get i
    if a ≠ b then .ok ((a.toNat : Int) - b.toNat) else memcmpLoop p q (i + 1) cnt

/-- detail::memcmp( p, q, n ), detail/memcmp.hpp:28-42 -/
def memcmp (env : Env) (p q : Ptr) (n : Nat) : M Int :=
  if env.loops = false then stdMemcmp p q n else memcmpLoop p q 0 n

namespace Digest

/-- digest() = default, digest.hpp:25 and 31: `unsigned char data_[ N ] = {};` -/
def zero (N : Nat) : List Byte := List.replicate N 0

/-- digest( unsigned char const (&v)[ N ] ), digest.hpp:33-36 -/
def ofArray (env : Env) (N : Nat) (v : List Byte) : M (List Byte) := memcpy env (zero N) 0 (.mem v) N

/-- operator[] const, digest.hpp:65 -/
def get (N : Nat) (v : List Byte) (i : Nat) : M Byte := do
  check (i < N)
  aget v i

/-- front() const, digest.hpp:68 -/
def front (v : List Byte) : M Byte := aget v 0

/-- back() const, digest.hpp:71: data_[ N-1 ] -/
def back (N : Nat) (v : List Byte) : M Byte := aget v (N - 1)

/-- `d[ i ] = x`, a write through the reference operator[] returns, digest.hpp:64 -/
def put (N : Nat) (v : List Byte) (i : Nat) (x : Byte) : M (List Byte) := do
  check (i < N)
  aset v i x

/-- `d.front() = x`, digest.hpp:67 -/
def putFront (v : List Byte) (x : Byte) : M (List Byte) := aset v 0 x

/-- `d.back() = x`, digest.hpp:70: data_[ N-1 ] -/
def putBack (N : Nat) (v : List Byte) (x : Byte) : M (List Byte) := aset v (N - 1) x

/-- `d.begin()[ i ] = x` or `d.data()[ i ] = x`: begin() and data() return data_, without a check of i, digest.hpp:48, 56 -/
def putVia (v : List Byte) (i : Nat) (x : Byte) : M (List Byte) := aset v i x

/-- `for( auto x: d )`: begin() is data_, end() is data_ + N, digest.hpp:49, 52; the bytes visited, in order -/
def iterate (N : Nat) (v : List Byte) : M (List Byte) :=
  forLoop (fun i r => do
    let x ← aget v i
    return r ++ [x]) 0 N []

/-- size() and max_size(), digest.hpp:59-60 -/
def size (N : Nat) (_v : List Byte) : Nat := N

/-- operator==, digest.hpp:76-79 -/
def eq (env : Env) (N : Nat) (a b : List Byte) : M Bool := do
  let r ← memcmp env (.mem a) (.mem b) N
  return r == 0

/-- operator!=, digest.hpp:81-84 -/
def ne (env : Env) (N : Nat) (a b : List Byte) : M Bool := do
  let r ← eq env N a b
  return !r

/-- `constexpr char digits[] = "0123456789abcdef";`, digest.hpp:95: 17 chars with the terminating zero -/
def digits : List Byte :=
  [0x30, 0x31, 0x32, 0x33, 0x34, 0x35, 0x36, 0x37, 0x38, 0x39, 0x61, 0x62, 0x63, 0x64, 0x65, 0x66, 0x00]

/-- static_cast<std::ptrdiff_t>( 2 * N ), digest.hpp:90: 2 * N is computed in std::size_t, the cast reduces it to the range of
std::ptrdiff_t (implementation defined before C++20, the same everywhere) -/
def room (env : Env) (N : Nat) : Int := (BitVec.ofNat env.sizeBits (2 * N)).toInt

/-- to_chars( v, first, last ), digest.hpp:88-104. `buf` is the memory from `first` to the end of the object it points into,
`len` is `last - first`. Returns the memory afterwards, and the offset of the returned pointer from `first`, none for nullptr. -/
def toChars (env : Env) (N : Nat) (v : List Byte) (buf : List Byte) (len : Int) : M (Option Nat × List Byte) :=
  if len < room env N then .ok (none, buf)
  else do
    let buf ← forLoop (fun i buf => do
      let x ← get N v i
      let d ← aget digits (x >>> 4).toNat
      let buf ← aset buf (i * 2 + 0) d
      let y ← get N v i
      let e ← aget digits (y &&& 0x0F#8).toNat
      aset buf (i * 2 + 1) e) 0 N buf
    if N * 2 ≤ buf.length then .ok (some (N * 2), buf) else .error .oob

/-- to_chars( v, w ) for an array of chars, digest.hpp:106-110; the static_assert on the size of w is a precondition. -/
def toCharsArray (env : Env) (N : Nat) (v : List Byte) (w : List Byte) : M (List Byte) := do
  let (r, w) ← toChars env N v w w.length
  match r with
  | none => .error .nullPtr
  | some i => aset w i 0

/-- the uninitialised `char tmp[ 2*N+1 ];`, digest.hpp:116 and 127 -/
def tmp (env : Env) (N : Nat) : List Byte := (List.range (2 * N + 1)).map env.garbage

/-- the string at the start of `w`: the chars before the first zero; no zero is an access out of bounds. What `os << tmp`
reads, digest.hpp:119 -/
def cstring : List Byte → M (List Byte)
  | [] => .error .oob
  | c :: cs => if c = 0 then .ok [] else do
    let r ← cstring cs
    return c :: r

/-- operator<<, digest.hpp:114-121. The stream is the list of the chars written; simplification: width() is 0, no failures -/
def insert (env : Env) (N : Nat) (os v : List Byte) : M (List Byte) := do
  let w ← toCharsArray env N v (tmp env N)
  let s ← cstring w
  return os ++ s

/-- to_string, digest.hpp:125-131 -/
def toString (env : Env) (N : Nat) (v : List Byte) : M (List Byte) := do
  let w ← toCharsArray env N v (tmp env N)
  if 2 * N ≤ w.length then return w.take (2 * N) else .error .oob

/-- a statement of a program with digest<N> objects d0, d1, ..; see `Op.step` -/
inductive Op
  | clear (d : Nat)
  | load (d : Nat) (v : List Byte)
  | assign (d e : Nat)
  | put (d i : Nat) (x : Byte)
  | putFront (d : Nat) (x : Byte)
  | putBack (d : Nat) (x : Byte)
  | putVia (d i : Nat) (x : Byte)

/-- the execution of a statement: `d = {}` (digest.hpp:31), `d = v` for an array v (33-36), `d = e` (the implicit copy
assignment, memberwise: data_, 25), `d[ i ] = x` (64), `d.front() = x` (67), `d.back() = x` (70), `d.data()[ i ] = x` (48, 56).
The state gives the bytes of each object. -/
def Op.step (env : Env) (N : Nat) (o : Op) (m : Nat → List Byte) : M (Nat → List Byte) :=
  let store (d : Nat) (v : List Byte) : Nat → List Byte := fun k => if k = d then v else m k
  match o with
  | .clear d => return store d (zero N)
  | .load d v => do
    let r ← ofArray env N v
    return store d r
  | .assign d e => return store d (m e)
  | .put d i x => do
    let r ← Digest.put N (m d) i x
    return store d r
  | .putFront d x => do
    let r ← Digest.putFront (m d) x
    return store d r
  | .putBack d x => do
    let r ← Digest.putBack N (m d) x
    return store d r
  | .putVia d i x => do
    let r ← Digest.putVia (m d) i x
    return store d r

/-- a sequence of statements, digest.hpp:20-72 -/
def execOps (env : Env) (N : Nat) : List Op → (Nat → List Byte) → M (Nat → List Byte)
  | [], m => .ok m
  | o :: os, m => do
    let m ← o.step env N m
    execOps env N os m

end Digest
end Hash2

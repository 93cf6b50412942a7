import Verif.Spec.Bytes
/-
The C++ substrate: faults, pointers, platforms, memcpy/memset/memcmp, byte order, rotations.
Models include/boost/hash2/detail/{memcpy,memset,memcmp,read,write,rot}.hpp.
-/
namespace Hash2

/-- Ways in which an execution can go wrong. Every one of them is undefined behaviour in C++ or
(`assertFailed`, `wrapped`, `diverges`) something the code is written never to do. Not code of /repo; the comments "memcpy from (NULL, 0) is
undefined" (hmac.hpp:60) and "k must not be 0" (detail/rot.hpp:18), and the BOOST_ASSERTs (md5.hpp:229, 252, ..), are about some of them. -/
inductive Fault
  /-- a null pointer passed to std::memcpy / std::memset / std::memcmp, even with size 0 -/
  | nullMemcpy
  /-- access outside of an object, or pointer arithmetic leaving it -/
  | oob
  /-- dereference of, or non-zero arithmetic on, a null pointer -/
  | nullPtr
  /-- BOOST_ASSERT( false ) -/
  | assertFailed
  /-- overflow of a signed integer -/
  | signedOverflow
  /-- an unsigned subtraction of lengths that would wrap -/
  | wrapped
  /-- a shift by an amount not below the width (rot.hpp: "k must not be 0") -/
  | badShift
  /-- a loop that does not end -/
  | diverges
  /-- an operation that is not allowed in a constant expression (reinterpret_cast), met in constant evaluation -/
  | notConstant
  deriving DecidableEq, Repr

/-- the outcome of a C++ function: a value or a fault. Not code of /repo: the semantics of C++. -/
abbrev M := Except Fault

/-- endian.hpp:13-33 -/
inductive Endian
  | little
  | big
  deriving DecidableEq, Repr

/-- How the platform adds zero to a floating point number, as far as IEEE 754 leaves it open: the `v + 0` of hash_append.hpp:216, 224. -/
structure FpEnv where
  /-- the rounding direction is FE_DOWNWARD (the default is to nearest) -/
  roundDown : Bool
  /-- an operation on a NaN returns the canonical NaN (RISC-V); otherwise the operand made quiet (x86, Arm, Power) -/
  canonicalNaN : Bool
  deriving DecidableEq, Repr

/-- The platform and phase a program runs in: what endian.hpp:13-33, detail/config.hpp:12-20, detail/is_constant_evaluated.hpp:17-28 and
hash_append.hpp:68-99, 206, 216, 251 depend on. -/
structure Env where
  /-- endian::native, endian.hpp:13-33 -/
  native : Endian
  /-- the program is evaluated by the compiler, in a constant expression -/
  constEval : Bool
  /-- the compiler has __builtin_is_constant_evaluated, detail/config.hpp:12-20 -/
  builtin : Bool
  /-- BOOST_NO_CXX14_CONSTEXPR is not defined -/
  cxx14 : Bool
  /-- std::size_t (and uintptr_t) has 64 bits; otherwise 32 -/
  size64 : Bool
  /-- data() of an empty container is a null pointer -/
  emptyDataNull : Bool
  /-- contents of uninitialised memory -/
  garbage : Nat → Byte
  /-- floating point environment -/
  fp : FpEnv

/-- number of bits of std::size_t, e.g. of m_ in md5.hpp:39 and of n_ in xxhash.hpp:50 -/
def Env.sizeBits (e : Env) : Nat := if e.size64 then 64 else 32

/-- detail::is_constant_evaluated(), detail/is_constant_evaluated.hpp:17-28: also true at run time if the compiler cannot tell -/
def Env.isConstantEvaluated (e : Env) : Bool := if e.builtin then e.constEval else true

/-- whether detail::memcpy, memset and memcmp, and hash_append_range_ for contiguously hashable types, are loops over the elements,
detail/memcpy.hpp:19-41, detail/memset.hpp:19-41, detail/memcmp.hpp:19-43, hash_append.hpp:68-97 -/
def Env.loops (e : Env) : Bool := if e.cxx14 then e.isConstantEvaluated else false

/-- BOOST_ASSERT( c ), enabled, e.g. md5.hpp:229 -/
def check (c : Bool) : M Unit := if c then .ok () else .error .assertFailed

/-- `unsigned char const*` (e.g. p in md5.hpp:227): null, or pointing at the first of `bs`, the bytes from there to the end of
the object pointed into. -/
inductive Ptr
  | null
  | mem (bs : List Byte)
  deriving DecidableEq, Repr

/-- p + k, e.g. md5.hpp:246, 266 -/
def Ptr.add : Ptr → Nat → M Ptr
  | .null, k => if k = 0 then .ok .null else .error .nullPtr
  | .mem bs, k => if k ≤ bs.length then .ok (.mem (bs.drop k)) else .error .oob

/-- p[i], e.g. detail/memcpy.hpp:38, detail/read.hpp:32-36 -/
def Ptr.get : Ptr → Nat → M Byte
  | .null, _ => .error .nullPtr
  | .mem bs, i => match bs[i]? with
    | some b => .ok b
    | none => .error .oob

/-- a[i] for an array, e.g. x[ k ] in md5.hpp:124 -/
def aget {α : Type} (a : List α) (i : Nat) : M α :=
  match a[i]? with
  | some x => .ok x
  | none => .error .oob

/-- a[i] = x for an array, e.g. detail/memcpy.hpp:38, siphash.hpp:169 -/
def aset {α : Type} (a : List α) (i : Nat) (x : α) : M (List α) :=
  if i < a.length then .ok (a.set i x) else .error .oob

/-- subtraction of unsigned lengths, flagged if it wraps, e.g. md5.hpp:237, 247 -/
def csub (a b : Nat) : M Nat := if b ≤ a then .ok (a - b) else .error .wrapped

/-- for( i = i0; i < i0 + cnt; ++i ) a = f( i, a ), e.g. detail/memcpy.hpp:36-39, md5.hpp:307-310 -/
def forLoop {α : Type} (f : Nat → α → M α) : Nat → Nat → α → M α
  | _, 0, a => .ok a
  | i, cnt + 1, a => do
    let a ← f i a
    forLoop f (i + 1) cnt a

/-- std::memcpy( d + off, s, n ) into the array d; null is undefined even for n == 0. Called in detail/memcpy.hpp:23, 32 -/
def stdMemcpy (d : List Byte) (off : Nat) (s : Ptr) (n : Nat) : M (List Byte) :=
  match s with
  | .null => .error .nullMemcpy
  | .mem bs =>
    if n ≤ bs.length ∧ off + n ≤ d.length then
      .ok (d.take off ++ bs.take n ++ d.drop (off + n))
    else .error .oob

/-- detail::memcpy( d + off, s, n ), detail/memcpy.hpp:19-41 -/
def memcpy (env : Env) (d : List Byte) (off : Nat) (s : Ptr) (n : Nat) : M (List Byte) :=
  if env.loops = false then stdMemcpy d off s n
  else forLoop (fun i d => do
    let b ← s.get i
    aset d (off + i) b) 0 n d

/-- std::memset( d + off, v, n ) into the array d. Called in detail/memset.hpp:23, 32 -/
def stdMemset (d : List Byte) (off : Nat) (v : Byte) (n : Nat) : M (List Byte) :=
  if off + n ≤ d.length then .ok (d.take off ++ List.replicate n v ++ d.drop (off + n))
  else .error .oob

/-- detail::memset( d + off, v, n ), detail/memset.hpp:19-41 -/
def memset (env : Env) (d : List Byte) (off : Nat) (v : Byte) (n : Nat) : M (List Byte) :=
  if env.loops = false then stdMemset d off v n
  else forLoop (fun i d => aset d (off + i) v) 0 n d

/-- the object representation of an unsigned integer on a machine of the given byte order: what the std::memcpy of
detail/write.hpp:28, 41, 56 copies -/
def objBytes (e : Endian) {k : Nat} (sz : Nat) (v : BitVec k) : List Byte :=
  match e with
  | .little => natLE sz v.toNat
  | .big => natBE sz v.toNat

/-- the unsigned integer with the given object representation: what the std::memcpy of detail/read.hpp:26, 44 makes of its bytes -/
def objWord (e : Endian) (k : Nat) (bs : List Byte) : BitVec k :=
  match e with
  | .little => leWord k bs
  | .big => beWord k bs

/-- std::memcpy( &v, p, sz ) for a local integer v, detail/read.hpp:25-27, 43-45 -/
def loadObj (env : Env) (k sz : Nat) (p : Ptr) : M (BitVec k) := do
  let bs ← stdMemcpy (List.replicate sz 0) 0 p sz
  return objWord env.native k bs

/-- detail::read32le, detail/read.hpp:21-37 -/
def read32le (env : Env) (p : Ptr) : M W32 :=
  if env.isConstantEvaluated = false ∧ env.native = .little then loadObj env 32 4 p
  else do
    let p0 ← p.get 0
    let p1 ← p.get 1
    let p2 ← p.get 2
    let p3 ← p.get 3
    return p0.zeroExtend 32 ||| (p1.zeroExtend 32 <<< 8) ||| (p2.zeroExtend 32 <<< 16)
      ||| (p3.zeroExtend 32 <<< 24)

/-- detail::read64le, detail/read.hpp:39-59 -/
def read64le (env : Env) (p : Ptr) : M W64 :=
  if env.isConstantEvaluated = false ∧ env.native = .little then loadObj env 64 8 p
  else do
    let p0 ← p.get 0
    let p1 ← p.get 1
    let p2 ← p.get 2
    let p3 ← p.get 3
    let p4 ← p.get 4
    let p5 ← p.get 5
    let p6 ← p.get 6
    let p7 ← p.get 7
    return p0.zeroExtend 64 ||| (p1.zeroExtend 64 <<< 8) ||| (p2.zeroExtend 64 <<< 16)
      ||| (p3.zeroExtend 64 <<< 24) ||| (p4.zeroExtend 64 <<< 32) ||| (p5.zeroExtend 64 <<< 40)
      ||| (p6.zeroExtend 64 <<< 48) ||| (p7.zeroExtend 64 <<< 56)

/-- detail::read32be, detail/read.hpp:61-68 -/
def read32be (p : Ptr) : M W32 := do
  let p3 ← p.get 3
  let p2 ← p.get 2
  let p1 ← p.get 1
  let p0 ← p.get 0
  return p3.zeroExtend 32 ||| (p2.zeroExtend 32 <<< 8) ||| (p1.zeroExtend 32 <<< 16)
    ||| (p0.zeroExtend 32 <<< 24)

/-- detail::read64be, detail/read.hpp:70-81 -/
def read64be (p : Ptr) : M W64 := do
  let p7 ← p.get 7
  let p6 ← p.get 6
  let p5 ← p.get 5
  let p4 ← p.get 4
  let p3 ← p.get 3
  let p2 ← p.get 2
  let p1 ← p.get 1
  let p0 ← p.get 0
  return p7.zeroExtend 64 ||| (p6.zeroExtend 64 <<< 8) ||| (p5.zeroExtend 64 <<< 16)
    ||| (p4.zeroExtend 64 <<< 24) ||| (p3.zeroExtend 64 <<< 32) ||| (p2.zeroExtend 64 <<< 40)
    ||| (p1.zeroExtend 64 <<< 48) ||| (p0.zeroExtend 64 <<< 56)

/-- static_cast<unsigned char>( ( v >> s ) & 0xFF ), e.g. detail/write.hpp:32-33 -/
def byteAt {k : Nat} (v : BitVec k) (s : Nat) : Byte := ((v >>> s) &&& 0xFF).truncate 8

/-- detail::write16le( d + off, v ), detail/write.hpp:24-35 -/
def write16le (env : Env) (d : List Byte) (off : Nat) (v : BitVec 16) : M (List Byte) :=
  if env.isConstantEvaluated = false ∧ env.native = .little then
    stdMemcpy d off (.mem (objBytes env.native 2 v)) 2
  else do
    let d ← aset d (off + 0) (byteAt v 0)
    aset d (off + 1) (byteAt v 8)

/-- detail::write32le( d + off, v ), detail/write.hpp:37-50 -/
def write32le (env : Env) (d : List Byte) (off : Nat) (v : W32) : M (List Byte) :=
  if env.isConstantEvaluated = false ∧ env.native = .little then
    stdMemcpy d off (.mem (objBytes env.native 4 v)) 4
  else do
    let d ← aset d (off + 0) (byteAt v 0)
    let d ← aset d (off + 1) (byteAt v 8)
    let d ← aset d (off + 2) (byteAt v 16)
    aset d (off + 3) (byteAt v 24)

/-- detail::write64le( d + off, v ), detail/write.hpp:52-69 -/
def write64le (env : Env) (d : List Byte) (off : Nat) (v : W64) : M (List Byte) :=
  if env.isConstantEvaluated = false ∧ env.native = .little then
    stdMemcpy d off (.mem (objBytes env.native 8 v)) 8
  else do
    let d ← aset d (off + 0) (byteAt v 0)
    let d ← aset d (off + 1) (byteAt v 8)
    let d ← aset d (off + 2) (byteAt v 16)
    let d ← aset d (off + 3) (byteAt v 24)
    let d ← aset d (off + 4) (byteAt v 32)
    let d ← aset d (off + 5) (byteAt v 40)
    let d ← aset d (off + 6) (byteAt v 48)
    aset d (off + 7) (byteAt v 56)

/-- detail::write16be( d + off, v ), detail/write.hpp:73-77 -/
def write16be (d : List Byte) (off : Nat) (v : BitVec 16) : M (List Byte) := do
  let d ← aset d (off + 0) (byteAt v 8)
  aset d (off + 1) (byteAt v 0)

/-- detail::write32be( d + off, v ), detail/write.hpp:79-85 -/
def write32be (d : List Byte) (off : Nat) (v : W32) : M (List Byte) := do
  let d ← aset d (off + 0) (byteAt v 24)
  let d ← aset d (off + 1) (byteAt v 16)
  let d ← aset d (off + 2) (byteAt v 8)
  aset d (off + 3) (byteAt v 0)

/-- detail::write64be( d + off, v ), detail/write.hpp:87-97 -/
def write64be (d : List Byte) (off : Nat) (v : W64) : M (List Byte) := do
  let d ← aset d (off + 0) (byteAt v 56)
  let d ← aset d (off + 1) (byteAt v 48)
  let d ← aset d (off + 2) (byteAt v 40)
  let d ← aset d (off + 3) (byteAt v 32)
  let d ← aset d (off + 4) (byteAt v 24)
  let d ← aset d (off + 5) (byteAt v 16)
  let d ← aset d (off + 6) (byteAt v 8)
  aset d (off + 7) (byteAt v 0)

/-- detail::rotl, detail/rot.hpp:18-28 ("k must not be 0": the shift by w - k would be out of range; the
amounts are literals in every caller; where a caller takes the amount from its argument, `rotlM` is used) -/
def rotl {w : Nat} (v : BitVec w) (k : Nat) : BitVec w := (v <<< k) ||| (v >>> (w - k))

/-- detail::rotr, detail/rot.hpp:30-40 -/
def rotr {w : Nat} (v : BitVec w) (k : Nat) : BitVec w := (v >>> k) ||| (v <<< (w - k))

/-- rotl with the precondition of rot.hpp made an outcome, detail/rot.hpp:18-28 -/
def rotlM {w : Nat} (v : BitVec w) (k : Nat) : M (BitVec w) :=
  if 0 < k ∧ k < w then .ok (rotl v k) else .error .badShift

end Hash2

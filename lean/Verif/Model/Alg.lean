import Verif.Model.Md5
import Verif.Model.Sha1
import Verif.Model.Sha2
import Verif.Model.Rip128
import Verif.Model.Rip160
import Verif.Model.Sip64
import Verif.Model.Sip32
import Verif.Model.XX64
import Verif.Model.XX32
import Verif.Model.Fnv
import Verif.Model.Hmac
import Verif.Model.Murmur
import Verif.Model.Spooky
import Verif.Model.Integral
/-
The hash algorithms of the library behind one interface, and sequences of calls on a hash object.
-/
namespace Hash2

/-- A hash algorithm as its users see it, doc/hash2/hashing_bytes.adoc:26-49: constructors, update, result. -/
structure HashAlg where
  State : Type
  /-- result_type -/
  R : Type
  init : Env → M State
  initSeed : Env → W64 → M State
  initBytes : Env → Ptr → Nat → M State
  update : Env → State → Ptr → Nat → M State
  result : Env → State → M (State × R)
  /-- get_integral_result<std::uint64_t>( r ) -/
  integral : Env → R → M W64

/-- a class with a digest as result_type as a hash algorithm; get_integral_result of it is get_integral_result.hpp:168-180 -/
def DigestAlg.toHash (D : DigestAlg) : HashAlg where
  State := D.State
  R := List Byte
  init := D.init
  initSeed := D.initSeed
  initBytes := D.initBytes
  update := D.update
  result := D.result
  integral env r := Integral.getDigest env 8 r

/-- siphash.hpp:25-188 -/
def siphash_64 : HashAlg where
  State := BlockState (Q4 W64)
  R := W64
  init _ := .ok Sip64.init
  initSeed _ seed := .ok (Sip64.initSeed seed)
  initBytes := Sip64.initBytes
  update := Sip64.upd
  result := Sip64.result
  integral _ r := Integral.get 8 8 r

/-- siphash.hpp:190-358 -/
def siphash_32 : HashAlg where
  State := BlockState (Q4 W32)
  R := W32
  init _ := .ok Sip32.init
  initSeed _ seed := .ok (Sip32.initSeed seed)
  initBytes := Sip32.initBytes
  update := Sip32.upd
  result := Sip32.result
  integral _ r := Integral.get 4 8 r

/-- xxhash.hpp:243-467 -/
def xxhash_64 : HashAlg where
  State := BlockState (Q4 W64)
  R := W64
  init _ := .ok XX64.init
  initSeed _ seed := .ok (XX64.initSeed seed)
  initBytes := XX64.initBytes
  update := XX64.upd
  result := XX64.result
  integral _ r := Integral.get 8 8 r

/-- xxhash.hpp:30-241 -/
def xxhash_32 : HashAlg where
  State := BlockState (Q4 W32)
  R := W32
  init _ := .ok XX32.init
  initSeed _ seed := .ok (XX32.initSeed seed)
  initBytes := XX32.initBytes
  update := XX32.upd
  result := XX32.result
  integral _ r := Integral.get 4 8 r

/-- fnv1a.hpp:105-118; the member st_ and the default constructor: fnv1a.hpp:44-50 -/
def fnv1a_32 : HashAlg where
  State := W32
  R := W32
  init _ := .ok Fnv.c32.basis
  initSeed := Fnv.initSeed Fnv.c32
  initBytes _ := Fnv.initBytes Fnv.c32
  update _ := Fnv.update Fnv.c32
  result _ s := .ok (Fnv.result Fnv.c32 s)
  integral _ r := Integral.get 4 8 r

/-- fnv1a.hpp:120-133; the member st_ and the default constructor: fnv1a.hpp:44-50 -/
def fnv1a_64 : HashAlg where
  State := W64
  R := W64
  init _ := .ok Fnv.c64.basis
  initSeed := Fnv.initSeed Fnv.c64
  initBytes _ := Fnv.initBytes Fnv.c64
  update _ := Fnv.update Fnv.c64
  result _ s := .ok (Fnv.result Fnv.c64 s)
  integral _ r := Integral.get 8 8 r

/-- legacy/murmur3.hpp:24-213; the default constructor is the integer constructor with seed 0 (71) -/
def murmur3_32 : HashAlg where
  State := BlockState W32
  R := W32
  init env := .ok (Mur32.initSeed env 0)
  initSeed env seed := .ok (Mur32.initSeed env seed)
  initBytes := Mur32.initBytes
  update := Mur32.upd
  result := Mur32.result
  integral _ r := Integral.get 4 8 r

/-- legacy/murmur3.hpp:215-410 -/
def murmur3_128 : HashAlg where
  State := BlockState Mur128.St
  R := List Byte
  init env := .ok (Mur128.initSeed env 0)
  initSeed env seed := .ok (Mur128.initSeed env seed)
  initBytes := Mur128.initBytes
  update := Mur128.upd
  result := Mur128.result
  integral env r := Integral.getDigest env 8 r

/-- legacy/spooky2.hpp:24-406; the integer constructor is the one with two seeds, the second defaulted to 0 (242) -/
def spooky2_128 : HashAlg where
  State := BlockState Spooky.V
  R := List Byte
  init env := .ok (Spooky.initSeed2 env 0 0)
  initSeed env seed := .ok (Spooky.initSeed2 env seed 0)
  initBytes := Spooky.initBytes
  update := Spooky.upd
  result := Spooky.result
  integral env r := Integral.getDigest env 8 r

/-- The algorithms with a block_size: md5.hpp, sha1.hpp, sha2.hpp, ripemd.hpp and hmac.hpp. hmac<H> has one itself
(hmac.hpp:43), so it nests. -/
inductive DigestName
  | md5_128 | sha1_160 | sha2_256 | sha2_224 | sha2_512 | sha2_384 | sha2_512_224 | sha2_512_256
  | ripemd_128 | ripemd_160
  | hmac (H : DigestName)
  deriving DecidableEq, Repr

/-- the classes: md5.hpp:30, sha1.hpp:29, sha2.hpp:335, 411, 487, 563, 639, 717, ripemd.hpp:33, 382, hmac.hpp:38 -/
def DigestName.impl : DigestName → DigestAlg
  | .md5_128 => Md5.md5_128
  | .sha1_160 => Sha1.sha1_160
  | .sha2_256 => Sha2.sha2_256
  | .sha2_224 => Sha2.sha2_224
  | .sha2_512 => Sha2.sha2_512
  | .sha2_384 => Sha2.sha2_384
  | .sha2_512_224 => Sha2.sha2_512_224
  | .sha2_512_256 => Sha2.sha2_512_256
  | .ripemd_128 => Rip128.ripemd_128
  | .ripemd_160 => Rip160.ripemd_160
  | .hmac H => Hmac.hmac H.impl

/-- All algorithms of include/boost/hash2: those of `DigestName`, siphash.hpp:25, 190, xxhash.hpp:30, 243, fnv1a.hpp:105-133,
legacy/murmur3.hpp:24, 215, legacy/spooky2.hpp:24 -/
inductive AlgName
  | digest (d : DigestName)
  | siphash_64 | siphash_32 | xxhash_64 | xxhash_32 | fnv1a_32 | fnv1a_64
  | murmur3_32 | murmur3_128 | spooky2_128
  deriving DecidableEq, Repr

/-- the classes, see `AlgName`: siphash.hpp:25-358, xxhash.hpp:30-467, fnv1a.hpp:105-133, legacy/murmur3.hpp:24-410,
legacy/spooky2.hpp:24-406 -/
def AlgName.impl : AlgName → HashAlg
  | .digest d => d.impl.toHash
  | .siphash_64 => Hash2.siphash_64
  | .siphash_32 => Hash2.siphash_32
  | .xxhash_64 => Hash2.xxhash_64
  | .xxhash_32 => Hash2.xxhash_32
  | .fnv1a_32 => Hash2.fnv1a_32
  | .fnv1a_64 => Hash2.fnv1a_64
  | .murmur3_32 => Hash2.murmur3_32
  | .murmur3_128 => Hash2.murmur3_128
  | .spooky2_128 => Hash2.spooky2_128

/-- One call of a public constructor, doc/hash2/hashing_bytes.adoc:38-40 -/
inductive Ctor
  | default
  | seed (s : W64)
  | bytes (p : Ptr) (n : Nat)

/-- the call of the constructor, doc/hash2/hashing_bytes.adoc:38-40 -/
def HashAlg.construct (A : HashAlg) (env : Env) : Ctor → M A.State
  | .default => A.init env
  | .seed s => A.initSeed env s
  | .bytes p n => A.initBytes env p n

/-- One call of a public member function, doc/hash2/hashing_bytes.adoc:45-47 -/
inductive Op
  | update (p : Ptr) (n : Nat)
  | result

/-- A sequence of calls on one object (doc/hash2/hashing_bytes.adoc:45-47); the results returned, in order. Not code of /repo: what its user
writes. -/
def HashAlg.run (A : HashAlg) (env : Env) : A.State → List Op → M (A.State × List A.R)
  | s, [] => .ok (s, [])
  | s, .update p n :: ops => do
    let s ← A.update env s p n
    A.run env s ops
  | s, .result :: ops => do
    let (s, r) ← A.result env s
    let (s, rs) ← A.run env s ops
    return (s, r :: rs)

/-- A whole program: construct, call, return the results. Not code of /repo: what its user writes, e.g. test/md5.cpp:14-21. -/
def HashAlg.exec (A : HashAlg) (env : Env) (c : Ctor) (ops : List Op) : M (List A.R) := do
  let s ← A.construct env c
  let (_, rs) ← A.run env s ops
  return rs

end Hash2

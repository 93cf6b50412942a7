import Verif.Model.HashAppend
import Verif.Model.DigestOps
/-
Model of the programs in /repo/example (also doc/hash2/examples.adoc): function objects for unordered containers, checksums of
files, a 128 bit result from a 64 bit algorithm.
-/
namespace Hash2

/-- sizeof( result_type ): digest<N> (md5.hpp, sha1.hpp, sha2.hpp, ripemd.hpp), of hmac<H> that of H (hmac.hpp:42),
std::uint32_t, std::uint64_t, std::array<unsigned char, 16> -/
def DigestName.resultSize : DigestName → Nat
  | .md5_128 => 16
  | .sha1_160 => 20
  | .sha2_256 => 32
  | .sha2_224 => 28
  | .sha2_512 => 64
  | .sha2_384 => 48
  | .sha2_512_224 => 28
  | .sha2_512_256 => 32
  | .ripemd_128 => 16
  | .ripemd_160 => 20
  | .hmac H => H.resultSize

/-- sizeof( result_type ), siphash.hpp:73, 238, xxhash.hpp:93, 314, fnv1a.hpp:48, legacy/murmur3.hpp:68, 267, legacy/spooky2.hpp:239 -/
def AlgName.resultSize : AlgName → Nat
  | .digest d => d.resultSize
  | .siphash_64 | .xxhash_64 | .fnv1a_64 => 8
  | .siphash_32 | .xxhash_32 | .fnv1a_32 | .murmur3_32 => 4
  | .murmur3_128 | .spooky2_128 => 16

/-- get_integral_result<T>( r ) for an unsigned T of ts bytes, get_integral_result.hpp:132-180: the overload for integral result
types, the overload for array-like ones -/
def AlgName.integralAs (env : Env) (ts : Nat) : (a : AlgName) → a.impl.R → M (BitVec (8 * ts))
  | .digest _, r => Integral.getDigest env ts r
  | .siphash_64, r => Integral.get 8 ts r
  | .siphash_32, r => Integral.get 4 ts r
  | .xxhash_64, r => Integral.get 8 ts r
  | .xxhash_32, r => Integral.get 4 ts r
  | .fnv1a_32, r => Integral.get 4 ts r
  | .fnv1a_64, r => Integral.get 8 ts r
  | .murmur3_32, r => Integral.get 4 ts r
  | .murmur3_128, r => Integral.getDigest env ts r
  | .spooky2_128, r => Integral.getDigest env ts r

namespace Hasher

/-- `std::size_t operator()( T const& v ) const` of example/hash_with_any_seed.cpp:31-36, hash_with_byte_seed.cpp:23-28,
hash_32_64.cpp:41-46: the member h_ is copied, the key appended to the copy, the result converted to std::size_t. The member is
not changed. sizeof( std::size_t ) = sizeof( std::uintptr_t ). -/
def call (a : AlgName) (env : Env) (h_ : a.impl.State) (t : Ty) (v : t.Val) : M (BitVec (8 * env.ptrSz.n)) := do
  let h ← hashAppend a.impl env default_flavor t v h_
  let (_, r) ← a.impl.result env h
  a.integralAs env env.ptrSz.n r

/-- a hash function object constructed by c (the constructors pass their arguments on to that of h_), and calls of it in order
with the keys vs, example/hash_with_any_seed.cpp:17-36 -/
def use (a : AlgName) (env : Env) (c : Ctor) (t : Ty) (vs : List t.Val) : M (List (BitVec (8 * env.ptrSz.n))) := do
  let h_ ← a.impl.construct env c
  vs.mapM (call a env h_ t)

/-- the function objects that construct the hash object in each call, from nothing or from a stored seed,
example/hash_without_seed.cpp:15-20 and hash_with_uint64_seed.cpp:23-28 -/
def useFresh (a : AlgName) (env : Env) (c : Ctor) (t : Ty) (vs : List t.Val) : M (List (BitVec (8 * env.ptrSz.n))) :=
  vs.mapM fun v => do
    let h ← a.impl.construct env c
    call a env h t v

/-- hash<T, H1, H2>::hash_type, example/hash_32_64.cpp:19-21 -/
def hashType (env : Env) (h1 h2 : AlgName) : AlgName := if h1.resultSize = env.ptrSz.n then h1 else h2

end Hasher

namespace Sum

/-- what std::fread( buffer, 1, N, f ) does, example/hash2sum.cpp:26: it stores up to N bytes and returns their number; 0 at the end of the
file -/
abbrev Reads := List (List Byte)

/-- the loop of hash2sum, example/hash2sum.cpp:24-37 (and md5sum.cpp:20-33), when no read error occurs. `buffer` has N = 4096 chars; more
bytes than fit in it are an access out of bounds. After the last read in the list, fread returns 0. -/
def loop (D : DigestAlg) (env : Env) (s : D.State) (buffer : List Byte) : Reads → M D.State
  | [] => .ok s
  | bs :: reads =>
    if buffer.length < bs.length then .error .oob
    else if bs.length = 0 then .ok s
    else do
      let buffer := bs ++ buffer.drop bs.length
      let s ← D.update env s (.mem buffer) bs.length
      loop D env s buffer reads

/-- hash2sum<Hash>( f, fn ), example/hash2sum.cpp:17-42, without the printing: the string `digest`. -/
def hash2sum (d : DigestName) (env : Env) (reads : Reads) : M (List Byte) := do
  let s ← d.impl.init env
  let s ← loop d.impl env s ((List.range 4096).map env.garbage) reads
  let (_, r) ← d.impl.result env s
  Digest.toString env d.resultSize r

/-- `hashes`, example/hash2sum.cpp:62-75 -/
def hashes : List DigestName :=
  [.md5_128, .sha1_160, .sha2_256, .sha2_224, .sha2_512, .sha2_384, .sha2_512_256, .sha2_512_224, .ripemd_160, .ripemd_128]
/-- `names`, example/hash2sum.cpp:77-90 -/
def names : List String :=
  ["md5_128", "sha1_160", "sha2_256", "sha2_224", "sha2_512", "sha2_384", "sha2_512_256", "sha2_512_224", "ripemd_160", "ripemd_128"]

/-- main(), example/hash2sum.cpp:92-130: for every I with `hash == names[I]`, the sums of all files. None stands for the message
about an unknown name and the return value 1. -/
def main (env : Env) (hash : String) (files : List Reads) : M (Option (List (List Byte))) := do
  let outs ← ((List.range hashes.length).filter fun i => names[i]? == some hash).mapM fun i =>
    match hashes[i]? with
    | some d => files.mapM (hash2sum d env)
    | none => .error .oob
  return if outs.isEmpty then none else some outs.flatten

end Sum

namespace XXH128

/-- result_type xxhash_128::result(), example/xxh128_from_xxh64.cpp:18-30; boost::endian::store_little_u64 stores the bytes of the
number, least significant first -/
def result (env : Env) (s : xxhash_64.State) : M (xxhash_64.State × List Byte) := do
  let (s, r1) ← xxhash_64.result env s
  let (s, r2) ← xxhash_64.result env s
  let r := Digest.zero 16
  let r := (natLE 8 (BitVec.toNat (w := 64) r1)) ++ r.drop 8
  let r := r.take 8 ++ natLE 8 (BitVec.toNat (w := 64) r2)
  return (s, r)

/-- class xxhash_128, example/xxh128_from_xxh64.cpp:9-31: constructors and update are those of xxhash_64 -/
def xxhash_128 : HashAlg where
  State := xxhash_64.State
  R := List Byte
  init := xxhash_64.init
  initSeed := xxhash_64.initSeed
  initBytes := xxhash_64.initBytes
  update := xxhash_64.update
  result := result
  integral env r := Integral.getDigest env 8 r

end XXH128
end Hash2

import Verif.Spec.Programs
/-
The hash of an object in closed form (C62): which published function of bytes each class computes under which constructor, and the
64 bit number that stands for a result.
-/
namespace Hash2
open Spec

/-- the function of the standard; hmac<H> without key is HMAC with the empty key -/
def DigestName.function : DigestName → List Byte → List Byte
  | .md5_128 => MD5.md5.hash
  | .sha1_160 => SHA1.sha1.hash
  | .sha2_256 => SHA2.sha256.hash
  | .sha2_224 => SHA2.sha224.hash
  | .sha2_512 => SHA2.sha512.hash
  | .sha2_384 => SHA2.sha384.hash
  | .sha2_512_224 => SHA2.sha512_224.hash
  | .sha2_512_256 => SHA2.sha512_256.hash
  | .ripemd_128 => RIPEMD.ripemd128.hash
  | .ripemd_160 => RIPEMD.ripemd160.hash
  | .hmac H => Spec.hmac H.function H.B []

/-- n bytes are not too many: 2^61 bytes are, for the SHA-512 family (C07); each hmac adds two blocks at most -/
def DigestName.Fits : DigestName → Nat → Prop
  | .sha2_512, n | .sha2_384, n | .sha2_512_224, n | .sha2_512_256, n => n < 2 ^ 61
  | .hmac H, n => H.Fits (n + 256)
  | _, _ => True

/-- a result as a 64 bit number: the first 8 bytes of a digest, least significant first; a 64 bit number as it is; a 32 bit number
multiplied with 7FFFFFFF7FFFFFFF -/
def AlgName.number64 : (a : AlgName) → a.impl.R → W64
  | .digest _, (r : List Byte) => leWord 64 (r.take 8)
  | .siphash_64, r => r
  | .siphash_32, (r : W32) => BitVec.ofNat 64 (r.toNat * 0x7FFFFFFF7FFFFFFF)
  | .xxhash_64, r => r
  | .xxhash_32, (r : W32) => BitVec.ofNat 64 (r.toNat * 0x7FFFFFFF7FFFFFFF)
  | .fnv1a_32, (r : W32) => BitVec.ofNat 64 (r.toNat * 0x7FFFFFFF7FFFFFFF)
  | .fnv1a_64, r => r
  | .murmur3_32, (r : W32) => BitVec.ofNat 64 (r.toNat * 0x7FFFFFFF7FFFFFFF)
  | .murmur3_128, (r : List Byte) => leWord 64 (r.take 8)
  | .spooky2_128, (r : List Byte) => leWord 64 (r.take 8)

/-- `Computes sz a c N F`: the class a, constructed by c, is to compute the function F of messages of N bytes at most, std::size_t
having sz bits -/
inductive Computes (sz : Nat) : (a : AlgName) → Ctor → Nat → (List Byte → a.impl.R) → Prop
  | digest (d : DigestName) (N : Nat) : d.Fits N → Computes sz (.digest d) .default N d.function
  | hmac (H : DigestName) (key : List Byte) (N : Nat) : H.Fits key.length → H.Fits (N + 256) →
    Computes sz (.digest (.hmac H)) (.bytes (.mem key) key.length) N (Spec.hmac H.function H.B key)
  | siphash_64 (N : Nat) : Computes sz .siphash_64 .default N (SIP.hash SIP.sip64 0 0)
  | siphash_64_seed (k : W64) (N : Nat) : Computes sz .siphash_64 (.seed k) N (SIP.hash SIP.sip64 k 0)
  | siphash_64_key (k0 k1 : List Byte) (N : Nat) : k0.length = 8 → k1.length = 8 →
    Computes sz .siphash_64 (.bytes (.mem (k0 ++ k1)) 16) N (SIP.hash SIP.sip64 (leWord 64 k0) (leWord 64 k1))
  | siphash_32 (N : Nat) : Computes sz .siphash_32 .default N (SIP.hash SIP.sip32 0 0)
  | siphash_32_seed (k : W64) (N : Nat) : Computes sz .siphash_32 (.seed k) N
    (SIP.hash SIP.sip32 (BitVec.ofNat 32 k.toNat) (BitVec.ofNat 32 (k.toNat / 2 ^ 32)))
  | siphash_32_key (k0 k1 : List Byte) (N : Nat) : k0.length = 4 → k1.length = 4 →
    Computes sz .siphash_32 (.bytes (.mem (k0 ++ k1)) 8) N (SIP.hash SIP.sip32 (leWord 32 k0) (leWord 32 k1))
  | xxhash_64 (N : Nat) : N < 2 ^ 64 → Computes sz .xxhash_64 .default N (XXH64.hash 0)
  | xxhash_64_seed (k : W64) (N : Nat) : N < 2 ^ 64 → Computes sz .xxhash_64 (.seed k) N (XXH64.hash k)
  | xxhash_32 (N : Nat) : N < 2 ^ sz → Computes sz .xxhash_32 .default N (XXH32.hash 0)
  | xxhash_32_seed (k : W64) (N : Nat) : k.toNat < 2 ^ 32 → N < 2 ^ sz →
    Computes sz .xxhash_32 (.seed k) N (XXH32.hash (BitVec.ofNat 32 k.toNat))
  | fnv1a_32 (N : Nat) : Computes sz .fnv1a_32 .default N (FNV.hash FNV.prime32)
  | fnv1a_64 (N : Nat) : Computes sz .fnv1a_64 .default N (FNV.hash FNV.prime64)
  | murmur3_32 (N : Nat) : N < 2 ^ sz → Computes sz .murmur3_32 .default N (MURMUR3.x86_32.hash 0)
  | murmur3_32_seed (k : W64) (N : Nat) : k.toNat < 2 ^ 32 → N < 2 ^ sz →
    Computes sz .murmur3_32 (.seed k) N (MURMUR3.x86_32.hash (BitVec.ofNat 32 k.toNat))
  | murmur3_128 (N : Nat) : N < 2 ^ sz → Computes sz .murmur3_128 .default N (MURMUR3.x64_128.hash 0 0)
  | murmur3_128_seed (k : W64) (N : Nat) : N < 2 ^ sz → Computes sz .murmur3_128 (.seed k) N (MURMUR3.x64_128.hash k k)
  | spooky2_128 (N : Nat) : N + 192 < 2 ^ sz →
    Computes sz .spooky2_128 .default N (fun m => SPOOKY.outBytes (SPOOKY.hash128 0 0 m))
  | spooky2_128_seed (k : W64) (N : Nat) : N + 192 < 2 ^ sz →
    Computes sz .spooky2_128 (.seed k) N (fun m => SPOOKY.outBytes (SPOOKY.hash128 k 0 m))

/-- **The hash of an object**: the function F of the object's message. Where the object holds an unordered container, its message
contains the sum of the hashes of the elements, by the same function. -/
def objectHash (env : Env) (f : Flavor) (a : AlgName) (F : List Byte → a.impl.R) (t : Ty) (v : t.Val) : a.impl.R :=
  F (message (layout env f) (fun bs => a.number64 (F bs)) t v [])

end Hash2

import Verif.Spec.Calls
import Verif.Spec.Md5
import Verif.Spec.Sha1
import Verif.Spec.Sha2
import Verif.Spec.Ripemd
import Verif.Spec.Sip
import Verif.Spec.XX
import Verif.Spec.Fnv
import Verif.Spec.Hmac
import Verif.Spec.Murmur
import Verif.Spec.Spooky
/-
Which abstract hash object each class of the library is to be, and the conditions under which statements about histories of
calls are made.
-/
namespace Hash2
open Spec

/-- block sizes: RFC 2104 calls it B -/
def DigestName.B : DigestName → Nat
  | .md5_128 | .sha1_160 | .sha2_256 | .sha2_224 | .ripemd_128 | .ripemd_160 => 64
  | .sha2_512 | .sha2_384 | .sha2_512_224 | .sha2_512_256 => 128
  | .hmac H => H.B

/-- the standard's function (lengths modulo 2^64 bits in the SHA-512 family) -/
def DigestName.md : DigestName → Option (Σ σ : Type, Md σ)
  | .md5_128 => some ⟨_, MD5.md5⟩
  | .sha1_160 => some ⟨_, SHA1.sha1⟩
  | .sha2_256 => some ⟨_, SHA2.sha256⟩
  | .sha2_224 => some ⟨_, SHA2.sha224⟩
  | .sha2_512 => some ⟨_, SHA2.sha512.mod64⟩
  | .sha2_384 => some ⟨_, SHA2.sha384.mod64⟩
  | .sha2_512_224 => some ⟨_, SHA2.sha512_224.mod64⟩
  | .sha2_512_256 => some ⟨_, SHA2.sha512_256.mod64⟩
  | .ripemd_128 => some ⟨_, RIPEMD.ripemd128⟩
  | .ripemd_160 => some ⟨_, RIPEMD.ripemd160⟩
  | .hmac _ => none

/-- the abstract hash object -/
def DigestName.machine : DigestName → Machine (List Byte)
  | .md5_128 => MD5.md5.machine
  | .sha1_160 => SHA1.sha1.machine
  | .sha2_256 => SHA2.sha256.machine
  | .sha2_224 => SHA2.sha224.machine
  | .sha2_512 => SHA2.sha512.mod64.machine
  | .sha2_384 => SHA2.sha384.mod64.machine
  | .sha2_512_224 => SHA2.sha512_224.mod64.machine
  | .sha2_512_256 => SHA2.sha512_256.mod64.machine
  | .ripemd_128 => RIPEMD.ripemd128.machine
  | .ripemd_160 => RIPEMD.ripemd160.machine
  | .hmac H => H.machine.hmac H.B

/-- the abstract hash object, on a platform where std::size_t has `sz` bits -/
def AlgName.machine (sz : Nat) : (a : AlgName) → Machine a.impl.R
  | .digest d => d.machine
  | .siphash_64 => SIP.machine64
  | .siphash_32 => SIP.machine32
  | .xxhash_64 => XXH64.machine
  | .xxhash_32 => XXH32.machine sz
  | .fnv1a_32 => FNV.machine FNV.prime32
  | .fnv1a_64 => FNV.machine FNV.prime64
  | .murmur3_32 => MURMUR3.x86_32.machine sz
  | .murmur3_128 => MURMUR3.x64_128.machine sz
  | .spooky2_128 => SPOOKY.machine sz

/-- the bytes p[0] .. p[n-1] -/
def Ptr.bytes : Ptr → Nat → List Byte
  | .null, _ => []
  | .mem bs, n => bs.take n

/-- n bytes are readable at p, or n is 0 -/
def Ptr.Readable : Ptr → Nat → Prop
  | .null, n => n = 0
  | .mem bs, n => n ≤ bs.length

instance (p : Ptr) (n : Nat) : Decidable (p.Readable n) := by
  cases p <;> unfold Ptr.Readable <;> infer_instance

/-- a valid constructor call -/
def Ctor.Valid : Ctor → Prop
  | .bytes p n => p.Readable n
  | _ => True

/-- the initial state of the abstract object -/
def Ctor.start {R : Type} (M : Machine R) : Ctor → M.S
  | .default => M.init
  | .seed s => M.seed s
  | .bytes p n => M.bytes (p.bytes n)

/-- the hash is one of the six SHA-2, or an hmac over one -/
def DigestName.isSha2 : DigestName → Bool
  | .sha2_256 | .sha2_224 | .sha2_512 | .sha2_384 | .sha2_512_224 | .sha2_512_256 => true
  | .hmac H => H.isSha2
  | _ => false

/-- update( nullptr, 0 ) may be called: not so for SHA-2 where detail::memcpy is std::memcpy, as at run time (sha2.hpp:52, see `sha2_null_update_undefined`) -/
def AlgName.NullOk (env : Env) : AlgName → Prop
  | .digest d => d.isSha2 = false ∨ env.loops = true
  | _ => True

/-- what a stream adds to a byte counter at most: every byte, and every result() up to a whole block, the largest block being
that of spooky2_128, 192 -/
def Spec.Tok.cost : Tok → Nat
  | .data _ => 1
  | .fin => 192

def cost (ts : List Tok) : Nat := (ts.map Tok.cost).sum

def Ctor.cost : Ctor → Nat
  | .bytes _ n => n + 192
  | _ => 0

/-- The byte counter does not wrap where it must not: only in spooky2_128, whose block size does not divide 2^(bits of size_t) -/
def AlgName.Room (env : Env) (c : Ctor) (ts : List Tok) : AlgName → Prop
  | .spooky2_128 => c.cost + Hash2.cost ts < 2 ^ env.sizeBits
  | _ => True

end Hash2

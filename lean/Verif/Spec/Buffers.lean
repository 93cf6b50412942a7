import Verif.Spec.Reach
/-
Which parts of an object hold bytes it was given (the data members buffer_), and what it means that none is left there.
-/
namespace Hash2
open Spec

/-- the buffers of an object with a block size; an hmac consists of two objects -/
def DigestName.buffers : (d : DigestName) → d.impl.State → List (List Byte)
  | .md5_128, s => [BlockState.buf (σ := Q4 W32) s]
  | .sha1_160, s => [BlockState.buf (σ := Q5 W32) s]
  | .sha2_256, s => [BlockState.buf (σ := Q8 W32) s]
  | .sha2_224, s => [BlockState.buf (σ := Q8 W32) s]
  | .sha2_512, s => [BlockState.buf (σ := Q8 W64) s]
  | .sha2_384, s => [BlockState.buf (σ := Q8 W64) s]
  | .sha2_512_224, s => [BlockState.buf (σ := Q8 W64) s]
  | .sha2_512_256, s => [BlockState.buf (σ := Q8 W64) s]
  | .ripemd_128, s => [BlockState.buf (σ := Q4 W32) s]
  | .ripemd_160, s => [BlockState.buf (σ := Q5 W32) s]
  | .hmac H, s => H.buffers (Hmac.State.outer s) ++ H.buffers (Hmac.State.inner s)

/-- the buffers of an object -/
def AlgName.buffers : (a : AlgName) → a.impl.State → List (List Byte)
  | .digest d, s => d.buffers s
  | .siphash_64, s => [BlockState.buf (σ := Q4 W64) s]
  | .siphash_32, s => [BlockState.buf (σ := Q4 W32) s]
  | .xxhash_64, s => [BlockState.buf (σ := Q4 W64) s]
  | .xxhash_32, s => [BlockState.buf (σ := Q4 W32) s]
  | .fnv1a_32, _ => []
  | .fnv1a_64, _ => []
  | .murmur3_32, s => [BlockState.buf (σ := W32) s]
  | .murmur3_128, s => [BlockState.buf (σ := Mur128.St) s]
  | .spooky2_128, s => [BlockState.buf (σ := Spooky.V) s]

/-- only zeros -/
def AllZero (bs : List Byte) : Prop := ∀ b ∈ bs, b = 0

end Hash2

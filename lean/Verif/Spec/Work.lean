import Verif.Spec.Reach
import Verif.Model.Examples
/-
Vocabulary of the statements about work: how often, and on which blocks, the block function of an algorithm is called. The model of the
code is not changed for this; it is run with a block function that, besides doing what it does, writes down the block it is applied to.
(A call whose outcome the code throws away would not be seen; in the code modelled every call's outcome becomes the new chaining value.)
-/
namespace Hash2
open Spec

/-- the same class, whose block function also writes down the block it is applied to -/
def BlockCfg.observed {σ : Type} (c : BlockCfg σ) : BlockCfg (σ × List (List Byte)) where
  N := c.N
  ctrBits := c.ctrBits
  early := c.early
  clear := c.clear
  whileLoop := c.whileLoop
  transform p s := do
    let st ← c.transform p s.1
    return (st, s.2 ++ [p.bytes c.N])

/-- the object, nothing having been written down yet -/
def BlockState.watch {σ : Type} (s : BlockState σ) : BlockState (σ × List (List Byte)) := ⟨(s.st, []), s.buf, s.m, s.n⟩

/-- the object, and what has been written down -/
def BlockState.seen {σ : Type} (s : BlockState (σ × List (List Byte))) : BlockState σ × List (List Byte) :=
  (⟨s.st.1, s.buf, s.m, s.n⟩, s.st.2)

/-- update( p, n ): the object afterwards, and the blocks to which the block function has been applied, in order -/
def updateObserved {σ : Type} (env : Env) (c : BlockCfg σ) (s : BlockState σ) (p : Ptr) (n : Nat) :
    M (BlockState σ × List (List Byte)) := do
  let s ← update env c.observed s.watch p n
  return s.seen

/-- result(): the object afterwards, the result, and the blocks to which the block function has been applied -/
def MdCfg.resultObserved {σ : Type} (D : MdCfg σ) (env : Env) (s : BlockState σ) :
    M (BlockState σ × List Byte × List (List Byte)) := do
  let s ← mdPad env (D.cfg env).observed D.pad s.watch
  let d ← D.out env s.st.1
  return (s.seen.1, d, s.seen.2)

/-- the same for any algorithm with a block size; an hmac calls its two objects (hmac.hpp:123-135) -/
def DigestName.updateObserved (env : Env) : (d : DigestName) → d.impl.State → Ptr → Nat → M (d.impl.State × List (List Byte))
  | .md5_128, s, p, n => Hash2.updateObserved env (Md5.md.cfg env) s p n
  | .sha1_160, s, p, n => Hash2.updateObserved env (Sha1.md.cfg env) s p n
  | .sha2_256, s, p, n => Hash2.updateObserved env (Sha2.sha256Md.cfg env) s p n
  | .sha2_224, s, p, n => Hash2.updateObserved env (Sha2.sha224Md.cfg env) s p n
  | .sha2_512, s, p, n => Hash2.updateObserved env (Sha2.sha512Md.cfg env) s p n
  | .sha2_384, s, p, n => Hash2.updateObserved env (Sha2.sha384Md.cfg env) s p n
  | .sha2_512_224, s, p, n => Hash2.updateObserved env (Sha2.sha512_224Md.cfg env) s p n
  | .sha2_512_256, s, p, n => Hash2.updateObserved env (Sha2.sha512_256Md.cfg env) s p n
  | .ripemd_128, s, p, n => Hash2.updateObserved env (Rip128.md.cfg env) s p n
  | .ripemd_160, s, p, n => Hash2.updateObserved env (Rip160.md.cfg env) s p n
  | .hmac H, s, p, n => do
    let (inner, l) ← H.updateObserved env (Hmac.State.inner s) p n
    return (⟨Hmac.State.outer s, inner⟩, l)

def DigestName.resultObserved (env : Env) : (d : DigestName) → d.impl.State → M (d.impl.State × List Byte × List (List Byte))
  | .md5_128, s => Md5.md.resultObserved env s
  | .sha1_160, s => Sha1.md.resultObserved env s
  | .sha2_256, s => Sha2.sha256Md.resultObserved env s
  | .sha2_224, s => Sha2.sha224Md.resultObserved env s
  | .sha2_512, s => Sha2.sha512Md.resultObserved env s
  | .sha2_384, s => Sha2.sha384Md.resultObserved env s
  | .sha2_512_224, s => Sha2.sha512_224Md.resultObserved env s
  | .sha2_512_256, s => Sha2.sha512_256Md.resultObserved env s
  | .ripemd_128, s => Rip128.md.resultObserved env s
  | .ripemd_160, s => Rip160.md.resultObserved env s
  | .hmac H, s => do
    let (inner, r, l) ← H.resultObserved env (Hmac.State.inner s)
    let (outer, l') ← H.updateObserved env (Hmac.State.outer s) (.mem r) r.length
    let (outer, d, l'') ← H.resultObserved env outer
    return (⟨outer, inner⟩, d, l ++ l' ++ l'')

def AlgName.updateObserved (env : Env) : (a : AlgName) → a.impl.State → Ptr → Nat → M (a.impl.State × List (List Byte))
  | .digest d, s, p, n => d.updateObserved env s p n
  | .siphash_64, s, p, n => Hash2.updateObserved env (Sip64.cfg env) s p n
  | .siphash_32, s, p, n => Hash2.updateObserved env (Sip32.cfg env) s p n
  | .xxhash_64, s, p, n => Hash2.updateObserved env (XX64.cfg env) s p n
  | .xxhash_32, s, p, n => Hash2.updateObserved env (XX32.cfg env) s p n
  | .murmur3_32, s, p, n => Hash2.updateObserved env (Mur32.cfg env) s p n
  | .murmur3_128, s, p, n => Hash2.updateObserved env (Mur128.cfg env) s p n
  | .spooky2_128, s, p, n => Hash2.updateObserved env (Spooky.cfg env) s p n
  | .fnv1a_32, s, p, n => do return (← AlgName.fnv1a_32.impl.update env s p n, [])
  | .fnv1a_64, s, p, n => do return (← AlgName.fnv1a_64.impl.update env s p n, [])

/-- block sizes; FNV-1a has none -/
def AlgName.blockBytes : AlgName → Option Nat
  | .digest d => some d.B
  | .siphash_64 => some 8
  | .siphash_32 => some 4
  | .xxhash_64 => some 32
  | .xxhash_32 => some 16
  | .murmur3_32 => some 4
  | .murmur3_128 => some 16
  | .spooky2_128 => some 192
  | .fnv1a_32 | .fnv1a_64 => none

/-- a sequence of calls: the object afterwards, and how often the block function has been called -/
def DigestName.runCounted (env : Env) (d : DigestName) : d.impl.State → List Op → M (d.impl.State × Nat)
  | s, [] => .ok (s, 0)
  | s, .update p n :: ops => do
    let (s, l) ← d.updateObserved env s p n
    let (s, k) ← d.runCounted env s ops
    return (s, l.length + k)
  | s, .result :: ops => do
    let (s, _, l) ← d.resultObserved env s
    let (s, k) ← d.runCounted env s ops
    return (s, l.length + k)

/-- the bytes passed since the last request for the result (or the beginning) -/
def Spec.bytesSince (ts : List Tok) : List Byte :=
  ts.foldl (fun w t => match t with | .data b => w ++ [b] | .fin => []) []

/-- what result() costs after k bytes: the byte 0x80 and the length (8 bytes, 16 where blocks have 128) end in the block that is
incomplete, or in the next; HMAC asks two objects, the second of which has been given the result of the first -/
def DigestName.finishCost : DigestName → Nat → Nat
  | .hmac H, k => H.finishCost k + H.finishCost H.resultSize
  | d, k => if k % d.B + 1 + d.B / 8 ≤ d.B then 1 else 2

/-- what a stream costs, k bytes having been passed since the last request for the result: 1 for each block completed, `finishCost`
for each request -/
def DigestName.work (d : DigestName) : Nat → List Tok → Nat
  | _, [] => 0
  | k, .data _ :: ts => (if (k + 1) % d.B = 0 then 1 else 0) + d.work (k + 1) ts
  | k, .fin :: ts => d.finishCost k + d.work 0 ts

end Hash2

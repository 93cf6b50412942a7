import Verif.Model.Digest
/-
Model of include/boost/hash2/legacy/murmur3.hpp. The constructors leave buffer_ uninitialised; the model fills it with
`Env.garbage`. memcpy/memset in this file are std::, also in the model of update (there is no constexpr here), so the model
is only claimed for `constEval = false`; the shared engine happens to cover the other case as well.
-/
namespace Hash2

/-- an uninitialised array of k bytes: buffer_, legacy/murmur3.hpp:30, 221, legacy/spooky2.hpp:36 -/
def uninit (env : Env) (k : Nat) : List Byte := (List.range k).map env.garbage

namespace Mur32

/-- murmur3.hpp:37 -/
def c1 : W32 := 0xcc9e2d51#32
/-- murmur3.hpp:38 -/
def c2 : W32 := 0x1b873593#32

/-- static void mix( std::uint32_t & h, std::uint32_t k ), murmur3.hpp:42-51 -/
def mix (h k : W32) : W32 :=
  let k := k * c1
  let k := rotl k 15
  let k := k * c2
  let h := h ^^^ k
  let h := rotl h 13
  let h := h * 5 + 0xe6546b64#32
  h

/-- body of the loop of update_(), murmur3.hpp:57-61 -/
def block (env : Env) (p : Ptr) (h : W32) : M W32 := do
  let k ← read32le env p
  return mix h k

/-- update(), murmur3.hpp:108-161 -/
def cfg (env : Env) : BlockCfg W32 :=
  { N := 4, ctrBits := env.sizeBits, early := true, clear := false, whileLoop := false, transform := block env }

/-- void update( void const * pv, std::size_t n ), murmur3.hpp:108-161 -/
def upd (env : Env) (s : BlockState W32) (p : Ptr) (n : Nat) : M (BlockState W32) := update env (cfg env) s p n

/-- explicit murmur3_32( std::uint64_t seed = 0 ), murmur3.hpp:71-81 -/
def initSeed (env : Env) (seed : W64) : BlockState W32 :=
  let h : W32 := seed.truncate 32
  let k : W32 := (seed >>> 32).truncate 32
  { st := if k ≠ 0 then mix h k else h, buf := uninit env 4, m := 0, n := 0 }

/-- the switch of result(), murmur3.hpp:170-188 -/
def tailWord (s : BlockState W32) : M W32 :=
  match s.m with
  | 1 => do
    let b0 ← aget s.buf 0
    return b0.zeroExtend 32
  | 2 => do
    let b0 ← aget s.buf 0
    let b1 ← aget s.buf 1
    return b0.zeroExtend 32 + (b1.zeroExtend 32 <<< 8)
  | 3 => do
    let b0 ← aget s.buf 0
    let b1 ← aget s.buf 1
    let b2 ← aget s.buf 2
    return b0.zeroExtend 32 + (b1.zeroExtend 32 <<< 8) + (b2.zeroExtend 32 <<< 16)
  | _ => return 0

/-- std::uint32_t result(), murmur3.hpp:163-212 -/
def result (env : Env) (s : BlockState W32) : M (BlockState W32 × W32) := do
  check (s.m = s.n % 4)
  let k ← tailWord s
  let k := k * c1
  let k := rotl k 15
  let k := k * c2
  let h := s.st
  let h := h ^^^ k
  let h := h ^^^ BitVec.ofNat 32 s.n
  let h := h ^^^ (h >>> 16)
  let h := h * 0x85ebca6b#32
  let h := h ^^^ (h >>> 13)
  let h := h * 0xc2b2ae35#32
  let h := h ^^^ (h >>> 16)
  let n := (s.n + (← csub 4 s.m)) % 2 ^ env.sizeBits
  let buf ← memset env s.buf 0 0 4
  return ({ st := s.st, buf := buf, m := 0, n := n }, h)

/-- murmur3_32( unsigned char const * p, std::size_t n ), murmur3.hpp:83-106 -/
def initBytes (env : Env) (p : Ptr) (n : Nat) : M (BlockState W32) :=
  let s0 : BlockState W32 := { st := 0, buf := uninit env 4, m := 0, n := 0 }
  if n = 0 then return s0
  else if n ≤ 4 then do
    let q ← stdMemcpy (List.replicate 4 0) 0 p n
    let h ← read32le env (.mem q)
    return { s0 with st := h }
  else do
    let h ← read32le env p
    let p ← p.add 4
    let n ← csub n 4
    let s ← upd env { s0 with st := h } p n
    let (s, _) ← result env s
    return s

end Mur32

namespace Mur128

/-- murmur3.hpp:228 -/
def c1 : W64 := 0x87c37b91114253d5#64
/-- murmur3.hpp:229 -/
def c2 : W64 := 0x4cf5ad432745937f#64

/-- h1_, h2_, murmur3.hpp:219 -/
structure St where
  (h1 h2 : W64)
  deriving DecidableEq, Repr

/-- body of the loop of update_(), murmur3.hpp:237-249 -/
def block (env : Env) (p : Ptr) (s : St) : M St := do
  let h1 := s.h1
  let h2 := s.h2
  let k1 ← read64le env (← p.add 0)
  let k2 ← read64le env (← p.add 8)
  let k1 := k1 * c1
  let k1 := rotl k1 31
  let k1 := k1 * c2
  let h1 := h1 ^^^ k1
  let h1 := rotl h1 27
  let h1 := h1 + h2
  let h1 := h1 * 5 + 0x52dce729#64
  let k2 := k2 * c2
  let k2 := rotl k2 33
  let k2 := k2 * c1
  let h2 := h2 ^^^ k2
  let h2 := rotl h2 31
  let h2 := h2 + h1
  let h2 := h2 * 5 + 0x38495ab5#64
  return ⟨h1, h2⟩

/-- static std::uint64_t fmix( std::uint64_t k ), murmur3.hpp:254-263 -/
def fmix (k : W64) : W64 :=
  let k := k ^^^ (k >>> 33)
  let k := k * 0xff51afd7ed558ccd#64
  let k := k ^^^ (k >>> 33)
  let k := k * 0xc4ceb9fe1a85ec53#64
  let k := k ^^^ (k >>> 33)
  k

/-- update(), murmur3.hpp:316-369 -/
def cfg (env : Env) : BlockCfg St :=
  { N := 16, ctrBits := env.sizeBits, early := true, clear := false, whileLoop := false, transform := block env }

/-- void update( void const * pv, std::size_t n ), murmur3.hpp:316-369 -/
def upd (env : Env) (s : BlockState St) (p : Ptr) (n : Nat) : M (BlockState St) := update env (cfg env) s p n

/-- explicit murmur3_128( std::uint64_t seed = 0 ), murmur3.hpp:270-274 -/
def initSeed (env : Env) (seed : W64) : BlockState St :=
  { st := ⟨seed, seed⟩, buf := uninit env 16, m := 0, n := 0 }

/-- murmur3_128( std::uint64_t seed1, std::uint64_t seed2 ), murmur3.hpp:276-280 -/
def initSeed2 (env : Env) (seed1 seed2 : W64) : BlockState St :=
  { st := ⟨seed1, seed2⟩, buf := uninit env 16, m := 0, n := 0 }

/-- result_type result(), murmur3.hpp:371-409 -/
def result (env : Env) (s : BlockState St) : M (BlockState St × List Byte) := do
  check (s.m = s.n % 16)
  let buf ← memset env s.buf s.m 0 (← csub 16 s.m)
  let h1 := s.st.h1
  let h2 := s.st.h2
  let k1 ← read64le env (← (Ptr.mem buf).add 0)
  let k2 ← read64le env (← (Ptr.mem buf).add 8)
  let k1 := k1 * c1
  let k1 := rotl k1 31
  let k1 := k1 * c2
  let h1 := h1 ^^^ k1
  let k2 := k2 * c2
  let k2 := rotl k2 33
  let k2 := k2 * c1
  let h2 := h2 ^^^ k2
  let h1 := h1 ^^^ BitVec.ofNat 64 s.n
  let h2 := h2 ^^^ BitVec.ofNat 64 s.n
  let h1 := h1 + h2
  let h2 := h2 + h1
  let h1 := fmix h1
  let h2 := fmix h2
  let h1 := h1 + h2
  let h2 := h2 + h1
  let n := (s.n + (← csub 16 s.m)) % 2 ^ env.sizeBits
  let buf ← memset env buf 0 0 16
  let r := uninit env 16
  let r ← write64le env r 0 h1
  let r ← write64le env r 8 h2
  return ({ st := s.st, buf := buf, m := 0, n := n }, r)

/-- murmur3_128( unsigned char const * p, std::size_t n ), murmur3.hpp:282-314 -/
def initBytes (env : Env) (p : Ptr) (n : Nat) : M (BlockState St) :=
  let s0 : BlockState St := { st := ⟨0, 0⟩, buf := uninit env 16, m := 0, n := 0 }
  if n = 0 then return s0
  else if n ≤ 8 then do
    let q ← stdMemcpy (List.replicate 8 0) 0 p n
    let h ← read64le env (.mem q)
    return { s0 with st := ⟨h, h⟩ }
  else if n ≤ 16 then do
    let q ← stdMemcpy (List.replicate 18 0) 0 p n
    let h1 ← read64le env (← (Ptr.mem q).add 0)
    let h2 ← read64le env (← (Ptr.mem q).add 8)
    return { s0 with st := ⟨h1, h2⟩ }
  else do
    let h1 ← read64le env (← p.add 0)
    let h2 ← read64le env (← p.add 8)
    let p ← p.add 16
    let n ← csub n 16
    let s ← upd env { s0 with st := ⟨h1, h2⟩ } p n
    let (s, _) ← result env s
    return s

end Mur128
end Hash2

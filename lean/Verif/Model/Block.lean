import Verif.Model.Core
/-
The buffering update() that md5_128, sha1_160, sha2_base, ripemd_128/160, siphash_32/64, xxhash_32/64,
murmur3_32/128 and spooky2_128 each spell out with their own constants. It is modelled once; `BlockCfg`
holds what differs between the classes, and each class's file says which lines its configuration models.
-/
namespace Hash2

/-- What differs between the classes' copies of update(): those cited at `update` below, e.g. md5.hpp:227-279. -/
structure BlockCfg (σ : Type) where
  /-- block size N -/
  N : Nat
  /-- n_ is an unsigned integer of this many bits -/
  ctrBits : Nat
  /-- the line `if( n == 0 ) return;` is present -/
  early : Bool
  /-- `memset( buffer_, 0, N )` after a buffered block has been processed is present -/
  clear : Bool
  /-- the whole blocks are processed by `while( n >= N )`; otherwise by a counted loop over k = n / N -/
  whileLoop : Bool
  /-- processing of the block at p: transform( p ), update_( p ) -/
  transform : Ptr → σ → M σ

/-- The data members: chaining state, buffer_, m_, n_. md5.hpp:34-41, sha1.hpp:33-40, sha2.hpp:35-42, ripemd.hpp:37-44 and 386-393,
siphash.hpp:29-37 and 194-202, xxhash.hpp:42-50 and 255-263, legacy/murmur3.hpp:28-33 and 219-224, legacy/spooky2.hpp:32-40 -/
structure BlockState (σ : Type) where
  st : σ
  buf : List Byte
  m : Nat
  n : Nat
  deriving DecidableEq, Repr

/-- `while( n >= N ) { transform( p ); p += N; n -= N; }` (e.g. md5.hpp:262-268). The fuel bounds the number of
iterations; running out of it is the outcome `diverges`. -/
def whileBlocks {σ : Type} (N : Nat) (f : Ptr → σ → M σ) : Nat → Ptr → Nat → σ → M (Ptr × Nat × σ)
  | 0, p, n, st => if N ≤ n then .error .diverges else .ok (p, n, st)
  | fuel + 1, p, n, st =>
    if N ≤ n then do
      let st ← f p st
      let p ← p.add N
      whileBlocks N f fuel p (n - N) st
    else .ok (p, n, st)

/-- `for( i = 0; i < k; ++i, p += N ) { .. }` (e.g. xxhash.hpp:77-83) -/
def countedBlocks {σ : Type} (N : Nat) (f : Ptr → σ → M σ) : Nat → Ptr → σ → M σ
  | 0, _, st => .ok st
  | k + 1, p, st => do
    let st ← f p st
    let p ← p.add N
    countedBlocks N f k p st

/-- processing of the whole blocks of the input: md5.hpp:262-268 or xxhash.hpp:155-162 -/
def bulk {σ : Type} (c : BlockCfg σ) (p : Ptr) (n : Nat) (st : σ) : M (Ptr × Nat × σ) :=
  if c.whileLoop then whileBlocks c.N c.transform (n + 1) p n st
  else do
    let k := n / c.N
    let st ← countedBlocks c.N c.transform k p st
    let p ← p.add (c.N * k)
    let n ← csub n (c.N * k)
    return (p, n, st)

/-- second part of update(), from `BOOST_ASSERT( m_ == 0 )` on: md5.hpp:260-278 -/
def updateTail {σ : Type} (env : Env) (c : BlockCfg σ) (s : BlockState σ) (p : Ptr) (n : Nat) :
    M (BlockState σ) := do
  check (s.m = 0)
  let (p, n, st) ← bulk c p n s.st
  let s := { s with st := st }
  check (n < c.N)
  let s ← (if n > 0 then do
      let buf ← memcpy env s.buf 0 p n
      return { s with buf := buf, m := n }
    else return s)
  check (s.m = s.n % c.N)
  return s

/-- void update( unsigned char const* p, std::size_t n ): md5.hpp:227-279, sha1.hpp:222-274, sha2.hpp:52-103,
ripemd.hpp:293-345 and 713-765, siphash.hpp:102-155 and 272-325, xxhash.hpp:122-173 and 332-383,
legacy/murmur3.hpp:108-161 and 316-369, legacy/spooky2.hpp:278-331 -/
def update {σ : Type} (env : Env) (c : BlockCfg σ) (s : BlockState σ) (p : Ptr) (n : Nat) :
    M (BlockState σ) := do
  check (s.m = s.n % c.N)
  if c.early ∧ n = 0 then return s
  let s := { s with n := (s.n + n) % 2 ^ c.ctrBits }
  if s.m > 0 then
    let k ← csub c.N s.m
    let k := if n < k then n else k
    let buf ← memcpy env s.buf s.m p k
    let p ← p.add k
    let n ← csub n k
    let s := { s with buf := buf, m := s.m + k }
    if s.m < c.N then return s
    check (s.m = c.N)
    let st ← c.transform (.mem s.buf) s.st
    let s := { s with st := st, m := 0 }
    let s ← (if c.clear then do
        let buf ← memset env s.buf 0 0 c.N
        return { s with buf := buf }
      else return s)
    updateTail env c s p n
  else updateTail env c s p n

end Hash2

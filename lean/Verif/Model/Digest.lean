import Verif.Model.Block
/-
What the Merkle-Damgard classes (md5_128, sha1_160, sha2_*, ripemd_*) share besides update(): the padding done in
result(), and the seeding constructors. Also the interface `DigestAlg` of a hash algorithm whose result_type is an array of
bytes and which has a block_size (the requirement of hmac<H>).
-/
namespace Hash2

/-- four, five, eight words: the arrays state_[4] (md5.hpp:34, ripemd.hpp:37), v0..v3 (siphash.hpp:29-32), v1_..v4_ (xxhash.hpp:42-45) -/
structure Q4 (α : Type) where
  (a b c d : α)
  deriving DecidableEq, Repr

/-- state_[5], sha1.hpp:33, ripemd.hpp:386 -/
structure Q5 (α : Type) where
  (a b c d e : α)
  deriving DecidableEq, Repr

/-- state_[8], sha2.hpp:35 -/
structure Q8 (α : Type) where
  (a b c d e f g h : α)
  deriving DecidableEq, Repr

/-- state_[ i ], md5.hpp:309 -/
def Q4.get {α : Type} (q : Q4 α) : Nat → M α
  | 0 => .ok q.a | 1 => .ok q.b | 2 => .ok q.c | 3 => .ok q.d | _ => .error .oob
/-- state_[ i ], sha1.hpp:304 -/
def Q5.get {α : Type} (q : Q5 α) : Nat → M α
  | 0 => .ok q.a | 1 => .ok q.b | 2 => .ok q.c | 3 => .ok q.d | 4 => .ok q.e | _ => .error .oob
/-- state_[ i ], sha2.hpp:404 -/
def Q8.get {α : Type} (q : Q8 α) : Nat → M α
  | 0 => .ok q.a | 1 => .ok q.b | 2 => .ok q.c | 3 => .ok q.d
  | 4 => .ok q.e | 5 => .ok q.f | 6 => .ok q.g | 7 => .ok q.h | _ => .error .oob

/-- A hash algorithm whose result_type is an array of bytes; the operations are the public member functions: md5.hpp:200-312,
sha1.hpp:195-307, sha2.hpp:353-407 etc., ripemd.hpp:266-378 and 686-798, hmac.hpp:42-43 and 93-135. -/
structure DigestAlg where
  State : Type
  /-- block_size -/
  blockSize : Nat
  /-- default constructor -/
  init : Env → M State
  /-- constructor from std::uint64_t -/
  initSeed : Env → W64 → M State
  /-- constructor from unsigned char const*, std::size_t -/
  initBytes : Env → Ptr → Nat → M State
  update : Env → State → Ptr → Nat → M State
  result : Env → State → M (State × List Byte)

/-- What differs in the padding part of result() between the classes: the lines cited at `mdPad` below, e.g. md5.hpp:289-303 -/
structure PadCfg where
  /-- size of the array bits[] -/
  bitsLen : Nat
  /-- the write64le/be into bits[] -/
  writeBits : Env → List Byte → W64 → M (List Byte)
  /-- 56 or 112 -/
  thr : Nat
  /-- 120 or 240 -/
  over : Nat
  /-- size of the array padding[] -/
  padLen : Nat
  /-- `BOOST_ASSERT( m_ == n_ % N );` on entry is present -/
  assertFirst : Bool

/-- the padding part of result(): md5.hpp:289-303, sha1.hpp:284-298, ripemd.hpp:355-369 and 775-789,
sha2.hpp:391-399, 468-476, 543-551, 619-627, 696-704, 773-781 -/
def mdPad {σ : Type} (env : Env) (c : BlockCfg σ) (P : PadCfg) (s : BlockState σ) : M (BlockState σ) := do
  if P.assertFirst then check (s.m = s.n % c.N)
  let bits ← P.writeBits env (List.replicate P.bitsLen 0) (BitVec.ofNat 64 (s.n * 8))
  let k ← if s.m < P.thr then csub P.thr s.m else csub P.over s.m
  let padding : List Byte := 0x80#8 :: List.replicate (P.padLen - 1) 0
  let s ← update env c s (.mem padding) k
  let s ← update env c s (.mem bits) P.bitsLen
  check (s.m = 0)
  return s

/-- `unsigned char tmp[ 8 ] = {}; detail::write64le( tmp, seed );`, e.g. md5.hpp:210-211 -/
def seedBytes (env : Env) (seed : W64) : M (List Byte) := write64le env (List.replicate 8 0) 0 seed

/-- `if( seed != 0 ) { write64le( tmp, seed ); update( tmp, 8 ); result(); }`: md5.hpp:206-216, sha1.hpp:201-211,
ripemd.hpp:272-282 and 692-702, sha2.hpp:362-374, 438-450, 516-528, 592-604, 668-680, 746-758 -/
def ctorSeed {S R : Type} (upd : Env → S → Ptr → Nat → M S) (res : Env → S → M (S × R)) (s0 : S)
    (env : Env) (seed : W64) : M S :=
  if seed ≠ 0 then do
    let tmp ← seedBytes env seed
    let s ← upd env s0 (.mem tmp) 8
    let (s, _) ← res env s
    return s
  else return s0

/-- `if( n != 0 ) { update( p, n ); result(); }`: md5.hpp:218-225, sha1.hpp:213-220, ripemd.hpp:284-291 and 704-711,
sha2.hpp:376-385, 452-461, 530-539, 606-615, 682-691, 760-769, xxhash.hpp:113-120 and 323-330 -/
def ctorBytes {S R : Type} (upd : Env → S → Ptr → Nat → M S) (res : Env → S → M (S × R)) (s0 : S)
    (env : Env) (p : Ptr) (n : Nat) : M S :=
  if n ≠ 0 then do
    let s ← upd env s0 p n
    let (s, _) ← res env s
    return s
  else return s0

/-- A Merkle-Damgard class: engine configuration, padding, initial state, output (e.g. md5.hpp:30-314) -/
structure MdCfg (σ : Type) where
  cfg : Env → BlockCfg σ
  pad : PadCfg
  iv : σ
  out : Env → σ → M (List Byte)

/-- the default constructed object: md5.hpp:34-41 and 204, sha1.hpp:33-40 and 199, sha2.hpp:35-42 and 357-360 etc., ripemd.hpp:37-44
and 270, 386-393 and 690 -/
def MdCfg.init {σ : Type} (D : MdCfg σ) (env : Env) : BlockState σ :=
  { st := D.iv, buf := List.replicate (D.cfg env).N 0, m := 0, n := 0 }

/-- void update( unsigned char const* p, std::size_t n ), md5.hpp:227-279 etc., see `Hash2.update` -/
def MdCfg.update {σ : Type} (D : MdCfg σ) (env : Env) (s : BlockState σ) (p : Ptr) (n : Nat) :
    M (BlockState σ) := Hash2.update env (D.cfg env) s p n

/-- result_type result(): md5.hpp:287-313, sha1.hpp:282-308, sha2.hpp:389-408 etc., ripemd.hpp:353-379 and 773-799 -/
def MdCfg.result {σ : Type} (D : MdCfg σ) (env : Env) (s : BlockState σ) : M (BlockState σ × List Byte) := do
  let s ← mdPad env (D.cfg env) D.pad s
  let d ← D.out env s.st
  return (s, d)

/-- the class as a DigestAlg; block_size is N in every class: md5.hpp:202, sha1.hpp:197, sha2.hpp:355 etc., ripemd.hpp:268 and 688 -/
def MdCfg.alg {σ : Type} (D : MdCfg σ) (bs : Nat) : DigestAlg where
  State := BlockState σ
  blockSize := bs
  init env := .ok (D.init env)
  initSeed env seed := ctorSeed D.update D.result (D.init env) env seed
  initBytes env p n := ctorBytes D.update D.result (D.init env) env p n
  update := D.update
  result := D.result

end Hash2

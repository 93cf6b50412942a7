import Verif.Model.Digest
/-
Model of class siphash_64, include/boost/hash2/siphash.hpp:25-188.
-/
namespace Hash2.Sip64

/-- v0..v3, siphash.hpp:29-32 -/
def iv : Q4 W64 := ⟨0x736f6d6570736575#64, 0x646f72616e646f6d#64, 0x6c7967656e657261#64, 0x7465646279746573#64⟩

/-- void sipround(), siphash.hpp:41-57, statement by statement -/
def sipround (v : Q4 W64) : Q4 W64 :=
  let v0 := v.a
  let v1 := v.b
  let v2 := v.c
  let v3 := v.d
  let v0 := v0 + v1
  let v1 := rotl v1 13
  let v1 := v1 ^^^ v0
  let v0 := rotl v0 32
  let v2 := v2 + v3
  let v3 := rotl v3 16
  let v3 := v3 ^^^ v2
  let v0 := v0 + v3
  let v3 := rotl v3 21
  let v3 := v3 ^^^ v0
  let v2 := v2 + v1
  let v1 := rotl v1 17
  let v1 := v1 ^^^ v2
  let v2 := rotl v2 32
  ⟨v0, v1, v2, v3⟩

/-- void update_( unsigned char const * p ), siphash.hpp:59-69 -/
def update_ (env : Env) (p : Ptr) (v : Q4 W64) : M (Q4 W64) := do
  let m ← read64le env p
  let v := { v with d := v.d ^^^ m }
  let v := sipround v
  let v := sipround v
  return { v with a := v.a ^^^ m }

/-- update(), siphash.hpp:102-155: N = 8, 64-bit counter, `if( n == 0 ) return`, buffer cleared, while loop -/
def cfg (env : Env) : BlockCfg (Q4 W64) :=
  { N := 8, ctrBits := 64, early := true, clear := true, whileLoop := true, transform := update_ env }

/-- siphash_64() = default, siphash.hpp:29-37 and 75 -/
def init : BlockState (Q4 W64) := { st := iv, buf := List.replicate 8 0, m := 0, n := 0 }

/-- void update( unsigned char const* p, std::size_t n ), siphash.hpp:102-155 -/
def upd (env : Env) (s : BlockState (Q4 W64)) (p : Ptr) (n : Nat) : M (BlockState (Q4 W64)) :=
  update env (cfg env) s p n

/-- result(), siphash.hpp:163-187 -/
def result (env : Env) (s : BlockState (Q4 W64)) : M (BlockState (Q4 W64) × W64) := do
  check (s.m = s.n % 8)
  let buf ← memset env s.buf s.m 0 (← csub 8 s.m)
  let buf ← aset buf 7 (BitVec.ofNat 8 (s.n % 256))
  let v ← update_ env (.mem buf) s.st
  let v := { v with c := v.c ^^^ 0xFF }
  let v := sipround v
  let v := sipround v
  let v := sipround v
  let v := sipround v
  let n := (s.n + (← csub 8 s.m)) % 2 ^ 64
  let buf ← memset env buf 0 0 8
  return ({ st := v, buf := buf, m := 0, n := n }, v.a ^^^ v.b ^^^ v.c ^^^ v.d)

/-- explicit siphash_64( std::uint64_t seed ), siphash.hpp:77-81 -/
def initSeed (seed : W64) : BlockState (Q4 W64) :=
  { init with st := ⟨iv.a ^^^ seed, iv.b, iv.c ^^^ seed, iv.d⟩ }

/-- siphash_64( unsigned char const * p, std::size_t n ), siphash.hpp:83-100 -/
def initBytes (env : Env) (p : Ptr) (n : Nat) : M (BlockState (Q4 W64)) :=
  if n = 16 then do
    let k0 ← read64le env (← p.add 0)
    let k1 ← read64le env (← p.add 8)
    return { init with st := ⟨iv.a ^^^ k0, iv.b ^^^ k1, iv.c ^^^ k0, iv.d ^^^ k1⟩ }
  else if n ≠ 0 then do
    let s ← upd env init p n
    let (s, _) ← result env s
    return s
  else return init

end Hash2.Sip64

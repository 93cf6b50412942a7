import Verif.Model.Digest
/-
Model of class siphash_32, include/boost/hash2/siphash.hpp:190-358.
-/
namespace Hash2.Sip32

/-- v0..v3, siphash.hpp:194-197 -/
def iv : Q4 W32 := ⟨0#32, 0#32, 0x6c796765#32, 0x74656462#32⟩

/-- void sipround(), siphash.hpp:206-222, statement by statement -/
def sipround (v : Q4 W32) : Q4 W32 :=
  let v0 := v.a
  let v1 := v.b
  let v2 := v.c
  let v3 := v.d
  let v0 := v0 + v1
  let v1 := rotl v1 5
  let v1 := v1 ^^^ v0
  let v0 := rotl v0 16
  let v2 := v2 + v3
  let v3 := rotl v3 8
  let v3 := v3 ^^^ v2
  let v0 := v0 + v3
  let v3 := rotl v3 7
  let v3 := v3 ^^^ v0
  let v2 := v2 + v1
  let v1 := rotl v1 13
  let v1 := v1 ^^^ v2
  let v2 := rotl v2 16
  ⟨v0, v1, v2, v3⟩

/-- void update_( unsigned char const * p ), siphash.hpp:224-234 -/
def update_ (env : Env) (p : Ptr) (v : Q4 W32) : M (Q4 W32) := do
  let m ← read32le env p
  let v := { v with d := v.d ^^^ m }
  let v := sipround v
  let v := sipround v
  return { v with a := v.a ^^^ m }

/-- update(), siphash.hpp:272-325: N = 4, 32-bit counter, `if( n == 0 ) return`, buffer cleared, while loop -/
def cfg (env : Env) : BlockCfg (Q4 W32) :=
  { N := 4, ctrBits := 32, early := true, clear := true, whileLoop := true, transform := update_ env }

/-- siphash_32() = default, siphash.hpp:194-202 and 240 -/
def init : BlockState (Q4 W32) := { st := iv, buf := List.replicate 4 0, m := 0, n := 0 }

/-- void update( unsigned char const* p, std::size_t n ), siphash.hpp:272-325 -/
def upd (env : Env) (s : BlockState (Q4 W32)) (p : Ptr) (n : Nat) : M (BlockState (Q4 W32)) :=
  update env (cfg env) s p n

/-- result(), siphash.hpp:333-357 -/
def result (env : Env) (s : BlockState (Q4 W32)) : M (BlockState (Q4 W32) × W32) := do
  check (s.m = s.n % 4)
  let buf ← memset env s.buf s.m 0 (← csub 4 s.m)
  let buf ← aset buf 3 (BitVec.ofNat 8 (s.n % 256))
  let v ← update_ env (.mem buf) s.st
  let v := { v with c := v.c ^^^ 0xFF }
  let v := sipround v
  let v := sipround v
  let v := sipround v
  let v := sipround v
  let n := (s.n + (← csub 4 s.m)) % 2 ^ 32
  let buf ← memset env buf 0 0 4
  return ({ st := v, buf := buf, m := 0, n := n }, v.b ^^^ v.d)

/-- explicit siphash_32( std::uint64_t seed ), siphash.hpp:242-251 -/
def initSeed (seed : W64) : BlockState (Q4 W32) :=
  let k0 : W32 := seed.truncate 32
  let k1 : W32 := (seed >>> 32).truncate 32
  { init with st := ⟨iv.a ^^^ k0, iv.b ^^^ k1, iv.c ^^^ k0, iv.d ^^^ k1⟩ }

/-- siphash_32( unsigned char const * p, std::size_t n ), siphash.hpp:253-270 -/
def initBytes (env : Env) (p : Ptr) (n : Nat) : M (BlockState (Q4 W32)) :=
  if n = 8 then do
    let k0 ← read32le env (← p.add 0)
    let k1 ← read32le env (← p.add 4)
    return { init with st := ⟨iv.a ^^^ k0, iv.b ^^^ k1, iv.c ^^^ k0, iv.d ^^^ k1⟩ }
  else if n ≠ 0 then do
    let s ← upd env init p n
    let (s, _) ← result env s
    return s
  else return init

end Hash2.Sip32

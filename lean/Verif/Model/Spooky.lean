import Verif.Model.Murmur
/-
Model of include/boost/hash2/legacy/spooky2.hpp. As in murmur3.hpp, buffer_ is left uninitialised by the constructors.
-/
namespace Hash2.Spooky

/-- spooky2.hpp:28 -/
def sc_const : W64 := 0xdeadbeefdeadbeef#64

/-- v_[ 12 ], spooky2.hpp:33 -/
structure V where
  (h0 h1 h2 h3 h4 h5 h6 h7 h8 h9 h10 h11 : W64)
  deriving DecidableEq, Repr

/-- static void short_mix( h0, h1, h2, h3 ), spooky2.hpp:44-58 -/
def short_mix (q : Q4 W64) : Q4 W64 :=
  let h0 := q.a
  let h1 := q.b
  let h2 := q.c
  let h3 := q.d
  let h2 := rotl h2 50
  let h2 := h2 + h3
  let h0 := h0 ^^^ h2
  let h3 := rotl h3 52
  let h3 := h3 + h0
  let h1 := h1 ^^^ h3
  let h0 := rotl h0 30
  let h0 := h0 + h1
  let h2 := h2 ^^^ h0
  let h1 := rotl h1 41
  let h1 := h1 + h2
  let h3 := h3 ^^^ h1
  let h2 := rotl h2 54
  let h2 := h2 + h3
  let h0 := h0 ^^^ h2
  let h3 := rotl h3 48
  let h3 := h3 + h0
  let h1 := h1 ^^^ h3
  let h0 := rotl h0 38
  let h0 := h0 + h1
  let h2 := h2 ^^^ h0
  let h1 := rotl h1 37
  let h1 := h1 + h2
  let h3 := h3 ^^^ h1
  let h2 := rotl h2 62
  let h2 := h2 + h3
  let h0 := h0 ^^^ h2
  let h3 := rotl h3 34
  let h3 := h3 + h0
  let h1 := h1 ^^^ h3
  let h0 := rotl h0 5
  let h0 := h0 + h1
  let h2 := h2 ^^^ h0
  let h1 := rotl h1 36
  let h1 := h1 + h2
  let h3 := h3 ^^^ h1
  ⟨h0, h1, h2, h3⟩

/-- static void short_end( h0, h1, h2, h3 ), spooky2.hpp:60-73 -/
def short_end (q : Q4 W64) : Q4 W64 :=
  let h0 := q.a
  let h1 := q.b
  let h2 := q.c
  let h3 := q.d
  let h3 := h3 ^^^ h2
  let h2 := rotl h2 15
  let h3 := h3 + h2
  let h0 := h0 ^^^ h3
  let h3 := rotl h3 52
  let h0 := h0 + h3
  let h1 := h1 ^^^ h0
  let h0 := rotl h0 26
  let h1 := h1 + h0
  let h2 := h2 ^^^ h1
  let h1 := rotl h1 51
  let h2 := h2 + h1
  let h3 := h3 ^^^ h2
  let h2 := rotl h2 28
  let h3 := h3 + h2
  let h0 := h0 ^^^ h3
  let h3 := rotl h3 9
  let h0 := h0 + h3
  let h1 := h1 ^^^ h0
  let h0 := rotl h0 47
  let h1 := h1 + h0
  let h2 := h2 ^^^ h1
  let h1 := rotl h1 54
  let h2 := h2 + h1
  let h3 := h3 ^^^ h2
  let h2 := rotl h2 32
  let h3 := h3 + h2
  let h0 := h0 ^^^ h3
  let h3 := rotl h3 25
  let h0 := h0 + h3
  let h1 := h1 ^^^ h0
  let h0 := rotl h0 63
  let h1 := h1 + h0
  ⟨h0, h1, h2, h3⟩

/-- while( m >= 32 ), spooky2.hpp:84-96 -/
def short32 (env : Env) : Nat → Ptr → Nat → Q4 W64 → M (Ptr × Nat × Q4 W64)
  | 0, p, m, q => if 32 ≤ m then .error .diverges else .ok (p, m, q)
  | fuel + 1, p, m, q =>
    if 32 ≤ m then do
      let c := q.c + (← read64le env (← p.add 0))
      let d := q.d + (← read64le env (← p.add 8))
      let q := short_mix ⟨q.a, q.b, c, d⟩
      let a := q.a + (← read64le env (← p.add 16))
      let b := q.b + (← read64le env (← p.add 24))
      let p ← p.add 32
      short32 env fuel p (m - 32) ⟨a, b, q.c, q.d⟩
    else .ok (p, m, q)

/-- static void short_hash( p, n, hash1, hash2 ), spooky2.hpp:75-131 -/
def short_hash (env : Env) (p : Ptr) (n : Nat) (hash1 hash2 : W64) : M (W64 × W64) := do
  let q : Q4 W64 := ⟨hash1, hash2, sc_const, sc_const⟩
  let (p, m, q) ← short32 env (n + 1) p n q
  let (p, m, q) ← (if 16 ≤ m then do
      let c := q.c + (← read64le env (← p.add 0))
      let d := q.d + (← read64le env (← p.add 8))
      let q := short_mix ⟨q.a, q.b, c, d⟩
      let p ← p.add 16
      return (p, m - 16, q)
    else return (p, m, q))
  let q ← (if m = 0 then return (⟨q.a, q.b, q.c + sc_const, q.d + sc_const⟩ : Q4 W64)
    else do
      check (m < 16)
      let tmp ← stdMemcpy (List.replicate 16 0) 0 p m
      let c := q.c + (← read64le env (← (Ptr.mem tmp).add 0))
      let d := q.d + (← read64le env (← (Ptr.mem tmp).add 8))
      return (⟨q.a, q.b, c, d⟩ : Q4 W64))
  let q := { q with d := q.d + (BitVec.ofNat 64 n <<< 56) }
  let q := short_end q
  return (q.a, q.b)

/-- static void mix( p, s0, .. s11 ), spooky2.hpp:135-152 -/
def mix (env : Env) (p : Ptr) (v : V) : M V := do
  let s0 := v.h0
  let s1 := v.h1
  let s2 := v.h2
  let s3 := v.h3
  let s4 := v.h4
  let s5 := v.h5
  let s6 := v.h6
  let s7 := v.h7
  let s8 := v.h8
  let s9 := v.h9
  let s10 := v.h10
  let s11 := v.h11
  let s0 := s0 + (← read64le env (← p.add 0))
  let s2 := s2 ^^^ s10
  let s11 := s11 ^^^ s0
  let s0 := rotl s0 11
  let s11 := s11 + s1
  let s1 := s1 + (← read64le env (← p.add 8))
  let s3 := s3 ^^^ s11
  let s0 := s0 ^^^ s1
  let s1 := rotl s1 32
  let s0 := s0 + s2
  let s2 := s2 + (← read64le env (← p.add 16))
  let s4 := s4 ^^^ s0
  let s1 := s1 ^^^ s2
  let s2 := rotl s2 43
  let s1 := s1 + s3
  let s3 := s3 + (← read64le env (← p.add 24))
  let s5 := s5 ^^^ s1
  let s2 := s2 ^^^ s3
  let s3 := rotl s3 31
  let s2 := s2 + s4
  let s4 := s4 + (← read64le env (← p.add 32))
  let s6 := s6 ^^^ s2
  let s3 := s3 ^^^ s4
  let s4 := rotl s4 17
  let s3 := s3 + s5
  let s5 := s5 + (← read64le env (← p.add 40))
  let s7 := s7 ^^^ s3
  let s4 := s4 ^^^ s5
  let s5 := rotl s5 28
  let s4 := s4 + s6
  let s6 := s6 + (← read64le env (← p.add 48))
  let s8 := s8 ^^^ s4
  let s5 := s5 ^^^ s6
  let s6 := rotl s6 39
  let s5 := s5 + s7
  let s7 := s7 + (← read64le env (← p.add 56))
  let s9 := s9 ^^^ s5
  let s6 := s6 ^^^ s7
  let s7 := rotl s7 57
  let s6 := s6 + s8
  let s8 := s8 + (← read64le env (← p.add 64))
  let s10 := s10 ^^^ s6
  let s7 := s7 ^^^ s8
  let s8 := rotl s8 55
  let s7 := s7 + s9
  let s9 := s9 + (← read64le env (← p.add 72))
  let s11 := s11 ^^^ s7
  let s8 := s8 ^^^ s9
  let s9 := rotl s9 54
  let s8 := s8 + s10
  let s10 := s10 + (← read64le env (← p.add 80))
  let s0 := s0 ^^^ s8
  let s9 := s9 ^^^ s10
  let s10 := rotl s10 22
  let s9 := s9 + s11
  let s11 := s11 + (← read64le env (← p.add 88))
  let s1 := s1 ^^^ s9
  let s10 := s10 ^^^ s11
  let s11 := rotl s11 46
  let s10 := s10 + s0
  return ⟨s0, s1, s2, s3, s4, s5, s6, s7, s8, s9, s10, s11⟩

/-- two iterations of the loop of update_(), spooky2.hpp:169-172: update() always calls update_ with an even count
(307, 316), so the model takes the 192 byte buffer as the block and the two calls of mix as its processing -/
def block (env : Env) (p : Ptr) (v : V) : M V := do
  let v ← mix env p v
  let p ← p.add 96
  mix env p v

/-- static void end_partial( h0, .. h11 ), spooky2.hpp:188-205 -/
def end_partial (v : V) : V :=
  let h0 := v.h0
  let h1 := v.h1
  let h2 := v.h2
  let h3 := v.h3
  let h4 := v.h4
  let h5 := v.h5
  let h6 := v.h6
  let h7 := v.h7
  let h8 := v.h8
  let h9 := v.h9
  let h10 := v.h10
  let h11 := v.h11
  let h11 := h11 + h1
  let h2 := h2 ^^^ h11
  let h1 := rotl h1 44
  let h0 := h0 + h2
  let h3 := h3 ^^^ h0
  let h2 := rotl h2 15
  let h1 := h1 + h3
  let h4 := h4 ^^^ h1
  let h3 := rotl h3 34
  let h2 := h2 + h4
  let h5 := h5 ^^^ h2
  let h4 := rotl h4 21
  let h3 := h3 + h5
  let h6 := h6 ^^^ h3
  let h5 := rotl h5 38
  let h4 := h4 + h6
  let h7 := h7 ^^^ h4
  let h6 := rotl h6 33
  let h5 := h5 + h7
  let h8 := h8 ^^^ h5
  let h7 := rotl h7 10
  let h6 := h6 + h8
  let h9 := h9 ^^^ h6
  let h8 := rotl h8 13
  let h7 := h7 + h9
  let h10 := h10 ^^^ h7
  let h9 := rotl h9 38
  let h8 := h8 + h10
  let h11 := h11 ^^^ h8
  let h10 := rotl h10 53
  let h9 := h9 + h11
  let h0 := h0 ^^^ h9
  let h11 := rotl h11 42
  let h10 := h10 + h0
  let h1 := h1 ^^^ h10
  let h0 := rotl h0 54
  ⟨h0, h1, h2, h3, h4, h5, h6, h7, h8, h9, h10, h11⟩

/-- static void end( p, h0, .. h11 ), spooky2.hpp:207-228 -/
def end_ (env : Env) (p : Ptr) (v : V) : M V := do
  let h0 := v.h0
  let h1 := v.h1
  let h2 := v.h2
  let h3 := v.h3
  let h4 := v.h4
  let h5 := v.h5
  let h6 := v.h6
  let h7 := v.h7
  let h8 := v.h8
  let h9 := v.h9
  let h10 := v.h10
  let h11 := v.h11
  let h0 := h0 + (← read64le env (← p.add 0))
  let h1 := h1 + (← read64le env (← p.add 8))
  let h2 := h2 + (← read64le env (← p.add 16))
  let h3 := h3 + (← read64le env (← p.add 24))
  let h4 := h4 + (← read64le env (← p.add 32))
  let h5 := h5 + (← read64le env (← p.add 40))
  let h6 := h6 + (← read64le env (← p.add 48))
  let h7 := h7 + (← read64le env (← p.add 56))
  let h8 := h8 + (← read64le env (← p.add 64))
  let h9 := h9 + (← read64le env (← p.add 72))
  let h10 := h10 + (← read64le env (← p.add 80))
  let h11 := h11 + (← read64le env (← p.add 88))
  let v : V := ⟨h0, h1, h2, h3, h4, h5, h6, h7, h8, h9, h10, h11⟩
  let v := end_partial v
  let v := end_partial v
  let v := end_partial v
  return v

/-- void init( seed1, seed2 ), spooky2.hpp:230-235 -/
def initV (s1 s2 : W64) : V :=
  ⟨s1, s2, sc_const, s1, s2, sc_const, s1, s2, sc_const, s1, s2, sc_const⟩

/-- update(), spooky2.hpp:278-331 -/
def cfg (env : Env) : BlockCfg V :=
  { N := 192, ctrBits := env.sizeBits, early := true, clear := false, whileLoop := false, transform := block env }

/-- void update( void const * pv, std::size_t n ), spooky2.hpp:278-331 -/
def upd (env : Env) (s : BlockState V) (p : Ptr) (n : Nat) : M (BlockState V) := update env (cfg env) s p n

/-- explicit spooky2_128( seed1 = 0, seed2 = 0 ), spooky2.hpp:242-245 -/
def initSeed2 (env : Env) (seed1 seed2 : W64) : BlockState V :=
  { st := initV seed1 seed2, buf := uninit env 192, m := 0, n := 0 }

/-- the long branch of result(), spooky2.hpp:346-382, including 385-386; `p` is an offset into buffer_ -/
def resultLong (env : Env) (s : BlockState V) : M (List Byte × V) := do
  let v := s.st
  let (off, m, v) ← (if 96 ≤ s.m then do
      let v ← mix env (.mem s.buf) v
      return (96, s.m - 96, v)
    else return (0, s.m, v))
  let buf ← stdMemset s.buf (off + m) 0 (← csub 96 m)
  let buf ← aset buf (off + 95) (BitVec.ofNat 8 m)
  let p ← (Ptr.mem buf).add off
  let v ← end_ env p v
  return (buf, v)

/-- result_type result(), spooky2.hpp:333-405 -/
def result (env : Env) (s : BlockState V) : M (BlockState V × List Byte) := do
  check (s.m = s.n % 192)
  let (buf, v) ← (if s.n < 192 then do
      let (h0, h1) ← short_hash env (.mem s.buf) s.n s.st.h0 s.st.h1
      return (s.buf, { s.st with h0 := h0, h1 := h1 })
    else resultLong env s)
  let n := (s.n + (← csub 192 s.m)) % 2 ^ env.sizeBits
  let n := if n < 192 then 0 else n
  let buf ← stdMemset buf 0 0 192
  let r := uninit env 16
  let r ← write64le env r 0 v.h0
  let r ← write64le env r 8 v.h1
  return ({ st := v, buf := buf, m := 0, n := n }, r)

/-- spooky2_128( unsigned char const * p, std::size_t n ), spooky2.hpp:247-276 -/
def initBytes (env : Env) (p : Ptr) (n : Nat) : M (BlockState V) :=
  if n = 0 then return initSeed2 env 0 0
  else if n ≤ 16 then do
    let q ← stdMemcpy (List.replicate 18 0) 0 p n
    let seed1 ← read64le env (← (Ptr.mem q).add 0)
    let seed2 ← read64le env (← (Ptr.mem q).add 8)
    return initSeed2 env seed1 seed2
  else do
    let seed1 ← read64le env (← p.add 0)
    let seed2 ← read64le env (← p.add 8)
    let p ← p.add 16
    let n ← csub n 16
    let s ← upd env (initSeed2 env seed1 seed2) p n
    let (s, _) ← result env s
    return s

end Hash2.Spooky

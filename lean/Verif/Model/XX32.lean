import Verif.Model.Digest
/-
Model of class xxhash_32, include/boost/hash2/xxhash.hpp:30-241.
-/
namespace Hash2.XX32

/-- xxhash.hpp:34 -/
def P1 : W32 := 2654435761#32
/-- xxhash.hpp:35 -/
def P2 : W32 := 2246822519#32
/-- xxhash.hpp:36 -/
def P3 : W32 := 3266489917#32
/-- xxhash.hpp:37 -/
def P4 : W32 := 668265263#32
/-- xxhash.hpp:38 -/
def P5 : W32 := 374761393#32

/-- v1_..v4_, xxhash.hpp:42-45 -/
def iv : Q4 W32 := ⟨P1 + P2, P2, 0, 0 - P1⟩

/-- void init( seed ), xxhash.hpp:54-60 -/
def initV (seed : W32) : Q4 W32 := ⟨seed + P1 + P2, seed + P2, seed, seed - P1⟩

/-- static round( seed, input ), xxhash.hpp:62-68 -/
def round (seed input : W32) : W32 :=
  let seed := seed + input * P2
  let seed := rotl seed 13
  let seed := seed * P1
  seed

/-- body of the loop of update_(), xxhash.hpp:70-89 -/
def block (env : Env) (p : Ptr) (v : Q4 W32) : M (Q4 W32) := do
  let v1 := round v.a (← read32le env (← p.add 0))
  let v2 := round v.b (← read32le env (← p.add 4))
  let v3 := round v.c (← read32le env (← p.add 8))
  let v4 := round v.d (← read32le env (← p.add 12))
  return ⟨v1, v2, v3, v4⟩

/-- update(), xxhash.hpp:122-173: N = 16, std::size_t counter, `if( n == 0 ) return`,
buffer not cleared when it fills up, bulk loop over k = n / 16 -/
def cfg (env : Env) : BlockCfg (Q4 W32) :=
  { N := 16, ctrBits := env.sizeBits, early := true, clear := false, whileLoop := false, transform := block env }

/-- xxhash_32() = default, xxhash.hpp:42-50 and 95 -/
def init : BlockState (Q4 W32) := { st := iv, buf := List.replicate 16 0, m := 0, n := 0 }

/-- void update( unsigned char const* p, std::size_t n ), xxhash.hpp:122-173 -/
def upd (env : Env) (s : BlockState (Q4 W32)) (p : Ptr) (n : Nat) : M (BlockState (Q4 W32)) :=
  update env (cfg env) s p n

/-- while( m >= 4 ), xxhash.hpp:202-209 -/
def tail4 (env : Env) : Nat → Ptr → Nat → W32 → M (Ptr × Nat × W32)
  | 0, p, m, h => if 4 ≤ m then .error .diverges else .ok (p, m, h)
  | fuel + 1, p, m, h =>
    if 4 ≤ m then do
      let v ← read32le env p
      let h := h + v * P3
      let h := rotl h 17 * P4
      let p ← p.add 4
      tail4 env fuel p (m - 4) h
    else .ok (p, m, h)

/-- while( m > 0 ), xxhash.hpp:211-218 -/
def tail1 : Nat → Ptr → Nat → W32 → M W32
  | 0, _, m, h => if 0 < m then .error .diverges else .ok h
  | fuel + 1, p, m, h =>
    if 0 < m then do
      let b ← p.get 0
      let h := h + b.zeroExtend 32 * P5
      let h := rotl h 11 * P1
      let p ← p.add 1
      tail1 fuel p (m - 1) h
    else .ok h

/-- xxhash.hpp:232-237 -/
def finalMix (h : W32) : W32 :=
  let h := h ^^^ (h >>> 15)
  let h := h * P2
  let h := h ^^^ (h >>> 13)
  let h := h * P3
  let h := h ^^^ (h >>> 16)
  h

/-- result(), xxhash.hpp:181-240 -/
def result (env : Env) (s : BlockState (Q4 W32)) : M (BlockState (Q4 W32) × W32) := do
  check (s.m = s.n % 16)
  let h : W32 :=
    if 16 ≤ s.n then
      rotl s.st.a 1 + rotl s.st.b 7 + rotl s.st.c 12 + rotl s.st.d 18
    else s.st.c + P5
  let h := h + BitVec.ofNat 32 s.n
  let (p, m, h) ← tail4 env (s.m + 1) (.mem s.buf) s.m h
  let h ← tail1 (m + 1) p m h
  let n := (s.n + (← csub 16 s.m)) % 2 ^ env.sizeBits
  let buf ← memset env s.buf 0 0 16
  let v : Q4 W32 := ⟨s.st.a + h, s.st.b + h, s.st.c - h, s.st.d - h⟩
  return ({ st := v, buf := buf, m := 0, n := n }, finalMix h)

/-- explicit xxhash_32( std::uint64_t seed ), xxhash.hpp:97-111 -/
def initSeed (seed : W64) : BlockState (Q4 W32) :=
  let s0 : W32 := seed.truncate 32
  let s1 : W32 := (seed >>> 32).truncate 32
  let v := initV s0
  if s1 ≠ 0 then { init with st := ⟨round v.a s1, round v.b s1, round v.c s1, round v.d s1⟩ }
  else { init with st := v }

/-- xxhash_32( unsigned char const * p, std::size_t n ), xxhash.hpp:113-120 -/
def initBytes (env : Env) (p : Ptr) (n : Nat) : M (BlockState (Q4 W32)) :=
  ctorBytes upd result init env p n

end Hash2.XX32

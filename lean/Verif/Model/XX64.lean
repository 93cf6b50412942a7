import Verif.Model.Digest
/-
Model of class xxhash_64, include/boost/hash2/xxhash.hpp:243-467.
-/
namespace Hash2.XX64

/-- xxhash.hpp:247 -/
def P1 : W64 := 11400714785074694791#64
/-- xxhash.hpp:248 -/
def P2 : W64 := 14029467366897019727#64
/-- xxhash.hpp:249 -/
def P3 : W64 := 1609587929392839161#64
/-- xxhash.hpp:250 -/
def P4 : W64 := 9650029242287828579#64
/-- xxhash.hpp:251 -/
def P5 : W64 := 2870177450012600261#64

/-- v1_..v4_, xxhash.hpp:255-258 -/
def iv : Q4 W64 := ⟨P1 + P2, P2, 0, 0 - P1⟩

/-- void init( seed ), xxhash.hpp:267-273 -/
def initV (seed : W64) : Q4 W64 := ⟨seed + P1 + P2, seed + P2, seed, seed - P1⟩

/-- static round( seed, input ), xxhash.hpp:275-281 -/
def round (seed input : W64) : W64 :=
  let seed := seed + input * P2
  let seed := rotl seed 31
  let seed := seed * P1
  seed

/-- body of the loop of update_(), xxhash.hpp:291-310 -/
def block (env : Env) (p : Ptr) (v : Q4 W64) : M (Q4 W64) := do
  let v1 := round v.a (← read64le env (← p.add 0))
  let v2 := round v.b (← read64le env (← p.add 8))
  let v3 := round v.c (← read64le env (← p.add 16))
  let v4 := round v.d (← read64le env (← p.add 24))
  return ⟨v1, v2, v3, v4⟩

/-- update(), xxhash.hpp:332-383: N = 32, 64-bit counter, `if( n == 0 ) return`,
buffer not cleared when it fills up, bulk loop over k = n / 32 -/
def cfg (env : Env) : BlockCfg (Q4 W64) :=
  { N := 32, ctrBits := 64, early := true, clear := false, whileLoop := false, transform := block env }

/-- xxhash_64() = default, xxhash.hpp:255-263 and 316 -/
def init : BlockState (Q4 W64) := { st := iv, buf := List.replicate 32 0, m := 0, n := 0 }

/-- void update( unsigned char const* p, std::size_t n ), xxhash.hpp:332-383 -/
def upd (env : Env) (s : BlockState (Q4 W64)) (p : Ptr) (n : Nat) : M (BlockState (Q4 W64)) :=
  update env (cfg env) s p n

/-- static merge_round( acc, val ), xxhash.hpp:283-289 -/
def merge_round (acc val : W64) : W64 :=
  let val := round 0 val
  let acc := acc ^^^ val
  let acc := acc * P1 + P4
  acc

/-- while( m >= 8 ), xxhash.hpp:417-426 -/
def tail8 (env : Env) : Nat → Ptr → Nat → W64 → M (Ptr × Nat × W64)
  | 0, p, m, h => if 8 ≤ m then .error .diverges else .ok (p, m, h)
  | fuel + 1, p, m, h =>
    if 8 ≤ m then do
      let k1 := round 0 (← read64le env p)
      let h := h ^^^ k1
      let h := rotl h 27 * P1 + P4
      let p ← p.add 8
      tail8 env fuel p (m - 8) h
    else .ok (p, m, h)

/-- while( m >= 4 ), xxhash.hpp:428-435 -/
def tail4 (env : Env) : Nat → Ptr → Nat → W64 → M (Ptr × Nat × W64)
  | 0, p, m, h => if 4 ≤ m then .error .diverges else .ok (p, m, h)
  | fuel + 1, p, m, h =>
    if 4 ≤ m then do
      let v ← read32le env p
      let h := h ^^^ (v.zeroExtend 64 * P1)
      let h := rotl h 23 * P2 + P3
      let p ← p.add 4
      tail4 env fuel p (m - 4) h
    else .ok (p, m, h)

/-- while( m > 0 ), xxhash.hpp:437-444 -/
def tail1 : Nat → Ptr → Nat → W64 → M W64
  | 0, _, m, h => if 0 < m then .error .diverges else .ok h
  | fuel + 1, p, m, h =>
    if 0 < m then do
      let b ← p.get 0
      let h := h ^^^ (b.zeroExtend 64 * P5)
      let h := rotl h 11 * P1
      let p ← p.add 1
      tail1 fuel p (m - 1) h
    else .ok h

/-- xxhash.hpp:458-463 -/
def finalMix (h : W64) : W64 :=
  let h := h ^^^ (h >>> 33)
  let h := h * P2
  let h := h ^^^ (h >>> 29)
  let h := h * P3
  let h := h ^^^ (h >>> 32)
  h

/-- result(), xxhash.hpp:391-466 -/
def result (env : Env) (s : BlockState (Q4 W64)) : M (BlockState (Q4 W64) × W64) := do
  check (s.m = s.n % 32)
  let h : W64 :=
    if 32 ≤ s.n then
      let h := rotl s.st.a 1 + rotl s.st.b 7 + rotl s.st.c 12 + rotl s.st.d 18
      let h := merge_round h s.st.a
      let h := merge_round h s.st.b
      let h := merge_round h s.st.c
      let h := merge_round h s.st.d
      h
    else s.st.c + P5
  let h := h + BitVec.ofNat 64 s.n
  let (p, m, h) ← tail8 env (s.m + 1) (.mem s.buf) s.m h
  let (p, m, h) ← tail4 env (m + 1) p m h
  let h ← tail1 (m + 1) p m h
  let n := (s.n + (← csub 32 s.m)) % 2 ^ 64
  let buf ← memset env s.buf 0 0 32
  let v : Q4 W64 := ⟨s.st.a + h, s.st.b + h, s.st.c - h, s.st.d - h⟩
  return ({ st := v, buf := buf, m := 0, n := n }, finalMix h)

/-- explicit xxhash_64( std::uint64_t seed ), xxhash.hpp:318-321 -/
def initSeed (seed : W64) : BlockState (Q4 W64) := { init with st := initV seed }

/-- xxhash_64( unsigned char const * p, std::size_t n ), xxhash.hpp:323-330 -/
def initBytes (env : Env) (p : Ptr) (n : Nat) : M (BlockState (Q4 W64)) :=
  ctorBytes upd result init env p n

end Hash2.XX64

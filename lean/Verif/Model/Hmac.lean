import Verif.Model.Digest
/-
Model of include/boost/hash2/hmac.hpp, for any hash algorithm H with a block_size and an array of bytes as result_type.
-/
namespace Hash2.Hmac

/-- outer_, inner_: hmac.hpp:47-48 -/
structure State (H : DigestAlg) where
  (outer inner : H.State)

/-- void init( unsigned char const* p, std::size_t n ), hmac.hpp:52-89, on default constructed outer_ and inner_ -/
def init (H : DigestAlg) (env : Env) (p : Ptr) (n : Nat) : M (State H) := do
  let outer ← H.init env
  let inner ← H.init env
  let m := H.blockSize
  let key : List Byte := List.replicate m 0
  let key ← (if n = 0 then return key
    else if n ≤ m then memcpy env key 0 p n
    else do
      let h ← H.init env
      let h ← H.update env h p n
      let (_, r) ← H.result env h
      memcpy env key 0 (.mem r) (if m < r.length then m else r.length))
  let key ← forLoop (fun i key => do
    let b ← aget key i
    aset key i (b ^^^ 0x36)) 0 m key
  let inner ← H.update env inner (.mem key) m
  let key ← forLoop (fun i key => do
    let b ← aget key i
    aset key i (b ^^^ 0x36 ^^^ 0x5C)) 0 m key
  let outer ← H.update env outer (.mem key) m
  return ⟨outer, inner⟩

/-- hmac( std::uint64_t seed ), hmac.hpp:98-111 -/
def initSeed (H : DigestAlg) (env : Env) (seed : W64) : M (State H) :=
  if seed = 0 then init H env .null 0
  else do
    let tmp ← seedBytes env seed
    init H env (.mem tmp) 8

/-- hmac.hpp:118-126 -/
def update (H : DigestAlg) (env : Env) (s : State H) (p : Ptr) (n : Nat) : M (State H) := do
  let inner ← H.update env s.inner p n
  return { s with inner := inner }

/-- hmac.hpp:128-135 -/
def result (H : DigestAlg) (env : Env) (s : State H) : M (State H × List Byte) := do
  let (inner, r) ← H.result env s.inner
  let outer ← H.update env s.outer (.mem r) r.length
  let (outer, d) ← H.result env outer
  return (⟨outer, inner⟩, d)

/-- class template hmac<H>, hmac.hpp:38-136 -/
def hmac (H : DigestAlg) : DigestAlg where
  State := State H
  blockSize := H.blockSize
  init env := init H env .null 0
  initSeed := initSeed H
  initBytes := init H
  update := update H
  result := result H

end Hash2.Hmac

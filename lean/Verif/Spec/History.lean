import Verif.Spec.Bytes
/-
What a hash object is to its user: a machine fed with bytes, now and then asked for a result.
Nothing here refers to the code.
-/
namespace Hash2.Spec

/-- What reaches a hash object: one byte, or a request for the result -/
inductive Tok
  | data (b : Byte)
  | fin
  deriving DecidableEq, Repr

/-- An abstract hash function with state: `absorb` is feeding bytes, `res` is asking for the result (which may change the
state), and there are three ways of starting. -/
structure Machine (R : Type) where
  S : Type
  absorb : S → List Byte → S
  res : S → S × R
  init : S
  seed : BitVec 64 → S
  bytes : List Byte → S

/-- the results returned while processing a stream, and the state reached -/
def Machine.run {R : Type} (M : Machine R) : M.S → List Tok → M.S × List R
  | s, [] => (s, [])
  | s, .data b :: ts => M.run (M.absorb s [b]) ts
  | s, .fin :: ts =>
    let (s, r) := M.res s
    let (s, rs) := M.run s ts
    (s, r :: rs)

end Hash2.Spec

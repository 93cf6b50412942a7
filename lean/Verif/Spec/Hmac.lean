import Verif.Spec.History
/-
HMAC, RFC 2104. Nothing here refers to the code.
-/
namespace Hash2.Spec

/-- the key as a block of B bytes: a key longer than B is hashed first; then zeros are appended -/
def hmacKey (H : List Byte → List Byte) (B : Nat) (key : List Byte) : List Byte :=
  let k := if key.length ≤ B then key else H key
  k ++ List.replicate (B - k.length) 0

/-- H(K XOR opad, H(K XOR ipad, text)) -/
def hmac (H : List Byte → List Byte) (B : Nat) (key text : List Byte) : List Byte :=
  let K := hmacKey H B key
  H (K.map (· ^^^ 0x5C) ++ H (K.map (· ^^^ 0x36) ++ text))

/-- The result of feeding a message to a machine in state s -/
def Machine.value {R : Type} (M : Machine R) (s : M.S) (msg : List Byte) : R := (M.res (M.absorb s msg)).2

/-- The HMAC object over a hash object: two hash objects, which have been fed with K XOR opad and K XOR ipad. -/
def Machine.hmac (M : Machine (List Byte)) (B : Nat) : Machine (List Byte) where
  S := M.S × M.S
  absorb s bs := (s.1, M.absorb s.2 bs)
  res s :=
    let (inner, r) := M.res s.2
    let (outer, d) := M.res (M.absorb s.1 r)
    ((outer, inner), d)
  init := keyed []
  seed k := keyed (if k = 0 then [] else natLE 8 k.toNat)
  bytes := keyed
where
  keyed (key : List Byte) : M.S × M.S :=
    let K := hmacKey (M.value M.init) B key
    (M.absorb M.init (K.map (· ^^^ 0x5C)), M.absorb M.init (K.map (· ^^^ 0x36)))

end Hash2.Spec

import Verif.Spec.Calls
/-
What the documentation demands of a hash algorithm, so that it can be used with hash_append and hmac.
-/
namespace Hash2
open Spec

/-- **The requirements on hash algorithms** (doc/hash2/hashing_bytes.adoc, "Hash Algorithm Requirements"), for an algorithm of the user.
`equiv` is the documentation's "equivalent": objects that cannot be told apart by calls. It may be narrower. -/
structure Requirements (A : HashAlg) (env : Env) where
  equiv : A.State → A.State → Prop
  /-- the three constructors succeed; the one from bytes looks at n bytes and nothing else -/
  default_ctor : ∃ s, A.init env = .ok s ∧ equiv s s
  seed_ctor : ∀ k, ∃ s, A.initSeed env k = .ok s ∧ equiv s s
  bytes_ctor : ∀ bs more, ∃ s s', A.initBytes env (.mem (bs ++ more)) bs.length = .ok s ∧ A.initBytes env (.mem bs) bs.length = .ok s' ∧
    equiv s s' ∧ equiv s s ∧ equiv s' s'
  null_ctor : ∃ s s', A.initBytes env .null 0 = .ok s ∧ A.initBytes env (.mem []) 0 = .ok s' ∧ equiv s s' ∧ equiv s s ∧ equiv s' s'
  /-- update succeeds, looks at n bytes and nothing else, and does the same to equivalent objects -/
  update_same : ∀ s s' bs more, equiv s s' → ∃ t t', A.update env s (.mem (bs ++ more)) bs.length = .ok t ∧
    A.update env s' (.mem bs) bs.length = .ok t' ∧ equiv t t'
  /-- "Calling update several times is equivalent to calling it once with the concatenated byte sequences": two calls -/
  update_twice : ∀ s xs ys t u t', equiv s s → A.update env s (.mem xs) xs.length = .ok t → A.update env t (.mem ys) ys.length = .ok u →
    A.update env s (.mem (xs ++ ys)) (xs ++ ys).length = .ok t' → equiv t' u
  /-- no call -/
  update_nothing : ∀ s t, equiv s s → A.update env s (.mem []) 0 = .ok t → equiv t s
  /-- result succeeds and is the same for equivalent objects, which stay equivalent -/
  result_same : ∀ s s', equiv s s' → ∃ t t' r, A.result env s = .ok (t, r) ∧ A.result env s' = .ok (t', r) ∧ equiv t t'
  /-- equivalent objects are objects the requirements are about -/
  left : ∀ s s', equiv s s' → equiv s s
  right : ∀ s s', equiv s s' → equiv s' s'

/-- update( nullptr, 0 ) is accepted too, and changes nothing -/
def Requirements.AcceptsNull {A : HashAlg} {env : Env} (L : Requirements A env) : Prop := ∀ s, L.equiv s s → A.update env s .null 0 = .ok s

end Hash2

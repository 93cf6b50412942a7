import Verif.Spec.Algorithms
import Verif.Spec.Messages
import Verif.Spec.Same
import Verif.Model.HashAppend
/-
Vocabulary of the statements about programs that use hash_append: what such a program is to do, and the conditions under which
statements are made.
-/
namespace Hash2
open Spec

/-- what messages depend on, on a platform under a flavor -/
def layout (env : Env) (f : Flavor) : Layout := ⟨f.endian env, f.sizeType.n, env.ptrSz.n, env.fp.canonicalNaN⟩

/-- get_integral_result<std::uint64_t>( r ) -/
def HashAlg.numberOf (A : HashAlg) (env : Env) (r : A.R) : W64 :=
  match A.integral env r with
  | .error _ => 0
  | .ok x => x

/-- the number of the hash of bs, in an object on which the calls `before` have been made: get_integral_result of the last
result of the program `before; update( bs ); result()` -/
def HashAlg.number (A : HashAlg) (env : Env) (c : Ctor) (before : List Op) (bs : List Byte) : W64 :=
  match A.exec env c (before ++ [.update (.mem bs) bs.length, .result]) with
  | .error _ => 0
  | .ok rs =>
    match rs.getLast? with
    | none => 0
    | some r => A.numberOf env r

/-- the message of v, when hash_append( h, f, v ) is called after the calls `before` -/
def HashAlg.messageOf (A : HashAlg) (env : Env) (c : Ctor) (before : List Op) (f : Flavor) (t : Ty) (v : t.Val) : List Byte :=
  message (layout env f) (A.number env c before) t v []

/-- **What a program with hash_append is to do**: every hash_append is one update with the message of the object. -/
def HashAlg.expand (A : HashAlg) (env : Env) (c : Ctor) : (before : List Op) → List Stmt → List Op
  | _, [] => []
  | before, .call op :: ps => op :: A.expand env c (before ++ [op]) ps
  | before, .append f t v :: ps =>
    let m := A.messageOf env c before f t v
    .update (.mem m) m.length :: A.expand env c (before ++ [.update (.mem m) m.length]) ps

/-- A statement that makes sense: a call with readable memory; a value of a type that exists, without pointers in constant
expressions. -/
def Stmt.Valid (env : Env) : Stmt → Prop
  | .call op => op.toks.isSome
  | .append _ t v => wellFormed t = true ∧ Spec.Valid (8 * env.ptrSz.n) t v ∧ (env.constEval = true → pointerFree t = true)

/-- the statement passes no null pointer to the hash object: data() of an empty vector may be one -/
def Stmt.NoNull (env : Env) : Stmt → Prop
  | .call op => ∀ n, op ≠ .update .null n
  | .append _ t v => env.emptyDataNull = false ∨ NoEmpty t v

/-- what a statement adds to a byte counter at most -/
def Stmt.cost : Stmt → Nat
  | .call (.update _ n) => n
  | .call .result => 192
  | .append _ t v => weight t v

def progCost (ps : List Stmt) : Nat := (ps.map Stmt.cost).sum

/-- The byte counter does not wrap where it must not, for k more bytes: see `AlgName.Room` -/
def AlgName.RoomFor (env : Env) (c : Ctor) (k : Nat) : AlgName → Prop
  | .spooky2_128 => c.cost + k < 2 ^ env.sizeBits
  | _ => True

/-- The program can be run: all calls are valid, no null pointers where these are undefined (SHA-2 at run time, see
`sha2_null_update_undefined`), and floating point numbers are not rounded downward. -/
structure AlgName.Runs (a : AlgName) (env : Env) (c : Ctor) (ps : List Stmt) : Prop where
  ctor : c.Valid
  valid : ∀ p ∈ ps, p.Valid env
  null : a.NullOk env ∨ ∀ p ∈ ps, p.NoNull env
  round : env.fp.roundDown = false
  room : a.RoomFor env c (progCost ps)

/-- the statement does not depend on what differs between the two platforms: byte order (unless the flavor fixes it), size of
addresses, treatment of NaNs -/
def Stmt.Portable (env₁ env₂ : Env) : Stmt → Prop
  | .call _ => True
  | .append f t v => (f.order ≠ .native ∨ env₁.native = env₂.native) ∧ (pointerFree t = true ∨ env₁.size64 = env₂.size64) ∧
    (NoNaN t v ∨ env₁.fp.canonicalNaN = env₂.fp.canonicalNaN)

/-- the same call, or hash_append with the same flavor of objects that hold the same -/
def Stmt.Same : Stmt → Stmt → Prop
  | .call op, .call op' => op = op'
  | .append f t v, .append f' t' v' => f = f' ∧ Spec.Same t t' v v'
  | _, _ => False

/-- A hash algorithm that keeps all it is fed: the state is the sequence of bytes. `num` stands for get_integral_result. -/
def recorder (num : List Byte → W64) : HashAlg where
  State := List Byte
  R := List Byte
  init _ := .ok []
  initSeed _ _ := .ok []
  initBytes _ _ _ := .ok []
  update _ s p n := if p.Readable n then .ok (s ++ p.bytes n) else .error .oob
  result _ s := .ok (s, s)
  integral _ r := .ok (num r)

end Hash2

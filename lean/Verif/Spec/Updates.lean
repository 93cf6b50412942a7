import Verif.Spec.Programs
/-
hash_append seen from the algorithm: which member functions it calls, and how often.
-/
namespace Hash2
open Spec

/-- calls of update( p, n ), one after another, and nothing else -/
def HashAlg.updates (A : HashAlg) (env : Env) : A.State → List (Ptr × Nat) → M A.State
  | s, [] => .ok s
  | s, c :: cs => do
    let s ← A.update env s c.1 c.2
    A.updates env s cs

/-- `get_integral_result<std::uint64_t>( h.result() )` -/
def HashAlg.hashValue (A : HashAlg) (env : Env) (s : A.State) : M W64 := do
  let (_, r) ← A.result env s
  A.integral env r

/-- both calls fail in the same way, or both succeed and leave related objects -/
def SameOutcome {α β : Type} (R : α → β → Prop) : M α → M β → Prop
  | .ok a, .ok b => R a b
  | .error e, .error e' => e = e'
  | _, _ => False

namespace Spec

/-- the type is unsigned char -/
def isByte : Ty → Bool
  | .int .uchar => true
  | _ => false

mutual
/-- **How many calls of update** hash_append makes for an object without unordered containers. `object t`: an object of type t is hashed at once,
as memory; `range t`: a range of them that is given by pointers is. -/
def updateCount (object range : Ty → Bool) : (t : Ty) → t.Val → Nat
  -- a range: one call, or those for the elements
  | .carray n t, vs => if object (.carray n t) then 1 else if range t then 1 else (vs.map (updateCount object range t)).sum
  | .range k t, vs => if k.byPointer && range t then 1 else (vs.map (updateCount object range t)).sum
  -- a container: the same, and one for the size
  | .seq k t, vs => (if k.byPointer && range t then 1 else (vs.map (updateCount object range t)).sum) + 1
  -- an array, which is not empty
  | .arr _ _ _, [] => 1
  | .arr k _ t, vs => if k.byPointer && range t then 1 else (vs.map (updateCount object range t)).sum
  -- tuples and classes: those for the parts, if there are any
  | .tuple .nil, _ => 1
  | .tuple ts, v => updateCounts object range ts v
  | .described _ _ .nil .nil, _ => 1
  | .described x y bs ms, v =>
    if object (.described x y bs ms) then 1 else updateCounts object range bs v.1 + updateCounts object range ms v.2
  | .user cs, v => updateCounts object range cs v
  -- numbers
  | _, _ => 1
/-- the sum -/
def updateCounts (object range : Ty → Bool) : (ts : Tys) → ts.Val → Nat
  | .nil, _ => 0
  | .cons t ts, v => updateCount object range t v.1 + updateCounts object range ts v.2
end

end Spec

/-- objects of the type are hashed at once, as memory: they are contiguously hashable, and the compiler knows that it is not evaluating a constant
expression -/
def objectAtOnce (env : Env) (f : Flavor) (t : Ty) : Bool := !env.isConstantEvaluated && t.contiguouslyHashable env (f.endian env)

/-- ranges of them are, if they are given by pointers: likewise (C++11 compilers need not know); always for unsigned char -/
def rangeAtOnce (env : Env) (f : Flavor) (t : Ty) : Bool := isByte t || (!env.loops && t.contiguouslyHashable env (f.endian env))

end Hash2

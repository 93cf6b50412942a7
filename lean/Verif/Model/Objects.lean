import Verif.Model.HashAppend
/-
Programs with several hash objects.
-/
namespace Hash2

/-- One step of a program that uses several hash objects of the same class, named by numbers; copies as in
doc/hash2/hashing_bytes.adoc:42-43 and hash_append.hpp:155. Not code of /repo: what its user writes. -/
inductive Act
  /-- `H i( ... );`, or `i = H( ... );` -/
  | construct (i : Nat) (c : Ctor)
  /-- `H i( j );`, or `i = j;` -/
  | copy (i j : Nat)
  /-- a call on the object i, or hash_append to it -/
  | stmt (i : Nat) (p : Stmt)

/-- The objects that exist. Not code of /repo: the memory of its user (doc/hash2/hashing_bytes.adoc:42-43). -/
abbrev Objects (A : HashAlg) := Nat → Option A.State

/-- assignment to an object, doc/hash2/hashing_bytes.adoc:43 -/
def Objects.set {A : HashAlg} (o : Objects A) (i : Nat) (s : A.State) : Objects A := fun j => if j = i then some s else o j

/-- use of an object (doc/hash2/hashing_bytes.adoc:42); that of one that does not exist is an access out of bounds -/
def Objects.get {A : HashAlg} (o : Objects A) (i : Nat) : M A.State :=
  match o i with
  | some s => .ok s
  | none => .error .oob

/-- The program; the results returned, each with the object. No class of include/boost/hash2 declares a copy constructor, copy assignment or
destructor, and all members are integers, arrays of integers, or (hmac.hpp:47-48) such objects: the implicit ones copy the
members. Members of one class are not shared between objects: there are no static data members that change. -/
def HashAlg.runActs (A : HashAlg) (env : Env) : Objects A → List Act → M (List (Nat × A.R))
  | _, [] => .ok []
  | o, .construct i c :: as => do
    let s ← A.construct env c
    A.runActs env (o.set i s) as
  | o, .copy i j :: as => do
    let s ← o.get j
    A.runActs env (o.set i s) as
  | o, .stmt i p :: as => do
    let s ← o.get i
    let (s, rs) ← A.runStmts env s [p]
    let out ← A.runActs env (o.set i s) as
    return rs.map (fun r => (i, r)) ++ out

end Hash2

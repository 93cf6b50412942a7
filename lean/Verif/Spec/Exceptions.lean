import Verif.Spec.Programs
/-
hash_append that is left by an exception. User code that hash_append runs (a tag_invoke, the iterators of a range, a conversion) may throw;
nothing in the library catches. The hash object is then in the state in which the calls made on it so far have left it: hash_append holds a
reference to it, and its copies (hash_append_unordered_range) are local.
-/
namespace Hash2

/-- A class that wraps A and keeps a record of the calls of update that pass at least one byte. A copy of an object has a record of its own. -/
def HashAlg.logging (A : HashAlg) : HashAlg where
  State := A.State × List (Ptr × Nat)
  R := A.R
  init env := (A.init env).map fun s => (s, [])
  initSeed env k := (A.initSeed env k).map fun s => (s, [])
  initBytes env p n := (A.initBytes env p n).map fun s => (s, [])
  update env s p n := (A.update env s.1 p n).map fun t => (t, if n = 0 then s.2 else s.2 ++ [(p, n)])
  result env s := (A.result env s.1).map fun x => ((x.1, s.2), x.2)
  integral := A.integral

/-- the calls of update (with at least one byte) that `hash_append( h, f, v )` makes on h, in order, h being the object constructed by c after
the statements `before` -/
def HashAlg.callsMade (A : HashAlg) (env : Env) (c : Ctor) (before : List Stmt) (f : Flavor) (t : Ty) (v : t.Val) : M (List (Ptr × Nat)) := do
  let s ← A.construct env c
  let (s, _) ← A.runStmts env s before
  let (_, calls) ← hashAppend A.logging env f t v (s, [])
  return calls

/-- the statement `h.update( p, n );` -/
def updateStmt (c : Ptr × Nat) : Stmt := .call (.update c.1 c.2)

/-- the bytes that the calls pass -/
def bytesPassed (calls : List (Ptr × Nat)) : List Byte := calls.flatMap fun c => c.1.bytes c.2

end Hash2

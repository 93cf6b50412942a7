import Verif.Spec.Programs
/-
The number that stands for an element of an unordered container.
-/
namespace Hash2
open Spec

/-- The number of an element x, for a hash object h that has been constructed by c and on which the statements `before` have been executed:
`H h2( h ); hash_append( h2, f, x ); get_integral_result<std::uint64_t>( h2.result() )`, that is, the last result of the program
before; hash_append( h, f, x ); h.result() as a number. -/
def HashAlg.elementNumber (A : HashAlg) (env : Env) (c : Ctor) (before : List Stmt) (f : Flavor) (t : Ty) (x : t.Val) : W64 :=
  match A.execStmts env c (before ++ [.append f t x, .call .result]) with
  | .error _ => 0
  | .ok rs =>
    match rs.getLast? with
    | none => 0
    | some r => A.numberOf env r

end Hash2

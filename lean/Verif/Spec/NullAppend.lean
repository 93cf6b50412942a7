import Verif.Spec.NullCalls
import Verif.Spec.Programs
/-
Where hash_append comes upon an empty range given by pointers.
-/
namespace Hash2
open Spec

namespace Spec

/-- the places of the elements of a range, one after another: `m` are their messages -/
def placesEach {α : Type} (m : α → List Byte → List Byte) (places : α → List Byte → List (List Byte)) :
    List α → List Byte → List (List Byte)
  | [], _ => []
  | v :: vs, before => places v before ++ placesEach m places vs (before ++ m v before)

mutual
/-- **The empty ranges in a value** that are given by pointers and whose elements would be hashed as memory (`asMemory`): for
each of them, the bytes that have been fed to the object when hash_append comes upon it. The elements of unordered containers are
fed to copies of the object, which have got the same bytes as the object itself. -/
def emptyRanges (asMemory : Ty → Bool) (L : Layout) (H : List Byte → W64) : (t : Ty) → t.Val → List Byte → List (List Byte)
  | .carray _ t, vs, before => placesEach (message L H t) (emptyRanges asMemory L H t) vs before
  | .seq k t, vs, before =>
    if vs.isEmpty && k.byPointer && asMemory t then [before] else placesEach (message L H t) (emptyRanges asMemory L H t) vs before
  | .arr _ _ t, vs, before => placesEach (message L H t) (emptyRanges asMemory L H t) vs before
  | .unord t, vs, before => vs.flatMap fun v => emptyRanges asMemory L H t v before
  | .tuple ts, v, before => emptyRangesAll asMemory L H ts v before
  | .described _ _ bs ms, v, before =>
    emptyRangesAll asMemory L H bs v.1 before ++ emptyRangesAll asMemory L H ms v.2 (before ++ messages L H bs v.1 before)
  | .user cs, v, before => emptyRangesAll asMemory L H cs v before
  | .range k t, vs, before =>
    if vs.isEmpty && k.byPointer && asMemory t then [before] else placesEach (message L H t) (emptyRanges asMemory L H t) vs before
  | _, _, _ => []
/-- the same for several values, one after another -/
def emptyRangesAll (asMemory : Ty → Bool) (L : Layout) (H : List Byte → W64) : (ts : Tys) → ts.Val → List Byte → List (List Byte)
  | .nil, _, _ => []
  | .cons t ts, v, before =>
    emptyRanges asMemory L H t v.1 before ++ emptyRangesAll asMemory L H ts v.2 (before ++ message L H t v.1 before)
end

end Spec

/-- **The program passes a null pointer in the middle of a block** of B bytes, after the calls `before`: it calls update( nullptr, 0 ), or
hash_append on something with an empty range, whose data() is null on this platform, when the number of bytes fed since the last
result() is not a multiple of B. -/
def HashAlg.NullMidProgram (A : HashAlg) (env : Env) (c : Ctor) (B : Nat) : (before : List Op) → List Stmt → Prop
  | _, [] => False
  | before, .call op :: ps => (op = .update .null 0 ∧ sinceResult before % B ≠ 0) ∨ A.NullMidProgram env c B (before ++ [op]) ps
  | before, .append f t v :: ps =>
    let m := A.messageOf env c before f t v
    (env.emptyDataNull = true ∧
      ∃ q ∈ emptyRanges (fun t => t.contiguouslyHashable env (f.endian env)) (layout env f) (A.number env c before) t v [],
        (sinceResult before + q.length) % B ≠ 0) ∨
    A.NullMidProgram env c B (before ++ [.update (.mem m) m.length]) ps

end Hash2

import Verif.Spec.Algorithms
import Verif.Spec.Future
/-
Vocabulary for: collisions come from the compression function.
-/
namespace Hash2
open Spec

/-- the arguments with which f is called in a fold -/
def Spec.foldCalls {σ β : Type} (f : σ → β → σ) : σ → List β → List (σ × β)
  | _, [] => []
  | s, b :: bs => (s, b) :: foldCalls f (f s b) bs

/-- the arguments (chaining value, block) with which the compression function is called while msg is hashed -/
def Spec.Md.calls {σ : Type} (D : Md σ) (msg : List Byte) : List (σ × List Byte) :=
  foldCalls D.compress D.iv (blocks D.N (msg ++ D.pad msg.length))

/-- Two calls of the compression function, one made while x is hashed, one while y is, with different arguments and the same value -/
def Spec.Md.CompressionCollision {σ : Type} (D : Md σ) (x y : List Byte) : Prop :=
  ∃ p ∈ D.calls x, ∃ q ∈ D.calls y, p ≠ q ∧ D.compress p.1 p.2 = D.compress q.1 q.2

/-- the last chaining values differ, but the digests, to which not the whole of them belongs, do not -/
def Spec.Md.TruncationCollision {σ : Type} (D : Md σ) (x y : List Byte) : Prop :=
  D.chain (x ++ D.pad x.length) ≠ D.chain (y ++ D.pad y.length) ∧
    D.out (D.chain (x ++ D.pad x.length)) = D.out (D.chain (y ++ D.pad y.length))

end Hash2

import Verif.Props.Integral
import Mathlib.Data.List.NodupEquivFin
import Mathlib.Algebra.BigOperators.Fin
import Mathlib.Data.Fintype.BigOperators
import Mathlib.Algebra.Order.BigOperators.Group.Finset
/-
For C76: sums over lists that contain every value once.
-/
namespace Hash2
open Integral

namespace Average

noncomputable local instance {n : Nat} : Fintype (BitVec n) :=
  Fintype.ofEquiv (Fin (2 ^ n)) ⟨BitVec.ofFin, BitVec.toFin, fun _ => rfl, fun _ => rfl⟩

theorem card_bv (n : Nat) : Fintype.card (BitVec n) = 2 ^ n := by
  rw [← Fintype.card_fin (2 ^ n)]
  exact (Fintype.card_congr ⟨BitVec.ofFin, BitVec.toFin, fun _ => rfl, fun _ => rfl⟩).symm

theorem sum_toInt (n : Nat) (h : 0 < n) : ∑ y : BitVec n, (2 * y.toInt + 1) = 0 := by
  have e : ∑ y : BitVec n, (~~~y).toInt = ∑ y : BitVec n, y.toInt :=
    Equiv.sum_comp (⟨(~~~·), (~~~·), fun x => by simp, fun x => by simp⟩ : BitVec n ≃ BitVec n) (fun y => y.toInt)
  have hn : ∀ y : BitVec n, (~~~y).toInt = -1 - y.toInt := by
    intro y
    have h1 := BitVec.toInt_eq_toNat_cond y
    have h2 := BitVec.toInt_eq_toNat_cond (~~~y)
    rw [BitVec.toNat_not] at h2
    have hy := y.isLt
    have h3 : 2 ^ n = 2 * 2 ^ (n - 1) := by rw [← Nat.pow_succ']; congr 1; omega
    split at h2 <;> split at h1 <;> omega
  have : ∑ y : BitVec n, (~~~y).toInt = ∑ y : BitVec n, (-1 - y.toInt) := Finset.sum_congr rfl fun y _ => hn y
  rw [Finset.sum_sub_distrib, e] at this
  rw [Finset.sum_add_distrib, ← Finset.mul_sum]
  have h1 : ∑ y : BitVec n, (-1 : Int) = - ∑ y : BitVec n, (1 : Int) := by rw [Finset.sum_neg_distrib]
  omega

/-- as many r as there are places, for a list with every value once -/
theorem places {α : Type} (l : List α) (nd : l.Nodup) (all : ∀ x, x ∈ l) (P : α → Prop) :
    Nat.card {i : Fin l.length // P l[i]} = Nat.card {x : α // P x} := by
  classical
  exact Nat.card_congr (Equiv.subtypeEquiv (List.Nodup.getEquivOfForallMemList l nd all) fun i => Iff.rfl)

/-- the sum over results that are integers of rsz bytes -/
def twiceSum (rsz ts : Nat) : List (BitVec (8 * rsz)) → M Int
  | [] => .ok 0
  | r :: rs => do
    let y ← get rsz ts r
    let s ← twiceSum rsz ts rs
    return 2 * y.toInt + 1 + s

theorem twiceSum_ok {rsz ts : Nat} {v : BitVec (8 * rsz) → BitVec (8 * ts)} (h : ∀ r, get rsz ts r = .ok (v r)) (l : List (BitVec (8 * rsz))) :
    twiceSum rsz ts l = .ok (l.map fun r => 2 * (v r).toInt + 1).sum := by
  induction l with
  | nil => rfl
  | cons r l ih => rw [twiceSum, h, ih]; rfl

theorem sum_zero {rsz ts k : Nat} (h0 : 0 < ts) (h : ∀ r, ∃ y, get rsz ts r = .ok y)
    (hc : ∀ y, Nat.card {r : BitVec (8 * rsz) // get rsz ts r = .ok y} = k)
    (l : List (BitVec (8 * rsz))) (nd : l.Nodup) (all : ∀ x, x ∈ l) : twiceSum rsz ts l = .ok 0 := by
  classical
  choose v hv using h
  rw [twiceSum_ok hv]
  have e1 : (l.map fun r => 2 * (v r).toInt + 1).sum = ∑ r : BitVec (8 * rsz), (2 * (v r).toInt + 1) := by
    rw [← List.sum_toFinset _ nd]
    congr 1
    ext x; simp [all]
  have e2 : ∑ r : BitVec (8 * rsz), (2 * (v r).toInt + 1) = ∑ y : BitVec (8 * ts), k • (2 * y.toInt + 1) := by
    rw [← Finset.sum_fiberwise (s := Finset.univ) (g := v)]
    refine Finset.sum_congr rfl fun y _ => ?_
    rw [Finset.sum_congr rfl (g := fun _ => 2 * y.toInt + 1) (fun r hr => by rw [(Finset.mem_filter.1 hr).2]), Finset.sum_const]
    congr 1
    rw [← hc y, Nat.card_eq_fintype_card, Fintype.card_subtype]
    congr 1
    ext r
    simp [hv]
  rw [e1, e2, Finset.sum_nsmul, sum_toInt _ (by omega), nsmul_zero]

theorem fibres (rs ts : Sz) (h : ts.n ≤ rs.n) (h2 : rs ≠ .s2) : (∀ r, ∃ x, get rs.n ts.n r = .ok x) ∧
    ∀ x, Nat.card { r : BitVec (8 * rs.n) // get rs.n ts.n r = .ok x } = 2 ^ (8 * (rs.n - ts.n)) := by
  by_cases e : ts.n < rs.n
  · exact integral_result_balanced_partial rs ts e h2
  · obtain rfl : rs = ts := by cases rs <;> cases ts <;> simp_all [Sz.n]
    refine ⟨fun r => ⟨r, integral_result_same _ r⟩, fun x => ?_⟩
    rw [Nat.sub_self]
    have : ∀ r : BitVec (8 * rs.n), get rs.n rs.n r = .ok x ↔ r = x := fun r => by
      rw [integral_result_same]; exact ⟨fun h => by injection h, fun h => by rw [h]⟩
    simp only [this]
    simp

end Average

end Hash2

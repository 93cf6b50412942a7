import Verif.Lemmas.FnvPeriod
import Verif.Lemmas.All
import Mathlib.Data.Fintype.Card
import Mathlib.Data.List.Nodup
import Mathlib.Data.List.Range
/-
Successive results of FNV-1a (C37): from the step on numbers to the machine.
-/
namespace Hash2
open Spec

namespace FnvPeriod
variable {w : ℕ}

/-- the state after n calls of result() -/
theorem iter_toNat (hw : 8 ≤ w) (p h : BitVec w) (n : ℕ) :
    ((fun h => FNV.feed p h [0xFF])^[n] h).toNat = (T p.toNat)^[n] h.toNat % 2 ^ w := by
  induction n with
  | zero => simp [Nat.mod_eq_of_lt h.isLt]
  | succ n ih =>
    rw [Function.iterate_succ_apply', Function.iterate_succ_apply']
    generalize (fun h => FNV.feed p h [0xFF])^[n] h = s at ih ⊢
    have : 2 ^ 8 ≤ 2 ^ w := Nat.pow_le_pow_right (by decide) hw
    have e1 : (FNV.feed p s [0xFF]).toNat = (T p.toNat)^[1] s.toNat % 2 ^ w := by
      simp only [FNV.feed, List.foldl_cons, List.foldl_nil, BitVec.toNat_mul, BitVec.toNat_xor, BitVec.toNat_ofNat, Function.iterate_one, T]
      rw [show BitVec.toNat (255 : BitVec 8) = 255 from rfl, Nat.mod_eq_of_lt (show 255 < 2 ^ w by omega)]
    rw [e1, ih]
    exact iter_mod p.toNat hw 1 (Nat.mod_modEq _ _)

theorem iter_inj (hw : 8 ≤ w) (p : BitVec w) (hg : Good p.toNat) (h : BitVec w) {i j : ℕ} (hij : i < j) (hj : j < i + 2 ^ w) :
    (fun h => FNV.feed p h [0xFF])^[i] h ≠ (fun h => FNV.feed p h [0xFF])^[j] h := by
  intro e
  obtain ⟨d, rfl⟩ : ∃ d, j = d + i := ⟨j - i, by omega⟩
  rw [Function.iterate_add_apply] at e
  generalize (fun h => FNV.feed p h [0xFF])^[i] h = s at e
  have e := congrArg BitVec.toNat e.symm
  rw [iter_toNat hw] at e
  have := period hg hw s.toNat d (by rw [Nat.ModEq, e, Nat.mod_eq_of_lt s.isLt])
  have := Nat.le_of_dvd (by omega) this
  omega

/-- the results of n calls -/
theorem run_fins (p h : BitVec w) (n : ℕ) :
    ((FNV.machine p).run h (List.replicate n .fin)).2 = (List.range n).map fun i => (fun h => FNV.feed p h [0xFF])^[i] h := by
  induction n generalizing h with
  | zero => rfl
  | succ n ih =>
    show h :: ((FNV.machine p).run (FNV.feed p h [0xFF]) (List.replicate n .fin)).2 = _
    rw [ih, List.range_succ_eq_map, List.map_cons, List.map_map]
    rfl

theorem fins_nodup (hw : 8 ≤ w) (p : BitVec w) (hg : Good p.toNat) (h : BitVec w) (n : ℕ) (hn : n ≤ 2 ^ w) :
    ((FNV.machine p).run h (List.replicate n .fin)).2.Nodup := by
  rw [run_fins]
  refine List.Nodup.map_on (fun i hi j hj e => ?_) List.nodup_range
  rw [List.mem_range] at hi hj
  rcases Nat.lt_trichotomy i j with hlt | rfl | hlt
  · exact absurd e (iter_inj hw p hg h hlt (by omega))
  · rfl
  · exact absurd e.symm (iter_inj hw p hg h hlt (by omega))

theorem fins_length (p h : BitVec w) (n : ℕ) : ((FNV.machine p).run h (List.replicate n .fin)).2.length = n := by
  rw [run_fins]; simp

/-- 2^w different words are all words -/
theorem all_mem (l : List (BitVec w)) (hn : l.Nodup) (hl : l.length = 2 ^ w) (x : BitVec w) : x ∈ l := by
  have hn' : (l.map BitVec.toFin).Nodup := hn.map fun a b h => BitVec.eq_of_toFin_eq h
  have : (l.map BitVec.toFin).toFinset = Finset.univ := by
    apply Finset.eq_univ_of_card
    rw [List.toFinset_card_of_nodup hn', List.length_map, hl, Fintype.card_fin]
  have hx : x.toFin ∈ (l.map BitVec.toFin).toFinset := by rw [this]; exact Finset.mem_univ _
  rw [List.mem_toFinset, List.mem_map] at hx
  obtain ⟨y, hy, e⟩ := hx
  rw [← BitVec.eq_of_toFin_eq e]
  exact hy

end FnvPeriod

theorem stream_results (k : ℕ) : stream (List.replicate k .result) = some (List.replicate k .fin) := by
  induction k with
  | zero => rfl
  | succ k ih => rw [List.replicate_succ, stream, ih]; rfl

end Hash2

import Verif.Lemmas.Md
/-
Lemmas for compression functions: loading of the words, rotations, sequences of rounds.
-/
namespace Hash2
open Spec

theorem rotl_eq {w : Nat} (v : BitVec w) {k : Nat} (h : k < w) : rotl v k = v.rotateLeft k := by
  rw [BitVec.rotateLeft_def, Nat.mod_eq_of_lt h]; rfl

theorem rotr_eq {w : Nat} (v : BitVec w) {k : Nat} (h : k < w) : rotr v k = v.rotateRight k := by
  rw [BitVec.rotateRight_def, Nat.mod_eq_of_lt h]; rfl

theorem rotlM_eq {w : Nat} (v : BitVec w) {k : Nat} (h0 : 0 < k) (h : k < w) : rotlM v k = .ok (v.rotateLeft k) := by
  rw [rotlM, if_pos ⟨h0, h⟩, rotl_eq v h]

/-- appending to an array known up to i -/
theorem aset_append {α : Type} (xs : List α) (x y : α) (m : Nat) :
    aset (xs ++ List.replicate (m + 1) y) xs.length x = .ok (xs ++ [x] ++ List.replicate m y) := by
  rw [aset_ok (by simp), List.set_append_right _ _ (by omega), Nat.sub_self, List.replicate_succ]
  simp

/-- the loop that loads the words of a block -/
theorem forLoop_load {k : Nat} (rd : Ptr → M (BitVec k)) (dec : List Byte → BitVec k) (w : Nat)
    (hrd : ∀ bs : List Byte, w ≤ bs.length → rd (.mem bs) = .ok (dec (bs.take w)))
    (b more : List Byte) (cnt extra : Nat) (hb : w * cnt ≤ b.length) :
    forLoop (fun i x => do
      let p ← (Ptr.mem (b ++ more)).add (i * w)
      let v ← rd p
      aset x i v) 0 cnt (List.replicate (cnt + extra) 0)
      = .ok ((List.range cnt).map (fun i => dec ((b.drop (w * i)).take w)) ++ List.replicate extra 0) := by
  obtain ⟨a, e, h⟩ := forLoop_inv (fun i x => do
      let p ← (Ptr.mem (b ++ more)).add (i * w)
      let v ← rd p
      aset x i v) 0
    (fun j x => x = (List.range j).map (fun i => dec ((b.drop (w * i)).take w)) ++ List.replicate (cnt + extra - j) 0)
    (List.replicate (cnt + extra) 0) (by simp) cnt (by
      intro j x hj hx
      subst hx
      have h1 : w * (j + 1) ≤ w * cnt := Nat.mul_le_mul_left w hj
      rw [Nat.mul_add, Nat.mul_one] at h1
      refine ⟨_, ?_, rfl⟩
      simp only [Nat.zero_add]
      rw [Nat.mul_comm j w, Ptr.add_mem (by simp; omega)]
      simp only [Except.bind_ok]
      rw [hrd _ (by simp; omega)]
      simp only [Except.bind_ok]
      have := aset_append ((List.range j).map (fun i => dec ((b.drop (w * i)).take w)))
        (dec (((b ++ more).drop (w * j)).take w)) 0 (cnt + extra - (j + 1))
      rw [show cnt + extra - (j + 1) + 1 = cnt + extra - j by omega] at this
      simp only [List.length_map, List.length_range] at this
      rw [this, List.range_succ, List.map_append, List.drop_append_of_le_length (by omega),
        List.take_append_of_le_length (by simp; omega)]
      simp)
  rw [e, h]
  congr 3; omega

/-- a sequence of calls, one per row of a table, against a sequence of steps -/
theorem foldlM_rows {σ τ ρ : Type} (exec : ρ → σ → M σ) (rowOf : Nat → ρ) (step : Nat → τ → τ)
    (V : Nat → σ → τ → Prop) (n : Nat)
    (h : ∀ i, i < n → ∀ q t, V i q t → ∃ q', exec (rowOf i) q = .ok q' ∧ V (i + 1) q' (step i t))
    (q : σ) (t : τ) (h0 : V 0 q t) :
    ∃ q', ((List.range n).map rowOf).foldlM (fun q r => exec r q) q = .ok q' ∧
      V n q' ((List.range n).foldl (fun t i => step i t) t) := by
  induction n with
  | zero => exact ⟨q, rfl, h0⟩
  | succ n ih =>
    obtain ⟨q1, e1, h1⟩ := ih (fun i hi => h i (by omega))
    obtain ⟨q2, e2, h2⟩ := h n (by omega) q1 _ h1
    refine ⟨q2, ?_, ?_⟩
    · rw [List.range_succ, List.map_append, List.foldlM_append, e1]
      simp [e2]
    · rw [List.range_succ, List.foldl_append]; exact h2

/-- a counted loop against a sequence of steps -/
theorem forLoop_steps {σ τ : Type} (body : Nat → σ → M σ) (step : Nat → τ → τ)
    (V : Nat → σ → τ → Prop) (n : Nat)
    (h : ∀ i, i < n → ∀ q t, V i q t → ∃ q', body i q = .ok q' ∧ V (i + 1) q' (step i t))
    (q : σ) (t : τ) (h0 : V 0 q t) :
    ∃ q', forLoop body 0 n q = .ok q' ∧ V n q' ((List.range n).foldl (fun t i => step i t) t) := by
  induction n with
  | zero => exact ⟨q, rfl, h0⟩
  | succ n ih =>
    obtain ⟨q1, e1, h1⟩ := ih (fun i hi => h i (by omega))
    obtain ⟨q2, e2, h2⟩ := h n (by omega) q1 _ h1
    refine ⟨q2, ?_, ?_⟩
    · rw [forLoop_succ, e1]; simpa using e2
    · rw [List.range_succ, List.foldl_append]; exact h2

end Hash2

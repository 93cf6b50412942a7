import Verif.Spec.DigestArray
import Verif.Lemmas.DigestOps
import Mathlib.Data.List.Induction
/-
Digest objects as arrays: helper lemmas for Props/DigestArray.lean.
-/
namespace Hash2.Digest
open Spec

theorem execOps_snoc (env : Env) (N : Nat) (ops : List Op) (o : Op) (m : Nat → List Byte) :
    execOps env N (ops ++ [o]) m = (execOps env N ops m >>= fun m => o.step env N m) := by
  induction ops generalizing m with
  | nil =>
    simp only [List.nil_append, execOps, Except.bind_ok]
    cases o.step env N m <;> rfl
  | cons a os ih =>
    simp only [List.cons_append, execOps]
    cases a.step env N m with
    | error e => rfl
    | ok m1 => exact ih m1

/-- what a valid statement does -/
theorem step_ok (env : Env) (N : Nat) (o : Op) (h : DigestOp.Valid N o) (m : Nat → List Byte) (hm : ∀ d, (m d).length = N) :
    ∃ m', o.step env N m = .ok m' ∧ (∀ d, (m' d).length = N) ∧
      ∀ (ini : Nat → Nat → Byte) (before : List Op), (∀ d i, i < N → (m d).getD i 0 = placeRev N ini before d i) →
        ∀ d i, i < N → (m' d).getD i 0 = placeRev N ini (o :: before) d i := by
  have hset : ∀ (d j : Nat) (x : Byte), j < N →
      (∀ k, ((fun k => if k = d then (m d).set j x else m k) k).length = N) ∧
      ∀ (ini : Nat → Nat → Byte) (before : List Op), (∀ d i, i < N → (m d).getD i 0 = placeRev N ini before d i) →
        ∀ k i, i < N → ((fun k => if k = d then (m d).set j x else m k) k).getD i 0 =
          if k = d ∧ i = j then x else placeRev N ini before k i := by
    intro d j x hj
    constructor
    · intro k
      dsimp only
      split
      · rw [List.length_set, hm]
      · exact hm k
    · intro ini before hb k i hi
      dsimp only
      by_cases hk : k = d
      · subst hk
        rw [if_pos rfl, List.getD_eq_getElem?_getD, List.getElem?_set]
        by_cases hij : i = j
        · subst hij
          have : i < (m k).length := by rw [hm]; exact hi
          simp [this]
        · rw [if_neg (fun h => hij h.symm), if_neg (fun h => hij h.2), ← hb k i hi, List.getD_eq_getElem?_getD]
      · rw [if_neg hk, if_neg (fun h => hk h.1), hb k i hi]
  cases o with
  | clear d =>
    refine ⟨_, rfl, ?_, ?_⟩
    · intro k
      dsimp only
      split
      · simp [zero]
      · exact hm k
    · intro ini before hb k i hi
      dsimp only [placeRev]
      by_cases hk : k = d
      · rw [if_pos hk, if_pos hk, zero, List.getD_eq_getElem?_getD, List.getElem?_replicate]
        simp [hi]
      · rw [if_neg hk, if_neg hk, hb k i hi]
  | load d v =>
    have hv : v.length = N := h
    have e : ofArray env N v = .ok v := by
      rw [Digest.ofArray, memcpy_ok _ _ _ _ _ (by omega) (by simp [Digest.zero])]
      subst hv
      simp [Digest.zero]
    refine ⟨fun k => if k = d then v else m k, ?_, ?_, ?_⟩
    · simp only [Op.step, e, Except.bind_ok]
      rfl
    · intro k
      dsimp only
      split
      · exact hv
      · exact hm k
    · intro ini before hb k i hi
      dsimp only [placeRev]
      by_cases hk : k = d
      · rw [if_pos hk, if_pos hk]
      · rw [if_neg hk, if_neg hk, hb k i hi]
  | assign d e =>
    refine ⟨_, rfl, ?_, ?_⟩
    · intro k
      dsimp only
      split
      · exact hm e
      · exact hm k
    · intro ini before hb k i hi
      dsimp only [placeRev]
      by_cases hk : k = d
      · rw [if_pos hk, if_pos hk, hb e i hi]
      · rw [if_neg hk, if_neg hk, hb k i hi]
  | put d j x =>
    have hj : j < N := h
    refine ⟨fun k => if k = d then (m d).set j x else m k, ?_, (hset d j x hj).1, (hset d j x hj).2⟩
    simp only [Op.step, Digest.put, check_ok hj, Except.bind_ok, aset_ok (show j < (m d).length by rw [hm]; exact hj)]
    rfl
  | putVia d j x =>
    have hj : j < N := h
    refine ⟨fun k => if k = d then (m d).set j x else m k, ?_, (hset d j x hj).1, (hset d j x hj).2⟩
    simp only [Op.step, Digest.putVia, Except.bind_ok, aset_ok (show j < (m d).length by rw [hm]; exact hj)]
    rfl
  | putFront d x =>
    have hj : 0 < N := h
    refine ⟨fun k => if k = d then (m d).set 0 x else m k, ?_, (hset d 0 x hj).1, (hset d 0 x hj).2⟩
    simp only [Op.step, Digest.putFront, Except.bind_ok, aset_ok (show 0 < (m d).length by rw [hm]; exact hj)]
    rfl
  | putBack d x =>
    have hj : 0 < N := h
    have hj' : N - 1 < N := by omega
    refine ⟨fun k => if k = d then (m d).set (N - 1) x else m k, ?_, (hset d (N - 1) x hj').1, (hset d (N - 1) x hj').2⟩
    simp only [Op.step, Digest.putBack, Except.bind_ok, aset_ok (show N - 1 < (m d).length by rw [hm]; exact hj')]
    rfl

/-- valid statements succeed, and the objects hold what the specification says -/
theorem execOps_ok (env : Env) (N : Nat) (ops : List Op) (h : ∀ o ∈ ops, DigestOp.Valid N o) (m : Nat → List Byte)
    (hm : ∀ d, (m d).length = N) :
    ∃ m', execOps env N ops m = .ok m' ∧ (∀ d, (m' d).length = N) ∧
      ∀ d i, i < N → (m' d).getD i 0 = place N (fun d i => (m d).getD i 0) ops d i := by
  induction ops using List.reverseRecOn with
  | nil => exact ⟨m, rfl, hm, fun _ _ _ => rfl⟩
  | append_singleton os o ih =>
    obtain ⟨m1, e1, l1, p1⟩ := ih fun o ho => h o (List.mem_append_left _ ho)
    obtain ⟨m2, e2, l2, p2⟩ := step_ok env N o (h o (by simp)) m1 l1
    refine ⟨m2, ?_, l2, ?_⟩
    · rw [execOps_snoc, e1, Except.bind_ok, e2]
    · intro d i hi
      have := p2 (fun d i => (m d).getD i 0) os.reverse (fun d i hi => p1 d i hi) d i hi
      rw [this, place, List.reverse_append]
      rfl

theorem iterate_eq (N : Nat) (v : List Byte) (hv : v.length = N) : iterate N v = .ok v := by
  have : ∀ k, k ≤ N → forLoop (fun i r => do
      let x ← aget v i
      return r ++ [x]) 0 k [] = .ok (v.take k) := by
    intro k
    induction k with
    | zero => intro _; rfl
    | succ k ih =>
      intro hk
      rw [forLoop_succ, ih (by omega), Except.bind_ok, Nat.zero_add, aget_ok (by omega), Except.bind_ok]
      rw [List.take_succ_eq_append_getElem (by omega)]
      rfl
  rw [iterate, this N (Nat.le_refl N), ← hv, List.take_length]

end Hash2.Digest

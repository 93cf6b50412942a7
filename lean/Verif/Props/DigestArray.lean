import Verif.Lemmas.DigestArray
import Verif.Props.Digests
/-
C64: digests are arrays. `place` and `DigestOp.Valid` are in Spec/DigestArray.lean.
-/
namespace Hash2
open Spec

/-- the digest objects of a program before its first statement: `digest<N> d0, d1, ..;` -/
abbrev freshDigests (N : Nat) : Nat → List Byte := fun _ => Digest.zero N

/-- **C64.** After any sequence of statements that write to digest objects, by operator[], front(), back(), the pointers
data() and begin() return, or assignment, no statement failed and each object holds, in each place, what the last statement
that wrote to the place wrote: this is what operator[], front(), back() and iteration deliver, what == and != compare, and
what to_string prints. Objects that were not written to are as before. -/
theorem digest_is_array (env : Env) (N : Nat) (ops : List Digest.Op) (h : ∀ o ∈ ops, DigestOp.Valid N o) :
    ∃ m, Digest.execOps env N ops (freshDigests N) = .ok m ∧
      let at_ := place N (fun _ _ => 0) ops
      ∀ d, Digest.iterate N (m d) = .ok ((List.range N).map (at_ d)) ∧
        (∀ i, i < N → Digest.get N (m d) i = .ok (at_ d i)) ∧
        (∀ i, N ≤ i → Digest.get N (m d) i = .error .assertFailed) ∧
        (0 < N → Digest.front (m d) = .ok (at_ d 0) ∧ Digest.back N (m d) = .ok (at_ d (N - 1))) ∧
        (∀ e, Digest.eq env N (m d) (m e) = .ok (decide (∀ i, i < N → at_ d i = at_ e i))) ∧
        (∀ e, Digest.ne env N (m d) (m e) = .ok (decide (∃ i, i < N ∧ at_ d i ≠ at_ e i))) ∧
        (4 * N < 2 ^ env.sizeBits → Digest.toString env N (m d) = .ok (hex ((List.range N).map (at_ d)))) := by
  obtain ⟨m, e, hl, hp⟩ := Digest.execOps_ok env N ops h (freshDigests N) (fun d => by simp [freshDigests, Digest.zero])
  refine ⟨m, e, ?_⟩
  have hini : (fun (d i : Nat) => (freshDigests N d).getD i 0) = fun _ _ => (0 : Byte) := by
    funext d i
    simp only [freshDigests, Digest.zero, List.getD_eq_getElem?_getD, List.getElem?_replicate]
    split <;> rfl
  rw [hini] at hp
  intro at_ d
  have hmap : ∀ d, m d = (List.range N).map (at_ d) := by
    intro d
    apply List.ext_getElem
    · simp [hl d]
    · intro i h1 h2
      have hi : i < N := by rw [← hl d]; exact h1
      have := hp d i hi
      rw [List.getD_eq_getElem?_getD, List.getElem?_eq_getElem h1] at this
      simpa [at_] using this
  have hget : ∀ (i : Nat) (hi : i < N), (m d)[i]'(by rw [hl]; exact hi) = at_ d i := by
    intro i hi
    have h1 : i < (m d).length := by rw [hl]; exact hi
    have := hp d i hi
    rw [List.getD_eq_getElem?_getD, List.getElem?_eq_getElem h1] at this
    simpa [at_] using this
  have harr := digest_of_array env N (m d) (hl d)
  have heq : ∀ e, (m d = m e) ↔ ∀ i, i < N → at_ d i = at_ e i := by
    intro e
    constructor
    · intro hde i hi
      have h1 := hp d i hi
      have h2 := hp e i hi
      rw [hde] at h1
      exact h1.symm.trans h2
    · intro hall
      rw [hmap d, hmap e]
      apply List.map_congr_left
      intro i hi
      exact hall i (List.mem_range.1 hi)
  refine ⟨?_, ?_, harr.2.2.1, ?_, ?_, ?_, ?_⟩
  · rw [Digest.iterate_eq N (m d) (hl d), ← hmap]
  · intro i hi
    rw [harr.2.1 i hi, hget i hi]
  · intro h0
    obtain ⟨h1, h2⟩ := harr.2.2.2.1 h0
    rw [h1, h2, hget 0 h0, hget (N - 1) (by omega)]
    exact ⟨rfl, rfl⟩
  · intro e
    rw [digest_eq_iff env N _ _ (hl d) (hl e)]
    congr 1
    exact decide_eq_decide.2 (heq e)
  · intro e
    rw [digest_ne_iff env N _ _ (hl d) (hl e)]
    congr 1
    apply decide_eq_decide.2
    rw [ne_eq, heq e]
    constructor
    · intro hn
      apply Classical.byContradiction
      intro hc
      exact hn fun i hi => Classical.byContradiction fun hx => hc ⟨i, hi, hx⟩
    · rintro ⟨i, hi, hx⟩ hall
      exact hx (hall i hi)
  · intro h4
    rw [(to_string_is_hex env N (m d) (hl d) h4 []).1, ← hmap]

/-- d0 = { 1, 2, 3 }; d1 = d0; d1.back() = 9; d0[ 1 ] = 7; -/
private def prog : List Digest.Op := [.load 0 [1, 2, 3], .assign 1 0, .putBack 1 9, .put 0 1 7]

private theorem prog_valid : ∀ o ∈ prog, DigestOp.Valid 3 o := by
  intro o ho
  simp only [prog, List.mem_cons, List.not_mem_nil, or_false] at ho
  rcases ho with rfl | rfl | rfl | rfl <;> simp [DigestOp.Valid]

example : ∃ m, Digest.execOps le64 3 prog (freshDigests 3) = .ok m ∧
    Digest.iterate 3 (m 0) = .ok [1, 7, 3] ∧ Digest.iterate 3 (m 1) = .ok [1, 2, 9] ∧ Digest.iterate 3 (m 2) = .ok [0, 0, 0] := by
  obtain ⟨m, e, h⟩ := digest_is_array le64 3 prog prog_valid
  exact ⟨m, e, (h 0).1, (h 1).1, (h 2).1⟩

/-- **C64.** An index out of range is stopped by the assertion of operator[], before anything is written, whatever came before. -/
theorem digest_index_checked (env : Env) (N : Nat) (ops : List Digest.Op) (h : ∀ o ∈ ops, DigestOp.Valid N o) (d i : Nat)
    (hi : N ≤ i) (x : Byte) (rest : List Digest.Op) :
    Digest.execOps env N (ops ++ .put d i x :: rest) (freshDigests N) = .error .assertFailed := by
  obtain ⟨m, e, _, _⟩ := Digest.execOps_ok env N ops h (freshDigests N) (fun d => by simp [freshDigests, Digest.zero])
  have key : ∀ (ops : List Digest.Op) (m0 : Nat → List Byte), Digest.execOps env N ops m0 = .ok m →
      Digest.execOps env N (ops ++ .put d i x :: rest) m0 = .error .assertFailed := by
    intro ops
    induction ops with
    | nil =>
      intro m0 _
      have hc : ¬ i < N := by omega
      simp [Digest.execOps, Digest.Op.step, Digest.put, check, hc]
    | cons o os ih =>
      intro m0 h0
      simp only [List.cons_append, Digest.execOps] at h0 ⊢
      cases hs : o.step env N m0 with
      | error er => rw [hs] at h0; simp at h0
      | ok m1 =>
        rw [hs] at h0
        exact ih m1 h0
  exact key ops _ e

example : Digest.execOps le64 3 (prog ++ [.put 1 3 0]) (freshDigests 3) = .error .assertFailed :=
  digest_index_checked le64 3 prog prog_valid 1 3 (by decide) 0 []

end Hash2

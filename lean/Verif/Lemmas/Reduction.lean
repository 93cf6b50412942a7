import Verif.Spec.Reduction
import Verif.Lemmas.Extended
/-
The Merkle-Damgard reduction.
-/
namespace Hash2
open Spec

section
variable {σ β : Type} {f : σ → β → σ}

theorem foldCalls_snoc (s : σ) (bs : List β) (b : β) : foldCalls f s (bs ++ [b]) = foldCalls f s bs ++ [(bs.foldl f s, b)] := by
  induction bs generalizing s with
  | nil => rfl
  | cons x xs ih => simp only [List.cons_append, foldCalls, ih, List.foldl_cons]

/-- two folds over lists of the same length that end in the same value -/
theorem fold_collision (xs ys : List β) (hl : xs.length = ys.length) : ∀ (s t : σ), (s, xs) ≠ (t, ys) → xs.foldl f s = ys.foldl f t →
    ∃ p ∈ foldCalls f s xs, ∃ q ∈ foldCalls f t ys, p ≠ q ∧ f p.1 p.2 = f q.1 q.2 := by
  induction xs generalizing ys with
  | nil =>
    intro s t hne he
    cases ys with
    | nil => exact absurd (show (s, ([] : List β)) = (t, []) by rw [show s = t from he]) hne
    | cons y ys => simp at hl
  | cons x xs ih =>
    cases ys with
    | nil => simp at hl
    | cons y ys =>
      intro s t hne he
      by_cases h : (f s x, xs) = (f t y, ys)
      · obtain ⟨h1, h2⟩ := Prod.mk.inj h
        refine ⟨(s, x), by simp [foldCalls], (t, y), by simp [foldCalls], ?_, h1⟩
        intro e
        obtain ⟨e1, e2⟩ := Prod.mk.inj e
        exact hne (by rw [e1, e2, h2])
      · obtain ⟨p, hp, q, hq, hpq⟩ := ih ys (by simpa using hl) (f s x) (f t y) h he
        exact ⟨p, by simp [foldCalls, hp], q, by simp [foldCalls, hq], hpq⟩

end

theorem blocks_flatten {N : Nat} (hN : 0 < N) (l : List Byte) : (blocks N l).flatten ++ Spec.rest N l = l := by
  induction h : l.length using Nat.strongRecOn generalizing l with
  | _ k ih =>
    by_cases hk : l.length < N
    · rw [blocks_short hk, rest_short hk]; rfl
    · obtain ⟨b, t, rfl, hb⟩ : ∃ b t, l = b ++ t ∧ b.length = N :=
        ⟨l.take N, l.drop N, (List.take_append_drop N l).symm, by simp; omega⟩
      rw [blocks_append hN hb, rest_append hN hb, List.flatten_cons, List.append_assoc, ih t.length (by rw [← h, List.length_append]; omega) t rfl]

/-- the last block of a message that consists of whole blocks -/
theorem blocks_last {N : Nat} (hN : 0 < N) (l : List Byte) (h : l.length % N = 0) (hl : 0 < l.length) :
    ∃ bs b, blocks N l = bs ++ [b] ∧ b.length = N ∧ ∃ pre, l = pre ++ b := by
  have hf := blocks_flatten hN l
  rw [List.eq_nil_of_length_eq_zero (l := Spec.rest N l) (by rw [rest_length, h]), List.append_nil] at hf
  rcases List.eq_nil_or_concat (blocks N l) with e | ⟨bs, b, e⟩
  · rw [e] at hf
    rw [← hf] at hl
    simp at hl
  · rw [List.concat_eq_append] at e
    refine ⟨bs, b, e, blocks_mem_length (l := l) (by rw [e]; simp), bs.flatten, ?_⟩
    rw [e] at hf
    simpa using hf.symm

/-- **Merkle-Damgard**: a collision of the chaining value is a collision of the compression function. -/
theorem DigestName.reduction {d : DigestName} {σ : Type} {D : Md σ} (hd : d.md = some ⟨σ, D⟩) {x y : List Byte} (hx : x.length < 2 ^ 61)
    (hy : y.length < 2 ^ 61) (hne : x ≠ y) (h : D.chain (x ++ D.pad x.length) = D.chain (y ++ D.pad y.length)) : D.CompressionCollision x y := by
  obtain ⟨hN, hp⟩ := DigestName.regular hd
  have hL := fun a => (DigestName.encLen_length hd a).1
  by_cases hl : x.length = y.length
  · refine fold_collision _ _ ?_ D.iv D.iv ?_ h
    · simp [blocks, List.length_append, hl]
    · intro e
      have e := (Prod.mk.inj e).2
      have flat : ∀ z : List Byte, (blocks D.N (z ++ D.pad z.length)).flatten = z ++ D.pad z.length := by
        intro z
        have := blocks_flatten hN (z ++ D.pad z.length)
        rwa [List.eq_nil_of_length_eq_zero (l := Spec.rest D.N (z ++ D.pad z.length)) (by rw [rest_length, List.length_append, hp]), List.append_nil] at this
      exact hne (DigestName.padded_inj hd (by rw [← flat x, ← flat y, e]))
  · have pos : ∀ z : List Byte, 0 < (z ++ D.pad z.length).length := fun z => by
      simp only [Md.pad, List.length_append, List.cons_append, List.length_cons]; omega
    have len0 : ∀ z : List Byte, (z ++ D.pad z.length).length % D.N = 0 := fun z => by rw [List.length_append, hp]
    have split : ∀ m : List Byte, m ++ D.pad m.length =
        (m ++ (0x80#8 :: List.replicate ((D.N - (m.length + 1 + D.L) % D.N) % D.N) 0)) ++ D.encLen (8 * m.length) := by
      intro m; unfold Md.pad; rw [List.append_assoc]
    obtain ⟨bs, b, e1, l1, p1, f1⟩ := blocks_last hN _ (len0 x) (pos x)
    obtain ⟨cs, c, e2, l2, p2, f2⟩ := blocks_last hN _ (len0 y) (pos y)
    have h' := h
    unfold Md.chain at h'
    rw [e1, e2, List.foldl_append, List.foldl_append] at h'
    refine ⟨(bs.foldl D.compress D.iv, b), ?_, (cs.foldl D.compress D.iv, c), ?_, ?_, h'⟩
    · unfold Md.calls; rw [e1, foldCalls_snoc]; simp
    · unfold Md.calls; rw [e2, foldCalls_snoc]; simp
    · intro e
      have e := (Prod.mk.inj e).2
      subst e
      refine hl ?_
      have hLN : D.L ≤ D.N := (DigestName.L_le hd)
      have tail : ∀ (z p : List Byte), z ++ D.pad z.length = p ++ b → D.encLen (8 * z.length) = b.drop (D.N - D.L) := by
        intro z p e
        rw [split] at e
        have hb : p ++ b = (p ++ b.take (D.N - D.L)) ++ b.drop (D.N - D.L) := by rw [List.append_assoc, List.take_append_drop]
        rw [hb] at e
        exact (List.append_inj' e (by rw [hL, List.length_drop, l1]; omega)).2
      have := DigestName.encLen_inj hd ((tail x p1 f1).trans (tail y p2 f2).symm)
      rw [Nat.mod_eq_of_lt hx, Nat.mod_eq_of_lt hy] at this
      exact this
where
  DigestName.L_le {d : DigestName} {σ : Type} {D : Md σ} (hd : d.md = some ⟨σ, D⟩) : D.L ≤ D.N := by
    cases d <;> simp only [DigestName.md, Option.some.injEq, Sigma.mk.injEq, reduceCtorEq] at hd <;>
      (obtain ⟨rfl, hd⟩ := hd; cases hd; decide)

end Hash2

import Verif.Lemmas.MessageEq
import Verif.Spec.Same
/-
Objects that hold the same have the same message.
-/
namespace Hash2
open Spec

theorem concat_same {α β : Type} {m : α → List Byte → List Byte} {m' : β → List Byte → List Byte} {as : List α} {bs : List β}
    (h : List.Forall₂ (fun a b => ∀ p, m a p = m' b p) as bs) (p : List Byte) : concat m as p = concat m' bs p := by
  induction h generalizing p with
  | nil => rfl
  | cons h _ ih => simp only [concat, h, ih]

theorem map_same {α β γ : Type} {f : α → γ} {g : β → γ} {as : List α} {bs : List β} (h : List.Forall₂ (fun a b => f a = g b) as bs) :
    as.map f = bs.map g := by
  induction h with
  | nil => rfl
  | cons h _ ih => rw [List.map_cons, List.map_cons, h, ih]

variable {L : Layout} (H : List Byte → W64)

theorem sameAll_nil {ts ts' : Tys} {a : ts.Val} {b : ts'.Val} (h : SameAll ts ts' a b) : ts = .nil ↔ ts' = .nil := by
  cases ts <;> cases ts' <;> simp_all [SameAll]

theorem word_same {s s' : Sz} {n n' : Nat} (h : s = s') (h' : n = n') : L.word s.n n = L.word s'.n n' := by rw [h, h']

mutual
theorem message_same : ∀ (t t' : Ty) (a : t.Val) (b : t'.Val) (p : List Byte), Same t t' a b → message L H t a p = message L H t' b p
  | .int k, t', a, b, p, h => by
    cases t' <;> simp only [Same] at h
    · simp only [message]; exact word_same h.1 h.2
    · simp only [message]; exact word_same h.1 h.2
  | .enum k, t', a, b, p, h => by
    cases t' <;> simp only [Same] at h
    · simp only [message]; exact word_same h.1 h.2
    · simp only [message]; exact word_same h.1 h.2
  | .ptr, t', a, b, p, h => by
    cases t' <;> simp only [Same] at h
    · simp only [message]; rw [h]
    · simp only [message]; rw [h]; rfl
  | .nullptr, t', a, b, p, h => by
    cases t' <;> simp only [Same] at h
    · simp only [message]; rw [h]; rfl
    · simp only [message]
  | .f32, t', a, b, p, h => by
    cases t' <;> simp only [Same] at h
    rcases h with rfl | h
    · rfl
    · simp only [message]
      rw [canonical_congr (c := L.canonicalNaN) (c' := L.canonicalNaN) (eb := 8) (mb := 23) (by decide) a.isLt b.isLt h.2 h.1]
  | .f64, t', a, b, p, h => by
    cases t' <;> simp only [Same] at h
    rcases h with rfl | h
    · rfl
    · simp only [message]
      rw [canonical_congr (c := L.canonicalNaN) (c' := L.canonicalNaN) (eb := 11) (mb := 52) (by decide) a.isLt b.isLt h.2 h.1]
  | .carray n t, t', as, bs, p, h => by
    cases t' <;> simp only [Same] at h
    · simp only [message]
      exact concat_same (h.imp fun a b h p => message_same t _ a b p h) p
    · obtain ⟨hn, h⟩ := h
      rw [message_arr]
      simp only [message]
      rw [if_neg (by cases h <;> simp_all)]
      exact concat_same (h.imp fun a b h p => message_same t _ a b p h) p
  | .arr k n t, t', as, bs, p, h => by
    cases t' <;> simp only [Same] at h
    · obtain ⟨hn, h⟩ := h
      rw [message_arr]
      simp only [message]
      rw [if_neg (by cases h <;> simp_all)]
      exact concat_same (h.imp fun a b h p => message_same t _ a b p h) p
    · rw [message_arr, message_arr, concat_same (h.imp fun a b h p => message_same t _ a b p h) p]
      have : as.isEmpty = bs.isEmpty := by cases h <;> rfl
      rw [this]
  | .seq k t, t', as, bs, p, h => by
    cases t' <;> simp only [Same] at h
    simp only [message]
    rw [concat_same (h.imp fun a b h p => message_same t _ a b p h) p, h.length_eq]
  | .unord t, t', as, bs, p, h => by
    cases t' <;> simp only [Same] at h
    obtain ⟨cs, hp, hf⟩ := h
    simp only [message]
    rw [hp.length_eq, hf.length_eq]
    congr 2
    rw [(hp.map _).sum_nat]
    congr 1
    refine map_same (hf.imp fun a b h => ?_)
    rw [message_same t _ a b p h]
  | .tuple ts, t', a, b, p, h => by
    cases t' with
    | tuple ts' =>
      simp only [Same] at h
      cases ts with
      | nil => cases ts' <;> simp only [SameAll] at h; simp only [message]
      | cons t ts =>
        cases ts' with
        | nil => simp only [SameAll] at h
        | cons t' ts' =>
          rw [message_tuple _ _ (by intro h; cases h), message_tuple _ _ (by intro h; cases h)]
          exact messages_same _ _ a b p h
    | described _ _ bs ms =>
      cases bs with
      | cons t ts => simp only [Same] at h
      | nil =>
        simp only [Same] at h
        cases ts with
        | nil => cases ms <;> simp only [SameAll] at h; simp only [message]
        | cons t ts =>
          cases ms with
          | nil => simp only [SameAll] at h
          | cons t' ms =>
            rw [message_tuple _ _ (by intro h; cases h), message_described _ _ _ _ (by rintro ⟨_, h⟩; cases h)]
            have := messages_same _ _ a b.2 p h
            rw [this, messages.eq_1, List.nil_append, List.append_nil]
    | _ => simp only [Same] at h
  | .described _ _ bs ms, t', a, b, p, h => by
    cases t' with
    | tuple ts' =>
      cases bs with
      | cons t ts => simp only [Same] at h
      | nil =>
        simp only [Same] at h
        cases ms with
        | nil => cases ts' <;> simp only [SameAll] at h; simp only [message]
        | cons t ms =>
          cases ts' with
          | nil => simp only [SameAll] at h
          | cons t' ts' =>
            rw [message_tuple _ _ (by intro h; cases h), message_described _ _ _ _ (by rintro ⟨_, h⟩; cases h)]
            have := messages_same _ _ a.2 b p h
            rw [← this, messages.eq_1, List.nil_append, List.append_nil]
    | described _ _ bs' ms' =>
      have h : SameAll bs bs' a.1 b.1 ∧ SameAll ms ms' a.2 b.2 := by
        cases bs <;> simpa only [Same] using h
      have e1 := sameAll_nil h.1
      have e2 := sameAll_nil h.2
      by_cases hn : bs = .nil ∧ ms = .nil
      · have hn' : bs' = .nil ∧ ms' = .nil := ⟨e1.1 hn.1, e2.1 hn.2⟩
        obtain ⟨rfl, rfl⟩ := hn
        obtain ⟨rfl, rfl⟩ := hn'
        simp only [message]
      · have hn' : ¬ (bs' = .nil ∧ ms' = .nil) := fun hx => hn ⟨e1.2 hx.1, e2.2 hx.2⟩
        rw [message_described _ _ _ _ hn, message_described _ _ _ _ hn', messages_same bs bs' a.1 b.1 p h.1,
          messages_same ms ms' a.2 b.2 _ h.2]
    | _ => simp only [Same] at h
  | .user cs, t', a, b, p, h => by
    cases t' <;> simp only [Same] at h
    simp only [message]
    exact messages_same _ _ a b p h
  | .range k t, t', as, bs, p, h => by
    cases t' <;> simp only [Same] at h
    simp only [message]
    exact concat_same (h.imp fun a b h p => message_same t _ a b p h) p
  | .size, t', a, b, p, h => by
    cases t' <;> simp only [Same] at h
    rw [h]
theorem messages_same : ∀ (ts ts' : Tys) (a : ts.Val) (b : ts'.Val) (p : List Byte), SameAll ts ts' a b →
    messages L H ts a p = messages L H ts' b p
  | .nil, ts', a, b, p, h => by
    cases ts' <;> simp only [SameAll] at h
    simp only [messages]
  | .cons t ts, ts', a, b, p, h => by
    cases ts' <;> simp only [SameAll] at h
    simp only [messages]
    rw [message_same t _ a.1 b.1 p h.1, messages_same ts _ a.2 b.2 _ h.2]
end

end Hash2

import Verif.Lemmas.Messages
import Mathlib.Data.List.Induction
/-
Equal objects have equal messages; different objects have different messages.
-/
namespace Hash2
open Spec

theorem concat_forall₂ {α : Type} {m : α → List Byte → List Byte} {as bs : List α} (h : List.Forall₂ (fun a b => ∀ p, m a p = m b p) as bs)
    (p : List Byte) : concat m as p = concat m bs p := by
  induction h generalizing p with
  | nil => rfl
  | cons h _ ih => simp only [concat, h, ih]

theorem forall₂_imp_mem {α β : Type} {R S : α → β → Prop} {as : List α} {bs : List β} (h : List.Forall₂ R as bs) (hs : ∀ a b, R a b → S a b) :
    List.Forall₂ S as bs := h.imp hs

theorem map_forall₂ {α β : Type} {f : α → β} {as bs : List α} (h : List.Forall₂ (fun a b => f a = f b) as bs) : as.map f = bs.map f := by
  induction h with
  | nil => rfl
  | cons h _ ih => rw [List.map_cons, List.map_cons, h, ih]

section
variable {L : Layout} (H : List Byte → W64)

mutual
/-- **Equal objects have equal messages.** -/
theorem message_equal : ∀ (t : Ty) (a b : t.Val) (p : List Byte), Equal t a b → message L H t a p = message L H t b p
  | .int k, a, b, p, h => by simp only [Equal] at h; rw [h]
  | .enum k, a, b, p, h => by simp only [Equal] at h; rw [h]
  | .ptr, a, b, p, h => by simp only [Equal] at h; rw [h]
  | .nullptr, a, b, p, h => by simp only [message]
  | .f32, a, b, p, h => by
    simp only [Equal] at h
    simp only [message]
    rw [canonical_congr (c := L.canonicalNaN) (c' := L.canonicalNaN) (eb := 8) (mb := 23) (by decide) a.isLt b.isLt h.2 h.1]
  | .f64, a, b, p, h => by
    simp only [Equal] at h
    simp only [message]
    rw [canonical_congr (c := L.canonicalNaN) (c' := L.canonicalNaN) (eb := 11) (mb := 52) (by decide) a.isLt b.isLt h.2 h.1]
  | .carray n t, as, bs, p, h => by
    simp only [Equal] at h
    simp only [message]
    exact concat_forall₂ (h.imp fun a b h p => message_equal t a b p h) p
  | .seq k t, as, bs, p, h => by
    simp only [Equal] at h
    simp only [message]
    rw [concat_forall₂ (h.imp fun a b h p => message_equal t a b p h) p, h.length_eq]
  | .arr k n t, as, bs, p, h => by
    simp only [Equal] at h
    rw [message_arr, message_arr, concat_forall₂ (h.imp fun a b h p => message_equal t a b p h) p]
    have : as.isEmpty = bs.isEmpty := by cases h <;> rfl
    rw [this]
  | .unord t, as, bs, p, h => by
    simp only [Equal] at h
    obtain ⟨cs, hp, hf⟩ := h
    simp only [message]
    rw [hp.length_eq, hf.length_eq]
    congr 2
    rw [(hp.map _).sum_nat]
    congr 1
    refine map_forall₂ (hf.imp fun a b h => ?_)
    rw [message_equal t a b p h]
  | .tuple .nil, a, b, p, h => by simp only [message]
  | .tuple (.cons t ts), a, b, p, h => by
    simp only [Equal] at h
    rw [message_tuple _ _ (by intro h; cases h), message_tuple _ _ (by intro h; cases h)]
    exact messages_equal _ a b p h
  | .described _ _ bs ms, a, b, p, h => by
    simp only [Equal] at h
    by_cases hn : bs = .nil ∧ ms = .nil
    · obtain ⟨rfl, rfl⟩ := hn
      simp [message]
    · rw [message_described _ _ _ _ hn, message_described _ _ _ _ hn, messages_equal bs a.1 b.1 p h.1, messages_equal ms a.2 b.2 _ h.2]
  | .user cs, a, b, p, h => by
    simp only [Equal] at h
    simp only [message]
    exact messages_equal _ a b p h
  | .range k t, as, bs, p, h => by
    simp only [Equal] at h
    simp only [message]
    exact concat_forall₂ (h.imp fun a b h p => message_equal t a b p h) p
  | .size, a, b, p, h => by simp only [Equal] at h; rw [h]
theorem messages_equal : ∀ (ts : Tys) (a b : ts.Val) (p : List Byte), EqualAll ts a b → messages L H ts a p = messages L H ts b p
  | .nil, _, _, _, _ => by simp only [messages]
  | .cons t ts, a, b, p, h => by
    simp only [EqualAll] at h
    simp only [messages]
    rw [message_equal t a.1 b.1 p h.1, messages_equal ts a.2 b.2 _ h.2]
end

/-- what is to be shown of a message function -/
def Decodable {α : Type} (m : α → List Byte → List Byte) (R : α → α → Prop) (a b : α) : Prop :=
  ∀ p q, p ++ m a p = q ++ m b q → p = q ∧ R a b

theorem concat_decode {α : Type} {m : α → List Byte → List Byte} {R : α → α → Prop} : ∀ {as bs : List α}, as.length = bs.length →
    (∀ a ∈ as, ∀ b ∈ bs, Decodable m R a b) → ∀ p q, p ++ concat m as p = q ++ concat m bs q → p = q ∧ List.Forall₂ R as bs := by
  intro as
  induction as using List.reverseRecOn with
  | nil =>
    intro bs hl _ p q h
    have : bs = [] := List.length_eq_zero_iff.1 hl.symm
    subst this
    simp only [concat, List.append_nil] at h
    exact ⟨h, .nil⟩
  | append_singleton as a ih =>
    intro bs hl hd p q h
    rcases List.eq_nil_or_concat bs with rfl | ⟨bs', b, rfl⟩
    · simp at hl
    · have hl' : as.length = bs'.length := by simpa using hl
      rw [List.concat_eq_append, concat_append, concat_append, ← List.append_assoc, ← List.append_assoc] at h
      simp only [concat, List.append_nil] at h
      obtain ⟨h1, h2⟩ := hd a (by simp) b (by simp) _ _ h
      obtain ⟨h3, h4⟩ := ih hl' (fun a ha b hb => hd a (by simp [ha]) b (by simp [hb])) p q h1
      exact ⟨h3, by rw [List.concat_eq_append]; exact List.rel_append h4 (.cons h2 .nil)⟩

theorem word_decode {k v w : Nat} {p q : List Byte} (h : p ++ L.word k v = q ++ L.word k w) (hv : v < 256 ^ k) (hw : w < 256 ^ k) :
    p = q ∧ v = w := by
  have := List.append_inj' h (by simp)
  exact ⟨this.1, word_inj L hv hw this.2⟩

theorem bits_lt (k : IntTy) (v : k.Val) : (k.bits v).toNat < 256 ^ k.size.n := by
  rw [← pow256]; exact (k.bits v).isLt

theorem bits_inj {k : IntTy} {v w : k.Val} (h : (k.bits v).toNat = (k.bits w).toNat) : v = w := by
  have h := BitVec.eq_of_toNat_eq h
  cases k with
  | bool =>
    cases v <;> cases w
    · rfl
    · exact absurd h (show ¬ (0#8 = 1#8) by decide)
    · exact absurd h (show ¬ (1#8 = 0#8) by decide)
    · rfl
  | uchar => exact h
  | int sz => exact h

mutual
/-- **Messages can be decoded from the end**: what was fed before and the value are determined. -/
theorem message_decode : ∀ (t : Ty) (a b : t.Val), delimited t = true → Valid (8 * L.ptrBytes) t a → Valid (8 * L.ptrBytes) t b →
    SizesFit L.sizeBytes t a → SizesFit L.sizeBytes t b → Decodable (message L H t) (Alike t) a b
  | .int k, a, b, _, _, _, _, _ => by
    intro p q h
    simp only [message] at h
    obtain ⟨h1, h2⟩ := word_decode h (bits_lt k a) (bits_lt k b)
    exact ⟨h1, by simp only [Alike]; exact bits_inj h2⟩
  | .enum k, a, b, _, _, _, _, _ => by
    intro p q h
    simp only [message] at h
    obtain ⟨h1, h2⟩ := word_decode h (bits_lt k a) (bits_lt k b)
    exact ⟨h1, by simp only [Alike]; exact bits_inj h2⟩
  | .ptr, a, b, _, ha, hb, _, _ => by
    intro p q h
    simp only [Valid, pow256] at ha hb
    simp only [message] at h
    obtain ⟨h1, h2⟩ := word_decode h ha hb
    exact ⟨h1, by simp only [Alike]; exact BitVec.eq_of_toNat_eq h2⟩
  | .nullptr, a, b, _, _, _, _, _ => by
    intro p q h
    simp only [message] at h
    exact ⟨(List.append_inj' h (by simp)).1, by simp only [Alike]⟩
  | .f32, a, b, _, _, _, _, _ => by
    intro p q h
    simp only [message] at h
    obtain ⟨h1, h2⟩ := word_decode h (canonical_lt (eb := 8) (mb := 23) (by decide) a.isLt) (canonical_lt (eb := 8) (mb := 23) (by decide) b.isLt)
    refine ⟨h1, ?_⟩
    have := congrArg (fval 8 23) h2
    rw [fval_canonical (by decide) (by decide), fval_canonical (by decide) (by decide)] at this
    simp only [Alike]
    exact this
  | .f64, a, b, _, _, _, _, _ => by
    intro p q h
    simp only [message] at h
    obtain ⟨h1, h2⟩ := word_decode h (canonical_lt (eb := 11) (mb := 52) (by decide) a.isLt) (canonical_lt (eb := 11) (mb := 52) (by decide) b.isLt)
    refine ⟨h1, ?_⟩
    have := congrArg (fval 11 52) h2
    rw [fval_canonical (by decide) (by decide), fval_canonical (by decide) (by decide)] at this
    simp only [Alike]
    exact this
  | .carray n t, as, bs, hd, ha, hb, sa, sb => by
    intro p q h
    simp only [delimited] at hd
    simp only [Valid] at ha hb
    simp only [SizesFit] at sa sb
    simp only [message] at h
    simp only [Alike]
    exact concat_decode (ha.1.trans hb.1.symm) (fun a ma b mb => message_decode t a b hd (ha.2 a ma) (hb.2 b mb) (sa a ma) (sb b mb)) p q h
  | .seq k t, as, bs, hd, ha, hb, sa, sb => by
    intro p q h
    simp only [delimited] at hd
    simp only [Valid] at ha hb
    simp only [SizesFit] at sa sb
    simp only [message, ← List.append_assoc] at h
    simp only [Alike]
    obtain ⟨h1, h2⟩ := word_decode h sa.1 sb.1
    exact concat_decode h2 (fun a ma b mb => message_decode t a b hd (ha a ma) (hb b mb) (sa.2 a ma) (sb.2 b mb)) p q h1
  | .arr k n t, as, bs, hd, ha, hb, sa, sb => by
    intro p q h
    simp only [delimited] at hd
    simp only [Valid] at ha hb
    simp only [SizesFit] at sa sb
    rw [message_arr, message_arr] at h
    simp only [Alike]
    have hl := ha.1.trans hb.1.symm
    by_cases he : as = []
    · subst he
      have : bs = [] := List.length_eq_zero_iff.1 hl.symm
      subst this
      exact ⟨(List.append_inj' h rfl).1, .nil⟩
    · have hb' : bs ≠ [] := by rintro rfl; exact he (List.length_eq_zero_iff.1 hl)
      rw [if_neg (by simpa using he), if_neg (by simpa using hb')] at h
      exact concat_decode hl (fun a ma b mb => message_decode t a b hd (ha.2 a ma) (hb.2 b mb) (sa a ma) (sb b mb)) p q h
  | .unord t, as, bs, hd, ha, hb, sa, sb => by
    intro p q h
    simp only [SizesFit] at sa sb
    simp only [message, ← List.append_assoc] at h
    simp only [Alike]
    obtain ⟨h1, h2⟩ := word_decode h sa.1 sb.1
    exact ⟨(List.append_inj' h1 (by simp)).1, h2⟩
  | .tuple .nil, a, b, _, _, _, _, _ => by
    intro p q h
    simp only [message] at h
    exact ⟨(List.append_inj' h rfl).1, by simp only [Alike, AlikeAll]⟩
  | .tuple (.cons t ts), a, b, hd, ha, hb, sa, sb => by
    intro p q h
    simp only [delimited] at hd
    simp only [Valid] at ha hb
    simp only [SizesFit] at sa sb
    rw [message_tuple _ _ (by intro h; cases h), message_tuple _ _ (by intro h; cases h)] at h
    simp only [Alike]
    exact messages_decode _ a b hd ha hb sa sb p q h
  | .described _ _ bs ms, a, b, hd, ha, hb, sa, sb => by
    intro p q h
    simp only [delimited, Bool.and_eq_true] at hd
    simp only [Valid] at ha hb
    simp only [SizesFit] at sa sb
    simp only [Alike]
    by_cases hn : bs = .nil ∧ ms = .nil
    · obtain ⟨rfl, rfl⟩ := hn
      simp only [message] at h
      exact ⟨(List.append_inj' h rfl).1, by simp only [AlikeAll, and_self]⟩
    · rw [message_described _ _ _ _ hn, message_described _ _ _ _ hn, ← List.append_assoc, ← List.append_assoc] at h
      obtain ⟨h1, h2⟩ := messages_decode ms a.2 b.2 hd.2 ha.2 hb.2 sa.2 sb.2 _ _ h
      obtain ⟨h3, h4⟩ := messages_decode bs a.1 b.1 hd.1 ha.1 hb.1 sa.1 sb.1 _ _ h1
      exact ⟨h3, h4, h2⟩
  | .user cs, a, b, hd, ha, hb, sa, sb => by
    intro p q h
    simp only [delimited] at hd
    simp only [Valid] at ha hb
    simp only [SizesFit] at sa sb
    simp only [message] at h
    simp only [Alike]
    exact messages_decode _ a b hd ha hb sa sb p q h
  | .range k t, as, bs, hd, _, _, _, _ => by simp [delimited] at hd
  | .size, a, b, _, _, _, sa, sb => by
    intro p q h
    simp only [SizesFit] at sa sb
    simp only [message] at h
    simp only [Alike]
    exact word_decode h sa sb
theorem messages_decode : ∀ (ts : Tys) (a b : ts.Val), delimitedAll ts = true → ValidAll (8 * L.ptrBytes) ts a →
    ValidAll (8 * L.ptrBytes) ts b → SizesFitAll L.sizeBytes ts a → SizesFitAll L.sizeBytes ts b →
    Decodable (messages L H ts) (AlikeAll ts) a b
  | .nil, _, _, _, _, _, _, _ => by
    intro p q h
    simp only [messages, List.append_nil] at h
    exact ⟨h, by simp only [AlikeAll]⟩
  | .cons t ts, a, b, hd, ha, hb, sa, sb => by
    intro p q h
    simp only [delimitedAll, Bool.and_eq_true] at hd
    simp only [ValidAll] at ha hb
    simp only [SizesFitAll] at sa sb
    simp only [messages, ← List.append_assoc] at h
    obtain ⟨h1, h2⟩ := messages_decode ts a.2 b.2 hd.2 ha.2 hb.2 sa.2 sb.2 _ _ h
    obtain ⟨h3, h4⟩ := message_decode t a.1 b.1 hd.1 ha.1 hb.1 sa.1 sb.1 _ _ h1
    exact ⟨h3, by simp only [AlikeAll]; exact ⟨h4, h2⟩⟩
end
end

end Hash2

import Verif.Lemmas.Floats
/-
Facts about messages: their sizes, the object representation of contiguously hashable types, equal objects, different objects.
-/
namespace Hash2
open Spec

section word
variable (L : Layout)

@[simp] theorem word_length (k v : Nat) : (L.word k v).length = k := by
  unfold Layout.word; split <;> simp

theorem word_inj {k v w : Nat} (hv : v < 256 ^ k) (hw : w < 256 ^ k) (h : L.word k v = L.word k w) : v = w := by
  unfold Layout.word at h
  split at h
  · exact natLE_inj hv hw h
  · exact natLE_inj hv hw (List.reverse_inj.1 h)

theorem word_mod (k v : Nat) : L.word k (v % 256 ^ k) = L.word k v := by
  unfold Layout.word natBE
  rw [natLE_mod]

theorem word_one (v : Nat) : L.word 1 v = [BitVec.ofNat 8 v] := by
  unfold Layout.word; split <;> simp [natBE, natLE]

theorem objBytes_word {L : Layout} {e : Endian} (h : L.order = e) (sz : Nat) {k : Nat} (v : BitVec k) :
    objBytes e sz v = L.word sz v.toNat := by
  subst h; unfold objBytes Layout.word; cases L.order <;> rfl

theorem pow256 (k : Nat) : 2 ^ (8 * k) = 256 ^ k := by rw [Nat.pow_mul]

end word

section concat
variable {α : Type}

theorem concat_const {m : α → List Byte → List Byte} {f : α → List Byte} {vs : List α} (h : ∀ v ∈ vs, ∀ p, m v p = f v) (p : List Byte) :
    concat m vs p = (vs.map f).flatten := by
  induction vs generalizing p with
  | nil => rfl
  | cons v vs ih =>
    simp only [concat, List.map_cons, List.flatten_cons]
    rw [ih (fun v hv => h v (List.mem_cons_of_mem _ hv)), h v (List.mem_cons_self ..)]

theorem concat_length_le {m : α → List Byte → List Byte} {w : α → Nat} {vs : List α} (h : ∀ v ∈ vs, ∀ p, (m v p).length ≤ w v)
    (p : List Byte) : (concat m vs p).length ≤ (vs.map w).sum := by
  induction vs generalizing p with
  | nil => exact Nat.le_refl _
  | cons v vs ih =>
    simp only [concat, List.length_append, List.map_cons, List.sum_cons]
    exact Nat.add_le_add (h v (List.mem_cons_self ..) p) (ih (fun v hv => h v (List.mem_cons_of_mem _ hv)) _)

theorem concat_congr {m m' : α → List Byte → List Byte} {vs : List α} (h : ∀ v ∈ vs, ∀ p, m v p = m' v p) (p : List Byte) :
    concat m vs p = concat m' vs p := by
  induction vs generalizing p with
  | nil => rfl
  | cons v vs ih =>
    simp only [concat]
    rw [h v (List.mem_cons_self ..), ih (fun v hv => h v (List.mem_cons_of_mem _ hv))]

theorem concat_append (m : α → List Byte → List Byte) (vs ws : List α) (p : List Byte) :
    concat m (vs ++ ws) p = concat m vs p ++ concat m ws (p ++ concat m vs p) := by
  induction vs generalizing p with
  | nil => simp [concat]
  | cons v vs ih => simp only [List.cons_append, concat, ih, List.append_assoc]

theorem concat_ne_nil {m : α → List Byte → List Byte} {vs : List α} (h : ∀ v ∈ vs, ∀ p, m v p ≠ []) (hv : vs ≠ []) (p : List Byte) :
    concat m vs p ≠ [] := by
  cases vs with
  | nil => exact absurd rfl hv
  | cons v vs =>
    simp only [concat]
    exact fun e => h v (List.mem_cons_self ..) p (List.append_eq_nil_iff.1 e).1

end concat

section unfolding
variable (L : Layout) (H : List Byte → W64)

theorem message_arr (k : RangeKind) (n : Nat) (t : Ty) (vs : List t.Val) (p : List Byte) :
    message L H (.arr k n t) vs p = if vs.isEmpty then [0] else concat (message L H t) vs p := by
  cases vs <;> simp [message]

theorem message_tuple {ts : Tys} (h : ts ≠ .nil) (v : ts.Val) (p : List Byte) :
    message L H (.tuple ts) v p = messages L H ts v p := by
  cases ts with
  | nil => exact absurd rfl h
  | cons t ts => rw [message]; intros; contradiction

theorem message_described (tr ind : Bool) {bs ms : Tys} (h : ¬ (bs = .nil ∧ ms = .nil)) (v : bs.Val × ms.Val) (p : List Byte) :
    message L H (.described tr ind bs ms) v p =
      messages L H bs v.1 p ++ messages L H ms v.2 (p ++ messages L H bs v.1 p) := by
  cases bs with
  | nil =>
    cases ms with
    | nil => exact absurd ⟨rfl, rfl⟩ h
    | cons t ts => rw [message]; intros; contradiction
  | cons t ts => rw [message]; intros; contradiction

end unfolding

theorem mem_sum {α : Type} (f g : α → Nat) (vs : List α) (h : ∀ v ∈ vs, f v ≤ g v) : (vs.map f).sum ≤ (vs.map g).sum := by
  induction vs with
  | nil => exact Nat.le_refl _
  | cons v vs ih =>
    simp only [List.map_cons, List.sum_cons]
    exact Nat.add_le_add (h v (List.mem_cons_self ..)) (ih fun v hv => h v (List.mem_cons_of_mem _ hv))

theorem Sz.n_le (s : Sz) : s.n ≤ 8 := by cases s <;> decide
theorem Sz.n_pos (s : Sz) : 0 < s.n := by cases s <;> decide

section weight
variable {L : Layout} (H : List Byte → W64) (hs : L.sizeBytes ≤ 8) (hp : L.ptrBytes ≤ 8)
include hs hp

mutual
theorem message_length_le : ∀ (t : Ty) (v : t.Val) (p : List Byte), (message L H t v p).length ≤ weight t v
  | .int k, v, p => by simp only [message, weight, word_length]; exact k.size.n_le
  | .enum k, v, p => by simp only [message, weight, word_length]; exact k.size.n_le
  | .ptr, v, p => by simpa [message, weight] using hp
  | .nullptr, v, p => by simpa [message, weight] using hp
  | .f32, v, p => by simp [message, weight]
  | .f64, v, p => by simp [message, weight]
  | .carray n t, vs, p => by
    simp only [message, weight]
    exact concat_length_le (fun v _ p => message_length_le t v p) p
  | .seq k t, vs, p => by
    simp only [message, weight, List.length_append, word_length]
    exact Nat.add_le_add (concat_length_le (fun v _ p => message_length_le t v p) p) hs
  | .arr k n t, vs, p => by
    rw [message_arr]; simp only [weight]
    split
    · simp
    · exact Nat.le_succ_of_le (concat_length_le (fun v _ p => message_length_le t v p) p)
  | .unord t, vs, p => by
    simp only [message, weight, List.length_append, word_length]
    omega
  | .tuple .nil, v, p => by simp [message, weight]
  | .tuple (.cons t ts), v, p => by
    rw [message_tuple _ _ (by intro h; cases h)]
    simp only [weight]
    exact Nat.le_succ_of_le (messages_length_le _ v p)
  | .described _ _ bs ms, v, p => by
    by_cases h : bs = .nil ∧ ms = .nil
    · obtain ⟨rfl, rfl⟩ := h
      simp [message, weight]
    · rw [message_described _ _ _ _ h]
      simp only [weight, List.length_append]
      exact Nat.le_succ_of_le (Nat.add_le_add (messages_length_le _ _ _) (messages_length_le _ _ _))
  | .user cs, v, p => by
    simp only [message, weight]
    exact messages_length_le _ v p
  | .range k t, vs, p => by
    simp only [message, weight]
    exact concat_length_le (fun v _ p => message_length_le t v p) p
  | .size, n, p => by simpa [message, weight] using hs
theorem messages_length_le : ∀ (ts : Tys) (v : ts.Val) (p : List Byte), (messages L H ts v p).length ≤ weights ts v
  | .nil, _, _ => by simp [messages, weights]
  | .cons t ts, v, p => by
    simp only [messages, weights, List.length_append]
    exact Nat.add_le_add (message_length_le t _ _) (messages_length_le ts _ _)
end
end weight

section contributing
variable {L : Layout} (H : List Byte → W64) (hs : 0 < L.sizeBytes) (hp : 0 < L.ptrBytes)
include hs hp

theorem word_ne_nil {k : Nat} (h : 0 < k) (v : Nat) : L.word k v ≠ [] := by
  intro e
  have := congrArg List.length e
  rw [word_length] at this
  simp at this; omega

mutual
theorem message_ne_nil : ∀ (t : Ty) (v : t.Val) (p : List Byte) (w : Nat), contributing t = true → wellFormed t = true → Valid w t v →
    message L H t v p ≠ []
  | .int k, v, p, _, _, _, _ => by simp only [message]; exact word_ne_nil hs hp k.size.n_pos _
  | .enum k, v, p, _, _, _, _ => by simp only [message]; exact word_ne_nil hs hp k.size.n_pos _
  | .ptr, v, p, _, _, _, _ => by simp only [message]; exact word_ne_nil hs hp hp _
  | .nullptr, v, p, _, _, _, _ => by simp only [message]; exact word_ne_nil hs hp hp _
  | .f32, v, p, _, _, _, _ => by simp only [message]; exact word_ne_nil hs hp (by decide) _
  | .f64, v, p, _, _, _, _ => by simp only [message]; exact word_ne_nil hs hp (by decide) _
  | .carray n t, vs, p, w, hc, hw, hv => by
    simp only [contributing] at hc
    simp only [wellFormed, Bool.and_eq_true, bne_iff_ne] at hw
    simp only [Valid] at hv
    simp only [message]
    refine concat_ne_nil (fun v hm p => message_ne_nil t v p w hc hw.2 (hv.2 v hm)) ?_ p
    rintro rfl
    exact hw.1 hv.1.symm
  | .seq k t, vs, p, _, _, _, _ => by
    simp only [message]
    exact fun e => word_ne_nil hs hp hs _ (List.append_eq_nil_iff.1 e).2
  | .arr k n t, vs, p, w, hc, hw, hv => by
    simp only [contributing] at hc
    simp only [wellFormed] at hw
    simp only [Valid] at hv
    rw [message_arr]
    split
    · simp
    · rename_i h
      exact concat_ne_nil (fun v hm p => message_ne_nil t v p w hc hw (hv.2 v hm)) (by simpa using h) p
  | .unord t, vs, p, _, _, _, _ => by
    simp only [message]
    exact fun e => word_ne_nil hs hp hs _ (List.append_eq_nil_iff.1 e).2
  | .tuple .nil, v, p, _, _, _, _ => by simp [message]
  | .tuple (.cons t ts), v, p, w, hc, hw, hv => by
    simp only [contributing] at hc
    simp only [wellFormed] at hw
    simp only [Valid] at hv
    rw [message_tuple _ _ (by intro h; cases h)]
    exact messages_ne_nil _ v p w hc hw hv (by intro h; cases h)
  | .described _ _ bs ms, v, p, w, hc, hw, hv => by
    simp only [contributing, Bool.and_eq_true] at hc
    simp only [wellFormed, Bool.and_eq_true] at hw
    simp only [Valid] at hv
    by_cases h : bs = .nil ∧ ms = .nil
    · obtain ⟨rfl, rfl⟩ := h
      simp [message]
    · rw [message_described _ _ _ _ h]
      intro e
      have e := List.append_eq_nil_iff.1 e
      by_cases hb : bs = .nil
      · exact messages_ne_nil _ v.2 _ w hc.2 hw.1.1.2 hv.2 (fun hm => h ⟨hb, hm⟩) e.2
      · exact messages_ne_nil _ v.1 _ w hc.1 hw.1.1.1 hv.1 hb e.1
  | .user .nil, v, p, w, hc, _, _ => by simp [contributing] at hc
  | .user (.cons t ts), v, p, w, hc, hw, hv => by
    have hc : contributingAll (.cons t ts) = true := by rw [contributing] at hc; exact hc; intro h; cases h
    simp only [wellFormed] at hw
    simp only [Valid] at hv
    simp only [message]
    exact messages_ne_nil _ v p w hc hw hv (by intro h; cases h)
  | .range k t, vs, p, _, hc, _, _ => by simp [contributing] at hc
  | .size, n, p, _, _, _, _ => by simp only [message]; exact word_ne_nil hs hp hs _
theorem messages_ne_nil : ∀ (ts : Tys) (v : ts.Val) (p : List Byte) (w : Nat), contributingAll ts = true → wellFormedAll ts = true →
    ValidAll w ts v → ts ≠ .nil → messages L H ts v p ≠ []
  | .nil, _, _, _, _, _, _, h => absurd rfl h
  | .cons t ts, v, p, w, hc, hw, hv, _ => by
    simp only [contributingAll, Bool.and_eq_true] at hc
    simp only [wellFormedAll, Bool.and_eq_true] at hw
    simp only [ValidAll] at hv
    simp only [messages]
    exact fun e => message_ne_nil t v.1 p w hc.1 hw.1 hv.1 (List.append_eq_nil_iff.1 e).1
end
end contributing

end Hash2

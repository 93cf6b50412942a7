import Verif.Lemmas.MessageEq
/-
Messages on different platforms; messages of objects of different types.
-/
namespace Hash2
open Spec

theorem concat_congr_len {α : Type} {m m' : α → List Byte → List Byte} {wt : α → Nat} {K : Nat} {vs : List α}
    (h : ∀ v ∈ vs, ∀ p, p.length + wt v ≤ K → m v p = m' v p) (hl : ∀ v p, (m v p).length ≤ wt v) (p : List Byte)
    (hp : p.length + (vs.map wt).sum ≤ K) : concat m vs p = concat m' vs p := by
  induction vs generalizing p with
  | nil => rfl
  | cons v vs ih =>
    rw [List.map_cons, List.sum_cons] at hp
    simp only [concat]
    have := hl v p
    rw [← h v (List.mem_cons_self ..) p (by omega), ih (fun v hm => h v (List.mem_cons_of_mem _ hm)) _ (by rw [List.length_append]; omega)]

section
variable {L L' : Layout} {H H' : List Byte → W64} {K : Nat} (ho : L.order = L'.order) (hs : L.sizeBytes = L'.sizeBytes)
  (hs8 : L.sizeBytes ≤ 8) (hp8 : L.ptrBytes ≤ 8) (hH : ∀ bs, bs.length ≤ K → H bs = H' bs)

include ho in
theorem word_congr (k v : Nat) : L.word k v = L'.word k v := by
  unfold Layout.word; rw [ho]

include ho hs hs8 hp8 hH

mutual
/-- **Messages are portable.** -/
theorem message_port : ∀ (t : Ty) (v : t.Val) (p : List Byte), (pointerFree t = true ∨ L.ptrBytes = L'.ptrBytes) →
    (NoNaN t v ∨ L.canonicalNaN = L'.canonicalNaN) → p.length + weight t v ≤ K → message L H t v p = message L' H' t v p
  | .int k, v, p, _, _, _ => by simp only [message]; exact word_congr ho _ _
  | .enum k, v, p, _, _, _ => by simp only [message]; exact word_congr ho _ _
  | .ptr, v, p, h, _, _ => by
    simp only [message]
    rw [h.resolve_left (by simp [pointerFree])]
    exact word_congr ho _ _
  | .nullptr, v, p, h, _, _ => by
    simp only [message]
    rw [h.resolve_left (by simp [pointerFree])]
    exact word_congr ho _ _
  | .f32, v, p, _, h, _ => by
    simp only [NoNaN] at h
    simp only [message]
    have : canonical L.canonicalNaN 8 23 v.toNat = canonical L'.canonicalNaN 8 23 v.toNat := by
      rcases h with h | h
      · exact canonical_congr (eb := 8) (mb := 23) (by decide) v.isLt v.isLt rfl h
      · rw [h]
    rw [this]
    exact word_congr ho _ _
  | .f64, v, p, _, h, _ => by
    simp only [NoNaN] at h
    simp only [message]
    have : canonical L.canonicalNaN 11 52 v.toNat = canonical L'.canonicalNaN 11 52 v.toNat := by
      rcases h with h | h
      · exact canonical_congr (eb := 11) (mb := 52) (by decide) v.isLt v.isLt rfl h
      · rw [h]
    rw [this]
    exact word_congr ho _ _
  | .carray n t, vs, p, h1, h2, hk => by
    simp only [pointerFree] at h1
    simp only [NoNaN] at h2
    simp only [weight] at hk
    simp only [message]
    exact concat_congr_len (fun v hm p hp => message_port t v p h1 (h2.imp (fun h => h v hm) id) hp)
      (fun v p => message_length_le H hs8 hp8 t v p) p hk
  | .seq k t, vs, p, h1, h2, hk => by
    simp only [pointerFree] at h1
    simp only [NoNaN] at h2
    simp only [weight] at hk
    simp only [message]
    rw [concat_congr_len (fun v hm p hp => message_port t v p h1 (h2.imp (fun h => h v hm) id) hp)
      (fun v p => message_length_le H hs8 hp8 t v p) p (by omega), hs, word_congr ho]
  | .arr k n t, vs, p, h1, h2, hk => by
    simp only [pointerFree] at h1
    simp only [NoNaN] at h2
    simp only [weight] at hk
    rw [message_arr, message_arr]
    rw [concat_congr_len (fun v hm p hp => message_port t v p h1 (h2.imp (fun h => h v hm) id) hp)
      (fun v p => message_length_le H hs8 hp8 t v p) p (by omega)]
  | .unord t, vs, p, h1, h2, hk => by
    simp only [pointerFree] at h1
    simp only [NoNaN] at h2
    simp only [weight] at hk
    simp only [message]
    have : (vs.map fun v => (H (p ++ message L H t v p)).toNat) = vs.map fun v => (H' (p ++ message L' H' t v p)).toNat := by
      refine List.map_congr_left fun v hm => ?_
      have hw : weight t v ≤ (vs.map (weight t)).sum := by
        clear hk
        induction vs with
        | nil => cases hm
        | cons u us ih =>
          rw [List.map_cons, List.sum_cons]
          rcases List.mem_cons.mp hm with rfl | hm
          · omega
          · have := ih (h2.imp (fun h v hm => h v (List.mem_cons_of_mem _ hm)) id) hm
            omega
      have hl := message_length_le H hs8 hp8 t v p
      rw [hH _ (by rw [List.length_append]; omega), message_port t v p h1 (h2.imp (fun h => h v hm) id) (by omega)]
    rw [this, hs, word_congr ho, word_congr ho]
  | .tuple .nil, v, p, _, _, _ => by simp only [message]
  | .tuple (.cons t ts), v, p, h1, h2, hk => by
    simp only [pointerFree] at h1
    simp only [NoNaN] at h2
    simp only [weight] at hk
    rw [message_tuple _ _ (by intro h; cases h), message_tuple _ _ (by intro h; cases h)]
    exact messages_port _ v p h1 h2 (by omega)
  | .described _ _ bs ms, v, p, h1, h2, hk => by
    simp only [pointerFree, Bool.and_eq_true] at h1
    simp only [NoNaN] at h2
    simp only [weight] at hk
    by_cases hn : bs = .nil ∧ ms = .nil
    · obtain ⟨rfl, rfl⟩ := hn
      simp [message]
    · have hl := messages_length_le H hs8 hp8 bs v.1 p
      rw [message_described _ _ _ _ hn, message_described _ _ _ _ hn,
        ← messages_port bs v.1 p (h1.imp And.left id) (h2.imp And.left id) (by omega),
        messages_port ms v.2 _ (h1.imp And.right id) (h2.imp And.right id) (by rw [List.length_append]; omega)]
  | .user cs, v, p, h1, h2, hk => by
    simp only [pointerFree] at h1
    simp only [NoNaN] at h2
    simp only [weight] at hk
    simp only [message]
    exact messages_port _ v p h1 h2 hk
  | .range k t, vs, p, h1, h2, hk => by
    simp only [pointerFree] at h1
    simp only [NoNaN] at h2
    simp only [weight] at hk
    simp only [message]
    exact concat_congr_len (fun v hm p hp => message_port t v p h1 (h2.imp (fun h => h v hm) id) hp)
      (fun v p => message_length_le H hs8 hp8 t v p) p hk
  | .size, n, p, _, _, _ => by simp only [message]; rw [hs, word_congr ho]
theorem messages_port : ∀ (ts : Tys) (v : ts.Val) (p : List Byte), (pointerFreeAll ts = true ∨ L.ptrBytes = L'.ptrBytes) →
    (NoNaNAll ts v ∨ L.canonicalNaN = L'.canonicalNaN) → p.length + weights ts v ≤ K → messages L H ts v p = messages L' H' ts v p
  | .nil, _, _, _, _, _ => by simp only [messages]
  | .cons t ts, v, p, h1, h2, hk => by
    simp only [pointerFreeAll, Bool.and_eq_true] at h1
    simp only [NoNaNAll] at h2
    simp only [weights] at hk
    simp only [messages]
    have hl := message_length_le H hs8 hp8 t v.1 p
    rw [← message_port t v.1 p (h1.imp And.left id) (h2.imp And.left id) (by omega),
      messages_port ts v.2 _ (h1.imp And.right id) (h2.imp And.right id) (by rw [List.length_append]; omega)]
end
end

end Hash2

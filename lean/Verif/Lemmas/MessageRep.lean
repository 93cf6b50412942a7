import Verif.Lemmas.Messages
/-
The object representation of a contiguously hashable type is its message.
-/
namespace Hash2
open Spec

theorem contig_array (env : Env) (E : Endian) (n : Nat) (t : Ty) :
    (Ty.carray n t).contiguouslyHashable env E = t.contiguouslyHashable env E := by
  rw [Ty.contiguouslyHashable]

theorem contig_scalar (env : Env) (E : Endian) (t : Ty) (h : ∀ n u, t ≠ .carray n u) :
    t.contiguouslyHashable env E = (t.triviallyComparable && (E == env.native || t.endianIndependent env)) := by
  cases t <;> first | rfl | exact absurd rfl (h _ _)

/-- a contiguously hashable type is plain -/
theorem contig_plain {env : Env} {E : Endian} : ∀ (t : Ty), t.contiguouslyHashable env E = true → plain t = true
  | .carray n t, h => by
    rw [contig_array] at h
    rw [plain]
    exact contig_plain t h
  | .int _, _ => rfl
  | .enum _, _ => rfl
  | .ptr, _ => rfl
  | .described _ _ _ _, h => by
    rw [contig_scalar _ _ _ (by intros; simp)] at h
    exact (Bool.and_eq_true _ _ ▸ h).1
  | .nullptr, h | .f32, h | .f64, h | .seq _ _, h | .arr _ _ _, h | .unord _, h | .tuple _, h | .user _, h | .range _ _, h | .size, h => by
    rw [contig_scalar _ _ _ (by intros; simp)] at h
    simp [Ty.triviallyComparable] at h

mutual
/-- plain types have a size -/
theorem sizeOf_pos {env : Env} : ∀ (t : Ty), plain t = true → wellFormed t = true → 0 < t.sizeOf env
  | .int k, _, _ => by simp only [Ty.sizeOf]; exact k.size.n_pos
  | .enum k, _, _ => by simp only [Ty.sizeOf]; exact k.size.n_pos
  | .ptr, _, _ => by simp only [Ty.sizeOf]; exact env.ptrSz.n_pos
  | .carray n t, hp, hw => by
    simp only [wellFormed, Bool.and_eq_true, bne_iff_ne] at hw
    rw [plain] at hp
    simp only [Ty.sizeOf]
    exact Nat.mul_pos (Nat.pos_of_ne_zero hw.1) (sizeOf_pos t hp hw.2)
  | .described _ _ _ _, _, _ => by simp only [Ty.sizeOf]; omega
  | .nullptr, hp, _ | .f32, hp, _ | .f64, hp, _ | .seq _ _, hp, _ | .arr _ _ _, hp, _ | .unord _, hp, _ | .tuple _, hp, _
  | .user _, hp, _ | .range _ _, hp, _ | .size, hp, _ => by simp [plain, Ty.triviallyComparable] at hp
end

theorem plain_described {tr ind : Bool} {bs ms : Tys} (hp : plain (.described tr ind bs ms) = true)
    (hw : wellFormed (.described tr ind bs ms) = true) :
    wellFormedAll bs = true ∧ wellFormedAll ms = true ∧ plainAll bs = true ∧ plainAll ms = true ∧ ¬ (bs = .nil ∧ ms = .nil) ∧
      (ind = true → bytesOnlyAll bs = true ∧ bytesOnlyAll ms = true) := by
  have ht : tr = true := by simpa [plain, Ty.triviallyComparable] using hp
  subst ht
  simp only [wellFormed, Bool.and_eq_true, Bool.not_true, Bool.false_or, Bool.or_eq_true, Bool.not_eq_true'] at hw
  refine ⟨hw.1.1.1, hw.1.1.2, hw.1.2.1.1, hw.1.2.1.2, ?_, ?_⟩
  · rintro ⟨rfl, rfl⟩
    simp at hw
  · intro hi
    rcases hw.2 with h | h
    · rw [hi] at h; cases h
    · exact h

theorem tys_size_pos {env : Env} {ts : Tys} (hp : plainAll ts = true) (hw : wellFormedAll ts = true) (h : ts ≠ .nil) :
    0 < ts.sizeOf env := by
  cases ts with
  | nil => exact absurd rfl h
  | cons t ts =>
    simp only [plainAll, wellFormedAll, Bool.and_eq_true] at hp hw
    simp only [Tys.sizeOf]
    have := sizeOf_pos (env := env) t hp.1 hw.1
    omega

theorem ptrSz_ne_one (env : Env) : env.ptrSz.n ≠ 1 := by
  unfold Env.ptrSz; split <;> decide

theorem sz_one {s : Sz} (h : s.n = 1) : s = .s1 := by cases s <;> simp [Sz.n] at h ⊢

mutual
/-- plain types of size 1 are bytes -/
theorem size_one_bytes {env : Env} : ∀ (t : Ty), plain t = true → wellFormed t = true → t.sizeOf env = 1 → bytesOnly t = true
  | .int k, _, _, h => by
    simp only [Ty.sizeOf] at h
    simp [bytesOnly, sz_one h]
  | .enum k, _, _, h => by
    simp only [Ty.sizeOf] at h
    simp [bytesOnly, sz_one h]
  | .ptr, _, _, h => by
    simp only [Ty.sizeOf] at h
    exact absurd h (ptrSz_ne_one env)
  | .carray n t, hp, hw, h => by
    simp only [wellFormed, Bool.and_eq_true, bne_iff_ne] at hw
    rw [plain] at hp
    simp only [Ty.sizeOf] at h
    simp only [bytesOnly]
    exact size_one_bytes t hp hw.2 (Nat.eq_one_of_mul_eq_one_left h)
  | .described tr ind bs ms, hp, hw, h => by
    obtain ⟨hwb, hwm, hpb, hpm, _, _⟩ := plain_described hp hw
    simp only [Ty.sizeOf] at h
    simp only [bytesOnly, Bool.and_eq_true]
    have : bs.sizeOf env + ms.sizeOf env ≤ 1 := by omega
    exact ⟨size_le_one_bytes (env := env) bs hpb hwb (by omega), size_le_one_bytes (env := env) ms hpm hwm (by omega)⟩
  | .nullptr, hp, _, _ | .f32, hp, _, _ | .f64, hp, _, _ | .seq _ _, hp, _, _ | .arr _ _ _, hp, _, _ | .unord _, hp, _, _ | .tuple _, hp, _, _
  | .user _, hp, _, _ | .range _ _, hp, _, _ | .size, hp, _, _ => by simp [plain, Ty.triviallyComparable] at hp
theorem size_le_one_bytes {env : Env} : ∀ (ts : Tys), plainAll ts = true → wellFormedAll ts = true → ts.sizeOf env ≤ 1 →
    bytesOnlyAll ts = true
  | .nil, _, _, _ => rfl
  | .cons t ts, hp, hw, h => by
    simp only [plainAll, wellFormedAll, Bool.and_eq_true] at hp hw
    simp only [Tys.sizeOf] at h
    have h1 := sizeOf_pos (env := env) t hp.1 hw.1
    simp only [bytesOnlyAll, Bool.and_eq_true]
    exact ⟨size_one_bytes (env := env) t hp.1 hw.1 (by omega), size_le_one_bytes (env := env) ts hp.2 hw.2 (by omega)⟩
end

/-- contiguously hashable under another byte order: only bytes -/
theorem contig_bytes {env : Env} {E : Endian} : ∀ (t : Ty), wellFormed t = true → t.contiguouslyHashable env E = true →
    E = env.native ∨ bytesOnly t = true
  | .carray n t, hw, h => by
    simp only [wellFormed, Bool.and_eq_true] at hw
    rw [contig_array] at h
    simp only [bytesOnly]
    exact contig_bytes t hw.2 h
  | .int k, hw, h => aux _ hw h (by intros; simp) (fun _ _ _ _ h => by cases h)
  | .enum k, hw, h => aux _ hw h (by intros; simp) (fun _ _ _ _ h => by cases h)
  | .ptr, hw, h => aux _ hw h (by intros; simp) (fun _ _ _ _ h => by cases h)
  | .nullptr, hw, h => aux _ hw h (by intros; simp) (fun _ _ _ _ h => by cases h)
  | .f32, hw, h => aux _ hw h (by intros; simp) (fun _ _ _ _ h => by cases h)
  | .f64, hw, h => aux _ hw h (by intros; simp) (fun _ _ _ _ h => by cases h)
  | .seq _ _, hw, h => aux _ hw h (by intros; simp) (fun _ _ _ _ h => by cases h)
  | .arr _ _ _, hw, h => aux _ hw h (by intros; simp) (fun _ _ _ _ h => by cases h)
  | .unord _, hw, h => aux _ hw h (by intros; simp) (fun _ _ _ _ h => by cases h)
  | .tuple _, hw, h => aux _ hw h (by intros; simp) (fun _ _ _ _ h => by cases h)
  | .user _, hw, h => aux _ hw h (by intros; simp) (fun _ _ _ _ h => by cases h)
  | .range _ _, hw, h => aux _ hw h (by intros; simp) (fun _ _ _ _ h => by cases h)
  | .size, hw, h => aux _ hw h (by intros; simp) (fun _ _ _ _ h => by cases h)
  | .described tr ind bs ms, hw, h => aux _ hw h (by intros; simp) (by
      intro tr' ind' bs' ms' e hi
      cases e
      have := (plain_described (contig_plain _ h) hw).2.2.2.2.2 hi
      simp only [bytesOnly, Bool.and_eq_true]
      exact this)
where
  aux (t : Ty) (hw : wellFormed t = true) (h : t.contiguouslyHashable env E = true) (hn : ∀ n u, t ≠ .carray n u)
      (hd : ∀ tr ind bs ms, t = .described tr ind bs ms → ind = true → bytesOnly t = true) : E = env.native ∨ bytesOnly t = true := by
    have hp := contig_plain t h
    rw [contig_scalar _ _ _ hn] at h
    simp only [Bool.and_eq_true, Bool.or_eq_true, beq_iff_eq] at h
    refine h.2.imp id fun he => ?_
    unfold Ty.endianIndependent at he
    rw [Bool.or_eq_true, beq_iff_eq] at he
    rcases he with he | he
    · cases t <;> simp only [Bool.false_eq_true] at he
      exact hd _ _ _ _ rfl he
    · exact size_one_bytes t hp hw he

section
variable {env : Env} {L : Layout} (H : List Byte → W64) (hp : L.ptrBytes = env.ptrSz.n)
include hp

mutual
theorem rep_native (ho : L.order = env.native) : ∀ (t : Ty) (v : t.Val) (w : Nat) (p : List Byte), plain t = true → wellFormed t = true →
    Valid w t v → message L H t v p = t.rep env v ∧ (t.rep env v).length = t.sizeOf env
  | .int k, v, _, p, _, _, _ => by
    simp only [message, Ty.rep, Ty.sizeOf, objBytes_word ho, word_length, and_self]
  | .enum k, v, _, p, _, _, _ => by
    simp only [message, Ty.rep, Ty.sizeOf, objBytes_word ho, word_length, and_self]
  | .ptr, v, _, p, _, _, _ => by
    simp only [message, Ty.rep, Ty.sizeOf, objBytes_word ho, word_length, hp, and_self]
  | .carray n t, vs, w, p, hpl, hw, hv => by
    simp only [wellFormed, Bool.and_eq_true, bne_iff_ne] at hw
    rw [plain] at hpl
    simp only [Valid] at hv
    have ih := fun v hm p => rep_native ho t v w p hpl hw.2 (hv.2 v hm)
    simp only [message, Ty.rep, Ty.sizeOf]
    refine ⟨concat_const (fun v hm p => (ih v hm p).1) p, ?_⟩
    rw [List.length_flatten, List.map_map]
    have : vs.map (List.length ∘ t.rep env) = vs.map (fun _ => t.sizeOf env) :=
      List.map_congr_left fun v hm => (ih v hm p).2
    rw [this, List.map_const', List.sum_replicate_nat, hv.1]
  | .described tr ind bs ms, v, w, p, hpl, hw, hv => by
    obtain ⟨hwb, hwm, hpb, hpm, hnn, _⟩ := plain_described hpl hw
    simp only [Valid] at hv
    have h1 := reps_native ho bs v.1 w p hpb hwb hv.1
    have h2 := fun p => reps_native ho ms v.2 w p hpm hwm hv.2
    rw [message_described _ _ _ _ hnn]
    simp only [Ty.rep, Ty.sizeOf, List.length_append, h1.1, h1.2, (h2 _).1, (h2 p).2, true_and]
    have : 0 < bs.sizeOf env + ms.sizeOf env := by
      by_cases hb : bs = .nil
      · have := tys_size_pos (env := env) hpm hwm (fun h => hnn ⟨hb, h⟩)
        omega
      · have := tys_size_pos (env := env) hpb hwb hb
        omega
    omega
  | .nullptr, _, _, _, h, _, _ | .f32, _, _, _, h, _, _ | .f64, _, _, _, h, _, _ | .seq _ _, _, _, _, h, _, _ | .arr _ _ _, _, _, _, h, _, _
  | .unord _, _, _, _, h, _, _ | .tuple _, _, _, _, h, _, _ | .user _, _, _, _, h, _, _ | .range _ _, _, _, _, h, _, _ | .size, _, _, _, h, _, _ => by
    simp [plain, Ty.triviallyComparable] at h
theorem reps_native (ho : L.order = env.native) : ∀ (ts : Tys) (v : ts.Val) (w : Nat) (p : List Byte), plainAll ts = true →
    wellFormedAll ts = true → ValidAll w ts v → messages L H ts v p = ts.rep env v ∧ (ts.rep env v).length = ts.sizeOf env
  | .nil, _, _, _, _, _, _ => by simp [messages, Tys.rep, Tys.sizeOf]
  | .cons t ts, v, w, p, hpl, hw, hv => by
    simp only [plainAll, wellFormedAll, Bool.and_eq_true] at hpl hw
    simp only [ValidAll] at hv
    have h1 := rep_native ho t v.1 w p hpl.1 hw.1 hv.1
    have h2 := fun p => reps_native ho ts v.2 w p hpl.2 hw.2 hv.2
    simp only [messages, Tys.rep, Tys.sizeOf, List.length_append, h1.1, h1.2, (h2 _).1, (h2 p).2, and_self]
end
end

section
variable {L L' : Layout} (H H' : List Byte → W64)

theorem sz_word {s : Sz} (h : (s == Sz.s1) = true) (v : Nat) : L.word s.n v = L'.word s.n v := by
  rw [eq_of_beq h]; rw [show Sz.s1.n = 1 from rfl, word_one, word_one]

mutual
/-- the message of bytes does not depend on anything else -/
theorem bytes_message : ∀ (t : Ty) (v : t.Val) (p p' : List Byte), bytesOnly t = true → message L H t v p = message L' H' t v p'
  | .int k, v, p, p', h => by simp only [message]; exact sz_word h _
  | .enum k, v, p, p', h => by simp only [message]; exact sz_word h _
  | .carray n t, vs, p, p', h => by
    simp only [bytesOnly] at h
    simp only [message]
    rw [concat_const (f := fun v => message L' H' t v []) (fun v _ q => bytes_message t v q [] h),
      concat_const (f := fun v => message L' H' t v []) (fun v _ q => (bytes_message t v [] q h).symm.trans (bytes_message t v [] [] h))]
  | .described tr ind bs ms, v, p, p', h => by
    simp only [bytesOnly, Bool.and_eq_true] at h
    by_cases hn : bs = .nil ∧ ms = .nil
    · obtain ⟨rfl, rfl⟩ := hn
      simp [message]
    · rw [message_described _ _ _ _ hn, message_described _ _ _ _ hn, bytes_messages bs v.1 p p' h.1]
      congr 1
      exact bytes_messages ms v.2 _ _ h.2
  | .ptr, _, _, _, h | .nullptr, _, _, _, h | .f32, _, _, _, h | .f64, _, _, _, h | .seq _ _, _, _, _, h | .arr _ _ _, _, _, _, h
  | .unord _, _, _, _, h | .tuple _, _, _, _, h | .user _, _, _, _, h | .range _ _, _, _, _, h | .size, _, _, _, h => by
    simp [bytesOnly] at h
theorem bytes_messages : ∀ (ts : Tys) (v : ts.Val) (p p' : List Byte), bytesOnlyAll ts = true →
    messages L H ts v p = messages L' H' ts v p'
  | .nil, _, _, _, _ => by simp [messages]
  | .cons t ts, v, p, p', h => by
    simp only [bytesOnlyAll, Bool.and_eq_true] at h
    simp only [messages]
    rw [bytes_message t v.1 p p' h.1]
    congr 1
    exact bytes_messages ts v.2 _ _ h.2
end
end

/-- **The memory of a contiguously hashable object is its message.** -/
theorem contig_message {env : Env} {L : Layout} (H : List Byte → W64) (hp : L.ptrBytes = env.ptrSz.n) {t : Ty} {v : t.Val} {w : Nat}
    (hw : wellFormed t = true) (hv : Valid w t v) (h : t.contiguouslyHashable env L.order = true) (p : List Byte) :
    message L H t v p = t.rep env v ∧ (t.rep env v).length = t.sizeOf env := by
  have hpl := contig_plain t h
  rcases contig_bytes t hw h with ho | hb
  · exact rep_native H hp ho t v w p hpl hw hv
  · have := rep_native (L := { L with order := env.native }) H hp rfl t v w p hpl hw hv
    exact ⟨(bytes_message H H t v p p hb).trans this.1, this.2⟩

end Hash2

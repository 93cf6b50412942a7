import Verif.Spec.Traits
import Verif.Lemmas.MessageRep
import Verif.Lemmas.MessageEq
import Verif.Lemmas.Portable
/-
Storage: it is what the model calls the object representation; equal objects; byte order.
-/
namespace Hash2
open Spec

theorem stored_word (M : Memory) (L : Layout) (h : L.order = M.order) (k v : Nat) : M.number k v = L.word k v := by
  unfold Memory.number Layout.word; rw [h]; cases M.order <;> rfl

theorem number_obj (env : Env) (sz : Nat) {k : Nat} (v : BitVec k) : env.memory.number sz v.toNat = objBytes env.native sz v := by
  unfold objBytes Memory.number Env.memory; cases env.native <;> rfl

mutual
theorem storage_rep (env : Env) : ∀ (t : Ty) (v : t.Val), plain t = true → wellFormed t = true → storage env.memory t v = t.rep env v
  | .int k, v, _, _ => by simp only [storage, Ty.rep]; exact number_obj env _ _
  | .enum k, v, _, _ => by simp only [storage, Ty.rep]; exact number_obj env _ _
  | .ptr, v, _, _ => by simp only [storage, Ty.rep]; exact number_obj env _ _
  | .carray n t, vs, hp, hw => by
    simp only [wellFormed, Bool.and_eq_true] at hw
    rw [plain] at hp
    simp only [storage, Ty.rep]
    rw [List.map_congr_left fun v _ => storage_rep env t v hp hw.2]
  | .described tr ind bs ms, v, hp, hw => by
    obtain ⟨hwb, hwm, hpb, hpm, _, _⟩ := plain_described hp hw
    simp only [storage, Ty.rep]
    rw [storages_rep env bs v.1 hpb hwb, storages_rep env ms v.2 hpm hwm]
  | .nullptr, _, h, _ | .f32, _, h, _ | .f64, _, h, _ | .seq _ _, _, h, _ | .arr _ _ _, _, h, _
  | .unord _, _, h, _ | .tuple _, _, h, _ | .user _, _, h, _ | .range _ _, _, h, _ | .size, _, h, _ => by
    simp [plain, Ty.triviallyComparable] at h
theorem storages_rep (env : Env) : ∀ (ts : Tys) (v : ts.Val), plainAll ts = true → wellFormedAll ts = true → storages env.memory ts v = ts.rep env v
  | .nil, _, _, _ => by simp only [storages, Tys.rep]
  | .cons t ts, v, hp, hw => by
    simp only [plainAll, wellFormedAll, Bool.and_eq_true] at hp hw
    simp only [storages, Tys.rep]
    rw [storage_rep env t v.1 hp.1 hw.1, storages_rep env ts v.2 hp.2 hw.2]
end

/-- the messages of plain types in the byte order of the platform are their bytes -/
def Spec.Memory.layout (M : Memory) : Layout := ⟨M.order, 8, M.ptrBytes, false⟩

mutual
/-- plain types tell their values apart -/
theorem plain_delimited : ∀ (t : Ty), plain t = true → wellFormed t = true → delimited t = true
  | .int _, _, _ => rfl
  | .enum _, _, _ => rfl
  | .ptr, _, _ => rfl
  | .carray n t, hp, hw => by
    simp only [wellFormed, Bool.and_eq_true] at hw
    rw [plain] at hp
    simp only [delimited]
    exact plain_delimited t hp hw.2
  | .described tr ind bs ms, hp, hw => by
    obtain ⟨hwb, hwm, hpb, hpm, _, _⟩ := plain_described hp hw
    simp only [delimited, Bool.and_eq_true]
    exact ⟨plainAll_delimited bs hpb hwb, plainAll_delimited ms hpm hwm⟩
  | .nullptr, h, _ | .f32, h, _ | .f64, h, _ | .seq _ _, h, _ | .arr _ _ _, h, _
  | .unord _, h, _ | .tuple _, h, _ | .user _, h, _ | .range _ _, h, _ | .size, h, _ => by
    simp [plain, Ty.triviallyComparable] at h
theorem plainAll_delimited : ∀ (ts : Tys), plainAll ts = true → wellFormedAll ts = true → delimitedAll ts = true
  | .nil, _, _ => rfl
  | .cons t ts, hp, hw => by
    simp only [plainAll, wellFormedAll, Bool.and_eq_true] at hp hw
    simp only [delimitedAll, Bool.and_eq_true]
    exact ⟨plain_delimited t hp.1 hw.1, plainAll_delimited ts hp.2 hw.2⟩
end

mutual
theorem plain_sizes (k : Nat) : ∀ (t : Ty) (v : t.Val), plain t = true → wellFormed t = true → SizesFit k t v
  | .int _, _, _, _ => by simp only [SizesFit]
  | .enum _, _, _, _ => by simp only [SizesFit]
  | .ptr, _, _, _ => by simp only [SizesFit]
  | .carray n t, vs, hp, hw => by
    simp only [wellFormed, Bool.and_eq_true] at hw
    rw [plain] at hp
    simp only [SizesFit]
    exact fun v _ => plain_sizes k t v hp hw.2
  | .described tr ind bs ms, v, hp, hw => by
    obtain ⟨hwb, hwm, hpb, hpm, _, _⟩ := plain_described hp hw
    simp only [SizesFit]
    exact ⟨plainAll_sizes k bs v.1 hpb hwb, plainAll_sizes k ms v.2 hpm hwm⟩
  | .nullptr, _, h, _ | .f32, _, h, _ | .f64, _, h, _ | .seq _ _, _, h, _ | .arr _ _ _, _, h, _
  | .unord _, _, h, _ | .tuple _, _, h, _ | .user _, _, h, _ | .range _ _, _, h, _ | .size, _, h, _ => by
    simp [plain, Ty.triviallyComparable] at h
theorem plainAll_sizes (k : Nat) : ∀ (ts : Tys) (v : ts.Val), plainAll ts = true → wellFormedAll ts = true → SizesFitAll k ts v
  | .nil, _, _, _ => by simp only [SizesFitAll]
  | .cons t ts, v, hp, hw => by
    simp only [plainAll, wellFormedAll, Bool.and_eq_true] at hp hw
    simp only [SizesFitAll]
    exact ⟨plain_sizes k t v.1 hp.1 hw.1, plainAll_sizes k ts v.2 hp.2 hw.2⟩
end

mutual
theorem plain_ordered : ∀ (t : Ty), plain t = true → wellFormed t = true → ordered t = true
  | .int _, _, _ => rfl
  | .enum _, _, _ => rfl
  | .ptr, _, _ => rfl
  | .carray n t, hp, hw => by
    simp only [wellFormed, Bool.and_eq_true] at hw
    rw [plain] at hp
    simp only [ordered]
    exact plain_ordered t hp hw.2
  | .described tr ind bs ms, hp, hw => by
    obtain ⟨hwb, hwm, hpb, hpm, _, _⟩ := plain_described hp hw
    simp only [ordered, Bool.and_eq_true]
    exact ⟨plainAll_ordered bs hpb hwb, plainAll_ordered ms hpm hwm⟩
  | .nullptr, h, _ | .f32, h, _ | .f64, h, _ | .seq _ _, h, _ | .arr _ _ _, h, _
  | .unord _, h, _ | .tuple _, h, _ | .user _, h, _ | .range _ _, h, _ | .size, h, _ => by
    simp [plain, Ty.triviallyComparable] at h
theorem plainAll_ordered : ∀ (ts : Tys), plainAll ts = true → wellFormedAll ts = true → orderedAll ts = true
  | .nil, _, _ => rfl
  | .cons t ts, hp, hw => by
    simp only [plainAll, wellFormedAll, Bool.and_eq_true] at hp hw
    simp only [orderedAll, Bool.and_eq_true]
    exact ⟨plain_ordered t hp.1 hw.1, plainAll_ordered ts hp.2 hw.2⟩
end

mutual
theorem plain_noNaN : ∀ (t : Ty) (v : t.Val), plain t = true → wellFormed t = true → NoNaN t v
  | .int _, _, _, _ => by simp only [NoNaN]
  | .enum _, _, _, _ => by simp only [NoNaN]
  | .ptr, _, _, _ => by simp only [NoNaN]
  | .carray n t, vs, hp, hw => by
    simp only [wellFormed, Bool.and_eq_true] at hw
    rw [plain] at hp
    simp only [NoNaN]
    exact fun v _ => plain_noNaN t v hp hw.2
  | .described tr ind bs ms, v, hp, hw => by
    obtain ⟨hwb, hwm, hpb, hpm, _, _⟩ := plain_described hp hw
    simp only [NoNaN]
    exact ⟨plainAll_noNaN bs v.1 hpb hwb, plainAll_noNaN ms v.2 hpm hwm⟩
  | .nullptr, _, h, _ | .f32, _, h, _ | .f64, _, h, _ | .seq _ _, _, h, _ | .arr _ _ _, _, h, _
  | .unord _, _, h, _ | .tuple _, _, h, _ | .user _, _, h, _ | .range _ _, _, h, _ | .size, _, h, _ => by
    simp [plain, Ty.triviallyComparable] at h
theorem plainAll_noNaN : ∀ (ts : Tys) (v : ts.Val), plainAll ts = true → wellFormedAll ts = true → NoNaNAll ts v
  | .nil, _, _, _ => by simp only [NoNaNAll]
  | .cons t ts, v, hp, hw => by
    simp only [plainAll, wellFormedAll, Bool.and_eq_true] at hp hw
    simp only [NoNaNAll]
    exact ⟨plain_noNaN t v.1 hp.1 hw.1, plainAll_noNaN ts v.2 hp.2 hw.2⟩
end

/-- the bytes of a plain object are its message in the native byte order, as many as sizeof says -/
theorem storage_message (env : Env) (t : Ty) (v : t.Val) (w : Nat) (hp : plain t = true) (hw : wellFormed t = true) (hv : Valid w t v)
    (H : List Byte → W64) (p : List Byte) :
    message env.memory.layout H t v p = storage env.memory t v ∧ (storage env.memory t v).length = t.sizeOf env := by
  rw [storage_rep env t v hp hw]
  exact rep_native H rfl rfl t v w p hp hw hv

/-- plain objects are equal iff they have the same bytes -/
theorem storage_equal (env : Env) (t : Ty) (x y : t.Val) (hp : plain t = true) (hw : wellFormed t = true)
    (hx : Valid (8 * env.ptrSz.n) t x) (hy : Valid (8 * env.ptrSz.n) t y) :
    Equal t x y ↔ storage env.memory t x = storage env.memory t y := by
  have ex := fun p => (storage_message env t x _ hp hw hx (fun _ => 0) p).1
  have ey := fun p => (storage_message env t y _ hp hw hy (fun _ => 0) p).1
  constructor
  · intro h
    have := message_equal (L := env.memory.layout) (H := fun _ => 0) t x y [] h
    rwa [ex, ey] at this
  · intro h
    refine alike_equal t x y (plain_ordered t hp hw) (plain_noNaN t x hp hw) ?_
    refine (message_decode (L := env.memory.layout) (H := fun _ => 0) t x y (plain_delimited t hp hw) hx hy
      (plain_sizes _ t x hp hw) (plain_sizes _ t y hp hw) [] [] ?_).2
    rw [ex, ey, h]

mutual
/-- bytes are stored in the same way everywhere -/
theorem storage_bytes (M M' : Memory) : ∀ (t : Ty) (v : t.Val), bytesOnly t = true → storage M t v = storage M' t v
  | .int k, v, h => by
    simp only [storage]
    rw [stored_word M M.layout rfl, stored_word M' M'.layout rfl]
    exact sz_word h _
  | .enum k, v, h => by
    simp only [storage]
    rw [stored_word M M.layout rfl, stored_word M' M'.layout rfl]
    exact sz_word h _
  | .carray n t, vs, h => by
    simp only [bytesOnly] at h
    simp only [storage]
    rw [List.map_congr_left fun v _ => storage_bytes M M' t v h]
  | .described tr ind bs ms, v, h => by
    simp only [bytesOnly, Bool.and_eq_true] at h
    simp only [storage]
    rw [storages_bytes M M' bs v.1 h.1, storages_bytes M M' ms v.2 h.2]
  | .ptr, _, h | .nullptr, _, h | .f32, _, h | .f64, _, h | .seq _ _, _, h | .arr _ _ _, _, h
  | .unord _, _, h | .tuple _, _, h | .user _, _, h | .range _ _, _, h | .size, _, h => by
    simp [bytesOnly] at h
theorem storages_bytes (M M' : Memory) : ∀ (ts : Tys) (v : ts.Val), bytesOnlyAll ts = true → storages M ts v = storages M' ts v
  | .nil, _, _ => by simp only [storages]
  | .cons t ts, v, h => by
    simp only [bytesOnlyAll, Bool.and_eq_true] at h
    simp only [storages]
    rw [storage_bytes M M' t v.1 h.1, storages_bytes M M' ts v.2 h.2]
end

/-- a plain type that claims to be endian independent consists of bytes -/
theorem independent_bytes {env : Env} {t : Ty} (hp : plain t = true) (hw : wellFormed t = true) (h : t.endianIndependent env = true) :
    bytesOnly t = true := by
  unfold Ty.endianIndependent at h
  rw [Bool.or_eq_true, beq_iff_eq] at h
  rcases h with h | h
  · cases t <;> simp only [Bool.false_eq_true] at h
    have := (plain_described hp hw).2.2.2.2.2 h
    simp only [bytesOnly, Bool.and_eq_true]
    exact this
  · exact size_one_bytes t hp hw h

/-- without the fast path for the object itself, the recorder shows the message just as well -/
theorem record_do (num : List Byte → W64) (env : Env) (f : Flavor) (hround : env.fp.roundDown = false) (t : Ty) (v : t.Val)
    (h : (Stmt.append f t v).Valid env) (s : List Byte) :
    doHashAppend (recorder num) env f t v s = .ok (s ++ message (layout env f) num t v s) := by
  obtain ⟨s', e, r⟩ := do_feeds (I := recorder_implements num env) (a₀ := ([] : List Byte)) (f := f) num (int := num)
    (fun _ _ _ => rfl) hround (fun bs _ => by show num bs = num ([] ++ bs); rw [List.nil_append]) t v
    ⟨h.1, h.2.1, h.2.2, .inl trivial⟩ s (weight t v) (fun _ _ => trivial) (Nat.le_refl _) s (List.nil_append s).symm
  rw [e]
  exact congrArg Except.ok (r.trans (List.nil_append _))

/-! ### what is not claimed is not so -/

theorem stored_one {k : Nat} (h : k = 2 ∨ k = 4 ∨ k = 8) : natLE k 1 ≠ natBE k 1 := by
  rcases h with rfl | rfl | rfl <;> decide

theorem sz_cases {s : Sz} (h : s ≠ .s1) : s.n = 2 ∨ s.n = 4 ∨ s.n = 8 := by cases s <;> simp [Sz.n] at h ⊢

theorem ptr_cases (env : Env) : env.ptrSz.n = 2 ∨ env.ptrSz.n = 4 ∨ env.ptrSz.n = 8 := by
  unfold Env.ptrSz; split <;> simp [Sz.n]

/-- an integral type of more than one byte has the value 1 -/
theorem one_exists (k : IntTy) (h : k.size ≠ .s1) : ∃ v : k.Val, (k.bits v).toNat = 1 := by
  cases k with
  | bool => exact absurd rfl h
  | uchar => exact absurd rfl h
  | int sz => cases sz <;> first | exact absurd rfl h | exact ⟨(1 : BitVec 16), rfl⟩ | exact ⟨(1 : BitVec 32), rfl⟩ | exact ⟨(1 : BitVec 64), rfl⟩

theorem word_ne_number {L : Layout} {M : Memory} (h : L.order ≠ M.order) {k : Nat} (hk : k = 2 ∨ k = 4 ∨ k = 8) : L.word k 1 ≠ M.number k 1 := by
  unfold Layout.word Memory.number
  cases hl : L.order <;> cases hm : M.order
  · exact absurd (hl.trans hm.symm) h
  · exact stored_one hk
  · exact (stored_one hk).symm
  · exact absurd (hl.trans hm.symm) h

/-- a built-in type that does not claim to be contiguously hashable has a value whose message is not its storage -/
theorem not_contiguous (env : Env) (f : Flavor) : ∀ (t : Ty), builtIn t = true → t.contiguouslyHashable env (f.endian env) = false →
    ∃ x : t.Val, Valid (8 * env.ptrSz.n) t x ∧ ∃ m, (∀ H p, message (layout env f) H t x p = m) ∧ m ≠ storage env.memory t x ∧
      m.length = (storage env.memory t x).length
  | .int k, _, h => by
    rw [contig_scalar _ _ _ (by intros; simp)] at h
    simp only [Ty.triviallyComparable, Bool.true_and, Bool.or_eq_false_iff, beq_eq_false_iff_ne] at h
    have hs : k.size ≠ .s1 := by
      intro e
      have := h.2
      simp [Ty.endianIndependent, Ty.sizeOf, e, Sz.n] at this
    obtain ⟨v, hv⟩ := one_exists k hs
    refine ⟨v, by simp only [Valid], (layout env f).word k.size.n 1, fun H p => by simp only [message, hv], ?_, ?_⟩
    · simp only [storage, hv]
      exact word_ne_number (L := layout env f) (M := env.memory) h.1 (sz_cases hs)
    · simp only [storage, stored_word env.memory env.memory.layout rfl, word_length]
  | .enum k, _, h => by
    rw [contig_scalar _ _ _ (by intros; simp)] at h
    simp only [Ty.triviallyComparable, Bool.true_and, Bool.or_eq_false_iff, beq_eq_false_iff_ne] at h
    have hs : k.size ≠ .s1 := by
      intro e
      have := h.2
      simp [Ty.endianIndependent, Ty.sizeOf, e, Sz.n] at this
    obtain ⟨v, hv⟩ := one_exists k hs
    refine ⟨v, by simp only [Valid], (layout env f).word k.size.n 1, fun H p => by simp only [message, hv], ?_, ?_⟩
    · simp only [storage, hv]
      exact word_ne_number (L := layout env f) (M := env.memory) h.1 (sz_cases hs)
    · simp only [storage, stored_word env.memory env.memory.layout rfl, word_length]
  | .ptr, _, h => by
    rw [contig_scalar _ _ _ (by intros; simp)] at h
    simp only [Ty.triviallyComparable, Bool.true_and, Bool.or_eq_false_iff, beq_eq_false_iff_ne] at h
    refine ⟨(1 : W64), ?_, (layout env f).word env.ptrSz.n 1, fun H p => by simp only [message]; rfl, ?_, ?_⟩
    · simp only [Valid]
      rw [show (1 : W64).toNat = 1 from rfl]
      rcases ptr_cases env with h | h | h <;> rw [h] <;> decide
    · simp only [storage]
      exact word_ne_number (L := layout env f) (M := env.memory) h.1 (ptr_cases env)
    · simp only [storage, stored_word env.memory env.memory.layout rfl, word_length]
      rfl
  | .f32, _, _ => by
    refine ⟨(0x80000000 : W32), by simp only [Valid], (layout env f).word 4 0, fun H p => ?_, ?_, ?_⟩
    · simp only [message]
      congr 1
    · simp only [storage, Layout.word, Memory.number]
      cases (layout env f).order <;> cases env.memory.order <;> decide
    · simp only [storage, stored_word env.memory env.memory.layout rfl, word_length]
  | .f64, _, _ => by
    refine ⟨(0x8000000000000000 : W64), by simp only [Valid], (layout env f).word 8 0, fun H p => ?_, ?_, ?_⟩
    · simp only [message]
      congr 1
    · simp only [storage, Layout.word, Memory.number]
      cases (layout env f).order <;> cases env.memory.order <;> decide
    · simp only [storage, stored_word env.memory env.memory.layout rfl, word_length]
  | .carray n t, hb, h => by
    simp only [builtIn, Bool.and_eq_true, bne_iff_ne] at hb
    rw [contig_array] at h
    obtain ⟨x, hv, m, hm, hne, hl⟩ := not_contiguous env f t hb.2 h
    refine ⟨List.replicate n x, ?_, (List.replicate n m).flatten, fun H p => ?_, ?_, ?_⟩
    · simp only [Valid]
      refine ⟨List.length_replicate .., fun v hm => ?_⟩
      rw [List.eq_of_mem_replicate hm]
      exact hv
    · simp only [message]
      rw [concat_const (f := fun _ => m) (fun v hv p => ?_), List.map_replicate]
      rw [List.eq_of_mem_replicate hv]
      exact hm H p
    · simp only [storage, List.map_replicate]
      obtain ⟨k, rfl⟩ := Nat.exists_eq_succ_of_ne_zero hb.1
      rw [List.replicate_succ, List.replicate_succ, List.flatten_cons, List.flatten_cons]
      exact fun e => hne (List.append_inj e hl).1
    · simp only [storage, List.map_replicate, List.length_flatten, List.map_replicate, hl]
  | .nullptr, h, _ | .seq _ _, h, _ | .arr _ _ _, h, _ | .unord _, h, _ | .tuple _, h, _ | .user _, h, _ | .range _ _, h, _ | .size, h, _
  | .described _ _ _ _, h, _ => by
    simp [builtIn, scalar] at h

end Hash2

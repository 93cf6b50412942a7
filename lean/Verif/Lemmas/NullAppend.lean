import Verif.Lemmas.NullCalls
import Verif.Lemmas.Programs
import Verif.Spec.NullAppend
/-
When hash_append passes a null pointer where that is undefined.
-/
namespace Hash2
open Spec

section
variable (mem : Ty → Bool) (L : Layout) (H : List Byte → W64)

theorem placesEach_nil {α : Type} {m : α → List Byte → List Byte} {pl : α → List Byte → List (List Byte)} {vs : List α}
    (h : ∀ v ∈ vs, ∀ p, pl v p = []) (p : List Byte) : placesEach m pl vs p = [] := by
  induction vs generalizing p with
  | nil => rfl
  | cons v vs ih =>
    rw [placesEach, h v (List.mem_cons_self ..), ih (fun v hv => h v (List.mem_cons_of_mem _ hv))]; rfl

mutual
/-- objects that are hashed as memory have no ranges in them -/
theorem plain_places : ∀ (t : Ty) (v : t.Val) (p : List Byte), plain t = true → wellFormed t = true → emptyRanges mem L H t v p = []
  | .int _, _, _, _, _ => by simp only [emptyRanges]
  | .enum _, _, _, _, _ => by simp only [emptyRanges]
  | .ptr, _, _, _, _ => by simp only [emptyRanges]
  | .carray n t, vs, p, h, hw => by
    simp only [plain] at h
    simp only [wellFormed, Bool.and_eq_true] at hw
    simp only [emptyRanges]
    exact placesEach_nil (fun v _ p => plain_places t v p h hw.2) p
  | .described tr ind bs ms, v, p, h, hw => by
    simp only [plain, Ty.triviallyComparable] at h
    subst h
    simp only [wellFormed, Bool.and_eq_true, Bool.not_true, Bool.false_or] at hw
    simp only [emptyRanges]
    rw [plain_placesAll bs v.1 p hw.1.2.1.1 hw.1.1.1, plain_placesAll ms v.2 _ hw.1.2.1.2 hw.1.1.2]
    rfl
  | .nullptr, _, _, h, _ | .f32, _, _, h, _ | .f64, _, _, h, _ | .seq _ _, _, _, h, _ | .arr _ _ _, _, _, h, _
  | .unord _, _, _, h, _ | .tuple _, _, _, h, _ | .user _, _, _, h, _ | .range _ _, _, _, h, _ | .size, _, _, h, _ => by
    simp [plain, Ty.triviallyComparable] at h
theorem plain_placesAll : ∀ (ts : Tys) (v : ts.Val) (p : List Byte), plainAll ts = true → wellFormedAll ts = true →
    emptyRangesAll mem L H ts v p = []
  | .nil, _, _, _, _ => by simp only [emptyRangesAll]
  | .cons t ts, v, p, h, hw => by
    simp only [plainAll, Bool.and_eq_true] at h
    simp only [wellFormedAll, Bool.and_eq_true] at hw
    simp only [emptyRangesAll]
    rw [plain_places t v.1 p h.1 hw.1, plain_placesAll ts v.2 _ h.2 hw.2]
    rfl
end
end

section
variable {A : HashAlg} {env : Env} {S : Machine A.R} (I : Implements A env S) (a₀ : S.S) (Bad : List Byte → Prop)

/-- the call feeds the bytes m, after p, unless one of the places is bad: then it passes a null pointer to memcpy -/
def FeedsUnless (g : A.State → M A.State) (p m : List Byte) (places : List (List Byte)) : Prop :=
  ∀ s, I.Rel s (S.absorb a₀ p) →
    ((∀ q ∈ places, ¬ Bad q) → ∃ s', g s = .ok s' ∧ I.Rel s' (S.absorb a₀ (p ++ m))) ∧
    ((∃ q ∈ places, Bad q) → g s = .error .nullMemcpy)

variable {I a₀ Bad}

theorem Feeds.lift {g : A.State → M A.State} {p m : List Byte} (h : Feeds I a₀ g p m) : FeedsUnless I a₀ Bad g p m [] :=
  fun s hs => ⟨fun _ => h s hs, fun ⟨_, hq, _⟩ => by cases hq⟩

theorem FeedsUnless.congr {g g' : A.State → M A.State} {p m : List Byte} {pl : List (List Byte)} (h : FeedsUnless I a₀ Bad g p m pl)
    (e : ∀ s, g' s = g s) : FeedsUnless I a₀ Bad g' p m pl := by
  rw [show g' = g from funext e]; exact h

theorem FeedsUnless.bind {g g' : A.State → M A.State} {p m m' : List Byte} {pl pl' : List (List Byte)}
    (h : FeedsUnless I a₀ Bad g p m pl) (h' : FeedsUnless I a₀ Bad g' (p ++ m) m' pl') :
    FeedsUnless I a₀ Bad (fun s => do let s ← g s; g' s) p (m ++ m') (pl ++ pl') := by
  intro s hs
  have h1 := h s hs
  by_cases hb : ∃ q ∈ pl, Bad q
  · constructor
    · intro hall
      obtain ⟨q, hq, hb⟩ := hb
      exact absurd hb (hall q (List.mem_append_left _ hq))
    · intro _
      simp only [h1.2 hb]; rfl
  · obtain ⟨s1, e1, r1⟩ := h1.1 (fun q hq hbq => hb ⟨q, hq, hbq⟩)
    have h2 := h' s1 r1
    constructor
    · intro hall
      obtain ⟨s2, e2, r2⟩ := h2.1 (fun q hq => hall q (List.mem_append_right _ hq))
      exact ⟨s2, by simp only [e1, Except.bind_ok, e2], by rwa [← List.append_assoc]⟩
    · rintro ⟨q, hq, hbq⟩
      rcases List.mem_append.1 hq with hq | hq
      · exact absurd ⟨q, hq, hbq⟩ hb
      · simp only [e1, Except.bind_ok, h2.2 ⟨q, hq, hbq⟩]

variable {f : Flavor} (H : List Byte → W64) (hfit : ∀ a bs, I.fits a bs)

include hfit in
theorem room_all (p : List Byte) (k : Nat) : Room I a₀ p k := fun _ _ => hfit _ _

/-- elements of the type are hashed as memory -/
abbrev inMemory (env : Env) (f : Flavor) (t : Ty) : Bool := t.contiguouslyHashable env (f.endian env)

include hfit in
theorem unless_with {t : Ty} {v : t.Val} {w : Nat} {g : A.State → M A.State} {p : List Byte} (hw : wellFormed t = true)
    (hv : Valid w t v)
    (hg : FeedsUnless I a₀ Bad g p (message (layout env f) H t v p) (emptyRanges (inMemory env f) (layout env f) H t v p)) :
    FeedsUnless I a₀ Bad (hashAppendWith A env f t v g) p (message (layout env f) H t v p)
      (emptyRanges (inMemory env f) (layout env f) H t v p) := by
  by_cases hc : env.isConstantEvaluated = false ∧ t.contiguouslyHashable env (f.endian env) = true
  · rw [plain_places _ _ _ t v p (contig_plain t hc.2) hw]
    refine Feeds.lift (feeds_with H hw hv (room_all hfit p (weight t v)) (Nat.le_refl _) fun h => ?_)
    rcases h with h | h
    · rw [hc.1] at h; cases h
    · rw [hc.2] at h; cases h
  · refine hg.congr fun s => ?_
    unfold hashAppendWith
    rw [if_neg hc]

theorem unless_each {α : Type} {g : α → A.State → M A.State} {m : α → List Byte → List Byte} {pl : α → List Byte → List (List Byte)}
    {vs : List α} {p : List Byte} (hg : ∀ v ∈ vs, ∀ p, FeedsUnless I a₀ Bad (g v) p (m v p) (pl v p)) :
    FeedsUnless I a₀ Bad (appendEach A g vs) p (concat m vs p) (placesEach m pl vs p) := by
  induction vs generalizing p with
  | nil => exact (feeds_nil (fun _ => rfl) p).lift
  | cons v vs ih =>
    exact (hg v (List.mem_cons_self ..) p).bind (ih (p := p ++ m v p) fun v hv => hg v (List.mem_cons_of_mem _ hv))

variable (hloop : env.loops = false) (hnull : env.emptyDataNull = true)
  (hok : ∀ s p, I.Rel s (S.absorb a₀ p) → ¬ Bad p → A.update env s .null 0 = .ok s)
  (hbad : ∀ s p, I.Rel s (S.absorb a₀ p) → Bad p → A.update env s .null 0 = .error .nullMemcpy)

include hok hbad in
theorem unless_null (p : List Byte) : FeedsUnless I a₀ Bad (fun s => A.update env s .null 0) p [] [p] := by
  intro s hs
  constructor
  · intro h
    exact ⟨s, hok s p hs (h p (List.mem_singleton.2 rfl)), by rwa [List.append_nil]⟩
  · rintro ⟨q, hq, hb⟩
    rw [List.mem_singleton.1 hq] at hb
    exact hbad s p hs hb

include hfit hloop hnull hok hbad in
theorem unless_pointers {t : Ty} {g : t.Val → A.State → M A.State} {vs : List t.Val} {w : Nat} {p : List Byte}
    (hw : wellFormed t = true) (hv : ∀ v ∈ vs, Valid w t v)
    (hg : ∀ v ∈ vs, ∀ p, FeedsUnless I a₀ Bad (g v) p (message (layout env f) H t v p) (emptyRanges (inMemory env f) (layout env f) H t v p)) :
    FeedsUnless I a₀ Bad (appendPointers A env f t g vs) p (concat (message (layout env f) H t) vs p)
      (if vs.isEmpty && inMemory env f t then [p] else placesEach (message (layout env f) H t) (emptyRanges (inMemory env f) (layout env f) H t) vs p) := by
  have heach := unless_each (p := p) hg
  by_cases hc : inMemory env f t = true
  · -- one call
    by_cases he : vs = []
    · subst he
      simp only [List.isEmpty_nil, hc, Bool.and_true, if_true]
      refine (unless_null hok hbad p).congr fun s => ?_
      unfold appendPointers
      split
      · simp [elements, hnull]
      · rw [if_pos hc, if_pos hloop]; simp [elements, hnull]
    · have hemp : vs.isEmpty = false := by cases vs with | nil => exact absurd rfl he | cons _ _ => rfl
      simp only [hemp, Bool.false_and, Bool.false_eq_true, if_false]
      rw [placesEach_nil (fun v _ p => plain_places _ _ _ t v p (contig_plain t hc) hw)]
      have hno : ∀ v ∈ vs, ∀ p k, Room I a₀ p k → weight t v ≤ k → Feeds I a₀ (g v) p (message (layout env f) H t v p) := by
        intro v hm p k hr hk
        have h1 := hg v hm p
        rw [plain_places _ _ _ t v p (contig_plain t hc) hw] at h1
        exact fun s hs => (h1 s hs).1 (fun q hq => by cases hq)
      exact (feeds_pointers H hw hv hno (room_all hfit p _) (Nat.le_refl _) (.inr (.inr he))).lift
  · simp only [Bool.not_eq_true] at hc
    simp only [hc, Bool.and_false, Bool.false_eq_true, if_false]
    refine heach.congr fun s => ?_
    unfold appendPointers
    split
    · have : (Ty.int .uchar).contiguouslyHashable env (f.endian env) = true := by
        simp [Ty.contiguouslyHashable, Ty.triviallyComparable, Ty.endianIndependent, Ty.sizeOf, IntTy.size, Sz.n]
      exact absurd (this.symm.trans hc) (by decide)
    · have hc' : ¬ t.contiguouslyHashable env (f.endian env) = true := by
        intro h; exact absurd (h.symm.trans hc) (by decide)
      rw [if_neg hc']

include hfit hloop hnull hok hbad in
theorem unless_range {kd : RangeKind} {t : Ty} {g : t.Val → A.State → M A.State} {vs : List t.Val} {w : Nat} {p : List Byte}
    (hw : wellFormed t = true) (hv : ∀ v ∈ vs, Valid w t v)
    (hg : ∀ v ∈ vs, ∀ p, FeedsUnless I a₀ Bad (g v) p (message (layout env f) H t v p) (emptyRanges (inMemory env f) (layout env f) H t v p)) :
    FeedsUnless I a₀ Bad (appendRange A env f kd t g vs) p (concat (message (layout env f) H t) vs p)
      (if vs.isEmpty && kd.byPointer && inMemory env f t then [p] else
        placesEach (message (layout env f) H t) (emptyRanges (inMemory env f) (layout env f) H t) vs p) := by
  cases kd with
  | contiguous =>
    simp only [RangeKind.byPointer, Bool.and_true]
    exact unless_pointers H hfit hloop hnull hok hbad hw hv hg
  | pointers =>
    simp only [RangeKind.byPointer, Bool.and_true]
    exact unless_pointers H hfit hloop hnull hok hbad hw hv hg
  | randomAccess =>
    simp only [RangeKind.byPointer, Bool.and_false, Bool.false_and, Bool.false_eq_true, if_false]
    exact unless_each hg
  | forward =>
    simp only [RangeKind.byPointer, Bool.and_false, Bool.false_and, Bool.false_eq_true, if_false]
    exact unless_each hg

/-- an element of an unordered container cannot be hashed -/
theorem unordered_bad {α : Type} {g : α → A.State → M A.State} {m : α → List Byte → List Byte} {pl : α → List (List Byte)}
    {int : A.R → W64} {h : A.State} {p : List Byte} (hh : I.Rel h (S.absorb a₀ p)) (vs : List α)
    (hint : ∀ s a, I.Rel s a → A.integral env (S.res a).2 = .ok (int (S.res a).2))
    (hg : ∀ v ∈ vs, FeedsUnless I a₀ Bad (g v) p (m v p) (pl v)) (hb : ∃ q ∈ vs.flatMap pl, Bad q) (w : W64) :
    unorderedSum A env g h vs w = .error .nullMemcpy := by
  induction vs generalizing w with
  | nil => obtain ⟨q, hq, _⟩ := hb; cases hq
  | cons v vs ih =>
    have h1 := hg v (List.mem_cons_self ..) h hh
    by_cases hv : ∃ q ∈ pl v, Bad q
    · simp only [unorderedSum, h1.2 hv]; rfl
    · obtain ⟨s1, e1, r1⟩ := h1.1 (fun q hq hbq => hv ⟨q, hq, hbq⟩)
      obtain ⟨s2, e2, _⟩ := I.result_ok s1 _ r1
      have hb' : ∃ q ∈ vs.flatMap pl, Bad q := by
        obtain ⟨q, hq, hbq⟩ := hb
        rw [List.flatMap_cons] at hq
        rcases List.mem_append.1 hq with hq | hq
        · exact absurd ⟨q, hq, hbq⟩ hv
        · exact ⟨q, hq, hbq⟩
      simp only [unorderedSum, e1, e2, Except.bind_ok, hint s1 _ r1]
      exact ih (fun v hv => hg v (List.mem_cons_of_mem _ hv)) hb' _

variable {int : A.R → W64} (hint : ∀ s a, I.Rel s a → A.integral env (S.res a).2 = .ok (int (S.res a).2))
  (hround : env.fp.roundDown = false) (hH : ∀ bs, H bs = int (S.res (S.absorb a₀ bs)).2)

/-- the conditions under which an object exists -/
structure Exists (env : Env) (t : Ty) (v : t.Val) : Prop where
  wf : wellFormed t = true
  valid : Valid (8 * env.ptrSz.n) t v
  const : env.constEval = true → pointerFree t = true

structure ExistsAll (env : Env) (ts : Tys) (v : ts.Val) : Prop where
  wf : wellFormedAll ts = true
  valid : ValidAll (8 * env.ptrSz.n) ts v
  const : env.constEval = true → pointerFreeAll ts = true

include hint hround hH hfit in
theorem unless_atom {t : Ty} {v : t.Val} (h : Exists env t v) (hne : NoEmpty t v) (p : List Byte)
    (hp : emptyRanges (inMemory env f) (layout env f) H t v p = []) :
    FeedsUnless I a₀ Bad (doHashAppend A env f t v) p (message (layout env f) H t v p) (emptyRanges (inMemory env f) (layout env f) H t v p) := by
  rw [hp]
  exact (do_feeds H hint hround (fun bs _ => hH bs) t v ⟨h.wf, h.valid, h.const, .inr (.inr hne)⟩ p _ (room_all hfit p _) (Nat.le_refl _)).lift

include hint hround hH hfit hloop hnull hok hbad

mutual
theorem do_unless : ∀ (t : Ty) (v : t.Val), Exists env t v → ∀ p,
    FeedsUnless I a₀ Bad (doHashAppend A env f t v) p (message (layout env f) H t v p) (emptyRanges (inMemory env f) (layout env f) H t v p)
  | .int kd, v, h => fun p => unless_atom H hfit hint hround hH h (by simp only [NoEmpty]) p (by simp only [emptyRanges])
  | .enum kd, v, h => fun p => unless_atom H hfit hint hround hH h (by simp only [NoEmpty]) p (by simp only [emptyRanges])
  | .ptr, v, h => fun p => unless_atom H hfit hint hround hH h (by simp only [NoEmpty]) p (by simp only [emptyRanges])
  | .nullptr, v, h => fun p => unless_atom H hfit hint hround hH h (by simp only [NoEmpty]) p (by simp only [emptyRanges])
  | .f32, v, h => fun p => unless_atom H hfit hint hround hH h (by simp only [NoEmpty]) p (by simp only [emptyRanges])
  | .f64, v, h => fun p => unless_atom H hfit hint hround hH h (by simp only [NoEmpty]) p (by simp only [emptyRanges])
  | .size, v, h => fun p => unless_atom H hfit hint hround hH h (by simp only [NoEmpty]) p (by simp only [emptyRanges])
  | .carray n t, vs, h => by
    intro p
    have hw := h.wf
    simp only [wellFormed, Bool.and_eq_true, bne_iff_ne] at hw
    have hv := h.valid
    simp only [Valid] at hv
    have hc := h.const
    simp only [pointerFree] at hc
    simp only [message, emptyRanges]
    have key := unless_pointers (t := t) (vs := vs) (f := f) (p := p) (g := fun v => hashAppendWith A env f t v (doHashAppend A env f t v)) H
      hfit hloop hnull hok hbad hw.2 hv.2
      (fun v hm p => unless_with H hfit hw.2 (hv.2 v hm) (do_unless t v ⟨hw.2, hv.2 v hm, hc⟩ p))
    have hemp : vs.isEmpty = false := by cases vs with | nil => exact absurd hv.1.symm hw.1 | cons _ _ => rfl
    simp only [hemp, Bool.false_and, Bool.false_eq_true, if_false] at key
    exact key.congr (fun s => by simp only [doHashAppend])
  | .seq kd t, vs, h => by
    intro p
    have hw := h.wf
    simp only [wellFormed] at hw
    have hv := h.valid
    simp only [Valid] at hv
    have hc := h.const
    simp only [pointerFree] at hc
    simp only [message, emptyRanges]
    have hg := fun v hm p => unless_with H hfit hw (hv v hm) (do_unless t v ⟨hw, hv v hm, hc⟩ p)
    have hsize := (feeds_size (I := I) (a₀ := a₀) (f := f) (n := vs.length) (room_all hfit (p ++ concat (message (layout env f) H t) vs p) 8) (Nat.le_refl 8)).lift (Bad := Bad)
    have key : FeedsUnless I a₀ Bad (appendRangeSize A env f kd t (fun v => hashAppendWith A env f t v (doHashAppend A env f t v)) vs) p
        (concat (message (layout env f) H t) vs p ++ (layout env f).word (layout env f).sizeBytes vs.length) _ :=
      (unless_range (kd := kd) H hfit hloop hnull hok hbad hw hv hg).bind hsize
    have key' : FeedsUnless I a₀ Bad (appendCounted A env f (fun v => hashAppendWith A env f t v (doHashAppend A env f t v)) vs) p
        (concat (message (layout env f) H t) vs p ++ (layout env f).word (layout env f).sizeBytes vs.length) _ :=
      (unless_each hg).bind hsize
    rw [List.append_nil] at key key'
    refine FeedsUnless.congr (g := appendSeq A env f kd t (fun v => hashAppendWith A env f t v (doHashAppend A env f t v)) vs) ?_
      (fun s => by simp only [doHashAppend])
    cases kd
    · exact key
    · exact key
    · exact key
    · simp only [RangeKind.byPointer, Bool.and_false, Bool.false_and, Bool.false_eq_true, if_false]
      exact key'
  | .arr kd n t, vs, h => by
    intro p
    have hw := h.wf
    simp only [wellFormed] at hw
    have hv := h.valid
    simp only [Valid] at hv
    have hc := h.const
    simp only [pointerFree] at hc
    rw [message_arr]
    simp only [emptyRanges]
    have hg := fun v hm p => unless_with H hfit hw (hv.2 v hm) (do_unless t v ⟨hw, hv.2 v hm, hc⟩ p)
    refine FeedsUnless.congr (g := appendArr A env f kd t (fun v => hashAppendWith A env f t v (doHashAppend A env f t v)) vs) ?_
      (fun s => by simp only [doHashAppend])
    by_cases he : vs = []
    · subst he
      exact (feeds_nul (I := I) (a₀ := a₀) (f := f) (room_all hfit p 1) (Nat.le_refl _)).lift
    · have hemp : vs.isEmpty = false := by cases vs with | nil => exact absurd rfl he | cons _ _ => rfl
      have key := unless_range (kd := kd) (p := p) H hfit hloop hnull hok hbad hw hv.2 hg
      simp only [hemp, Bool.false_and, Bool.false_eq_true, if_false] at key ⊢
      exact key.congr (fun s => by simp only [appendArr, hemp, Bool.false_eq_true, if_false])
  | .unord t, vs, h => by
    intro p
    have hw := h.wf
    simp only [wellFormed] at hw
    have hv := h.valid
    simp only [Valid] at hv
    have hc := h.const
    simp only [pointerFree] at hc
    have hg := fun v hm p => unless_with H hfit hw (hv v hm) (do_unless t v ⟨hw, hv v hm, hc⟩ p)
    have he : ∀ s, doHashAppend A env f (.unord t) vs s = appendUnordered A env f (fun v => hashAppendWith A env f t v (doHashAppend A env f t v)) vs s := by
      intro s; simp only [doHashAppend.eq_def]
    simp only [emptyRanges]
    intro s hs
    constructor
    · intro hall
      -- every element can be hashed
      have hel : ∀ v ∈ vs, Feeds I a₀ (hashAppendWith A env f t v (doHashAppend A env f t v)) p (message (layout env f) H t v p) := by
        intro v hm s hs
        exact (hg v hm p s hs).1 fun q hq => hall q (List.mem_flatMap.2 ⟨v, hm, hq⟩)
      have hHe : (vs.map fun v => (H (p ++ message (layout env f) H t v p)).toNat) =
          vs.map fun v => (int (S.res (S.absorb a₀ (p ++ message (layout env f) H t v p))).2).toNat :=
        List.map_congr_left fun v hm => by rw [hH]
      simp only [message]
      rw [hHe]
      have hsum := unordered_sum hs vs hint hel 0
      rw [show (0 : W64).toNat = 0 from rfl, Nat.zero_add] at hsum
      generalize hx : (vs.map fun v => (int (S.res (S.absorb a₀ (p ++ message (layout env f) H t v p))).2).toNat).sum = x at hsum
      have h1 := feeds_int (I := I) (a₀ := a₀) (f := f) (sz := .s8) (v := BitVec.ofNat 64 x) (room_all hfit p 8) (Nat.le_refl 8)
      have h1e : (layout env f).word Sz.s8.n (BitVec.toNat (w := 8 * Sz.s8.n) (BitVec.ofNat 64 x)) = (layout env f).word 8 x := by
        refine Eq.trans ?_ (word_mod (layout env f) 8 x)
        show (layout env f).word 8 (BitVec.ofNat 64 x).toNat = _
        rw [BitVec.toNat_ofNat, show (2 : Nat) ^ 64 = 256 ^ 8 from by norm_num]
      rw [h1e] at h1
      have h2 := feeds_size (I := I) (a₀ := a₀) (f := f) (n := vs.length) (room_all hfit (p ++ (layout env f).word 8 x) 8) (Nat.le_refl 8)
      obtain ⟨s', e', r'⟩ := (h1.bind h2) s hs
      refine ⟨s', ?_, r'⟩
      rw [he]
      unfold appendUnordered
      rw [hsum]
      exact e'
    · intro hb
      rw [he]
      unfold appendUnordered
      rw [unordered_bad (m := message (layout env f) H t) hs vs hint (fun v hm => hg v hm p) hb 0]
      rfl
  | .tuple .nil, v, h => fun p => unless_atom H hfit hint hround hH h (by simp only [NoEmpty, NoEmptyAll]) p (by simp only [emptyRanges, emptyRangesAll])
  | .tuple (.cons t ts), v, h => by
    intro p
    have hw := h.wf
    simp only [wellFormed] at hw
    have hv := h.valid
    simp only [Valid] at hv
    have hc := h.const
    simp only [pointerFree] at hc
    rw [message_tuple _ _ (by intro h; cases h)]
    simp only [emptyRanges]
    have : doHashAppend A env f (.tuple (.cons t ts)) v = appendAll A env f (.cons t ts) v := by
      funext s; rw [doHashAppend]; intros; contradiction
    rw [this]
    exact all_unless _ v ⟨hw, hv, hc⟩ p
  | .described tr ind bs ms, v, h => by
    intro p
    have hw := h.wf
    simp only [wellFormed, Bool.and_eq_true] at hw
    have hv := h.valid
    simp only [Valid] at hv
    have hc := h.const
    simp only [pointerFree, Bool.and_eq_true] at hc
    by_cases hnn : bs = .nil ∧ ms = .nil
    · obtain ⟨rfl, rfl⟩ := hnn
      exact unless_atom H hfit hint hround hH h (by simp only [NoEmpty, NoEmptyAll, and_self]) p (by simp only [emptyRanges, emptyRangesAll]; rfl)
    · rw [message_described _ _ _ _ hnn]
      have : doHashAppend A env f (.described tr ind bs ms) v = (fun s => do
          let s ← appendAll A env f bs v.1 s
          appendAll A env f ms v.2 s) := by
        funext s
        cases bs with
        | nil =>
          cases ms with
          | nil => exact absurd ⟨rfl, rfl⟩ hnn
          | cons t ts => rw [doHashAppend]; intros; contradiction
        | cons t ts => rw [doHashAppend]; intros; contradiction
      rw [this]
      simp only [emptyRanges]
      exact (all_unless bs v.1 ⟨hw.1.1.1, hv.1, fun h => (hc h).1⟩ p).bind (all_unless ms v.2 ⟨hw.1.1.2, hv.2, fun h => (hc h).2⟩ _)
  | .user cs, v, h => by
    intro p
    have hw := h.wf
    simp only [wellFormed] at hw
    have hv := h.valid
    simp only [Valid] at hv
    have hc := h.const
    simp only [pointerFree] at hc
    simp only [message, emptyRanges]
    have : doHashAppend A env f (.user cs) v = appendAll A env f cs v := by funext s; simp only [doHashAppend]
    rw [this]
    exact all_unless _ v ⟨hw, hv, hc⟩ p
  | .range kd t, vs, h => by
    intro p
    have hw := h.wf
    simp only [wellFormed] at hw
    have hv := h.valid
    simp only [Valid] at hv
    have hc := h.const
    simp only [pointerFree] at hc
    simp only [message, emptyRanges]
    have hg := fun v hm p => unless_with H hfit hw (hv v hm) (do_unless t v ⟨hw, hv v hm, hc⟩ p)
    exact (unless_range (kd := kd) H hfit hloop hnull hok hbad hw hv hg).congr (fun s => by simp only [doHashAppend])
theorem all_unless : ∀ (ts : Tys) (v : ts.Val), ExistsAll env ts v → ∀ p,
    FeedsUnless I a₀ Bad (appendAll A env f ts v) p (messages (layout env f) H ts v p) (emptyRangesAll (inMemory env f) (layout env f) H ts v p)
  | .nil, v, _ => by
    intro p
    simp only [messages, emptyRangesAll]
    exact (feeds_nil (fun s => by simp only [appendAll]) p).lift
  | .cons t ts, v, h => by
    intro p
    have hw := h.wf
    simp only [wellFormedAll, Bool.and_eq_true] at hw
    have hv := h.valid
    simp only [ValidAll] at hv
    have hc := h.const
    simp only [pointerFreeAll, Bool.and_eq_true] at hc
    simp only [messages, emptyRangesAll]
    have : appendAll A env f (.cons t ts) v = (fun s => do
        let s ← hashAppendWith A env f t v.1 (doHashAppend A env f t v.1) s
        appendAll A env f ts v.2 s) := by
      funext s; simp only [appendAll]
    rw [this]
    exact (unless_with H hfit hw.1 hv.1 (do_unless t v.1 ⟨hw.1, hv.1, fun h => (hc h).1⟩ p)).bind
      (all_unless ts v.2 ⟨hw.2, hv.2, fun h => (hc h).2⟩ _)
end

theorem append_unless (t : Ty) (v : t.Val) (h : Exists env t v) (p : List Byte) :
    FeedsUnless I a₀ Bad (hashAppend A env f t v) p (message (layout env f) H t v p) (emptyRanges (inMemory env f) (layout env f) H t v p) :=
  unless_with H hfit h.wf h.valid (do_unless H hfit hloop hnull hok hbad hint hround hH t v h p)

end

theorem sinceResult_snoc (done : List Op) (op : Op) :
    sinceResult (done ++ [op]) = (match op with | .update _ n => sinceResult done + n | .result => 0) := by
  unfold sinceResult
  rw [List.foldl_append]
  rfl

theorem nullMid_append (B : Nat) (xs ys : List Op) (hx : (stream xs).isSome) :
    ∀ k, nullMid B k (xs ++ ys) = (nullMid B k xs || nullMid B (xs.foldl (fun k op => match op with | .update _ n => k + n | .result => 0) k) ys) := by
  induction xs with
  | nil => intro k; simp [nullMid]
  | cons op xs ih =>
    have hs : (stream xs).isSome ∧ op.toks.isSome := by
      simp only [stream] at hx
      cases h1 : op.toks <;> cases h2 : stream xs <;> simp_all
    intro k
    cases op with
    | result => simp only [List.cons_append, nullMid, List.foldl_cons]; exact ih hs.1 0
    | update p n =>
      cases p with
      | null =>
        have hn : n = 0 := by
          by_contra h
          have := hs.2
          simp [Op.toks, h] at this
        subst hn
        simp only [List.cons_append, nullMid, List.foldl_cons, Nat.add_zero]
        rw [ih hs.1 k, Bool.or_assoc]
      | mem bs => simp only [List.cons_append, nullMid, List.foldl_cons]; exact ih hs.1 (k + n)

theorem nullMid_snoc (B : Nat) (xs ys : List Op) (hx : (stream xs).isSome) :
    nullMid B 0 (xs ++ ys) = (nullMid B 0 xs || nullMid B (sinceResult xs) ys) :=
  nullMid_append B xs ys hx 0

section
variable {A : HashAlg} {env : Env} {S : Machine A.R} (I : Implements A env S) {c : Ctor}

/-- **When a program with hash_append passes a null pointer to memcpy, and what it does otherwise** -/
theorem stmts_null (hfit : ∀ a bs, I.fits a bs) (pending : S.S → Nat) (B : Nat)
    (p_absorb : ∀ a bs, pending (S.absorb a bs) = (pending a + bs.length) % B)
    (p_res : ∀ a, pending (S.res a).1 = 0) (ok : ∀ s a, I.Rel s a → pending a = 0 → A.update env s .null 0 = .ok s)
    (bad : ∀ s a, I.Rel s a → pending a ≠ 0 → A.update env s .null 0 = .error .nullMemcpy)
    {s₀ : A.State} {start : S.S} (hc : A.construct env c = .ok s₀) (hr : I.Rel s₀ start) (h0 : pending start = 0)
    (hround : env.fp.roundDown = false) (hloop : env.loops = false)
    (hint : ∀ a, A.integral env (S.res a).2 = .ok (A.numberOf env (S.res a).2)) (ps : List Stmt) :
    ∀ done td s, stream done = some td → nullMid B 0 done = false → pending (S.run start td).1 = sinceResult done % B →
    I.Rel s (S.run start td).1 → (∀ p ∈ ps, p.Valid env) →
    (A.NullMidProgram env c B done ps → A.runStmts env s ps = .error .nullMemcpy) ∧
    (¬ A.NullMidProgram env c B done ps → ∃ ts s', stream (A.expand env c done ps) = some ts ∧
      nullMid B 0 (done ++ A.expand env c done ps) = false ∧ A.runStmts env s ps = .ok (s', (S.run (S.run start td).1 ts).2)) := by
  -- programs of calls
  have hcalls : ∀ ops ts, stream ops = some ts → nullMid B 0 ops = false → ∃ s', A.run env s₀ ops = .ok (s', (S.run start ts).2) := by
    intro ops ts hs hn
    rcases I.run_null hfit pending B p_absorb p_res ok bad ops ts s₀ start 0 hr (by rw [h0, Nat.zero_mod]) hs with ⟨_, h⟩ | ⟨h, _⟩
    · rw [hn] at h; cases h
    · exact h
  induction ps with
  | nil =>
    intro done td s hd hn hp hs hv
    refine ⟨fun h => h.elim, fun _ => ⟨[], s, rfl, ?_, rfl⟩⟩
    simpa [HashAlg.expand] using hn
  | cons q ps ih =>
    intro done td s hd hn hp hs hv
    have hv' := fun p hm => hv p (List.mem_cons_of_mem _ hm)
    have hq := hv q (List.mem_cons_self ..)
    have hds : (stream done).isSome := by rw [hd]; rfl
    -- from one statement that makes the call op to the rest
    have rest : ∀ (op : Op) (t : List Tok) (s1 : A.State), op.toks = some t → nullMid B (sinceResult done) [op] = false →
        pending (S.run (S.run start td).1 t).1 = sinceResult (done ++ [op]) % B → I.Rel s1 (S.run (S.run start td).1 t).1 →
        A.expand env c done (q :: ps) = op :: A.expand env c (done ++ [op]) ps →
        (∀ s2 rs, A.runStmts env s1 ps = .ok (s2, rs) → A.runStmts env s (q :: ps) = .ok (s2, (S.run (S.run start td).1 t).2 ++ rs)) →
        (A.runStmts env s1 ps = .error .nullMemcpy → A.runStmts env s (q :: ps) = .error .nullMemcpy) →
        (A.NullMidProgram env c B (done ++ [op]) ps → A.runStmts env s (q :: ps) = .error .nullMemcpy) ∧
        (¬ A.NullMidProgram env c B (done ++ [op]) ps → ∃ ts s', stream (A.expand env c done (q :: ps)) = some ts ∧
          nullMid B 0 (done ++ A.expand env c done (q :: ps)) = false ∧
          A.runStmts env s (q :: ps) = .ok (s', (S.run (S.run start td).1 ts).2)) := by
      intro op t s1 ht hno hpt r1 hex hgood hfail
      have hd' : stream (done ++ [op]) = some (td ++ t) := by rw [stream_append, hd]; simp [stream, ht]
      have hra : S.run start (td ++ t) = ((S.run (S.run start td).1 t).1, (S.run start td).2 ++ (S.run (S.run start td).1 t).2) :=
        Machine.run_append S start td t
      have h := ih (done ++ [op]) (td ++ t) s1 hd' (by rw [nullMid_snoc B done [op] hds, hn, hno]; rfl) (by rw [hra]; exact hpt)
        (by rw [hra]; exact r1) hv'
      refine ⟨fun hb => hfail (h.1 hb), fun hg => ?_⟩
      obtain ⟨ts, s2, e1, e2, e3⟩ := h.2 hg
      refine ⟨t ++ ts, s2, ?_, ?_, ?_⟩
      · rw [hex]; simp [stream, ht, e1]
      · rw [hex]
        rw [List.append_assoc] at e2
        exact e2
      · rw [hra] at e3
        rw [Machine.run_append S _ t ts]
        exact hgood _ _ e3
    cases q with
    | call op =>
      obtain ⟨t, ht⟩ := Option.isSome_iff_exists.1 (show op.toks.isSome = true from hq)
      have hdef : A.NullMidProgram env c B done (.call op :: ps) ↔
          (op = .update .null 0 ∧ sinceResult done % B ≠ 0) ∨ A.NullMidProgram env c B (done ++ [op]) ps := Iff.rfl
      rw [hdef]
      cases op with
      | result =>
        simp only [Op.toks, Option.some.injEq] at ht; subst ht
        obtain ⟨s1, e1, r1⟩ := I.result_ok s _ hs
        have := rest .result [.fin] s1 rfl rfl
          (by rw [sinceResult_snoc]; show pending (S.res (S.run start td).1).1 = 0 % B; rw [p_res, Nat.zero_mod]) r1 rfl
          (fun s2 rs he => by simp only [HashAlg.runStmts, e1, Except.bind_ok, he]; rfl)
          (fun he => by simp only [HashAlg.runStmts, e1, Except.bind_ok, he]; rfl)
        refine ⟨fun h => this.1 (h.resolve_left fun h => by cases h.1), fun h => this.2 fun h' => h (.inr h')⟩
      | update p n =>
        cases p with
        | null =>
          have hz : n = 0 := by
            by_contra h
            simp [Op.toks, h] at ht
          subst hz
          simp only [Op.toks, if_true, Option.some.injEq] at ht; subst ht
          by_cases hk : sinceResult done % B = 0
          · have e1 : A.update env s .null 0 = .ok s := ok s _ hs (hp.trans hk)
            have := rest (.update .null 0) [] s rfl (by simp [nullMid, hk]) (by rw [sinceResult_snoc]; exact hp) hs rfl
              (fun s2 rs he => by simp only [HashAlg.runStmts, e1, Except.bind_ok, he]; rfl)
              (fun he => by simp only [HashAlg.runStmts, e1, Except.bind_ok, he])
            exact ⟨fun h => this.1 (h.resolve_left fun h => h.2 hk), fun h => this.2 fun h' => h (.inr h')⟩
          · have e1 : A.update env s .null 0 = .error .nullMemcpy := bad s _ hs (by rw [hp]; exact hk)
            refine ⟨fun _ => ?_, fun h => absurd (.inl ⟨rfl, hk⟩) h⟩
            simp only [HashAlg.runStmts, e1]; rfl
        | mem bs =>
          simp only [Op.toks] at ht
          split at ht
          · rename_i hle
            simp only [Option.some.injEq] at ht; subst ht
            have hlen : (bs.take n).length = n := by simp; omega
            have hrd := I.run_data hs (bs.take n)
            have hstep := I.update_ok s _ (bs.take n) (bs.drop n) hs (hfit _ _)
            rw [List.take_append_drop, hlen] at hstep
            obtain ⟨s1, e1, r1⟩ := hstep
            have := rest (.update (.mem bs) n) ((bs.take n).map .data) s1 (by simp [Op.toks, hle]) rfl
              (by rw [sinceResult_snoc, hrd.1, p_absorb, hp, hlen, Nat.mod_add_mod]) (by rw [hrd.1]; exact r1) rfl
              (fun s2 rs he => by rw [hrd.1]; simp only [HashAlg.runStmts, e1, Except.bind_ok, he]; rfl)
              (fun he => by simp only [HashAlg.runStmts, e1, Except.bind_ok, he])
            refine ⟨fun h => this.1 (h.resolve_left fun h => by cases h.1), fun h => this.2 fun h' => h (.inr h')⟩
          · cases ht
    | append f t v =>
      obtain ⟨hw, hval, hconst⟩ := hq
      have hH : ∀ bs, A.number env c done bs = A.numberOf env (S.res (S.absorb (S.run start td).1 bs)).2 := by
        intro bs
        have hb := (I.run_data hs bs).1
        have hst : stream (done ++ [.update (.mem bs) bs.length, .result]) = some (td ++ (bs.map .data ++ [.fin])) := by
          rw [stream_append, hd]
          simp [stream, Op.toks]
        obtain ⟨s2, e2⟩ := hcalls _ _ hst (by rw [nullMid_snoc B done _ hds, hn]; rfl)
        have hres : (S.run start (td ++ (bs.map .data ++ [.fin]))).2 = (S.run start td).2 ++ [(S.res (S.absorb (S.run start td).1 bs)).2] := by
          rw [Machine.run_append, Machine.run_append, hb]
          rfl
        unfold HashAlg.number HashAlg.exec
        rw [hc, Except.bind_ok, e2, hres]
        simp
      have hm0 : ∀ p, pending (S.absorb (S.run start td).1 p) = (sinceResult done + p.length) % B := by
        intro p; rw [p_absorb, hp, Nat.mod_add_mod]
      have hdef : A.NullMidProgram env c B done (.append f t v :: ps) ↔
          (env.emptyDataNull = true ∧ ∃ q ∈ emptyRanges (inMemory env f) (layout env f) (A.number env c done) t v [],
            (sinceResult done + q.length) % B ≠ 0) ∨
          A.NullMidProgram env c B (done ++ [.update (.mem (A.messageOf env c done f t v)) (A.messageOf env c done f t v).length]) ps := Iff.rfl
      rw [hdef]
      have hs' : I.Rel s (S.absorb (S.run start td).1 []) := by rw [I.absorb_nil s _ hs]; exact hs
      -- what one hash_append does
      have hone : ((env.emptyDataNull = true ∧ ∃ q ∈ emptyRanges (inMemory env f) (layout env f) (A.number env c done) t v [],
            (sinceResult done + q.length) % B ≠ 0) → hashAppend A env f t v s = .error .nullMemcpy) ∧
          (¬ (env.emptyDataNull = true ∧ ∃ q ∈ emptyRanges (inMemory env f) (layout env f) (A.number env c done) t v [],
            (sinceResult done + q.length) % B ≠ 0) → ∃ s1, hashAppend A env f t v s = .ok s1 ∧
              I.Rel s1 (S.absorb (S.run start td).1 (A.messageOf env c done f t v))) := by
        by_cases he : env.emptyDataNull = true
        · have h := append_unless (I := I) (a₀ := (S.run start td).1) (Bad := fun p => (sinceResult done + p.length) % B ≠ 0) (f := f)
            (A.number env c done) hfit hloop he
            (fun s p hs hb => ok s _ hs (by rw [hm0]; exact not_not.1 hb)) (fun s p hs hb => bad s _ hs (by rw [hm0]; exact hb))
            (int := A.numberOf env) (fun s a _ => hint a) hround hH t v ⟨hw, hval, hconst⟩ [] s hs'
          rw [List.nil_append] at h
          exact ⟨fun hb => h.2 hb.2, fun hb => h.1 fun q hq hbq => hb ⟨he, q, hq, hbq⟩⟩
        · refine ⟨fun h => absurd h.1 he, fun _ => ?_⟩
          have h := append_feeds (I := I) (a₀ := (S.run start td).1) (f := f) (A.number env c done) (int := A.numberOf env)
            (fun s a _ => hint a) hround (fun bs _ => hH bs) t v ⟨hw, hval, hconst, .inr (.inl (by simpa using he))⟩ [] (weight t v)
            (room_all hfit _ _) (Nat.le_refl _) s hs'
          rw [List.nil_append] at h
          exact h
      by_cases hb : env.emptyDataNull = true ∧ ∃ q ∈ emptyRanges (inMemory env f) (layout env f) (A.number env c done) t v [],
            (sinceResult done + q.length) % B ≠ 0
      · refine ⟨fun _ => ?_, fun h => absurd (.inl hb) h⟩
        simp only [HashAlg.runStmts, hone.1 hb]; rfl
      · obtain ⟨s1, e1, r1⟩ := hone.2 hb
        have hrd := I.run_data hs (A.messageOf env c done f t v)
        have := rest (.update (.mem (A.messageOf env c done f t v)) (A.messageOf env c done f t v).length)
          ((A.messageOf env c done f t v).map .data) s1 (by simp [Op.toks]) rfl
          (by rw [sinceResult_snoc, hrd.1]; exact hm0 _) (by rw [hrd.1]; exact r1) rfl
          (fun s2 rs he => by rw [hrd.1]; simp only [HashAlg.runStmts, e1, Except.bind_ok, he]; rfl)
          (fun he => by simp only [HashAlg.runStmts, e1, Except.bind_ok, he])
        exact ⟨fun h => this.1 (h.resolve_left hb), fun h => this.2 fun h' => h (.inr h')⟩

end

/-- **When a program with hash_append on a SHA-2 object faults.** -/
theorem sha2_stmts_null (d : DigestName) (hd : d.isSha2 = true) (env : Env) (hloop : env.loops = false)
    (hround : env.fp.roundDown = false) (c : Ctor) (hc : c.Valid) (ps : List Stmt) (hv : ∀ p ∈ ps, p.Valid env) :
    (d.impl.toHash.NullMidProgram env c d.B [] ps → d.impl.toHash.execStmts env c ps = .error .nullMemcpy) ∧
    (¬ d.impl.toHash.NullMidProgram env c d.B [] ps → ∃ rs, d.impl.toHash.execStmts env c ps = .ok rs ∧
      d.impl.toHash.exec env c (d.impl.toHash.expand env c [] ps) = .ok rs) := by
  obtain ⟨s, e, r⟩ := AlgName.construct_ok (a := .digest d) (env := env) (ts := []) hc trivial
  have R := stmts_null (c := c) (d.impls env).1 (d.impls env).2.1.fits d.pending d.B d.pending_absorb (d.pending_res hd)
    (fun s a => d.null_empty hd env s a) (fun s a => d.null_fault hd env hloop s a) e r (d.pending_start hd c) hround hloop
    (fun x => AlgName.numberOf_ok (.digest d) env env.sizeBits x) ps [] [] s rfl rfl ((d.pending_start hd c).trans (Nat.zero_mod _).symm) r hv
  have key : ∀ {A : HashAlg} {s : A.State}, A.construct env c = .ok s →
      (∀ f, A.runStmts env s ps = .error f → A.execStmts env c ps = .error f) ∧
      ∀ x rs, A.runStmts env s ps = .ok (x, rs) → A.execStmts env c ps = .ok rs := by
    intro A s e
    constructor
    · intro f h
      simp only [HashAlg.execStmts, e, Except.bind_ok, h]; rfl
    · intro x rs h
      simp only [HashAlg.execStmts, e, Except.bind_ok, h]; rfl
  constructor
  · intro h
    exact (key e).1 _ (R.1 h)
  · intro h
    obtain ⟨ts, s', h1, h2, h3⟩ := R.2 h
    refine ⟨_, (key e).2 _ _ h3, (sha2_exec_null d hd env hloop c hc _ ts h1).2 fun hm => ?_⟩
    rw [List.nil_append] at h2
    have := (nullMid_iff d.B _ 0 (by rw [h1]; rfl)).2 hm
    rw [h2] at this
    cases this

end Hash2

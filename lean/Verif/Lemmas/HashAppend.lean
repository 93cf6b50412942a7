import Verif.Lemmas.MessageRep
import Verif.Lemmas.MessageEq
import Verif.Lemmas.Implements
import Verif.Spec.Programs
/-
hash_append feeds the message: the refinement proof.
-/
namespace Hash2
open Spec

theorem writeInt_ok (env : Env) (L : Layout) (sz : Sz) (v : BitVec (8 * sz.n)) :
    writeInt env L.order (List.replicate sz.n 0) sz v = .ok (L.word sz.n v.toNat) := by
  cases sz with
  | s1 =>
    show Except.ok [v] = Except.ok (L.word 1 (BitVec.toNat (w := 8) v))
    rw [word_one]
    have (b : BitVec 8) : [b] = [BitVec.ofNat 8 b.toNat] := by rw [BitVec.ofNat_toNat]; rfl
    exact congrArg Except.ok (this v)
  | s2 =>
    show (if L.order = .little then write16le env (List.replicate 2 0) 0 v else write16be (List.replicate 2 0) 0 v) =
      .ok (match L.order with | .little => natLE 2 (BitVec.toNat (w := 16) v) | .big => natBE 2 (BitVec.toNat (w := 16) v))
    cases L.order
    · rw [if_pos rfl]; exact (write16le_ok env (List.replicate 2 0) 0 v (by decide)).trans (by simp)
    · rw [if_neg (by decide)]; exact (write16be_ok (List.replicate 2 0) 0 v (by decide)).trans (by simp)
  | s4 =>
    show (if L.order = .little then write32le env (List.replicate 4 0) 0 v else write32be (List.replicate 4 0) 0 v) =
      .ok (match L.order with | .little => natLE 4 (BitVec.toNat (w := 32) v) | .big => natBE 4 (BitVec.toNat (w := 32) v))
    cases L.order
    · rw [if_pos rfl]; exact (write32le_ok env (List.replicate 4 0) 0 v (by decide)).trans (by simp)
    · rw [if_neg (by decide)]; exact (write32be_ok (List.replicate 4 0) 0 v (by decide)).trans (by simp)
  | s8 =>
    show (if L.order = .little then write64le env (List.replicate 8 0) 0 v else write64be (List.replicate 8 0) 0 v) =
      .ok (match L.order with | .little => natLE 8 (BitVec.toNat (w := 64) v) | .big => natBE 8 (BitVec.toNat (w := 64) v))
    cases L.order
    · rw [if_pos rfl]; exact (write64le_ok env (List.replicate 8 0) 0 v (by decide)).trans (by simp)
    · rw [if_neg (by decide)]; exact (write64be_ok (List.replicate 8 0) 0 v (by decide)).trans (by simp)

section
variable {A : HashAlg} {env : Env} {S : Machine A.R} (I : Implements A env S) (a₀ : S.S)

/-- there is room for k more bytes -/
def Room (p : List Byte) (k : Nat) : Prop := ∀ bs : List Byte, bs.length ≤ k → I.fits a₀ (p ++ bs)

/-- the call feeds the bytes m, after p -/
def Feeds (g : A.State → M A.State) (p m : List Byte) : Prop :=
  ∀ s, I.Rel s (S.absorb a₀ p) → ∃ s', g s = .ok s' ∧ I.Rel s' (S.absorb a₀ (p ++ m))

variable {I a₀}

theorem Room.mono {p : List Byte} {k k' : Nat} (h : Room I a₀ p k) (hk : k' ≤ k) : Room I a₀ p k' :=
  fun bs hl => h bs (Nat.le_trans hl hk)

theorem Room.step {p m : List Byte} {k k' : Nat} (h : Room I a₀ p k) (hk : m.length + k' ≤ k) : Room I a₀ (p ++ m) k' := by
  intro bs hl
  have := h (m ++ bs) (by rw [List.length_append]; omega)
  rwa [← List.append_assoc] at this

theorem feeds_update {p bs : List Byte} {k : Nat} (hr : Room I a₀ p k) (hk : bs.length ≤ k) :
    Feeds I a₀ (fun s => A.update env s (.mem bs) bs.length) p bs := by
  intro s h
  have := I.update_ok s _ bs [] h ((I.fits_append _ _ _).1 (hr bs hk)).2
  rw [List.append_nil] at this
  rw [I.absorb_append]
  exact this

theorem feeds_nil {g : A.State → M A.State} (h : ∀ s, g s = .ok s) (p : List Byte) : Feeds I a₀ g p [] := by
  intro s hs
  exact ⟨s, h s, by rwa [List.append_nil]⟩

theorem mem_le_sum {x : Nat} {l : List Nat} (h : x ∈ l) : x ≤ l.sum := by
  induction l with
  | nil => cases h
  | cons y l ih =>
    rw [List.sum_cons]
    rcases List.mem_cons.mp h with rfl | h
    · omega
    · have := ih h; omega

theorem Feeds.congr {g g' : A.State → M A.State} {p m : List Byte} (h : Feeds I a₀ g p m) (e : ∀ s, g' s = g s) : Feeds I a₀ g' p m := by
  rw [show g' = g from funext e]; exact h

theorem Feeds.bind {g g' : A.State → M A.State} {p m m' : List Byte} (h : Feeds I a₀ g p m) (h' : Feeds I a₀ g' (p ++ m) m') :
    Feeds I a₀ (fun s => do let s ← g s; g' s) p (m ++ m') := by
  intro s hs
  obtain ⟨s1, e1, r1⟩ := h s hs
  obtain ⟨s2, e2, r2⟩ := h' s1 r1
  exact ⟨s2, by simp only [e1, Except.bind_ok, e2], by rwa [← List.append_assoc]⟩

variable {f : Flavor} (H : List Byte → W64)

/-- hash_append, given what do_hash_append does -/
theorem feeds_with {t : Ty} {v : t.Val} {w : Nat} {g : A.State → M A.State} {p : List Byte} {k : Nat} (hw : wellFormed t = true)
    (hv : Valid w t v) (hr : Room I a₀ p k) (hk : weight t v ≤ k)
    (hg : (env.isConstantEvaluated = true ∨ t.contiguouslyHashable env (f.endian env) = false) → Feeds I a₀ g p (message (layout env f) H t v p)) :
    Feeds I a₀ (hashAppendWith A env f t v g) p (message (layout env f) H t v p) := by
  intro s hs
  unfold hashAppendWith
  by_cases hc : env.isConstantEvaluated = false ∧ t.contiguouslyHashable env (f.endian env) = true
  · rw [if_pos hc]
    obtain ⟨h1, h2⟩ := contig_message (L := layout env f) H rfl hw hv hc.2 p
    have := message_length_le (L := layout env f) H f.sizeType.n_le env.ptrSz.n_le t v p
    rw [h1] at this ⊢
    rw [← h2]
    exact feeds_update hr (Nat.le_trans this hk) s hs
  · rw [if_neg hc]
    refine hg ?_ s hs
    cases h1 : env.isConstantEvaluated
    · right
      rw [h1] at hc
      simpa using hc
    · exact .inl rfl

theorem feeds_doInt {sz : Sz} {v : BitVec (8 * sz.n)} {p : List Byte} {k : Nat} (hr : Room I a₀ p k) (hk : sz.n ≤ k) :
    Feeds I a₀ (doAppendInt A env f sz v) p ((layout env f).word sz.n v.toNat) := by
  intro s hs
  unfold doAppendInt
  have := writeInt_ok env (layout env f) sz v
  rw [show (layout env f).order = f.endian env from rfl] at this
  rw [this]
  have h := feeds_update (bs := (layout env f).word sz.n v.toNat) hr (by rw [word_length]; exact hk) s hs
  rw [word_length] at h
  exact h

theorem feeds_int {sz : Sz} {v : BitVec (8 * sz.n)} {p : List Byte} {k : Nat} (hr : Room I a₀ p k) (hk : 8 ≤ k) :
    Feeds I a₀ (appendInt A env f sz v) p ((layout env f).word sz.n v.toNat) :=
  feeds_with (t := .int (.int sz)) (v := v) (w := 0) (fun _ => 0) rfl (by simp only [Valid]) hr hk
    (fun _ => feeds_doInt hr (Nat.le_trans sz.n_le hk))

theorem feeds_nul {p : List Byte} {k : Nat} (hr : Room I a₀ p k) (hk : 1 ≤ k) : Feeds I a₀ (appendNul A env f) p [0] := by
  have : (layout env f).word Sz.s1.n (0 : BitVec 8).toNat = [0] := by
    rw [show Sz.s1.n = 1 from rfl, word_one]; rfl
  rw [← this]
  intro s hs
  unfold appendNul appendInt hashAppendWith
  split
  · have e : (Ty.int (.int .s1)).rep env (0 : BitVec 8) = (layout env f).word Sz.s1.n (0 : BitVec 8).toNat := by
      rw [this]
      simp only [Ty.rep]
      unfold objBytes; split <;> rfl
    have h := feeds_update (bs := (layout env f).word Sz.s1.n (0 : BitVec 8).toNat) hr (by rw [word_length]; exact hk) s hs
    have e2 : (Ty.int (.int .s1)).sizeOf env = ((layout env f).word Sz.s1.n (0 : BitVec 8).toNat).length := by
      rw [word_length]; simp only [Ty.sizeOf]; rfl
    exact (congrArg₂ (fun a b => A.update env s (.mem a) b) e e2) ▸ h
  · exact feeds_doInt (sz := .s1) (v := 0) hr hk s hs

theorem feeds_size {n : Nat} {p : List Byte} {k : Nat} (hr : Room I a₀ p k) (hk : 8 ≤ k) :
    Feeds I a₀ (appendSize A env f n) p ((layout env f).word (layout env f).sizeBytes n) := by
  have h := feeds_int (f := f) (sz := f.sizeType) (v := BitVec.ofNat (8 * f.sizeType.n) n) hr hk
  rw [BitVec.toNat_ofNat, pow256, word_mod] at h
  exact h

theorem feeds_ptr {v : W64} {p : List Byte} {k : Nat} (hc : env.constEval = false) (hv : v.toNat < 2 ^ (8 * env.ptrSz.n))
    (hr : Room I a₀ p k) (hk : 8 ≤ k) :
    Feeds I a₀ (doAppendPtr A env f v) p ((layout env f).word (layout env f).ptrBytes v.toNat) := by
  have h := feeds_int (f := f) (sz := env.ptrSz) (v := v.setWidth (8 * env.ptrSz.n)) hr hk
  rw [BitVec.toNat_setWidth, Nat.mod_eq_of_lt hv] at h
  intro s hs
  unfold doAppendPtr
  rw [hc]
  exact h s hs

theorem feeds_each {α : Type} {g : α → A.State → M A.State} {m : α → List Byte → List Byte} {wt : α → Nat} {vs : List α}
    {p : List Byte} {k : Nat} (hm : ∀ v ∈ vs, ∀ p, (m v p).length ≤ wt v)
    (hg : ∀ v ∈ vs, ∀ p k, Room I a₀ p k → wt v ≤ k → Feeds I a₀ (g v) p (m v p))
    (hr : Room I a₀ p k) (hk : (vs.map wt).sum ≤ k) : Feeds I a₀ (appendEach A g vs) p (concat m vs p) := by
  induction vs generalizing p k with
  | nil => exact feeds_nil (fun _ => rfl) p
  | cons v vs ih =>
    rw [List.map_cons, List.sum_cons] at hk
    have hl := hm v (List.mem_cons_self ..) p
    have h1 := hg v (List.mem_cons_self ..) p k hr (by omega)
    have h2 := ih (p := p ++ m v p) (k := k - wt v) (fun v hv => hm v (List.mem_cons_of_mem _ hv))
      (fun v hv => hg v (List.mem_cons_of_mem _ hv)) (hr.step (by omega)) (by omega)
    exact h1.bind h2

/-- an empty range is not given by null pointers, or that does no harm -/
def NullFine (I : Implements A env S) (noEmpty : Prop) : Prop := I.nullSafe ∨ env.emptyDataNull = false ∨ noEmpty

theorem uchar_rep (vs : List (Ty.int .uchar).Val) : (vs.map ((Ty.int .uchar).rep env)).flatten = vs := by
  induction vs with
  | nil => rfl
  | cons v vs ih =>
    rw [List.map_cons, List.flatten_cons, ih]
    have : (Ty.int .uchar).rep env v = [v] := by
      simp only [Ty.rep]
      have : ∀ e, objBytes e 1 (show BitVec 8 from v) = [v] := by
        intro e
        have : natLE 1 (BitVec.toNat (w := 8) v) = [v] := by
          have (b : BitVec 8) : [BitVec.ofNat 8 b.toNat] = [b] := by rw [BitVec.ofNat_toNat]; rfl
          exact this v
        cases e
        · exact this
        · show (natLE 1 (BitVec.toNat (w := 8) v)).reverse = [v]
          rw [this]; rfl
      exact this _
    rw [this]; rfl

theorem feeds_elements {t : Ty} {vs : List t.Val} {p bs : List Byte} {k n : Nat}
    (hb : (vs.map (t.rep env)).flatten = bs) (hn : n = bs.length) (hnull : NullFine I (vs ≠ []))
    (hr : Room I a₀ p k) (hk : bs.length ≤ k) :
    Feeds I a₀ (fun s => A.update env s (elements env t vs) n) p bs := by
  unfold elements
  by_cases he : vs.isEmpty = true ∧ env.emptyDataNull = true
  · rw [if_pos he]
    have hv : vs = [] := by simpa using he.1
    subst hv
    have hb' : bs = [] := by rw [← hb]; rfl
    subst hb'
    have hn : n = 0 := hn
    subst hn
    rcases hnull with h | h | h
    · intro s hs
      exact ⟨s, I.null_ok h s _ hs, by rwa [List.append_nil]⟩
    · rw [he.2] at h; cases h
    · exact absurd rfl h
  · rw [if_neg he, hb, hn]
    exact feeds_update hr hk

theorem feeds_pointers {t : Ty} {g : t.Val → A.State → M A.State} {vs : List t.Val} {w : Nat} {p : List Byte} {k : Nat}
    (hw : wellFormed t = true) (hv : ∀ v ∈ vs, Valid w t v)
    (hg : ∀ v ∈ vs, ∀ p k, Room I a₀ p k → weight t v ≤ k → Feeds I a₀ (g v) p (message (layout env f) H t v p))
    (hr : Room I a₀ p k) (hk : (vs.map (weight t)).sum ≤ k) (hnull : NullFine I (vs ≠ [])) :
    Feeds I a₀ (appendPointers A env f t g vs) p (concat (message (layout env f) H t) vs p) := by
  have hml := fun v (_ : v ∈ vs) p => message_length_le (L := layout env f) H f.sizeType.n_le env.ptrSz.n_le t v p
  have hlen := concat_length_le hml p
  have heach := feeds_each hml hg hr hk
  -- one update with the memory of the elements
  have hmem : t.contiguouslyHashable env (f.endian env) = true →
      Feeds I a₀ (fun s => A.update env s (elements env t vs) (vs.length * t.sizeOf env)) p (concat (message (layout env f) H t) vs p) := by
    intro hc
    have hc : t.contiguouslyHashable env (layout env f).order = true := hc
    have hrep := fun v hm p => contig_message (L := layout env f) H rfl hw (hv v hm) hc p
    have hcat := concat_const (fun v hm p => (hrep v hm p).1) p
    refine feeds_elements hcat.symm ?_ hnull hr (Nat.le_trans hlen hk)
    rw [hcat, List.length_flatten, List.map_map, show vs.map (List.length ∘ t.rep env) = vs.map (fun _ => t.sizeOf env) from
      List.map_congr_left fun v hm => (hrep v hm p).2, List.map_const', List.sum_replicate_nat]
  have hgen : Feeds I a₀ (fun s => if t.contiguouslyHashable env (f.endian env) then
        if env.loops = false then A.update env s (elements env t vs) (vs.length * t.sizeOf env)
        else appendEach A g vs s
      else appendEach A g vs s) p (concat (message (layout env f) H t) vs p) := by
    by_cases hc : t.contiguouslyHashable env (f.endian env) = true
    · simp only [if_pos hc]
      by_cases he : env.loops = false
      · simp only [if_pos he]; exact hmem hc
      · simp only [if_neg he]; exact heach
    · simp only [if_neg hc]; exact heach
  intro s hs
  unfold appendPointers
  split
  · have hcont : (Ty.int .uchar).contiguouslyHashable env (f.endian env) = true := by
      simp [Ty.contiguouslyHashable, Ty.triviallyComparable, Ty.endianIndependent, Ty.sizeOf, IntTy.size, Sz.n]
    have := hmem hcont s hs
    rw [show (Ty.int IntTy.uchar).sizeOf env = 1 from by simp only [Ty.sizeOf]; rfl, Nat.mul_one] at this
    exact this
  · exact hgen s hs

theorem feeds_range {kd : RangeKind} {t : Ty} {g : t.Val → A.State → M A.State} {vs : List t.Val} {w : Nat} {p : List Byte} {k : Nat}
    (hw : wellFormed t = true) (hv : ∀ v ∈ vs, Valid w t v)
    (hg : ∀ v ∈ vs, ∀ p k, Room I a₀ p k → weight t v ≤ k → Feeds I a₀ (g v) p (message (layout env f) H t v p))
    (hr : Room I a₀ p k) (hk : (vs.map (weight t)).sum ≤ k) (hnull : NullFine I (kd.byPointer = true → vs ≠ [])) :
    Feeds I a₀ (appendRange A env f kd t g vs) p (concat (message (layout env f) H t) vs p) := by
  have hml := fun v (_ : v ∈ vs) p => message_length_le (L := layout env f) H f.sizeType.n_le env.ptrSz.n_le t v p
  have heach := feeds_each hml hg hr hk
  cases kd with
  | contiguous => exact feeds_pointers H hw hv hg hr hk (hnull.imp id (Or.imp id (fun h => h rfl)))
  | pointers => exact feeds_pointers H hw hv hg hr hk (hnull.imp id (Or.imp id (fun h => h rfl)))
  | randomAccess => exact heach
  | forward => exact heach

/-- the values hashed by a copy of the object, added up -/
theorem unordered_sum {α : Type} {g : α → A.State → M A.State} {m : α → List Byte → List Byte} {int : A.R → W64} {h : A.State}
    {p : List Byte} (hh : I.Rel h (S.absorb a₀ p)) (vs : List α)
    (hint : ∀ s a, I.Rel s a → A.integral env (S.res a).2 = .ok (int (S.res a).2))
    (hg : ∀ v ∈ vs, Feeds I a₀ (g v) p (m v p)) (w : W64) :
    unorderedSum A env g h vs w =
      .ok (BitVec.ofNat 64 (w.toNat + (vs.map fun v => (int (S.res (S.absorb a₀ (p ++ m v p))).2).toNat).sum)) := by
  induction vs generalizing w with
  | nil => simp [unorderedSum]
  | cons v vs ih =>
    obtain ⟨s1, e1, r1⟩ := hg v (List.mem_cons_self ..) h hh
    obtain ⟨s2, e2, _⟩ := I.result_ok s1 _ r1
    simp only [unorderedSum, e1, e2, Except.bind_ok, hint s1 _ r1]
    rw [ih (fun v hv => hg v (List.mem_cons_of_mem _ hv))]
    congr 1
    apply BitVec.eq_of_toNat_eq
    simp only [BitVec.toNat_ofNat, BitVec.toNat_add, List.map_cons, List.sum_cons]
    omega

variable {int : A.R → W64} (hint : ∀ s a, I.Rel s a → A.integral env (S.res a).2 = .ok (int (S.res a).2))
  (hround : env.fp.roundDown = false) (hH : ∀ bs, I.fits a₀ bs → H bs = int (S.res (S.absorb a₀ bs)).2)

/-- the conditions under which an object can be hashed -/
structure Hashable (I : Implements A env S) (t : Ty) (v : t.Val) : Prop where
  wf : wellFormed t = true
  valid : Valid (8 * env.ptrSz.n) t v
  const : env.constEval = true → pointerFree t = true
  null : NullFine I (NoEmpty t v)

structure HashableAll (I : Implements A env S) (ts : Tys) (v : ts.Val) : Prop where
  wf : wellFormedAll ts = true
  valid : ValidAll (8 * env.ptrSz.n) ts v
  const : env.constEval = true → pointerFreeAll ts = true
  null : NullFine I (NoEmptyAll ts v)

theorem not_const {P : Prop} (h : env.constEval = true → P) (hn : ¬ P) : env.constEval = false := by
  cases he : env.constEval
  · rfl
  · exact absurd (h he) hn

include hint hround hH

mutual
theorem do_feeds : ∀ (t : Ty) (v : t.Val), Hashable I t v → ∀ p k, Room I a₀ p k → weight t v ≤ k →
    Feeds I a₀ (doHashAppend A env f t v) p (message (layout env f) H t v p)
  | .int kd, v, h => by
    intro p k hr hk
    simp only [message]
    exact (feeds_doInt hr (Nat.le_trans kd.size.n_le (by simpa only [weight] using hk))).congr (fun s => by simp only [doHashAppend])
  | .enum kd, v, h => by
    intro p k hr hk
    simp only [weight] at hk
    have := feeds_with (t := .int kd) (v := v) (w := 0) (f := f) H rfl (by simp only [Valid]) hr (by simpa only [weight] using hk)
      (g := doAppendInt A env f kd.size (kd.bits v))
      (fun _ => by simp only [message]; exact feeds_doInt hr (Nat.le_trans kd.size.n_le hk))
    simp only [message] at this ⊢
    exact this.congr (fun s => by simp only [doHashAppend])
  | .ptr, v, h => by
    intro p k hr hk
    have hc := not_const h.const (by simp [pointerFree])
    have hv := h.valid
    simp only [Valid] at hv
    simp only [message]
    exact (feeds_ptr hc hv hr (by simpa only [weight] using hk)).congr (fun s => by simp only [doHashAppend])
  | .nullptr, v, h => by
    intro p k hr hk
    have hc := not_const h.const (by simp [pointerFree])
    simp only [weight] at hk
    have := feeds_with (t := .ptr) (v := (0 : W64)) (w := 8 * env.ptrSz.n) (f := f) H rfl
      (by simp only [Valid]; exact Nat.two_pow_pos _) hr (by simpa only [weight] using hk) (g := doAppendPtr A env f 0)
      (fun _ => by
        simp only [message]
        exact feeds_ptr hc (Nat.two_pow_pos _) hr hk)
    simp only [message] at this ⊢
    exact this.congr (fun s => by simp only [doHashAppend])
  | .f32, v, h => by
    intro p k hr hk
    simp only [weight] at hk
    simp only [message]
    have e : (addZero env.fp 32 23 v).toNat = canonical env.fp.canonicalNaN 8 23 v.toNat :=
      addZero_toNat (eb := 8) (mb := 23) env.fp hround (by decide) (by decide) v
    have := feeds_int (f := f) (sz := .s4) (v := addZero env.fp 32 23 v) hr hk
    have e' : (layout env f).word Sz.s4.n (BitVec.toNat (w := 8 * Sz.s4.n) (addZero env.fp 32 23 v)) =
      (layout env f).word 4 (canonical (layout env f).canonicalNaN 8 23 v.toNat) := congrArg ((layout env f).word 4) e
    rw [e'] at this
    exact this.congr (fun s => by simp only [doHashAppend])
  | .f64, v, h => by
    intro p k hr hk
    simp only [weight] at hk
    simp only [message]
    have e : (addZero env.fp 64 52 v).toNat = canonical env.fp.canonicalNaN 11 52 v.toNat :=
      addZero_toNat (eb := 11) (mb := 52) env.fp hround (by decide) (by decide) v
    have := feeds_int (f := f) (sz := .s8) (v := addZero env.fp 64 52 v) hr hk
    have e' : (layout env f).word Sz.s8.n (BitVec.toNat (w := 8 * Sz.s8.n) (addZero env.fp 64 52 v)) =
      (layout env f).word 8 (canonical (layout env f).canonicalNaN 11 52 v.toNat) := congrArg ((layout env f).word 8) e
    rw [e'] at this
    exact this.congr (fun s => by simp only [doHashAppend])
  | .carray n t, vs, h => by
    intro p k hr hk
    have hw := h.wf
    simp only [wellFormed, Bool.and_eq_true, bne_iff_ne] at hw
    have hv := h.valid
    simp only [Valid] at hv
    have hn := h.null
    simp only [NoEmpty] at hn
    simp only [weight] at hk
    have hc := h.const
    simp only [pointerFree] at hc
    simp only [message]
    have key := feeds_pointers (t := t) (vs := vs) (f := f) (g := fun v => hashAppendWith A env f t v (doHashAppend A env f t v)) H hw.2 hv.2
      (fun v hm p k hr hk => feeds_with H (by first | exact hw.2 | exact hw) (by first | exact hv.2 v hm | exact hv v hm) hr hk (fun _ => do_feeds t v ⟨hw.2, hv.2 v hm, hc, hn.imp id (Or.imp id fun h => h v hm)⟩ p k hr hk)) hr hk
      (.inr (.inr (by rintro rfl; exact hw.1 hv.1.symm)))
    exact key.congr (fun s => by simp only [doHashAppend])
  | .seq kd t, vs, h => by
    intro p k hr hk
    have hw := h.wf
    simp only [wellFormed] at hw
    have hv := h.valid
    simp only [Valid] at hv
    have hn := h.null
    simp only [NoEmpty] at hn
    simp only [weight] at hk
    have hc := h.const
    simp only [pointerFree] at hc
    simp only [message]
    have hg := fun v hm p k hr hk => feeds_with H (by first | exact hw.2 | exact hw) (by first | exact hv.2 v hm | exact hv v hm) hr hk (fun _ => do_feeds t v ⟨hw, hv v hm, hc, hn.imp id (Or.imp id fun h => h.2 v hm)⟩ p k hr hk)
    have hml := fun v (_ : v ∈ vs) p => message_length_le (L := layout env f) H f.sizeType.n_le env.ptrSz.n_le t v p
    have hlen := concat_length_le hml p
    have hsize := feeds_size (f := f) (n := vs.length) (hr.step (m := concat (message (layout env f) H t) vs p) (k' := 8) (by omega)) (Nat.le_refl 8)
    have key : Feeds I a₀ (appendRangeSize A env f kd t (fun v => hashAppendWith A env f t v (doHashAppend A env f t v)) vs) p
        (concat (message (layout env f) H t) vs p ++ (layout env f).word (layout env f).sizeBytes vs.length) :=
      (feeds_range (kd := kd) H hw hv hg hr (by omega) (hn.imp id (Or.imp id And.left))).bind hsize
    have key' : Feeds I a₀ (appendCounted A env f (fun v => hashAppendWith A env f t v (doHashAppend A env f t v)) vs) p
        (concat (message (layout env f) H t) vs p ++ (layout env f).word (layout env f).sizeBytes vs.length) :=
      (feeds_each hml hg hr (by omega)).bind hsize
    have key2 : Feeds I a₀ (appendSeq A env f kd t (fun v => hashAppendWith A env f t v (doHashAppend A env f t v)) vs) p
        (concat (message (layout env f) H t) vs p ++ (layout env f).word (layout env f).sizeBytes vs.length) := by
      cases kd
      · exact key
      · exact key
      · exact key
      · exact key'
    exact key2.congr (fun s => by simp only [doHashAppend])
  | .arr kd n t, vs, h => by
    intro p k hr hk
    have hw := h.wf
    simp only [wellFormed] at hw
    have hv := h.valid
    simp only [Valid] at hv
    have hn := h.null
    simp only [NoEmpty] at hn
    simp only [weight] at hk
    have hc := h.const
    simp only [pointerFree] at hc
    rw [message_arr]
    have hg := fun v hm p k hr hk => feeds_with H (by first | exact hw.2 | exact hw) (by first | exact hv.2 v hm | exact hv v hm) hr hk (fun _ => do_feeds t v ⟨hw, hv.2 v hm, hc, hn.imp id (Or.imp id fun h => h v hm)⟩ p k hr hk)
    have key : Feeds I a₀ (appendArr A env f kd t (fun v => hashAppendWith A env f t v (doHashAppend A env f t v)) vs) p
        (if vs.isEmpty = true then [0] else concat (message (layout env f) H t) vs p) := by
      unfold appendArr
      by_cases he : vs.isEmpty = true
      · simp only [if_pos he]
        exact feeds_nul hr (by omega)
      · simp only [if_neg he]
        exact feeds_range (kd := kd) H hw hv.2 hg hr (by omega) (.inr (.inr fun _ h => he (by rw [h]; rfl)))
    exact key.congr (fun s => by simp only [doHashAppend])
  | .unord t, vs, h => by
    intro p k hr hk
    have hw := h.wf
    simp only [wellFormed] at hw
    have hv := h.valid
    simp only [Valid] at hv
    have hn := h.null
    simp only [NoEmpty] at hn
    simp only [weight] at hk
    have hc := h.const
    simp only [pointerFree] at hc
    have hg := fun v hm p k hr hk => feeds_with H (by first | exact hw.2 | exact hw) (by first | exact hv.2 v hm | exact hv v hm) hr hk (fun _ => do_feeds t v ⟨hw, hv v hm, hc, hn.imp id (Or.imp id fun h => h v hm)⟩ p k hr hk)
    have hwt : ∀ v ∈ vs, weight t v ≤ k := by
      intro v hm
      have : weight t v ≤ (vs.map (weight t)).sum := mem_le_sum (List.mem_map_of_mem hm)
      omega
    have hHe : (vs.map fun v => (H (p ++ message (layout env f) H t v p)).toNat) =
        vs.map fun v => (int (S.res (S.absorb a₀ (p ++ message (layout env f) H t v p))).2).toNat :=
      List.map_congr_left fun v hm => by
        rw [hH _ (hr _ (Nat.le_trans (message_length_le (L := layout env f) H f.sizeType.n_le env.ptrSz.n_le t v p) (hwt v hm)))]
    simp only [message]
    rw [hHe]
    intro s hs
    have hsum := unordered_sum hs vs hint (fun v hm => hg v hm p k hr (hwt v hm)) 0
    rw [show (0 : W64).toNat = 0 from rfl, Nat.zero_add] at hsum
    generalize hx : (vs.map fun v => (int (S.res (S.absorb a₀ (p ++ message (layout env f) H t v p))).2).toNat).sum = x at hsum
    have h1 := feeds_int (f := f) (sz := .s8) (v := BitVec.ofNat 64 x) hr (by omega)
    have h1e : (layout env f).word Sz.s8.n (BitVec.toNat (w := 8 * Sz.s8.n) (BitVec.ofNat 64 x)) = (layout env f).word 8 x := by
      refine Eq.trans ?_ (word_mod (layout env f) 8 x)
      show (layout env f).word 8 (BitVec.ofNat 64 x).toNat = _
      rw [BitVec.toNat_ofNat, show (2 : Nat) ^ 64 = 256 ^ 8 from by norm_num]
    rw [h1e] at h1
    have h2 := feeds_size (f := f) (n := vs.length) (hr.step (m := (layout env f).word 8 x) (k' := 8) (by rw [word_length]; omega)) (Nat.le_refl 8)
    obtain ⟨s', e', r'⟩ := (h1.bind h2) s hs
    refine ⟨s', ?_, r'⟩
    have : doHashAppend A env f (.unord t) vs s = appendUnordered A env f (fun v => hashAppendWith A env f t v (doHashAppend A env f t v)) vs s := by
      simp only [doHashAppend.eq_def]
    rw [this]
    unfold appendUnordered
    rw [hsum]
    exact e'
  | .tuple .nil, v, h => by
    intro p k hr hk
    simp only [weight, weights] at hk
    simp only [message]
    have : doHashAppend A env f (.tuple .nil) v = appendNul A env f := by funext s; simp only [doHashAppend]
    rw [this]
    exact feeds_nul hr (by omega)
  | .tuple (.cons t ts), v, h => by
    intro p k hr hk
    have hw := h.wf
    simp only [wellFormed] at hw
    have hv := h.valid
    simp only [Valid] at hv
    have hn := h.null
    simp only [NoEmpty] at hn
    have hc := h.const
    simp only [pointerFree] at hc
    simp only [weight] at hk
    rw [message_tuple _ _ (by intro h; cases h)]
    have : doHashAppend A env f (.tuple (.cons t ts)) v = appendAll A env f (.cons t ts) v := by
      funext s; rw [doHashAppend]; intros; contradiction
    rw [this]
    exact all_feeds _ v ⟨hw, hv, hc, hn⟩ p k hr (by omega)
  | .described tr ind bs ms, v, h => by
    intro p k hr hk
    have hw := h.wf
    simp only [wellFormed, Bool.and_eq_true] at hw
    have hv := h.valid
    simp only [Valid] at hv
    have hn := h.null
    simp only [NoEmpty] at hn
    have hc := h.const
    simp only [pointerFree, Bool.and_eq_true] at hc
    simp only [weight] at hk
    by_cases hnn : bs = .nil ∧ ms = .nil
    · obtain ⟨rfl, rfl⟩ := hnn
      simp only [message]
      have : doHashAppend A env f (.described tr ind .nil .nil) v = appendNul A env f := by funext s; simp only [doHashAppend]
      rw [this]
      exact feeds_nul hr (by omega)
    · rw [message_described _ _ _ _ hnn]
      have : doHashAppend A env f (.described tr ind bs ms) v = (fun s => do
          let s ← appendAll A env f bs v.1 s
          appendAll A env f ms v.2 s) := by
        funext s
        cases bs with
        | nil =>
          cases ms with
          | nil => exact absurd ⟨rfl, rfl⟩ hnn
          | cons t ts => rw [doHashAppend]; intros; contradiction
        | cons t ts => rw [doHashAppend]; intros; contradiction
      rw [this]
      have hl := messages_length_le (L := layout env f) H f.sizeType.n_le env.ptrSz.n_le bs v.1 p
      exact (all_feeds bs v.1 ⟨hw.1.1.1, hv.1, fun h => (hc h).1, hn.imp id (Or.imp id And.left)⟩ p k hr (by omega)).bind
        (all_feeds ms v.2 ⟨hw.1.1.2, hv.2, fun h => (hc h).2, hn.imp id (Or.imp id And.right)⟩ _ (k - weights bs v.1) (hr.step (by omega)) (by omega))
  | .user cs, v, h => by
    intro p k hr hk
    have hw := h.wf
    simp only [wellFormed] at hw
    have hv := h.valid
    simp only [Valid] at hv
    have hn := h.null
    simp only [NoEmpty] at hn
    have hc := h.const
    simp only [pointerFree] at hc
    simp only [weight] at hk
    simp only [message]
    have : doHashAppend A env f (.user cs) v = appendAll A env f cs v := by funext s; simp only [doHashAppend]
    rw [this]
    exact all_feeds _ v ⟨hw, hv, hc, hn⟩ p k hr hk
  | .range kd t, vs, h => by
    intro p k hr hk
    have hw := h.wf
    simp only [wellFormed] at hw
    have hv := h.valid
    simp only [Valid] at hv
    have hn := h.null
    simp only [NoEmpty] at hn
    simp only [weight] at hk
    have hc := h.const
    simp only [pointerFree] at hc
    simp only [message]
    have hg := fun v hm p k hr hk => feeds_with H (by first | exact hw.2 | exact hw) (by first | exact hv.2 v hm | exact hv v hm) hr hk (fun _ => do_feeds t v ⟨hw, hv v hm, hc, hn.imp id (Or.imp id fun h => h.2 v hm)⟩ p k hr hk)
    have key := feeds_range (kd := kd) (f := f) (g := fun v => hashAppendWith A env f t v (doHashAppend A env f t v)) H hw hv hg hr hk
      (hn.imp id (Or.imp id And.left))
    exact key.congr (fun s => by simp only [doHashAppend])
  | .size, n, h => by
    intro p k hr hk
    simp only [weight] at hk
    simp only [message]
    have : doHashAppend A env f .size n = appendSize A env f n := by funext s; simp only [doHashAppend]
    rw [this]
    exact feeds_size hr hk
theorem all_feeds : ∀ (ts : Tys) (v : ts.Val), HashableAll I ts v → ∀ p k, Room I a₀ p k → weights ts v ≤ k →
    Feeds I a₀ (appendAll A env f ts v) p (messages (layout env f) H ts v p)
  | .nil, v, _ => by
    intro p k _ _
    simp only [messages]
    exact feeds_nil (fun s => by simp only [appendAll]) p
  | .cons t ts, v, h => by
    intro p k hr hk
    have hw := h.wf
    simp only [wellFormedAll, Bool.and_eq_true] at hw
    have hv := h.valid
    simp only [ValidAll] at hv
    have hn := h.null
    simp only [NoEmptyAll] at hn
    have hc := h.const
    simp only [pointerFreeAll, Bool.and_eq_true] at hc
    simp only [weights] at hk
    simp only [messages]
    have : appendAll A env f (.cons t ts) v = (fun s => do
        let s ← hashAppendWith A env f t v.1 (doHashAppend A env f t v.1) s
        appendAll A env f ts v.2 s) := by
      funext s; simp only [appendAll]
    rw [this]
    have hl := message_length_le (L := layout env f) H f.sizeType.n_le env.ptrSz.n_le t v.1 p
    exact (feeds_with H hw.1 hv.1 hr (by omega) (fun _ => do_feeds t v.1 ⟨hw.1, hv.1, fun h => (hc h).1, hn.imp id (Or.imp id And.left)⟩ p k hr (by omega))).bind
      (all_feeds ts v.2 ⟨hw.2, hv.2, fun h => (hc h).2, hn.imp id (Or.imp id And.right)⟩ _ (k - weight t v.1) (hr.step (by omega)) (by omega))
end

theorem append_feeds : ∀ (t : Ty) (v : t.Val), Hashable I t v → ∀ p k, Room I a₀ p k → weight t v ≤ k →
    Feeds I a₀ (hashAppendWith A env f t v (doHashAppend A env f t v)) p (message (layout env f) H t v p)
  | t, v, h => fun p k hr hk => feeds_with H h.wf h.valid hr hk (fun _ => do_feeds H hint hround hH t v h p k hr hk)

end

end Hash2

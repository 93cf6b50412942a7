import Verif.Spec.Updates
import Verif.Lemmas.UserAlg
/-
hash_append uses nothing of a hash object but update (and copies, result for unordered containers).
-/
namespace Hash2
open Spec

theorem appendPointers_eq (A : HashAlg) (env : Env) (f : Flavor) (t : Ty) (g : t.Val → A.State → M A.State) (vs : List t.Val) (s : A.State) :
    appendPointers A env f t g vs s =
      if rangeAtOnce env f t then A.update env s (elements env t vs) (vs.length * t.sizeOf env) else appendEach A g vs s := by
  unfold appendPointers
  split
  · simp [rangeAtOnce, isByte, Ty.sizeOf, IntTy.size, Sz.n]
  · rename_i hne
    have hb : isByte t = false := by
      cases t with
      | int k => cases k with
        | uchar => exact (hne g vs rfl HEq.rfl HEq.rfl).elim
        | _ => rfl
      | _ => rfl
    unfold rangeAtOnce
    rw [hb, Bool.false_or]
    by_cases hc : t.contiguouslyHashable env (f.endian env) = true
    · rw [if_pos hc, hc]
      by_cases hl : env.loops = false
      · rw [if_pos hl, hl]; rfl
      · rw [if_neg hl, if_neg (by simpa using hl)]
    · rw [if_neg hc, if_neg (by simp [hc])]

/-! ### parametricity -/

section
variable {A B : HashAlg} {env : Env} {f : Flavor} {R : A.State → B.State → Prop}

theorem SameOutcome.bind {α β γ δ : Type} {R : α → β → Prop} {Q : γ → δ → Prop} {x : M α} {y : M β} {g : α → M γ} {h : β → M δ}
    (hx : SameOutcome R x y) (hg : ∀ a b, R a b → SameOutcome Q (g a) (h b)) : SameOutcome Q (x >>= g) (y >>= h) := by
  cases x with
  | error e =>
    cases y with
    | error e' => exact hx
    | ok b => exact hx.elim
  | ok a =>
    cases y with
    | error e' => exact hx.elim
    | ok b => exact hg a b hx

theorem SameOutcome.rfl' {α : Type} (x : M α) : SameOutcome Eq x x := by
  cases x with
  | error e => exact Eq.refl e
  | ok a => exact Eq.refl a

/-- the calls keep objects related -/
def Alike₂ (R : A.State → B.State → Prop) (g : A.State → M A.State) (h : B.State → M B.State) : Prop :=
  ∀ s s', R s s' → SameOutcome R (g s) (h s')

theorem Alike₂.bind {g g' : A.State → M A.State} {h h' : B.State → M B.State} (h1 : Alike₂ R g h) (h2 : Alike₂ R g' h') :
    Alike₂ R (fun s => do let s ← g s; g' s) (fun s => do let s ← h s; h' s) :=
  fun s s' hs => (h1 s s' hs).bind fun a b hab => h2 a b hab

variable (hup : ∀ s s' p n, R s s' → SameOutcome R (A.update env s p n) (B.update env s' p n))
  (hval : ∀ s s', R s s' → A.hashValue env s = B.hashValue env s')

include hup in
theorem alike_with {t : Ty} {v : t.Val} {g : A.State → M A.State} {h : B.State → M B.State} (hg : Alike₂ R g h) :
    Alike₂ R (hashAppendWith A env f t v g) (hashAppendWith B env f t v h) := by
  intro s s' hs
  unfold hashAppendWith
  split
  · exact hup _ _ _ _ hs
  · exact hg _ _ hs

include hup in
theorem alike_doInt (sz : Sz) (v : BitVec (8 * sz.n)) : Alike₂ R (doAppendInt A env f sz v) (doAppendInt B env f sz v) := by
  intro s s' hs
  unfold doAppendInt
  exact (SameOutcome.rfl' (writeInt env (f.endian env) (List.replicate sz.n 0) sz v)).bind fun a b hab => hab ▸ hup _ _ _ _ hs

include hup in
theorem alike_int (sz : Sz) (v : BitVec (8 * sz.n)) : Alike₂ R (appendInt A env f sz v) (appendInt B env f sz v) :=
  alike_with hup (alike_doInt hup sz v)

include hup in
theorem alike_ptr (v : W64) : Alike₂ R (doAppendPtr A env f v) (doAppendPtr B env f v) := by
  intro s s' hs
  unfold doAppendPtr
  split
  · exact Eq.refl _
  · exact alike_int hup _ _ _ _ hs

theorem alike_each {α : Type} {g : α → A.State → M A.State} {h : α → B.State → M B.State} {vs : List α}
    (hg : ∀ v ∈ vs, Alike₂ R (g v) (h v)) : Alike₂ R (appendEach A g vs) (appendEach B h vs) := by
  induction vs with
  | nil => exact fun s s' hs => hs
  | cons v vs ih => exact (hg v (List.mem_cons_self ..)).bind (ih fun v hv => hg v (List.mem_cons_of_mem _ hv))

include hup in
theorem alike_pointers {t : Ty} {g : t.Val → A.State → M A.State} {h : t.Val → B.State → M B.State} {vs : List t.Val}
    (hg : ∀ v ∈ vs, Alike₂ R (g v) (h v)) : Alike₂ R (appendPointers A env f t g vs) (appendPointers B env f t h vs) := by
  intro s s' hs
  rw [appendPointers_eq, appendPointers_eq]
  split
  · exact hup _ _ _ _ hs
  · exact alike_each hg _ _ hs

include hup in
theorem alike_range {k : RangeKind} {t : Ty} {g : t.Val → A.State → M A.State} {h : t.Val → B.State → M B.State} {vs : List t.Val}
    (hg : ∀ v ∈ vs, Alike₂ R (g v) (h v)) : Alike₂ R (appendRange A env f k t g vs) (appendRange B env f k t h vs) := by
  cases k with
  | contiguous => exact alike_pointers hup hg
  | pointers => exact alike_pointers hup hg
  | randomAccess => exact alike_each hg
  | forward => exact alike_each hg

include hup in
theorem alike_seq {k : RangeKind} {t : Ty} {g : t.Val → A.State → M A.State} {h : t.Val → B.State → M B.State} {vs : List t.Val}
    (hg : ∀ v ∈ vs, Alike₂ R (g v) (h v)) : Alike₂ R (appendSeq A env f k t g vs) (appendSeq B env f k t h vs) := by
  cases k with
  | contiguous => exact (alike_range (k := .contiguous) hup hg).bind (alike_int hup _ _)
  | pointers => exact (alike_range (k := .pointers) hup hg).bind (alike_int hup _ _)
  | randomAccess => exact (alike_range (k := .randomAccess) hup hg).bind (alike_int hup _ _)
  | forward => exact (alike_each hg).bind (alike_int hup _ _)

include hval in
theorem alike_sum {α : Type} {g : α → A.State → M A.State} {h : α → B.State → M B.State} {vs : List α}
    (hg : ∀ v ∈ vs, Alike₂ R (g v) (h v)) {s : A.State} {s' : B.State} (hs : R s s') (w : W64) :
    unorderedSum A env g s vs w = unorderedSum B env h s' vs w := by
  induction vs generalizing w with
  | nil => rfl
  | cons v vs ih =>
    have h1 := hg v (List.mem_cons_self ..) s s' hs
    have ih := ih (fun v hv => hg v (List.mem_cons_of_mem _ hv))
    simp only [unorderedSum]
    cases hx : g v s with
    | error e =>
      cases hy : h v s' with
      | error e' => rw [hx, hy] at h1; exact congrArg Except.error h1
      | ok b => rw [hx, hy] at h1; exact h1.elim
    | ok a =>
      cases hy : h v s' with
      | error e' => rw [hx, hy] at h1; exact h1.elim
      | ok b =>
        rw [hx, hy] at h1
        have h2 := hval a b h1
        unfold HashAlg.hashValue at h2
        simp only [Except.bind_ok]
        have h3 := congrArg (fun (m : M W64) => m >>= fun x => unorderedSum A env g s vs (w + x)) h2
        simp only [bind_assoc] at h3
        rw [h3]
        congr 1; funext r; congr 1; funext x
        exact ih _

include hup hval

mutual
theorem alike_do : ∀ (t : Ty) (v : t.Val), Alike₂ R (doHashAppend A env f t v) (doHashAppend B env f t v)
  | .int k, v => by intro s s' hs; simp only [doHashAppend]; exact alike_doInt hup _ _ _ _ hs
  | .enum k, v => by intro s s' hs; simp only [doHashAppend]; exact alike_with hup (alike_doInt hup _ _) _ _ hs
  | .ptr, v => by intro s s' hs; simp only [doHashAppend]; exact alike_ptr hup _ _ _ hs
  | .f32, v => by intro s s' hs; simp only [doHashAppend]; exact alike_int hup _ _ _ _ hs
  | .f64, v => by intro s s' hs; simp only [doHashAppend]; exact alike_int hup _ _ _ _ hs
  | .nullptr, v => by intro s s' hs; simp only [doHashAppend]; exact alike_with hup (alike_ptr hup _) _ _ hs
  | .carray n t, vs => by
    intro s s' hs; simp only [doHashAppend]
    exact alike_pointers hup (fun v _ => alike_with hup (alike_do t v)) _ _ hs
  | .seq k t, vs => by
    intro s s' hs; simp only [doHashAppend]
    exact alike_seq hup (fun v _ => alike_with hup (alike_do t v)) _ _ hs
  | .arr k n t, vs => by
    intro s s' hs; simp only [doHashAppend]
    unfold appendArr
    split
    · exact alike_int hup _ _ _ _ hs
    · exact alike_range hup (fun v _ => alike_with hup (alike_do t v)) _ _ hs
  | .unord t, vs => by
    intro s s' hs; simp only [doHashAppend]
    unfold appendUnordered
    rw [alike_sum hval (fun v _ => alike_with hup (alike_do t v)) hs]
    exact (SameOutcome.rfl' _).bind fun a b hab => hab ▸ ((alike_int hup _ _ _ _ hs).bind fun a b hab => alike_int hup _ _ _ _ hab)
  | .tuple .nil, v => by intro s s' hs; simp only [doHashAppend]; exact alike_int hup _ _ _ _ hs
  | .tuple (.cons t ts), v => by intro s s' hs; simp only [doHashAppend]; exact alike_all (.cons t ts) v _ _ hs
  | .described _ _ .nil .nil, v => by intro s s' hs; simp only [doHashAppend]; exact alike_int hup _ _ _ _ hs
  | .described _ _ .nil (.cons m ms), v => by
    intro s s' hs; simp only [doHashAppend]
    exact (alike_all .nil v.1 _ _ hs).bind fun a b hab => alike_all (.cons m ms) v.2 _ _ hab
  | .described _ _ (.cons b bs) ms, v => by
    intro s s' hs; simp only [doHashAppend]
    exact (alike_all (.cons b bs) v.1 _ _ hs).bind fun a b hab => alike_all ms v.2 _ _ hab
  | .user cs, v => by intro s s' hs; simp only [doHashAppend]; exact alike_all cs v _ _ hs
  | .range k t, vs => by
    intro s s' hs; simp only [doHashAppend]
    exact alike_range hup (fun v _ => alike_with hup (alike_do t v)) _ _ hs
  | .size, n => by intro s s' hs; simp only [doHashAppend]; exact alike_int hup _ _ _ _ hs
theorem alike_all : ∀ (ts : Tys) (v : ts.Val), Alike₂ R (appendAll A env f ts v) (appendAll B env f ts v)
  | .nil, v => by intro s s' hs; simp only [appendAll]; exact hs
  | .cons t ts, v => by
    intro s s' hs; simp only [appendAll]
    exact (alike_with hup (alike_do t v.1) _ _ hs).bind fun a b hab => alike_all ts v.2 _ _ hab
end

end

/-! ### the calls of update -/

theorem HashAlg.updates_append (A : HashAlg) (env : Env) (s : A.State) (xs ys : List (Ptr × Nat)) :
    A.updates env s (xs ++ ys) = (do let s ← A.updates env s xs; A.updates env s ys) := by
  induction xs generalizing s with
  | nil => rfl
  | cons c cs ih =>
    simp only [List.cons_append, HashAlg.updates, bind_assoc]
    congr 1; funext s; exact ih s

section
variable (env : Env) (f : Flavor)

/-- the calls hash_append makes, given those do_hash_append makes -/
def withBlocks (t : Ty) (v : t.Val) (cs : List (Ptr × Nat)) : List (Ptr × Nat) :=
  if env.isConstantEvaluated = false ∧ t.contiguouslyHashable env (f.endian env) = true then [(.mem (t.rep env v), t.sizeOf env)] else cs

def doIntBlocks (sz : Sz) (v : BitVec (8 * sz.n)) : List (Ptr × Nat) := [(.mem ((layout env f).word sz.n v.toNat), sz.n)]

def intBlocks (sz : Sz) (v : BitVec (8 * sz.n)) : List (Ptr × Nat) := withBlocks env f (.int (.int sz)) v (doIntBlocks env f sz v)

def sizeBlocks (n : Nat) : List (Ptr × Nat) := intBlocks env f f.sizeType (BitVec.ofNat (8 * f.sizeType.n) n)

def ptrBlocks (v : W64) : List (Ptr × Nat) := intBlocks env f env.ptrSz (v.setWidth (8 * env.ptrSz.n))

def pointersBlocks (t : Ty) (blocks : t.Val → List (Ptr × Nat)) (vs : List t.Val) : List (Ptr × Nat) :=
  if rangeAtOnce env f t then [(elements env t vs, vs.length * t.sizeOf env)] else vs.flatMap blocks

def rangeBlocks (k : RangeKind) (t : Ty) (blocks : t.Val → List (Ptr × Nat)) (vs : List t.Val) : List (Ptr × Nat) :=
  if k.byPointer then pointersBlocks env f t blocks vs else vs.flatMap blocks

mutual
def doBlocks : (t : Ty) → t.Val → List (Ptr × Nat)
  | .int k, v => doIntBlocks env f k.size (k.bits v)
  | .enum k, v => withBlocks env f (.int k) v (doIntBlocks env f k.size (k.bits v))
  | .ptr, v => ptrBlocks env f v
  | .f32, v => intBlocks env f .s4 (addZero env.fp 32 23 v)
  | .f64, v => intBlocks env f .s8 (addZero env.fp 64 52 v)
  | .nullptr, _ => withBlocks env f .ptr 0#64 (ptrBlocks env f 0)
  | .carray _ t, vs => pointersBlocks env f t (fun v => withBlocks env f t v (doBlocks t v)) vs
  | .seq k t, vs => rangeBlocks env f k t (fun v => withBlocks env f t v (doBlocks t v)) vs ++ sizeBlocks env f vs.length
  | .arr k _ t, vs => if vs.isEmpty then intBlocks env f .s1 0 else rangeBlocks env f k t (fun v => withBlocks env f t v (doBlocks t v)) vs
  | .unord _, _ => []
  | .tuple .nil, _ => intBlocks env f .s1 0
  | .tuple ts, v => allBlocks ts v
  | .described _ _ .nil .nil, _ => intBlocks env f .s1 0
  | .described _ _ bs ms, v => allBlocks bs v.1 ++ allBlocks ms v.2
  | .user cs, v => allBlocks cs v
  | .range k t, vs => rangeBlocks env f k t (fun v => withBlocks env f t v (doBlocks t v)) vs
  | .size, n => sizeBlocks env f n
def allBlocks : (ts : Tys) → ts.Val → List (Ptr × Nat)
  | .nil, _ => []
  | .cons t ts, v => withBlocks env f t v.1 (doBlocks t v.1) ++ allBlocks ts v.2
end
end

section
variable {A : HashAlg} {env : Env} {f : Flavor}

/-- the call makes these calls of update and nothing else -/
def Issues (A : HashAlg) (env : Env) (g : A.State → M A.State) (cs : List (Ptr × Nat)) : Prop := ∀ s, g s = A.updates env s cs

theorem issues_update (p : Ptr) (n : Nat) : Issues A env (fun s => A.update env s p n) [(p, n)] := by
  intro s
  show A.update env s p n = (do let s ← A.update env s p n; Except.ok s)
  cases A.update env s p n <;> rfl

theorem Issues.bind {g g' : A.State → M A.State} {xs ys : List (Ptr × Nat)} (h : Issues A env g xs) (h' : Issues A env g' ys) :
    Issues A env (fun s => do let s ← g s; g' s) (xs ++ ys) := by
  intro s
  rw [HashAlg.updates_append]
  show (g s >>= fun s => g' s) = _
  rw [h s]
  congr 1; funext s; exact h' s

theorem Issues.congr {g g' : A.State → M A.State} {xs : List (Ptr × Nat)} (h : Issues A env g xs) (e : ∀ s, g' s = g s) : Issues A env g' xs :=
  fun s => (e s).trans (h s)

theorem issues_with {t : Ty} {v : t.Val} {g : A.State → M A.State} {cs : List (Ptr × Nat)} (hg : Issues A env g cs) :
    Issues A env (hashAppendWith A env f t v g) (withBlocks env f t v cs) := by
  intro s
  unfold hashAppendWith withBlocks
  split
  · exact issues_update _ _ s
  · exact hg s

theorem issues_doInt (sz : Sz) (v : BitVec (8 * sz.n)) : Issues A env (doAppendInt A env f sz v) (doIntBlocks env f sz v) := by
  intro s
  unfold doAppendInt doIntBlocks
  have := writeInt_ok env (layout env f) sz v
  rw [show (layout env f).order = f.endian env from rfl] at this
  rw [this]
  exact issues_update _ _ s

theorem issues_int (sz : Sz) (v : BitVec (8 * sz.n)) : Issues A env (appendInt A env f sz v) (intBlocks env f sz v) :=
  issues_with (issues_doInt sz v)

theorem issues_ptr (hc : env.constEval = false) (v : W64) : Issues A env (doAppendPtr A env f v) (ptrBlocks env f v) := by
  intro s
  unfold doAppendPtr
  rw [hc]
  exact issues_int _ _ s

theorem issues_each {α : Type} {g : α → A.State → M A.State} {bl : α → List (Ptr × Nat)} {vs : List α}
    (hg : ∀ v ∈ vs, Issues A env (g v) (bl v)) : Issues A env (appendEach A g vs) (vs.flatMap bl) := by
  induction vs with
  | nil => exact fun s => rfl
  | cons v vs ih =>
    rw [List.flatMap_cons]
    exact (hg v (List.mem_cons_self ..)).bind (ih fun v hv => hg v (List.mem_cons_of_mem _ hv))

theorem issues_pointers {t : Ty} {g : t.Val → A.State → M A.State} {bl : t.Val → List (Ptr × Nat)} {vs : List t.Val}
    (hg : ∀ v ∈ vs, Issues A env (g v) (bl v)) : Issues A env (appendPointers A env f t g vs) (pointersBlocks env f t bl vs) := by
  intro s
  rw [appendPointers_eq]
  unfold pointersBlocks
  split
  · exact issues_update _ _ s
  · exact issues_each hg s

theorem issues_range {k : RangeKind} {t : Ty} {g : t.Val → A.State → M A.State} {bl : t.Val → List (Ptr × Nat)} {vs : List t.Val}
    (hg : ∀ v ∈ vs, Issues A env (g v) (bl v)) : Issues A env (appendRange A env f k t g vs) (rangeBlocks env f k t bl vs) := by
  cases k with
  | contiguous => exact issues_pointers hg
  | pointers => exact issues_pointers hg
  | randomAccess => exact issues_each hg
  | forward => exact issues_each hg

theorem issues_seq {k : RangeKind} {t : Ty} {g : t.Val → A.State → M A.State} {bl : t.Val → List (Ptr × Nat)} {vs : List t.Val}
    (hg : ∀ v ∈ vs, Issues A env (g v) (bl v)) : Issues A env (appendSeq A env f k t g vs) (rangeBlocks env f k t bl vs ++ sizeBlocks env f vs.length) := by
  cases k with
  | contiguous => exact (issues_range (k := .contiguous) hg).bind (issues_int _ _)
  | pointers => exact (issues_range (k := .pointers) hg).bind (issues_int _ _)
  | randomAccess => exact (issues_range (k := .randomAccess) hg).bind (issues_int _ _)
  | forward => exact (issues_each hg).bind (issues_int _ _)

mutual
theorem issues_do : ∀ (t : Ty) (v : t.Val), ordered t = true → (env.constEval = true → pointerFree t = true) →
    Issues A env (doHashAppend A env f t v) (doBlocks env f t v)
  | .int k, v, _, _ => by intro s; simp only [doHashAppend, doBlocks]; exact issues_doInt _ _ s
  | .enum k, v, _, _ => by intro s; simp only [doHashAppend, doBlocks]; exact issues_with (issues_doInt _ _) s
  | .ptr, v, _, hc => by
    intro s; simp only [doHashAppend, doBlocks]
    exact issues_ptr (not_const hc (by simp [pointerFree])) _ s
  | .f32, v, _, _ => by intro s; simp only [doHashAppend, doBlocks]; exact issues_int _ _ s
  | .f64, v, _, _ => by intro s; simp only [doHashAppend, doBlocks]; exact issues_int _ _ s
  | .nullptr, v, _, hc => by
    intro s; simp only [doHashAppend, doBlocks]
    exact issues_with (issues_ptr (not_const hc (by simp [pointerFree])) _) s
  | .carray n t, vs, ho, hc => by
    intro s; simp only [doHashAppend, doBlocks]
    simp only [ordered] at ho
    simp only [pointerFree] at hc
    exact issues_pointers (fun v _ => issues_with (issues_do t v ho hc)) s
  | .seq k t, vs, ho, hc => by
    intro s; simp only [doHashAppend, doBlocks]
    simp only [ordered] at ho
    simp only [pointerFree] at hc
    exact issues_seq (fun v _ => issues_with (issues_do t v ho hc)) s
  | .arr k n t, vs, ho, hc => by
    intro s; simp only [doHashAppend, doBlocks]
    simp only [ordered] at ho
    simp only [pointerFree] at hc
    unfold appendArr
    split
    · exact issues_int _ _ s
    · exact issues_range (fun v _ => issues_with (issues_do t v ho hc)) s
  | .unord t, vs, ho, _ => by simp [ordered] at ho
  | .tuple .nil, v, _, _ => by intro s; simp only [doHashAppend, doBlocks]; exact issues_int _ _ s
  | .tuple (.cons t ts), v, ho, hc => by
    intro s; simp only [doHashAppend, doBlocks]
    exact issues_all (.cons t ts) v (by simpa only [ordered] using ho) (by simpa only [pointerFree] using hc) s
  | .described _ _ .nil .nil, v, _, _ => by intro s; simp only [doHashAppend, doBlocks]; exact issues_int _ _ s
  | .described _ _ .nil (.cons m ms), v, ho, hc => by
    simp only [ordered, Bool.and_eq_true] at ho
    simp only [pointerFree, Bool.and_eq_true] at hc
    intro s; simp only [doHashAppend, doBlocks]
    exact (issues_all .nil v.1 ho.1 (fun h => (hc h).1)).bind (issues_all (.cons m ms) v.2 ho.2 (fun h => (hc h).2)) s
  | .described _ _ (.cons b bs) ms, v, ho, hc => by
    simp only [ordered, Bool.and_eq_true] at ho
    simp only [pointerFree, Bool.and_eq_true] at hc
    intro s; simp only [doHashAppend, doBlocks]
    exact (issues_all (.cons b bs) v.1 ho.1 (fun h => (hc h).1)).bind (issues_all ms v.2 ho.2 (fun h => (hc h).2)) s
  | .user cs, v, ho, hc => by
    intro s; simp only [doHashAppend, doBlocks]
    exact issues_all cs v (by simpa only [ordered] using ho) (by simpa only [pointerFree] using hc) s
  | .range k t, vs, ho, hc => by
    intro s; simp only [doHashAppend, doBlocks]
    simp only [ordered] at ho
    simp only [pointerFree] at hc
    exact issues_range (fun v _ => issues_with (issues_do t v ho hc)) s
  | .size, n, _, _ => by intro s; simp only [doHashAppend, doBlocks]; exact issues_int _ _ s
theorem issues_all : ∀ (ts : Tys) (v : ts.Val), orderedAll ts = true → (env.constEval = true → pointerFreeAll ts = true) →
    Issues A env (appendAll A env f ts v) (allBlocks env f ts v)
  | .nil, v, _, _ => by intro s; simp only [appendAll, allBlocks]; rfl
  | .cons t ts, v, ho, hc => by
    simp only [orderedAll, Bool.and_eq_true] at ho
    simp only [pointerFreeAll, Bool.and_eq_true] at hc
    intro s; simp only [appendAll, allBlocks]
    exact (issues_with (issues_do t v.1 ho.1 (fun h => (hc h).1))).bind (issues_all ts v.2 ho.2 (fun h => (hc h).2)) s
end
end

/-! ### how many -/

section
variable {env : Env} {f : Flavor}

theorem withBlocks_length (t : Ty) (v : t.Val) (cs : List (Ptr × Nat)) :
    (withBlocks env f t v cs).length = if objectAtOnce env f t then 1 else cs.length := by
  unfold withBlocks objectAtOnce
  by_cases h1 : env.isConstantEvaluated = false
  · by_cases h2 : t.contiguouslyHashable env (f.endian env) = true
    · rw [if_pos ⟨h1, h2⟩, h1, h2]; rfl
    · rw [if_neg (fun h => h2 h.2), if_neg (by simp [h2])]
  · rw [if_neg (fun h => h1 h.1), if_neg (by simp [h1])]

theorem doIntBlocks_length (sz : Sz) (v : BitVec (8 * sz.n)) : (doIntBlocks env f sz v).length = 1 := rfl

theorem intBlocks_length (sz : Sz) (v : BitVec (8 * sz.n)) : (intBlocks env f sz v).length = 1 := by
  refine (withBlocks_length (.int (.int sz)) _ _).trans ?_
  split <;> rfl

theorem ptrBlocks_length (v : W64) : (ptrBlocks env f v).length = 1 := intBlocks_length _ _

theorem flatMap_length {α β : Type} {g : α → List β} {n : α → Nat} {vs : List α} (h : ∀ v ∈ vs, (g v).length = n v) :
    (vs.flatMap g).length = (vs.map n).sum := by
  induction vs with
  | nil => rfl
  | cons v vs ih =>
    rw [List.flatMap_cons, List.length_append, List.map_cons, List.sum_cons, h v (List.mem_cons_self ..),
      ih fun v hv => h v (List.mem_cons_of_mem _ hv)]

theorem pointersBlocks_length {t : Ty} {bl : t.Val → List (Ptr × Nat)} {n : t.Val → Nat} {vs : List t.Val} (h : ∀ v ∈ vs, (bl v).length = n v) :
    (pointersBlocks env f t bl vs).length = if rangeAtOnce env f t then 1 else (vs.map n).sum := by
  unfold pointersBlocks
  split
  · rfl
  · exact flatMap_length h

theorem rangeBlocks_length {k : RangeKind} {t : Ty} {bl : t.Val → List (Ptr × Nat)} {n : t.Val → Nat} {vs : List t.Val}
    (h : ∀ v ∈ vs, (bl v).length = n v) :
    (rangeBlocks env f k t bl vs).length = if k.byPointer && rangeAtOnce env f t then 1 else (vs.map n).sum := by
  unfold rangeBlocks
  cases k.byPointer with
  | true => exact pointersBlocks_length h
  | false => exact flatMap_length h

/-- only numbers, arrays of them and classes are hashed as memory -/
theorem not_atOnce {t : Ty} (h : t.contiguouslyHashable env (f.endian env) = false) : objectAtOnce env f t = false := by
  unfold objectAtOnce
  rw [h]; simp

theorem one_or {b : Bool} {n : Nat} (h : n = 1) : (if b then 1 else n) = 1 := by rw [h]; split <;> rfl

mutual
theorem callBlocks_length : ∀ (t : Ty) (v : t.Val), ordered t = true →
    (withBlocks env f t v (doBlocks env f t v)).length = updateCount (objectAtOnce env f) (rangeAtOnce env f) t v
  | .int k, v, _ => by rw [withBlocks_length]; simp only [doBlocks, updateCount]; exact one_or rfl
  | .enum k, v, _ => by
    rw [withBlocks_length]; simp only [doBlocks, updateCount, withBlocks_length]; exact one_or (one_or rfl)
  | .ptr, v, _ => by rw [withBlocks_length]; simp only [doBlocks, updateCount]; exact one_or (ptrBlocks_length _)
  | .f32, v, _ => by rw [withBlocks_length]; simp only [doBlocks, updateCount]; exact one_or (intBlocks_length _ _)
  | .f64, v, _ => by rw [withBlocks_length]; simp only [doBlocks, updateCount]; exact one_or (intBlocks_length _ _)
  | .nullptr, v, _ => by
    rw [withBlocks_length]; simp only [doBlocks, updateCount, withBlocks_length]; exact one_or (one_or (ptrBlocks_length _))
  | .carray n t, vs, ho => by
    simp only [ordered] at ho
    rw [withBlocks_length]; simp only [doBlocks, updateCount]
    rw [pointersBlocks_length (fun v _ => callBlocks_length t v ho)]
  | .seq k t, vs, ho => by
    simp only [ordered] at ho
    rw [withBlocks_length, not_atOnce (by simp [Ty.contiguouslyHashable, Ty.triviallyComparable])]; simp only [doBlocks, updateCount]
    rw [List.length_append, rangeBlocks_length (fun v _ => callBlocks_length t v ho)]
    simp [sizeBlocks, intBlocks_length]
  | .arr k n t, [], ho => by
    rw [withBlocks_length, not_atOnce (by simp [Ty.contiguouslyHashable, Ty.triviallyComparable])]; simp only [doBlocks, updateCount]
    simp [intBlocks_length]
  | .arr k n t, v :: vs, ho => by
    simp only [ordered] at ho
    rw [withBlocks_length, not_atOnce (by simp [Ty.contiguouslyHashable, Ty.triviallyComparable])]; simp only [doBlocks, updateCount]
    simp only [List.isEmpty_cons, Bool.false_eq_true, if_false]
    rw [rangeBlocks_length (fun v _ => callBlocks_length t v ho)]
  | .unord t, vs, ho => by simp [ordered] at ho
  | .tuple .nil, v, _ => by
    rw [withBlocks_length]; simp only [doBlocks, updateCount]; exact one_or (intBlocks_length _ _)
  | .tuple (.cons t ts), v, ho => by
    simp only [ordered] at ho
    rw [withBlocks_length, not_atOnce (by simp [Ty.contiguouslyHashable, Ty.triviallyComparable])]; simp only [doBlocks, updateCount]
    simpa using allBlocks_length (.cons t ts) v ho
  | .described _ _ .nil .nil, v, _ => by
    rw [withBlocks_length]; simp only [doBlocks, updateCount]; exact one_or (intBlocks_length _ _)
  | .described _ _ .nil (.cons m ms), v, ho => by
    simp only [ordered, Bool.and_eq_true] at ho
    rw [withBlocks_length]; simp only [doBlocks, updateCount]
    rw [List.length_append, allBlocks_length .nil v.1 ho.1, allBlocks_length (.cons m ms) v.2 ho.2]
  | .described _ _ (.cons b bs) ms, v, ho => by
    simp only [ordered, Bool.and_eq_true] at ho
    rw [withBlocks_length]; simp only [doBlocks, updateCount]
    rw [List.length_append, allBlocks_length (.cons b bs) v.1 ho.1, allBlocks_length ms v.2 ho.2]
  | .user cs, v, ho => by
    simp only [ordered] at ho
    rw [withBlocks_length, not_atOnce (by simp [Ty.contiguouslyHashable, Ty.triviallyComparable])]; simp only [doBlocks, updateCount]
    simpa using allBlocks_length cs v ho
  | .range k t, vs, ho => by
    simp only [ordered] at ho
    rw [withBlocks_length, not_atOnce (by simp [Ty.contiguouslyHashable, Ty.triviallyComparable])]; simp only [doBlocks, updateCount]
    rw [rangeBlocks_length (fun v _ => callBlocks_length t v ho)]
    simp
  | .size, n, _ => by
    rw [withBlocks_length]; simp only [doBlocks, updateCount]; exact one_or (intBlocks_length _ _)
theorem allBlocks_length : ∀ (ts : Tys) (v : ts.Val), orderedAll ts = true →
    (allBlocks env f ts v).length = updateCounts (objectAtOnce env f) (rangeAtOnce env f) ts v
  | .nil, v, _ => by simp only [allBlocks, updateCounts]; rfl
  | .cons t ts, v, ho => by
    simp only [orderedAll, Bool.and_eq_true] at ho
    simp only [allBlocks, updateCounts]
    rw [List.length_append, callBlocks_length t v.1 ho.1, allBlocks_length ts v.2 ho.2]
end
end

/-! ### what they pass -/

/-- an algorithm that keeps the message -/
def transcript : HashAlg where
  State := List Byte
  R := Unit
  init _ := .ok []
  initSeed _ _ := .ok []
  initBytes _ _ _ := .ok []
  update _ s p n := if p.Readable n then .ok (s ++ p.bytes n) else .error .oob
  result _ s := .ok (s, ())
  integral _ _ := .ok 0

theorem transcript_update (env : Env) (s : List Byte) (bs more : List Byte) :
    transcript.update env s (.mem (bs ++ more)) bs.length = .ok (s ++ bs) := by
  refine (if_pos (by simp [Ptr.Readable])).trans ?_
  show (Except.ok (s ++ (bs ++ more).take bs.length) : M (List Byte)) = _
  rw [List.take_left]
  rfl

theorem transcript_update' (env : Env) (s bs : List Byte) : transcript.update env s (.mem bs) bs.length = .ok (s ++ bs) := by
  simpa using transcript_update env s bs []

theorem transcript_null (env : Env) (s : List Byte) : transcript.update env s .null 0 = .ok s := by
  have h : Ptr.Readable .null 0 := show (0 : Nat) = 0 from rfl
  have e : transcript.update env s .null 0 = .ok (s ++ [] : List Byte) := if_pos (e := .error .oob) h
  exact e.trans (congrArg Except.ok (List.append_nil s))

def transcriptMachine : Machine Unit where
  S := List Byte
  absorb := fun s bs => s ++ bs
  res s := (s, ())
  init := []
  seed _ := []
  bytes _ := []

def transcript_ok (env : Env) : Implements transcript env transcriptMachine where
  Rel s a := s = a
  nullSafe := True
  fits _ _ := True
  fits_nil _ _ _ := trivial
  fits_append _ _ _ := by simp
  absorb_nil _ a _ := List.append_nil a
  absorb_append a xs ys := (List.append_assoc a xs ys).symm
  update_ok s a bs more h _ := ⟨_, transcript_update env s bs more, by rw [h]; rfl⟩
  null_ok _ s _ _ := transcript_null env s
  result_ok s a h := ⟨s, rfl, h⟩
  init_ok := ⟨_, rfl, rfl⟩
  seed_ok _ := ⟨_, rfl, rfl⟩
  bytesFit _ := True
  bytes_ok _ _ _ := ⟨_, rfl, rfl⟩
  bytes_null_ok := ⟨_, rfl, rfl⟩

theorem transcript_updates (env : Env) (cs : List (Ptr × Nat)) (s m : List Byte) (h : transcript.updates env s cs = .ok (s ++ m)) :
    stream (cs.map fun c => .update c.1 c.2) = some (m.map .data) := by
  induction cs generalizing s m with
  | nil =>
    have h : (Except.ok s : M (List Byte)) = .ok (s ++ m) := h
    have : m = [] := by simpa using Except.ok.inj h
    subst this; rfl
  | cons c cs ih =>
    obtain ⟨p, n⟩ := c
    have h : ((if p.Readable n then Except.ok (s ++ p.bytes n) else .error .oob) >>= fun s => transcript.updates env s cs) = .ok (s ++ m) := h
    by_cases hr : p.Readable n
    · rw [if_pos hr, Except.bind_ok] at h
      have hpre : ∀ (cs : List (Ptr × Nat)) (s r : List Byte), transcript.updates env s cs = .ok r → ∃ m, r = s ++ m := by
        intro cs
        induction cs with
        | nil => intro s r h; exact ⟨[], by rw [List.append_nil]; exact (Except.ok.inj h).symm⟩
        | cons c cs ih =>
          intro s r h
          obtain ⟨p, n⟩ := c
          have h : ((if p.Readable n then Except.ok (s ++ p.bytes n) else .error .oob) >>= fun s => transcript.updates env s cs) = .ok r := h
          by_cases hr : p.Readable n
          · rw [if_pos hr, Except.bind_ok] at h
            obtain ⟨m, hm⟩ := ih _ _ h
            exact ⟨p.bytes n ++ m, by rw [hm, List.append_assoc]⟩
          · rw [if_neg hr] at h; cases h
      obtain ⟨m', hm'⟩ := hpre cs _ _ h
      have hm : m = p.bytes n ++ m' := by rw [List.append_assoc] at hm'; exact List.append_cancel_left hm'
      subst hm
      have := ih (s ++ p.bytes n) m' (by rw [h, List.append_assoc])
      rw [List.map_cons, stream, this]
      cases p with
      | null =>
        have hn : n = 0 := hr
        subst hn; rfl
      | mem bs =>
        have hle : n ≤ bs.length := hr
        simp [Op.toks, hle, Ptr.bytes]
    · rw [if_neg hr] at h; cases h

theorem blocks_message {env : Env} {f : Flavor} (hround : env.fp.roundDown = false) (t : Ty) (v : t.Val) (ho : ordered t = true)
    (hv : (Stmt.append f t v).Valid env) :
    stream ((withBlocks env f t v (doBlocks env f t v)).map fun c => .update c.1 c.2) =
      some ((message (layout env f) (fun _ => 0) t v []).map .data) := by
  obtain ⟨hw, hval, hconst⟩ := hv
  have h := append_feeds (I := transcript_ok env) (a₀ := ([] : List Byte)) (f := f) (fun _ => 0) (int := fun _ => 0)
    (fun _ _ _ => rfl) hround (fun _ _ => rfl) t v ⟨hw, hval, hconst, .inl trivial⟩ [] (weight t v) (fun _ _ => trivial) (Nat.le_refl _) [] rfl
  obtain ⟨s', e, r⟩ := h
  have e := (issues_with (A := transcript) (issues_do t v ho hconst) ([] : List Byte)).symm.trans e
  refine transcript_updates env _ [] _ (e.trans ?_)
  exact congrArg Except.ok r

end Hash2

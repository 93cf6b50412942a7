import Verif.Spec.Parts
import Verif.Lemmas.Portable
/-
hash_append, and the calls it stands for.
-/
namespace Hash2
open Spec

/-! ### messages after other messages -/

theorem concat_shift {α : Type} {m m' : α → List Byte → List Byte} {p : List Byte} {vs : List α}
    (h : ∀ v ∈ vs, ∀ q, m v (p ++ q) = m' v q) : ∀ q, concat m vs (p ++ q) = concat m' vs q := by
  induction vs with
  | nil => exact fun _ => rfl
  | cons v vs ih =>
    intro q
    have ih := ih fun v hv => h v (List.mem_cons_of_mem _ hv)
    simp only [concat, h v (List.mem_cons_self ..), List.append_assoc, ih]

section
variable {L : Layout} {H : List Byte → W64} {p : List Byte}

mutual
theorem message_shift : ∀ (t : Ty) (v : t.Val) (q : List Byte),
    message L H t v (p ++ q) = message L (fun bs => H (p ++ bs)) t v q
  | .int _, _, _ => by simp only [message]
  | .enum _, _, _ => by simp only [message]
  | .ptr, _, _ => by simp only [message]
  | .nullptr, _, _ => by simp only [message]
  | .f32, _, _ => by simp only [message]
  | .f64, _, _ => by simp only [message]
  | .size, _, _ => by simp only [message]
  | .carray _ t, vs, q => by
    simp only [message]
    exact concat_shift (fun v _ q => message_shift t v q) q
  | .range _ t, vs, q => by
    simp only [message]
    exact concat_shift (fun v _ q => message_shift t v q) q
  | .seq _ t, vs, q => by
    simp only [message]
    rw [concat_shift (fun v _ q => message_shift t v q) q]
  | .arr k n t, vs, q => by
    rw [message_arr, message_arr, concat_shift (fun v _ q => message_shift t v q) q]
  | .unord t, vs, q => by
    simp only [message]
    have : ∀ v, message L H t v (p ++ q) = message L (fun bs => H (p ++ bs)) t v q := fun v => message_shift t v q
    simp only [this, List.append_assoc]
  | .tuple ts, v, q => by
    by_cases h : ts = .nil
    · subst h; simp only [message]
    · rw [message_tuple L H h, message_tuple L _ h, messages_shift ts v q]
  | .described tr ind bs ms, v, q => by
    by_cases h : bs = .nil ∧ ms = .nil
    · obtain ⟨rfl, rfl⟩ := h; simp only [message]
    · rw [message_described L H tr ind h, message_described L _ tr ind h, messages_shift bs v.1 q, List.append_assoc, messages_shift ms v.2]
  | .user cs, v, q => by simp only [message]; exact messages_shift cs v q
theorem messages_shift : ∀ (ts : Tys) (v : ts.Val) (q : List Byte),
    messages L H ts v (p ++ q) = messages L (fun bs => H (p ++ bs)) ts v q
  | .nil, _, _ => by simp only [messages]
  | .cons t ts, v, q => by
    simp only [messages, message_shift t v.1 q, List.append_assoc]
    rw [messages_shift ts v.2]
end
end

/-! ### the tokens of a program -/

section
variable (a : AlgName) (env : Env)

/-- the number of the hash of bs, in the given state -/
def AlgName.numAt (s : (a.machine env.sizeBits).S) (bs : List Byte) : W64 :=
  a.impl.numberOf env ((a.machine env.sizeBits).res ((a.machine env.sizeBits).run s (bs.map .data)).1).2

/-- what a statement feeds in the given state -/
def AlgName.tok (s : (a.machine env.sizeBits).S) : Stmt → List Tok
  | .call op => op.toks.getD []
  | .append f t v => (message (layout env f) (a.numAt env s) t v []).map .data

/-- what a program feeds -/
def AlgName.toks (s : (a.machine env.sizeBits).S) : List Stmt → List Tok
  | [] => []
  | q :: ps => a.tok env s q ++ AlgName.toks ((a.machine env.sizeBits).run s (a.tok env s q)).1 ps

variable {a env}

theorem AlgName.toks_append (s : (a.machine env.sizeBits).S) (xs ys : List Stmt) :
    a.toks env s (xs ++ ys) = a.toks env s xs ++ a.toks env ((a.machine env.sizeBits).run s (a.toks env s xs)).1 ys := by
  induction xs generalizing s with
  | nil => rfl
  | cons x xs ih =>
    simp only [List.cons_append, AlgName.toks, ih, List.append_assoc, Machine.run_append]

theorem AlgName.numAt_shift (s : (a.machine env.sizeBits).S) (m bs : List Byte) :
    a.numAt env ((a.machine env.sizeBits).run s (m.map .data)).1 bs = a.numAt env s (m ++ bs) := by
  unfold AlgName.numAt
  rw [List.map_append, Machine.run_append]

theorem AlgName.tok_after (s : (a.machine env.sizeBits).S) (m : List Byte) (f : Flavor) (t : Ty) (v : t.Val) :
    a.tok env ((a.machine env.sizeBits).run s (m.map .data)).1 (.append f t v) = (message (layout env f) (a.numAt env s) t v m).map .data := by
  unfold AlgName.tok
  have h := message_shift (L := layout env f) (H := a.numAt env s) (p := m) t v []
  rw [List.append_nil] at h
  rw [h]
  have : a.numAt env ((a.machine env.sizeBits).run s (m.map .data)).1 = fun bs => a.numAt env s (m ++ bs) :=
    funext fun bs => AlgName.numAt_shift s m bs
  rw [← this]

/-- hash_append of several values, one after another -/
theorem AlgName.toks_list (s : (a.machine env.sizeBits).S) (f : Flavor) (t : Ty) (vs : List t.Val) (m : List Byte) :
    a.toks env ((a.machine env.sizeBits).run s (m.map .data)).1 (vs.map (.append f t)) =
      (concat (message (layout env f) (a.numAt env s) t) vs m).map .data := by
  induction vs generalizing m with
  | nil => rfl
  | cons v vs ih =>
    have := Machine.run_append (a.machine env.sizeBits) s (m.map .data) ((message (layout env f) (a.numAt env s) t v m).map .data)
    rw [← List.map_append] at this
    have h1 := congrArg Prod.fst this
    have ih := ih (m ++ message (layout env f) (a.numAt env s) t v m)
    rw [h1] at ih
    simp only [List.map_cons, AlgName.toks, AlgName.tok_after, concat, List.map_append, ih]

theorem AlgName.toks_each (s : (a.machine env.sizeBits).S) (f : Flavor) : ∀ (ts : Tys) (v : ts.Val) (m : List Byte),
    a.toks env ((a.machine env.sizeBits).run s (m.map .data)).1 (eachStmt f ts v) =
      (messages (layout env f) (a.numAt env s) ts v m).map .data
  | .nil, _, _ => by simp only [eachStmt, messages]; rfl
  | .cons t ts, v, m => by
    have := Machine.run_append (a.machine env.sizeBits) s (m.map .data) ((message (layout env f) (a.numAt env s) t v.1 m).map .data)
    rw [← List.map_append] at this
    have h1 := congrArg Prod.fst this
    have ih := AlgName.toks_each s f ts v.2 (m ++ message (layout env f) (a.numAt env s) t v.1 m)
    rw [h1] at ih
    simp only [eachStmt, AlgName.toks, AlgName.tok_after, messages, List.map_append, ih]

theorem AlgName.toks_one (s : (a.machine env.sizeBits).S) (q : Stmt) : a.toks env s [q] = a.tok env s q := by
  simp only [AlgName.toks, List.append_nil]

theorem message_int_word (L : Layout) (H : List Byte → W64) (z : Sz) (n : Nat) (p : List Byte) :
    message L H (.int (.int z)) (BitVec.ofNat (8 * z.n) n) p = L.word z.n n := by
  simp only [message]
  show L.word z.n (BitVec.ofNat (8 * z.n) n).toNat = _
  rw [BitVec.toNat_ofNat, pow256, word_mod]

/-- **A call of hash_append feeds what its documented parts feed.** -/
theorem AlgName.toks_parts (s : (a.machine env.sizeBits).S) (f : Flavor) (t : Ty) (v : t.Val) {ps : List Stmt} (h : parts env f t v = some ps) :
    a.toks env s ps = a.toks env s [.append f t v] := by
  have e0 : s = ((a.machine env.sizeBits).run s (([] : List Byte).map .data)).1 := rfl
  have nul : ∀ s, a.tok env s (nulStmt f) = [Tok.data 0] := fun s => by
    simp only [nulStmt, AlgName.tok, message]
    show (List.map Tok.data ((layout env f).word 1 0) : List Tok) = _
    rw [word_one]
    rfl
  have list : ∀ (t : Ty) (vs : List t.Val), a.toks env s (vs.map (.append f t)) = (concat (message (layout env f) (a.numAt env s) t) vs []).map .data :=
    fun t vs => a.toks_list s f t vs []
  have each : ∀ (ts : Tys) (v : ts.Val), a.toks env s (eachStmt f ts v) = (messages (layout env f) (a.numAt env s) ts v []).map .data :=
    fun ts v => AlgName.toks_each s f ts v []
  rw [AlgName.toks_one]
  cases t with
  | int k =>
    simp only [parts, Option.some.injEq] at h
    subst h
    rw [AlgName.toks_one]
    simp only [AlgName.tok, message, Op.toks, word_length, Nat.le_refl, if_true, Option.getD_some]
    rw [List.take_of_length_le (by rw [word_length])]
  | enum k =>
    simp only [parts, Option.some.injEq] at h
    subst h
    rw [AlgName.toks_one]
    simp only [AlgName.tok, message]
  | ptr =>
    simp only [parts, Option.some.injEq] at h
    subst h
    rw [AlgName.toks_one]
    simp only [AlgName.tok]
    rw [show v.setWidth (8 * env.ptrSz.n) = BitVec.ofNat (8 * env.ptrSz.n) v.toNat from by
      apply BitVec.eq_of_toNat_eq; simp, message_int_word]
    simp only [message]
    rfl
  | nullptr =>
    simp only [parts, Option.some.injEq] at h
    subst h
    rw [AlgName.toks_one]
    simp only [AlgName.tok, message]
    rfl
  | f32 =>
    simp only [parts, Option.some.injEq] at h
    subst h
    rw [AlgName.toks_one]
    simp only [AlgName.tok]
    rw [show (BitVec.ofNat 32 (canonical env.fp.canonicalNaN 8 23 v.toNat)) = BitVec.ofNat (8 * Sz.s4.n) (canonical env.fp.canonicalNaN 8 23 v.toNat) from rfl,
      message_int_word]
    simp only [message]
    rfl
  | f64 =>
    simp only [parts, Option.some.injEq] at h
    subst h
    rw [AlgName.toks_one]
    simp only [AlgName.tok]
    rw [show (BitVec.ofNat 64 (canonical env.fp.canonicalNaN 11 52 v.toNat)) = BitVec.ofNat (8 * Sz.s8.n) (canonical env.fp.canonicalNaN 11 52 v.toNat) from rfl,
      message_int_word]
    simp only [message]
    rfl
  | carray n t =>
    simp only [parts, Option.some.injEq] at h
    subst h
    rw [AlgName.toks_one]
    simp only [AlgName.tok, message]
  | seq k t =>
    simp only [parts, Option.some.injEq] at h
    subst h
    simp only [AlgName.toks, List.append_nil, AlgName.tok, message, List.map_append]
  | arr k n t =>
    simp only [parts, Option.some.injEq] at h
    subst h
    by_cases hv : v = []
    · subst hv
      simp only [if_true]
      rw [AlgName.toks_one, nul]
      simp only [AlgName.tok, message]
      rfl
    · rw [if_neg hv, AlgName.toks_one]
      simp only [AlgName.tok]
      rw [message_arr, if_neg (by simpa using hv)]
      simp only [message]
  | unord t => simp only [parts] at h; cases h
  | tuple ts =>
    cases ts with
    | nil =>
      simp only [parts, Option.some.injEq] at h
      subst h
      rw [AlgName.toks_one, nul]
      simp only [AlgName.tok, message]
      rfl
    | cons t ts =>
      simp only [parts, Option.some.injEq] at h
      subst h
      rw [each]
      simp only [AlgName.tok]
      rw [message_tuple _ _ (by intro h; cases h)]
  | described tr ind bs ms =>
    by_cases hn : bs = .nil ∧ ms = .nil
    · obtain ⟨rfl, rfl⟩ := hn
      simp only [parts, Option.some.injEq] at h
      subst h
      rw [AlgName.toks_one, nul]
      simp only [AlgName.tok, message]
      rfl
    · have h : eachStmt f bs v.1 ++ eachStmt f ms v.2 = ps := by
        cases bs with
        | nil =>
          cases ms with
          | nil => exact absurd ⟨rfl, rfl⟩ hn
          | cons _ _ => simp only [parts, Option.some.injEq] at h; exact h
        | cons _ _ => cases ms <;> (simp only [parts, Option.some.injEq] at h; exact h)
      subst h
      rw [AlgName.toks_append, each, AlgName.toks_each]
      simp only [AlgName.tok]
      rw [message_described _ _ tr ind hn, List.map_append, List.nil_append]
  | user cs =>
    simp only [parts, Option.some.injEq] at h
    subst h
    rw [each]
    simp only [AlgName.tok, message]
  | range k t =>
    simp only [parts, Option.some.injEq] at h
    subst h
    rw [list]
    simp only [AlgName.tok, message]
  | size =>
    simp only [parts, Option.some.injEq] at h
    subst h
    rw [AlgName.toks_one]
    simp only [AlgName.tok]
    rw [message_int_word]
    simp only [message]
    rfl

/-! ### programs feed their tokens -/

variable {c : Ctor}

theorem AlgName.expand_toks {N : Nat} (hc : c.Valid) (r : a.RoomFor env c N) (ps : List Stmt) :
    ∀ done td, stream done = some td → (a.NullOk env ∨ NoNull done) → (∀ p ∈ ps, p.Valid env) →
    (a.NullOk env ∨ ∀ p ∈ ps, p.NoNull env) → cost td + progCost ps ≤ N →
    stream (a.impl.expand env c done ps) =
      some (a.toks env ((a.machine env.sizeBits).run (c.start (a.machine env.sizeBits)) td).1 ps) := by
  induction ps with
  | nil => exact fun _ _ _ _ _ _ _ => rfl
  | cons q ps ih =>
    intro done td hd n hv m hN
    rw [progCost_cons] at hN
    have hv' := fun p hm => hv p (List.mem_cons_of_mem _ hm)
    have m' : a.NullOk env ∨ ∀ p ∈ ps, p.NoNull env := m.imp id fun h p hm => h p (List.mem_cons_of_mem _ hm)
    have hn : ∀ {op : Op}, (a.NullOk env ∨ NoNull [op]) → (a.NullOk env ∨ NoNull (done ++ [op])) := by
      intro op h'
      rcases n with h | h
      · exact .inl h
      · exact h'.imp id fun h' => noNull_append.2 ⟨h, h'⟩
    have step : ∀ (op : Op) (t : List Tok), a.impl.expand env c done (q :: ps) = op :: a.impl.expand env c (done ++ [op]) ps → op.toks = some t →
        (a.NullOk env ∨ NoNull [op]) → cost t ≤ q.cost →
        t = a.tok env ((a.machine env.sizeBits).run (c.start (a.machine env.sizeBits)) td).1 q →
        stream (a.impl.expand env c done (q :: ps)) =
          some (a.toks env ((a.machine env.sizeBits).run (c.start (a.machine env.sizeBits)) td).1 (q :: ps)) := by
      intro op t he ht hno hct htok
      have := ih (done ++ [op]) (td ++ t) (by rw [stream_append, hd]; simp [stream, ht]) (hn hno) hv' m' (by rw [cost_append]; omega)
      rw [Machine.run_append] at this
      rw [he, AlgName.toks, ← htok]
      simp only [stream, ht, this, Option.bind_eq_bind, Option.bind_some, Option.pure_def]
    cases q with
    | call op =>
      obtain ⟨t, ht⟩ := Option.isSome_iff_exists.1 (show op.toks.isSome = true from hv _ (List.mem_cons_self ..))
      refine step op t rfl ht (m.imp id fun h n hm => h _ (List.mem_cons_self ..) n (List.mem_singleton.1 hm).symm) (toks_cost ht) ?_
      simp only [AlgName.tok, ht, Option.getD_some]
    | append f t v =>
      have hw : (a.impl.messageOf env c done f t v).length ≤ (Stmt.append f t v).cost := message_weight env f _ t v []
      have hm : a.impl.messageOf env c done f t v =
          message (layout env f) (a.numAt env ((a.machine env.sizeBits).run (c.start (a.machine env.sizeBits)) td).1) t v [] := by
        refine message_port (L := layout env f) (L' := layout env f) (K := weight t v) rfl rfl f.sizeType.n_le env.ptrSz.n_le
          (fun bs hb => ?_) t v [] (.inr rfl) (.inr rfl) (by simp)
        have hcost : cost (td ++ bs.map .data) ≤ N := by
          have : (Stmt.append f t v).cost = weight t v := rfl
          rw [cost_append, cost_data]; omega
        obtain ⟨s₁, e₁, q₁⟩ := start_ok hc r
        have f₁ := fits (room_of r hcost)
        rw [number_eq (a.impls env) e₁ q₁ hd (n.imp nullSafe id) bs f₁]
        obtain ⟨x₁, -, y₁⟩ := (a.impls env).run_ok q₁ done td hd (n.imp nullSafe id) (((a.impls env).fitsAll_append _ _).1 f₁).1
        unfold AlgName.numAt
        rw [((a.impls env).run_data y₁ bs).1]
      refine step _ ((a.impl.messageOf env c done f t v).map .data) rfl (by simp [Op.toks]) (.inr (by intro n; simp)) (by rw [cost_data]; exact hw) ?_
      rw [hm]
      rfl

theorem AlgName.exec_toks {ps : List Stmt} (h : a.Runs env c ps) : a.impl.execStmts env c ps =
    .ok ((a.machine env.sizeBits).run (c.start (a.machine env.sizeBits)) (a.toks env (c.start (a.machine env.sizeBits)) ps)).2 := by
  obtain ⟨ts, h1, -, -, h4⟩ := runs_ok h
  rw [expand_toks h.ctor h.room ps [] [] rfl (.inr (by intro n; simp)) h.valid h.null (by show 0 + _ ≤ _; omega)] at h1
  rw [h4, ← Option.some.inj h1]
  rfl

/-- programs with a part replaced by one that feeds the same -/
theorem AlgName.replace_ok {before xs ys after : List Stmt} (h : a.Runs env c (before ++ xs ++ after)) (h' : a.Runs env c (before ++ ys ++ after))
    (ht : ∀ s, a.toks env s xs = a.toks env s ys) :
    ∃ rs, a.impl.execStmts env c (before ++ xs ++ after) = .ok rs ∧ a.impl.execStmts env c (before ++ ys ++ after) = .ok rs := by
  refine ⟨_, exec_toks h, ?_⟩
  rw [exec_toks h', AlgName.toks_append, AlgName.toks_append, ← ht, ← AlgName.toks_append, ← AlgName.toks_append]

end

/-! ### the parts can be run -/

/-- what a statement has to meet -/
def Stmt.Fine (a : AlgName) (env : Env) (p : Stmt) : Prop := p.Valid env ∧ (a.NullOk env ∨ p.NoNull env)

theorem AlgName.runs_fine {a : AlgName} {env : Env} {c : Ctor} {ps : List Stmt} :
    a.Runs env c ps ↔ c.Valid ∧ (∀ p ∈ ps, p.Fine a env) ∧ env.fp.roundDown = false ∧ a.RoomFor env c (progCost ps) := by
  constructor
  · exact fun h => ⟨h.ctor, fun p hp => ⟨h.valid p hp, h.null.imp id fun h => h p hp⟩, h.round, h.room⟩
  · rintro ⟨h1, h2, h3, h4⟩
    refine ⟨h1, fun p hp => (h2 p hp).1, ?_, h3, h4⟩
    by_cases h : a.NullOk env
    · exact .inl h
    · exact .inr fun p hp => (h2 p hp).2.resolve_left h

theorem each_fine {a : AlgName} {env : Env} {f : Flavor} : ∀ (ts : Tys) (v : ts.Val), wellFormedAll ts = true → Spec.ValidAll (8 * env.ptrSz.n) ts v →
    (env.constEval = true → pointerFreeAll ts = true) → (a.NullOk env ∨ env.emptyDataNull = false ∨ NoEmptyAll ts v) →
    ∀ p ∈ eachStmt f ts v, p.Fine a env
  | .nil, _, _, _, _, _ => by intro p hp; simp [eachStmt] at hp
  | .cons t ts, v, h1, h2, h3, h4 => by
    simp only [wellFormedAll, Bool.and_eq_true] at h1
    simp only [Spec.ValidAll] at h2
    simp only [pointerFreeAll, Bool.and_eq_true] at h3
    simp only [NoEmptyAll] at h4
    intro p hp
    simp only [eachStmt, List.mem_cons] at hp
    rcases hp with rfl | hp
    · exact ⟨⟨h1.1, h2.1, fun h => (h3 h).1⟩, h4.imp id (Or.imp id fun h => h.1)⟩
    · exact each_fine ts v.2 h1.2 h2.2 (fun h => (h3 h).2) (h4.imp id (Or.imp id fun h => h.2)) p hp

theorem parts_fine {a : AlgName} {env : Env} {f : Flavor} (t : Ty) (v : t.Val) {ps : List Stmt} (h : parts env f t v = some ps)
    (hf : (Stmt.append f t v).Fine a env) : ∀ p ∈ ps, p.Fine a env := by
  obtain ⟨⟨h1, h2, h3⟩, h4⟩ := hf
  have h4 : a.NullOk env ∨ env.emptyDataNull = false ∨ NoEmpty t v := h4
  have nul : (nulStmt f).Fine a env := by
    refine ⟨⟨?_, ?_, fun _ => ?_⟩, .inr (.inr ?_)⟩
    · simp [wellFormed]
    · simp only [Spec.Valid]
    · simp [pointerFree]
    · simp only [NoEmpty]
  have int : ∀ (k : IntTy) (v : k.Val), (Stmt.append f (.int k) v).Fine a env := by
    intro k v
    refine ⟨⟨?_, ?_, fun _ => ?_⟩, .inr (.inr ?_)⟩
    · simp [wellFormed]
    · simp only [Spec.Valid]
    · simp [pointerFree]
    · simp only [NoEmpty]
  have one : ∀ {q : Stmt}, q.Fine a env → ∀ p ∈ [q], p.Fine a env := by
    intro q h p hp; rw [List.mem_singleton.1 hp]; exact h
  have size : ∀ n, (Stmt.append f .size n).Fine a env := by
    intro n
    refine ⟨⟨?_, ?_, fun _ => ?_⟩, .inr (.inr ?_)⟩
    · simp [wellFormed]
    · simp only [Spec.Valid]
    · simp [pointerFree]
    · simp only [NoEmpty]
  have range : ∀ (k : RangeKind) (t : Ty) (vs : List t.Val), wellFormed t = true → (∀ v ∈ vs, Spec.Valid (8 * env.ptrSz.n) t v) →
      (env.constEval = true → pointerFree t = true) →
      (a.NullOk env ∨ env.emptyDataNull = false ∨ ((k.byPointer = true → vs ≠ []) ∧ ∀ v ∈ vs, NoEmpty t v)) →
      (Stmt.append f (.range k t) vs).Fine a env := by
    intro k t vs a1 a2 a3 a4
    refine ⟨⟨?_, ?_, fun h => ?_⟩, a4.imp id (Or.imp id fun h => ?_)⟩
    · simpa only [wellFormed] using a1
    · simpa only [Spec.Valid] using a2
    · simpa only [pointerFree] using a3 h
    · simpa only [NoEmpty] using h
  cases t with
  | int k =>
    simp only [parts, Option.some.injEq] at h
    subst h
    refine one ⟨?_, .inr ?_⟩
    · show (Op.toks _).isSome = true
      simp [Op.toks]
    · intro n h; cases h
  | enum k => simp only [parts, Option.some.injEq] at h; subst h; exact one (int _ _)
  | ptr => simp only [parts, Option.some.injEq] at h; subst h; exact one (int _ _)
  | nullptr =>
    simp only [parts, Option.some.injEq] at h
    subst h
    refine one ⟨⟨?_, ?_, fun h => ?_⟩, .inr (.inr ?_)⟩
    · simp [wellFormed]
    · simp only [Spec.Valid]; exact Nat.two_pow_pos _
    · simpa [pointerFree] using h3 h
    · simp only [NoEmpty]
  | f32 => simp only [parts, Option.some.injEq] at h; subst h; exact one (int (.int .s4) _)
  | f64 => simp only [parts, Option.some.injEq] at h; subst h; exact one (int (.int .s8) _)
  | carray n t =>
    simp only [parts, Option.some.injEq] at h
    subst h
    simp only [wellFormed, Bool.and_eq_true, bne_iff_ne, ne_eq] at h1
    simp only [Spec.Valid] at h2
    simp only [pointerFree] at h3
    simp only [NoEmpty] at h4
    refine one (range _ _ _ h1.2 h2.2 h3 (h4.imp id (Or.imp id fun h => ⟨fun _ e => h1.1 ?_, h⟩)))
    rw [← h2.1, e]; rfl
  | seq k t =>
    simp only [parts, Option.some.injEq] at h
    subst h
    simp only [wellFormed] at h1
    simp only [Spec.Valid] at h2
    simp only [pointerFree] at h3
    simp only [NoEmpty] at h4
    intro p hp
    rcases List.mem_cons.1 hp with rfl | hp
    · exact range _ _ _ h1 h2 h3 h4
    · exact one (size _) p hp
  | arr k n t =>
    simp only [parts, Option.some.injEq] at h
    subst h
    simp only [wellFormed] at h1
    simp only [Spec.Valid] at h2
    simp only [pointerFree] at h3
    simp only [NoEmpty] at h4
    split
    · exact one nul
    · rename_i hv
      exact one (range _ _ _ h1 h2.2 h3 (h4.imp id (Or.imp id fun h => ⟨fun _ => hv, h⟩)))
  | unord t => simp only [parts] at h; cases h
  | tuple ts =>
    simp only [wellFormed] at h1
    simp only [Spec.Valid] at h2
    simp only [pointerFree] at h3
    simp only [NoEmpty] at h4
    cases ts with
    | nil => simp only [parts, Option.some.injEq] at h; subst h; exact one nul
    | cons t ts => simp only [parts, Option.some.injEq] at h; subst h; exact each_fine _ v h1 h2 h3 h4
  | described tr ind bs ms =>
    by_cases hn : bs = .nil ∧ ms = .nil
    · obtain ⟨rfl, rfl⟩ := hn
      simp only [parts, Option.some.injEq] at h
      subst h
      exact one nul
    · have h : eachStmt f bs v.1 ++ eachStmt f ms v.2 = ps := by
        cases bs with
        | nil =>
          cases ms with
          | nil => exact absurd ⟨rfl, rfl⟩ hn
          | cons _ _ => simp only [parts, Option.some.injEq] at h; exact h
        | cons _ _ => cases ms <;> (simp only [parts, Option.some.injEq] at h; exact h)
      subst h
      simp only [wellFormed, Bool.and_eq_true] at h1
      simp only [Spec.Valid] at h2
      simp only [pointerFree, Bool.and_eq_true] at h3
      simp only [NoEmpty] at h4
      intro p hp
      rcases List.mem_append.1 hp with hp | hp
      · exact each_fine bs v.1 h1.1.1.1 h2.1 (fun h => (h3 h).1) (h4.imp id (Or.imp id fun h => h.1)) p hp
      · exact each_fine ms v.2 h1.1.1.2 h2.2 (fun h => (h3 h).2) (h4.imp id (Or.imp id fun h => h.2)) p hp
  | user cs =>
    simp only [parts, Option.some.injEq] at h
    subst h
    simp only [wellFormed] at h1
    simp only [Spec.Valid] at h2
    simp only [pointerFree] at h3
    simp only [NoEmpty] at h4
    exact each_fine cs v h1 h2 h3 h4
  | range k t =>
    simp only [parts, Option.some.injEq] at h
    subst h
    simp only [wellFormed] at h1
    simp only [Spec.Valid] at h2
    simp only [pointerFree] at h3
    simp only [NoEmpty] at h4
    intro p hp
    obtain ⟨v, hv, rfl⟩ := List.mem_map.1 hp
    exact ⟨⟨h1, h2 v hv, h3⟩, h4.imp id (Or.imp id fun h => h.2 v hv)⟩
  | size => simp only [parts, Option.some.injEq] at h; subst h; exact one (int (.int _) _)

theorem AlgName.runs_parts {a : AlgName} {env : Env} {c : Ctor} {f : Flavor} {t : Ty} {v : t.Val} {before ps after : List Stmt}
    (h : a.Runs env c (before ++ [.append f t v] ++ after)) (hp : parts env f t v = some ps) (hr : a.RoomFor env c (progCost (before ++ ps ++ after))) :
    a.Runs env c (before ++ ps ++ after) := by
  obtain ⟨h1, h2, h3, h4⟩ := runs_fine.1 h
  refine runs_fine.2 ⟨h1, ?_, h3, hr⟩
  intro p hm
  rcases List.mem_append.1 hm with hm | hm
  · rcases List.mem_append.1 hm with hm | hm
    · exact h2 p (by simp [hm])
    · exact parts_fine t v hp (h2 _ (by simp)) p hm
  · exact h2 p (by simp [hm])

/-! ### the same calls -/

theorem SameCalls.toks {a : AlgName} {env : Env} {ps qs : List Stmt} (h : SameCalls env ps qs) : ∀ s, a.toks env s ps = a.toks env s qs := by
  induction h with
  | refl ps => exact fun _ => rfl
  | symm _ ih => exact fun s => (ih s).symm
  | trans _ _ ih1 ih2 => exact fun s => (ih1 s).trans (ih2 s)
  | replace before after h =>
    intro s
    rw [AlgName.toks_append, AlgName.toks_append, AlgName.toks_append, AlgName.toks_append, AlgName.toks_parts _ _ _ _ h]

theorem SameCalls.one {env : Env} {f : Flavor} {t : Ty} {v : t.Val} {ps : List Stmt} (h : parts env f t v = some ps) :
    SameCalls env [.append f t v] ps := by
  simpa using SameCalls.replace (env := env) [] [] h

theorem SameCalls.context {env : Env} {ps qs : List Stmt} (h : SameCalls env ps qs) (before after : List Stmt) :
    SameCalls env (before ++ ps ++ after) (before ++ qs ++ after) := by
  induction h with
  | refl ps => exact .refl _
  | symm _ ih => exact .symm ih
  | trans _ _ ih1 ih2 => exact .trans ih1 ih2
  | replace b a h =>
    have := SameCalls.replace (env := env) (before ++ b) (a ++ after) h
    simpa only [List.append_assoc] using this

theorem SameCalls.append {env : Env} {ps qs ps' qs' : List Stmt} (h : SameCalls env ps qs) (h' : SameCalls env ps' qs') :
    SameCalls env (ps ++ ps') (qs ++ qs') := by
  have h1 := h.context [] ps'
  have h2 := h'.context qs []
  simp only [List.nil_append, List.append_nil] at h1 h2
  exact h1.trans h2

/-- calls of hash_append come down to calls of update -/
def ToUpdates (env : Env) (ps : List Stmt) : Prop := ∃ us : List (List Byte), SameCalls env ps (us.map fun u => .call (.update (.mem u) u.length))

theorem ToUpdates.append {env : Env} {ps qs : List Stmt} (h : ToUpdates env ps) (h' : ToUpdates env qs) : ToUpdates env (ps ++ qs) := by
  obtain ⟨us, h⟩ := h
  obtain ⟨ws, h'⟩ := h'
  exact ⟨us ++ ws, by rw [List.map_append]; exact h.append h'⟩

theorem ToUpdates.of {env : Env} {ps qs : List Stmt} (h : SameCalls env ps qs) (h' : ToUpdates env qs) : ToUpdates env ps := by
  obtain ⟨us, h'⟩ := h'
  exact ⟨us, h.trans h'⟩

theorem ToUpdates.list {env : Env} {f : Flavor} {t : Ty} (vs : List t.Val) (h : ∀ v ∈ vs, ToUpdates env [.append f t v]) :
    ToUpdates env (vs.map (.append f t)) := by
  induction vs with
  | nil => exact ⟨[], .refl _⟩
  | cons v vs ih => exact (h v (List.mem_cons_self ..)).append (ih fun v hv => h v (List.mem_cons_of_mem _ hv))

theorem ToUpdates.int {env : Env} {f : Flavor} (k : IntTy) (v : k.Val) : ToUpdates env [.append f (.int k) v] :=
  ⟨[(layout env f).word k.size.n (k.bits v).toNat], by
    have h := SameCalls.one (env := env) (f := f) (t := .int k) (v := v) rfl
    simp only [List.map_cons, List.map_nil, word_length]
    exact h⟩

theorem ToUpdates.range {env : Env} {f : Flavor} {t : Ty} (k : RangeKind) (vs : List t.Val) (h : ∀ v ∈ vs, ToUpdates env [.append f t v]) :
    ToUpdates env [.append f (.range k t) vs] :=
  .of (.one rfl) (.list vs h)

theorem ToUpdates.size {env : Env} {f : Flavor} (n : Nat) : ToUpdates env [.append f .size n] :=
  .of (.one rfl) (.int _ _)

mutual
theorem ToUpdates.all {env : Env} {f : Flavor} : ∀ (t : Ty) (v : t.Val), ordered t = true → ToUpdates env [.append f t v]
  | .int k, v, _ => .int k v
  | .enum k, v, _ => .of (.one rfl) (.int k v)
  | .ptr, v, _ => .of (.one rfl) (.int _ _)
  | .nullptr, v, _ => .of (.one rfl) (.of (.one rfl) (.int _ _))
  | .f32, v, _ => .of (.one rfl) (.int _ _)
  | .f64, v, _ => .of (.one rfl) (.int _ _)
  | .carray _ t, vs, h => by
    simp only [ordered] at h
    exact .of (.one rfl) (.range _ vs fun v _ => ToUpdates.all t v h)
  | .seq k t, vs, h => by
    simp only [ordered] at h
    exact .of (.one rfl) (ToUpdates.append (.range k vs fun v _ => ToUpdates.all t v h) (.size vs.length))
  | .arr k n t, vs, h => by
    simp only [ordered] at h
    refine .of (.one rfl) ?_
    split
    · exact .int _ _
    · exact .range _ vs fun v _ => ToUpdates.all t v h
  | .unord t, vs, h => by simp [ordered] at h
  | .tuple ts, v, h => by
    simp only [ordered] at h
    by_cases hn : ts = .nil
    · subst hn
      exact .of (.one rfl) (.int _ _)
    · refine .of (.one (ps := eachStmt f ts v) ?_) (ToUpdates.each ts v h)
      cases ts with
      | nil => exact absurd rfl hn
      | cons t ts => simp only [parts]
  | .described tr ind bs ms, v, h => by
    simp only [ordered, Bool.and_eq_true] at h
    by_cases hn : bs = .nil ∧ ms = .nil
    · obtain ⟨rfl, rfl⟩ := hn
      exact .of (.one rfl) (.int _ _)
    · refine .of (.one (ps := eachStmt f bs v.1 ++ eachStmt f ms v.2) ?_) ((ToUpdates.each bs v.1 h.1).append (ToUpdates.each ms v.2 h.2))
      cases bs with
      | nil =>
        cases ms with
        | nil => exact absurd ⟨rfl, rfl⟩ hn
        | cons _ _ => simp only [parts]
      | cons _ _ => cases ms <;> simp only [parts]
  | .user cs, v, h => by
    simp only [ordered] at h
    exact .of (.one rfl) (ToUpdates.each cs v h)
  | .range k t, vs, h => by
    simp only [ordered] at h
    exact .range k vs fun v _ => ToUpdates.all t v h
  | .size, n, _ => .size n
theorem ToUpdates.each {env : Env} {f : Flavor} : ∀ (ts : Tys) (v : ts.Val), orderedAll ts = true → ToUpdates env (eachStmt f ts v)
  | .nil, _, _ => ⟨[], by simp only [eachStmt]; exact .refl _⟩
  | .cons t ts, v, h => by
    simp only [orderedAll, Bool.and_eq_true] at h
    simp only [eachStmt]
    exact ToUpdates.append (ToUpdates.all t v.1 h.1) (ToUpdates.each ts v.2 h.2)
end

/-! ### unordered ranges -/

theorem AlgName.roomFor_mono {a : AlgName} {env : Env} {c : Ctor} {k n : Nat} (h : a.RoomFor env c n) (hk : k ≤ n) : a.RoomFor env c k := by
  cases a with
  | spooky2_128 =>
    have h : c.cost + n < 2 ^ env.sizeBits := h
    show c.cost + k < 2 ^ env.sizeBits
    omega
  | _ => trivial

theorem progCost_append (xs ys : List Stmt) : progCost (xs ++ ys) = progCost xs + progCost ys := by
  simp [progCost]

theorem le_sum_map {α : Type} (f : α → Nat) {v : α} {vs : List α} (h : v ∈ vs) : f v ≤ (vs.map f).sum := by
  induction vs with
  | nil => cases h
  | cons x xs ih =>
    rw [List.map_cons, List.sum_cons]
    rcases List.mem_cons.1 h with rfl | h
    · omega
    · have := ih h; omega

theorem AlgName.elementHash {a : AlgName} {env : Env} {c : Ctor} {before : List Stmt} {f : Flavor} {t : Ty} {v : t.Val} {w : W64}
    (h : a.Runs env c (before ++ [.append f t v, .call .result])) (hw : a.ElementHash env c before f t v w) :
    w = a.numAt env ((a.machine env.sizeBits).run (c.start (a.machine env.sizeBits)) (a.toks env (c.start (a.machine env.sizeBits)) before)).1
      (message (layout env f) (a.numAt env
        ((a.machine env.sizeBits).run (c.start (a.machine env.sizeBits)) (a.toks env (c.start (a.machine env.sizeBits)) before)).1) t v []) := by
  obtain ⟨rs, r, e, hi⟩ := hw
  rw [exec_toks h, AlgName.toks_append, Machine.run_append] at e
  generalize ((a.machine env.sizeBits).run (c.start (a.machine env.sizeBits)) (a.toks env (c.start (a.machine env.sizeBits)) before)) = x at e ⊢
  simp only [AlgName.toks, AlgName.tok, List.append_nil] at e
  rw [Machine.run_append] at e
  have e := Except.ok.inj e
  rw [← List.append_assoc] at e
  have e2 : [((a.machine env.sizeBits).res ((a.machine env.sizeBits).run x.1 ((message (layout env f) (a.numAt env x.1) t v []).map .data)).1).2] = [r] :=
    (List.append_inj' e rfl).2
  have e3 := (List.cons.inj e2).1
  have := a.numberOf_ok env _ ((a.machine env.sizeBits).run x.1 ((message (layout env f) (a.numAt env x.1) t v []).map .data)).1
  rw [e3, hi] at this
  have e4 := Except.ok.inj this
  rw [← e3] at e4
  exact e4

theorem AlgName.element_runs {a : AlgName} {env : Env} {c : Ctor} {before after : List Stmt} {f : Flavor} {t : Ty} {vs : List t.Val}
    (h : a.Runs env c (before ++ [.append f (.unord t) vs] ++ after))
    (hr : a.RoomFor env c (progCost (before ++ [.append f (.unord t) vs] ++ after) + 192)) :
    ∀ v ∈ vs, a.Runs env c (before ++ [.append f t v, .call .result]) := by
  obtain ⟨h1, h2, h3, h4⟩ := runs_fine.1 h
  have hu : (Stmt.append f (.unord t) vs).Fine a env := h2 _ (by simp)
  have hcost : (Stmt.append f (.unord t) vs).cost = (vs.map (weight t)).sum + 16 := by simp only [Stmt.cost, weight]
  intro v hv
  obtain ⟨⟨a1, a2, a3⟩, a4⟩ := hu
  simp only [wellFormed] at a1
  simp only [Spec.Valid] at a2
  simp only [pointerFree] at a3
  simp only [Stmt.NoNull, NoEmpty] at a4
  refine runs_fine.2 ⟨h1, ?_, h3, roomFor_mono hr ?_⟩
  · intro p hp
    rcases List.mem_append.1 hp with hp | hp
    · exact h2 p (by simp [hp])
    · rcases List.mem_cons.1 hp with rfl | hp
      · exact ⟨⟨a1, a2 v hv, a3⟩, a4.imp id (Or.imp id fun h => h v hv)⟩
      · rw [List.mem_singleton.1 hp]
        exact ⟨rfl, .inr (by intro n h; cases h)⟩
  · have hle : weight t v ≤ (vs.map (weight t)).sum := le_sum_map (weight t) hv
    have e1 : progCost [.append f t v, .call .result] = weight t v + 192 := by simp [progCost, Stmt.cost]
    have e2 : progCost [.append f (.unord t) vs] = (vs.map (weight t)).sum + 16 := by rw [progCost_cons, hcost]; simp [progCost]
    rw [progCost_append, progCost_append, progCost_append, e1, e2]
    omega

theorem AlgName.unordered_ok {a : AlgName} {env : Env} {c : Ctor} {before after : List Stmt} {f : Flavor} {t : Ty} {vs : List t.Val} {ws : List W64}
    (h : a.Runs env c (before ++ [.append f (.unord t) vs] ++ after))
    (hr : a.RoomFor env c (progCost (before ++ [.append f (.unord t) vs] ++ after) + 192))
    (hw : List.Forall₂ (a.ElementHash env c before f t) vs ws) :
    ∃ rs, a.impl.execStmts env c (before ++ [.append f (.unord t) vs] ++ after) = .ok rs ∧
      a.impl.execStmts env c (before ++ [.append f (.int (.int .s8)) ws.sum, .append f .size vs.length] ++ after) = .ok rs := by
  obtain ⟨h1, h2, h3, h4⟩ := runs_fine.1 h
  have hu : (Stmt.append f (.unord t) vs).Fine a env := h2 _ (by simp)
  have hcost : (Stmt.append f (.unord t) vs).cost = (vs.map (weight t)).sum + 16 := by simp only [Stmt.cost, weight]
  have hel := element_runs h hr
  have hruns : a.Runs env c (before ++ [.append f (.int (.int .s8)) ws.sum, .append f .size vs.length] ++ after) := by
    refine runs_fine.2 ⟨h1, ?_, h3, roomFor_mono hr ?_⟩
    · intro p hp
      have fine : ∀ (t : Ty) (v : t.Val), wellFormed t = true → Spec.Valid (8 * env.ptrSz.n) t v → pointerFree t = true → NoEmpty t v → (Stmt.append f t v).Fine a env :=
        fun t v a1 a2 a3 a4 => ⟨⟨a1, a2, fun _ => a3⟩, .inr (.inr a4)⟩
      rcases List.mem_append.1 hp with hp | hp
      · rcases List.mem_append.1 hp with hp | hp
        · exact h2 p (by simp [hp])
        · rcases List.mem_cons.1 hp with rfl | hp
          · exact fine _ _ (by simp [wellFormed]) (by simp only [Spec.Valid]) (by simp [pointerFree]) (by simp only [NoEmpty])
          · rw [List.mem_singleton.1 hp]
            exact fine _ _ (by simp [wellFormed]) (by simp only [Spec.Valid]) (by simp [pointerFree]) (by simp only [NoEmpty])
      · exact h2 p (by simp [hp])
    · have e1 : progCost [.append f (.int (.int .s8)) ws.sum, .append f .size vs.length] = 16 := by simp [progCost, Stmt.cost, weight]
      have e2 : progCost [.append f (.unord t) vs] = (vs.map (weight t)).sum + 16 := by rw [progCost_cons, hcost]; simp [progCost]
      rw [progCost_append, progCost_append, progCost_append, progCost_append, e1, e2]
      omega
  refine ⟨_, exec_toks h, ?_⟩
  rw [exec_toks hruns]
  simp only [AlgName.toks_append]
  have hn : ∀ v w, v ∈ vs → a.ElementHash env c before f t v w → _ := fun v w hv => elementHash (hel v hv)
  generalize hx : ((a.machine env.sizeBits).run (c.start (a.machine env.sizeBits)) (a.toks env (c.start (a.machine env.sizeBits)) before)).1 = x at hn ⊢
  have key : a.toks env x [.append f (.int (.int .s8)) ws.sum, .append f .size vs.length] = a.toks env x [.append f (.unord t) vs] := by
    have hsum : (vs.map fun v => (a.numAt env x (message (layout env f) (a.numAt env x) t v [])).toNat).sum % 2 ^ 64 = ws.sum.toNat := by
      clear hel hruns hcost hu h hr h2 h4
      induction hw with
      | nil => rfl
      | @cons v w vs ws hvw _ ih =>
        have e := hn v w (List.mem_cons_self ..) hvw
        have ih := ih fun v w hv => hn v w (List.mem_cons_of_mem _ hv)
        rw [List.map_cons, List.sum_cons, List.sum_cons, BitVec.toNat_add, ← ih, ← e]
        generalize 2 ^ 64 = P
        rw [Nat.add_mod_mod]
    simp only [AlgName.toks, AlgName.tok, List.append_nil, message, List.map_append, List.nil_append]
    show List.map Tok.data ((layout env f).word 8 ws.sum.toNat) ++ _ = List.map Tok.data ((layout env f).word 8 _) ++ _
    rw [← hsum, show (2 : Nat) ^ 64 = 256 ^ 8 by decide, word_mod]
  rw [key]

end Hash2

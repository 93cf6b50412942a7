import Verif.Spec.Exceptions
import Verif.Lemmas.Parts
/-
The calls hash_append makes on the hash object, and what the first of them feed.
-/
namespace Hash2
open Spec

/-- the machine, and what it has been fed -/
def logMachine {R : Type} (S : Machine R) : Machine R where
  S := S.S × List Byte
  absorb s bs := (S.absorb s.1 bs, s.2 ++ bs)
  res s := (((S.res s.1).1, s.2), (S.res s.1).2)
  init := (S.init, [])
  seed k := (S.seed k, [])
  bytes b := (S.bytes b, [])

/-- the calls pass these bytes, each at least one -/
def Passes (calls : List (Ptr × Nat)) (bs : List Byte) : Prop :=
  stream (calls.map fun c => .update c.1 c.2) = some (bs.map .data) ∧ ∀ c ∈ calls, c.2 ≠ 0

theorem Passes.snoc {calls : List (Ptr × Nat)} {l bs : List Byte} (h : Passes calls l) (more : List Byte) (hb : bs.length ≠ 0) :
    Passes (calls ++ [(.mem (bs ++ more), bs.length)]) (l ++ bs) := by
  refine ⟨?_, fun c hc => ?_⟩
  · rw [List.map_append, stream_append, h.1]
    simp [stream, Op.toks]
  · rcases List.mem_append.1 hc with hc | hc
    · exact h.2 c hc
    · rw [List.mem_singleton.1 hc]; exact hb

def logging_implements {A : HashAlg} {env : Env} {S : Machine A.R} (I : Implements A env S) : Implements A.logging env (logMachine S) where
  Rel s a := I.Rel s.1 a.1 ∧ Passes s.2 a.2
  nullSafe := I.nullSafe
  fits a bs := I.fits a.1 bs
  fits_nil s a h := I.fits_nil s.1 a.1 h.1
  fits_append a xs ys := I.fits_append a.1 xs ys
  absorb_nil s a h := Prod.ext (I.absorb_nil s.1 a.1 h.1) (List.append_nil _)
  absorb_append a xs ys := Prod.ext (I.absorb_append a.1 xs ys) (List.append_assoc ..).symm
  update_ok s a bs more h hf := by
    obtain ⟨s', e, r⟩ := I.update_ok s.1 a.1 bs more h.1 hf
    refine ⟨(s', if bs.length = 0 then s.2 else s.2 ++ [(.mem (bs ++ more), bs.length)]), ?_, r, ?_⟩
    · show (A.update env s.1 (.mem (bs ++ more)) bs.length).map _ = _
      rw [e]
      rfl
    · show Passes _ (a.2 ++ bs)
      by_cases hb : bs.length = 0
      · have e : (if bs.length = 0 then s.2 else s.2 ++ [(.mem (bs ++ more), bs.length)]) = s.2 := if_pos hb
        obtain rfl := List.length_eq_zero_iff.1 hb
        rw [e, List.append_nil]
        exact h.2
      · have e : (if bs.length = 0 then s.2 else s.2 ++ [(.mem (bs ++ more), bs.length)]) = s.2 ++ [(.mem (bs ++ more), bs.length)] := if_neg hb
        rw [e]
        exact h.2.snoc more hb
  null_ok hn s a h := by
    show (A.update env s.1 .null 0).map _ = _
    rw [I.null_ok hn s.1 a.1 h.1]
    rfl
  result_ok s a h := by
    obtain ⟨s', e, r⟩ := I.result_ok s.1 a.1 h.1
    refine ⟨(s', s.2), ?_, r, h.2⟩
    show (A.result env s.1).map _ = _
    rw [e]
    rfl
  init_ok := by
    obtain ⟨s, e, r⟩ := I.init_ok
    exact ⟨(s, []), by show (A.init env).map _ = _; rw [e]; rfl, r, rfl, by simp⟩
  seed_ok k := by
    obtain ⟨s, e, r⟩ := I.seed_ok k
    exact ⟨(s, []), by show (A.initSeed env k).map _ = _; rw [e]; rfl, r, rfl, by simp⟩
  bytesFit := I.bytesFit
  bytes_ok bs more hf := by
    obtain ⟨s, e, r⟩ := I.bytes_ok bs more hf
    exact ⟨(s, []), by show (A.initBytes env _ _).map _ = _; rw [e]; rfl, r, rfl, by simp⟩
  bytes_null_ok := by
    obtain ⟨s, e, r⟩ := I.bytes_null_ok
    exact ⟨(s, []), by show (A.initBytes env _ _).map _ = _; rw [e]; rfl, r, rfl, by simp⟩

/-- the first of the calls pass the first of the bytes -/
theorem Passes.take {calls done : List (Ptr × Nat)} {bs : List Byte} (h : Passes calls bs) (hd : done <+: calls) :
    ∃ m, m <+: bs ∧ Passes done m := by
  obtain ⟨rest, rfl⟩ := hd
  have h1 := h.1
  rw [List.map_append, stream_append] at h1
  simp only [Option.bind_eq_bind, Option.pure_def, Option.bind_eq_some_iff, Option.some.injEq] at h1
  obtain ⟨x, hx, y, hy, e⟩ := h1
  obtain ⟨m, m', rfl, hm, -⟩ := List.map_eq_append_iff.1 e.symm
  exact ⟨m, List.prefix_append _ _, by rw [hx, hm], fun c hc => h.2 c (List.mem_append_left _ hc)⟩

theorem Passes.length {calls : List (Ptr × Nat)} {bs : List Byte} (h : Passes calls bs) : (calls.map Prod.snd).sum = bs.length := by
  induction calls generalizing bs with
  | nil =>
    have := Option.some.inj h.1
    rw [show bs = [] from List.map_eq_nil_iff.1 this.symm]
    rfl
  | cons c calls ih =>
    have h1 := h.1
    simp only [List.map_cons, stream, Option.bind_eq_bind, Option.pure_def, Option.bind_eq_some_iff, Option.some.injEq] at h1
    obtain ⟨x, hx, y, hy, e⟩ := h1
    obtain ⟨m, m', rfl, hm, hm'⟩ := List.map_eq_append_iff.1 e.symm
    have := ih ⟨by rw [hy, hm'], fun c hc => h.2 c (List.mem_cons_of_mem _ hc)⟩
    simp only [List.map_cons, List.sum_cons, this, List.length_append]
    congr 1
    obtain ⟨p, n⟩ := c
    cases p with
    | null =>
      have := h.2 _ (List.mem_cons_self ..)
      simp only [Op.toks] at hx
      split at hx
      · exact absurd ‹_› this
      · cases hx
    | mem b =>
      simp only [Op.toks] at hx
      split at hx
      · have e := Option.some.inj hx
        rw [← hm] at e
        have := congrArg List.length e
        simp only [List.length_map, List.length_take] at this
        omega
      · cases hx

/-- the bytes are the bytes passed -/
theorem Passes.bytes {calls : List (Ptr × Nat)} {bs : List Byte} (h : Passes calls bs) : bytesPassed calls = bs := by
  induction calls generalizing bs with
  | nil =>
    have := Option.some.inj h.1
    rw [show bs = [] from List.map_eq_nil_iff.1 this.symm]
    rfl
  | cons c calls ih =>
    have h1 := h.1
    simp only [List.map_cons, stream, Option.bind_eq_bind, Option.pure_def, Option.bind_eq_some_iff, Option.some.injEq] at h1
    obtain ⟨x, hx, y, hy, e⟩ := h1
    obtain ⟨m, m', rfl, hm, hm'⟩ := List.map_eq_append_iff.1 e.symm
    have := ih ⟨by rw [hy, hm'], fun c hc => h.2 c (List.mem_cons_of_mem _ hc)⟩
    show c.1.bytes c.2 ++ bytesPassed calls = _
    rw [this]
    congr 1
    have inj : ∀ xs ys : List Byte, xs.map Tok.data = ys.map Tok.data → xs = ys := fun xs ys =>
      (List.map_injective_iff.2 fun _ _ h => Tok.data.inj h).eq_iff.1
    obtain ⟨p, n⟩ := c
    cases p with
    | null =>
      simp only [Op.toks] at hx
      split at hx
      · have e := Option.some.inj hx
        rw [← hm] at e
        rw [show m = [] from List.map_eq_nil_iff.1 e.symm]
        rfl
      · cases hx
    | mem b =>
      simp only [Op.toks] at hx
      split at hx
      · have e := Option.some.inj hx
        rw [← hm] at e
        exact inj _ _ e
      · cases hx

/-- the statements that make the calls feed the bytes -/
theorem Passes.toks {a : AlgName} {env : Env} {calls : List (Ptr × Nat)} {bs : List Byte} (h : Passes calls bs) (s : (a.machine env.sizeBits).S) :
    a.toks env s (calls.map updateStmt) = bs.map .data := by
  induction calls generalizing bs s with
  | nil =>
    have := Option.some.inj h.1
    rw [← this]
    rfl
  | cons c calls ih =>
    have h1 := h.1
    simp only [List.map_cons, stream, Option.bind_eq_bind, Option.pure_def, Option.bind_eq_some_iff, Option.some.injEq] at h1
    obtain ⟨x, hx, y, hy, e⟩ := h1
    obtain ⟨m, m', rfl, hm, hm'⟩ := List.map_eq_append_iff.1 e.symm
    simp only [List.map_cons, AlgName.toks]
    rw [ih ⟨by rw [hy, hm'], fun c hc => h.2 c (List.mem_cons_of_mem _ hc)⟩, List.map_append]
    congr 1
    show (Op.toks _).getD [] = _
    rw [hx, hm]
    rfl

/-- the statements are valid and pass no null pointers -/
theorem Passes.fine {a : AlgName} {env : Env} {calls : List (Ptr × Nat)} {bs : List Byte} (h : Passes calls bs) :
    ∀ q ∈ calls.map updateStmt, q.Fine a env := by
  induction calls generalizing bs with
  | nil => simp
  | cons c calls ih =>
    have h1 := h.1
    simp only [List.map_cons, stream, Option.bind_eq_bind, Option.pure_def, Option.bind_eq_some_iff, Option.some.injEq] at h1
    obtain ⟨x, hx, y, hy, e⟩ := h1
    obtain ⟨m, m', rfl, hm, hm'⟩ := List.map_eq_append_iff.1 e.symm
    intro q hq
    rcases List.mem_cons.1 hq with rfl | hq
    · refine ⟨?_, .inr fun n hn => ?_⟩
      · show (Op.toks _).isSome = true
        rw [hx]; rfl
      · injection hn with hp hn
        subst hn
        have := h.2 _ (List.mem_cons_self ..)
        rw [hp] at hx
        simp only [Op.toks] at hx
        split at hx
        · exact this ‹_›
        · cases hx
    · exact ih ⟨by rw [hy, hm'], fun c hc => h.2 c (List.mem_cons_of_mem _ hc)⟩ q hq

theorem Passes.cost {calls : List (Ptr × Nat)} {bs : List Byte} (h : Passes calls bs) : progCost (calls.map updateStmt) = bs.length := by
  rw [← h.length]
  unfold progCost
  rw [List.map_map]
  rfl

/-- **The calls hash_append makes** on the hash object pass the message -/
theorem AlgName.calls_ok {a : AlgName} {env : Env} {c : Ctor} {before : List Stmt} {f : Flavor} {t : Ty} {v : t.Val}
    (h : a.Runs env c (before ++ [.append f t v])) :
    ∃ calls, a.impl.callsMade env c before f t v = .ok calls ∧
      Passes calls (a.impl.messageOf env c (a.impl.expand env c [] before) f t v) := by
  obtain ⟨s₀, e₀, r₀⟩ := start_ok h.ctor h.room
  have hcost : progCost (before ++ [.append f t v]) = progCost before + weight t v := by
    rw [progCost_append]; simp [progCost, Stmt.cost]
  obtain ⟨ts, s, h1, h2, h3, h4, h5⟩ := stmts_ok (a.impls env) (P := a.NullOk env) nullSafe e₀ r₀ h.round (fun x => a.numberOf_ok env _ x) before [] [] s₀ rfl
    (.inr (by intro n; simp)) r₀ (fun p hp => h.valid p (List.mem_append_left _ hp)) (h.null.imp id fun h p hp => h p (List.mem_append_left _ hp))
    (fun ts hts => fits (room_of h.room (by rw [hcost]; simpa using Nat.le_add_right_of_le hts)))
  have hfit : ∀ bs : List Byte, bs.length ≤ weight t v → (a.impls env).FitsAll (c.start (a.machine env.sizeBits)) (ts ++ bs.map .data) := fun bs hb =>
    fits (room_of h.room (by rw [hcost, cost_append, cost_data]; omega))
  have hq := h.valid (.append f t v) (by simp)
  have hn : a.NullOk env ∨ env.emptyDataNull = false ∨ NoEmpty t v := h.null.imp id fun h => h (.append f t v) (by simp)
  have hst : stream (a.impl.expand env c [] before) = some ts := h1
  have hrel : (a.impls env).Rel s ((a.machine env.sizeBits).run (c.start (a.machine env.sizeBits)) ts).1 := h5
  have hroom : _root_.Hash2.Room (logging_implements (a.impls env)) (((a.machine env.sizeBits).run (c.start (a.machine env.sizeBits)) ts).1, []) [] (weight t v) := by
    intro bs hl
    exact (((a.impls env).run_data hrel bs).2).1 (((a.impls env).fitsAll_append _ _).1 (hfit bs hl)).2
  obtain ⟨s1, e1, r1⟩ := append_feeds (I := logging_implements (a.impls env))
    (a₀ := (((a.machine env.sizeBits).run (c.start (a.machine env.sizeBits)) ts).1, ([] : List Byte))) (f := f)
    (a.impl.number env c (a.impl.expand env c [] before)) (int := a.impl.numberOf env)
    (fun s x _ => a.numberOf_ok env _ x.1) h.round (fun bs hb => by
      have h0 : (a.impls env).FitsAll (c.start (a.machine env.sizeBits)) ts := by simpa using hfit [] (Nat.zero_le _)
      exact number_eq (a.impls env) e₀ r₀ hst (h2.imp nullSafe id) bs
        (((a.impls env).fitsAll_append _ _).2 ⟨h0, (((a.impls env).run_data hrel bs).2).2 hb⟩))
    t v ⟨hq.1, hq.2.1, hq.2.2, hn.imp nullSafe id⟩ [] (weight t v) hroom (Nat.le_refl _) (s, [])
    ⟨by have := (a.impls env).absorb_nil s _ hrel; show (a.impls env).Rel s ((a.machine _).absorb _ []); rw [this]; exact hrel, rfl, by simp⟩
  refine ⟨s1.2, ?_, ?_⟩
  · unfold HashAlg.callsMade
    rw [e₀, Except.bind_ok, h4, Except.bind_ok]
    simp only [hashAppend]
    rw [e1]
    rfl
  · have := r1.2
    exact this

/-- **hash_append left by an exception**: programs that go on -/
theorem AlgName.interrupted_ok {a : AlgName} {env : Env} {c : Ctor} {before after : List Stmt} {f : Flavor} {t : Ty} {v : t.Val}
    (h : a.Runs env c (before ++ [.append f t v] ++ after)) {done : List (Ptr × Nat)} {m bs : List Byte} (hd : Passes done m)
    (hm : m <+: bs) (hb : bs.length ≤ weight t v) :
    ∃ rs, a.impl.execStmts env c (before ++ done.map updateStmt ++ after) = .ok rs ∧
      a.impl.execStmts env c (before ++ [.call (.update (.mem m) m.length)] ++ after) = .ok rs := by
  have hl : m.length ≤ weight t v := Nat.le_trans hm.length_le hb
  obtain ⟨h1, h2, h3, h4⟩ := AlgName.runs_fine.1 h
  have room : ∀ xs, progCost xs ≤ weight t v → a.RoomFor env c (progCost (before ++ xs ++ after)) := by
    intro xs hx
    have : progCost (before ++ xs ++ after) ≤ progCost (before ++ [.append f t v] ++ after) := by
      have hw : progCost [.append f t v] = weight t v := by simp [progCost, Stmt.cost]
      rw [progCost_append, progCost_append, progCost_append, progCost_append]
      omega
    cases a with
    | spooky2_128 =>
      have h4 : c.cost + progCost (before ++ [.append f t v] ++ after) < 2 ^ env.sizeBits := h4
      show c.cost + _ < _
      omega
    | _ => trivial
  have runs : ∀ xs : List Stmt, (∀ q ∈ xs, q.Fine a env) → progCost xs ≤ weight t v → a.Runs env c (before ++ xs ++ after) := by
    intro xs hx hc
    refine AlgName.runs_fine.2 ⟨h1, fun p hp => ?_, h3, room xs hc⟩
    rcases List.mem_append.1 hp with hp | hp
    · rcases List.mem_append.1 hp with hp | hp
      · exact h2 p (by simp [hp])
      · exact hx p hp
    · exact h2 p (by simp [hp])
  refine AlgName.replace_ok (runs _ hd.fine (by rw [hd.cost]; exact hl)) (runs _ ?_ ?_) fun s => ?_
  · intro q hq
    rw [List.mem_singleton.1 hq]
    exact ⟨by show (Op.toks _).isSome = true; simp [Op.toks], .inr fun n hn => by cases hn⟩
  · simp [progCost, Stmt.cost, hl]
  · rw [hd.toks, AlgName.toks_one]
    simp [AlgName.tok, Op.toks]

end Hash2

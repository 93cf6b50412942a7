import Verif.Spec.Work
import Verif.Lemmas.Buffers
import Verif.Lemmas.Examples
import Verif.Lemmas.Flood
/-
Lemmas for Props/Work.lean.
-/
namespace Hash2
open Spec

/-! ### A map of chaining values that commutes with the block function commutes with everything -/

/-- the object with another representation of the chaining value -/
def BlockState.mapSt {σ τ : Type} (g : σ → τ) (s : BlockState σ) : BlockState τ := ⟨g s.st, s.buf, s.m, s.n⟩

theorem Except.map_bind_comm {α α' β β' ε : Type} {x : Except ε α} {x' : Except ε α'} {f : α → Except ε β} {f' : α' → Except ε β'}
    (ga : α → α') (gb : β → β') (hx : x' = x.map ga) (hf : ∀ a, f' (ga a) = (f a).map gb) : (x' >>= f') = (x >>= f).map gb := by
  subst hx
  cases x with
  | error e => rfl
  | ok a => exact hf a

structure CfgMap {σ τ : Type} (c : BlockCfg σ) (c' : BlockCfg τ) (g : σ → τ) : Prop where
  N : c'.N = c.N
  ctr : c'.ctrBits = c.ctrBits
  early : c'.early = c.early
  clear : c'.clear = c.clear
  loop : c'.whileLoop = c.whileLoop
  tr : ∀ p st, c'.transform p (g st) = (c.transform p st).map g

section
variable {σ τ : Type} {g : σ → τ}

theorem whileBlocks_map {N : Nat} {f : Ptr → σ → M σ} {f' : Ptr → τ → M τ} (h : ∀ p st, f' p (g st) = (f p st).map g) :
    ∀ (fuel : Nat) (p : Ptr) (n : Nat) (st : σ),
      whileBlocks N f' fuel p n (g st) = (whileBlocks N f fuel p n st).map (fun x => (x.1, x.2.1, g x.2.2)) := by
  intro fuel
  induction fuel with
  | zero => intro p n st; unfold whileBlocks; split <;> rfl
  | succ fuel ih =>
    intro p n st
    unfold whileBlocks
    split
    · refine Except.map_bind_comm g _ (h p st) (fun st => ?_)
      refine Except.map_bind_comm id _ (by cases p.add N <;> rfl) (fun p => ?_)
      exact ih _ _ _
    · rfl

theorem countedBlocks_map {N : Nat} {f : Ptr → σ → M σ} {f' : Ptr → τ → M τ} (h : ∀ p st, f' p (g st) = (f p st).map g) :
    ∀ (k : Nat) (p : Ptr) (st : σ), countedBlocks N f' k p (g st) = (countedBlocks N f k p st).map g := by
  intro k
  induction k with
  | zero => intro p st; rfl
  | succ k ih =>
    intro p st
    unfold countedBlocks
    refine Except.map_bind_comm g _ (h p st) (fun st => ?_)
    refine Except.map_bind_comm id _ (by cases p.add N <;> rfl) (fun p => ?_)
    exact ih _ _

variable {c : BlockCfg σ} {c' : BlockCfg τ}

theorem Except.map_id_eq {α ε : Type} (x : Except ε α) : x = x.map id := by cases x <;> rfl

theorem bulk_map (h : CfgMap c c' g) (p : Ptr) (n : Nat) (st : σ) :
    bulk c' p n (g st) = (bulk c p n st).map (fun x => (x.1, x.2.1, g x.2.2)) := by
  unfold bulk
  rw [h.loop, h.N]
  split
  · exact whileBlocks_map h.tr _ _ _ _
  · refine Except.map_bind_comm g _ (countedBlocks_map h.tr _ _ _) (fun st => ?_)
    refine Except.map_bind_comm id _ (Except.map_id_eq _) (fun p => ?_)
    exact Except.map_bind_comm id _ (Except.map_id_eq _) (fun n => rfl)

theorem updateTail_map (env : Env) (h : CfgMap c c' g) (s : BlockState σ) (p : Ptr) (n : Nat) :
    updateTail env c' (s.mapSt g) p n = (updateTail env c s p n).map (BlockState.mapSt g) := by
  unfold updateTail
  rw [h.N]
  refine Except.map_bind_comm id _ (Except.map_id_eq _) (fun _ => ?_)
  refine Except.map_bind_comm (fun x : Ptr × Nat × σ => (x.1, x.2.1, g x.2.2)) _ (bulk_map h p n s.st) (fun x => ?_)
  obtain ⟨p, n, st⟩ := x
  simp only [BlockState.mapSt]
  refine Except.map_bind_comm id _ (Except.map_id_eq _) (fun _ => ?_)
  refine Except.map_bind_comm (BlockState.mapSt g) _ ?_ (fun s => ?_)
  · split
    · exact Except.map_bind_comm id _ (Except.map_id_eq _) (fun _ => rfl)
    · rfl
  · exact Except.map_bind_comm id _ (Except.map_id_eq _) (fun _ => rfl)

theorem update_map (env : Env) (h : CfgMap c c' g) (s : BlockState σ) (p : Ptr) (n : Nat) :
    update env c' (s.mapSt g) p n = (update env c s p n).map (BlockState.mapSt g) := by
  unfold update
  rw [h.N, h.early, h.ctr, h.clear]
  refine Except.map_bind_comm id _ (Except.map_id_eq _) (fun _ => ?_)
  split
  · rfl
  · simp only [BlockState.mapSt]
    by_cases hm : s.m > 0
    · rw [if_pos hm]
      refine Eq.trans (if_pos hm) ?_
      refine Except.map_bind_comm id _ (Except.map_id_eq _) (fun k => ?_)
      simp only [id]
      refine Except.map_bind_comm id _ (Except.map_id_eq _) (fun buf => ?_)
      refine Except.map_bind_comm id _ (Except.map_id_eq _) (fun p => ?_)
      refine Except.map_bind_comm id _ (Except.map_id_eq _) (fun n' => ?_)
      simp only [id]
      generalize (if n < k then n else k) = j
      by_cases hj : s.m + j < c.N
      · rw [if_pos hj, if_pos hj]
        rfl
      · rw [if_neg hj, if_neg hj]
        refine Except.map_bind_comm id _ (Except.map_id_eq _) (fun _ => ?_)
        refine Except.map_bind_comm g _ (h.tr _ _) (fun st => ?_)
        refine Except.map_bind_comm (BlockState.mapSt g) _ ?_ (fun s => updateTail_map env h s p n')
        split
        · exact Except.map_bind_comm id _ (Except.map_id_eq _) (fun _ => rfl)
        · rfl
    · rw [if_neg hm]
      refine Eq.trans (if_neg hm) ?_
      exact updateTail_map env h ⟨s.st, s.buf, s.m, (s.n + n) % 2 ^ c.ctrBits⟩ p n

theorem mdPad_map (env : Env) (h : CfgMap c c' g) (P : PadCfg) (s : BlockState σ) :
    mdPad env c' P (s.mapSt g) = (mdPad env c P s).map (BlockState.mapSt g) := by
  rw [mdPad_eq, mdPad_eq, h.N]
  refine Except.map_bind_comm id _ (Except.map_id_eq _) (fun _ => ?_)
  refine Except.map_bind_comm id _ (Except.map_id_eq _) (fun bits => ?_)
  refine Except.map_bind_comm id _ (Except.map_id_eq _) (fun k => ?_)
  refine Except.map_bind_comm (BlockState.mapSt g) _ (update_map env h s _ _) (fun s => ?_)
  refine Except.map_bind_comm (BlockState.mapSt g) _ (update_map env h s _ _) (fun s => ?_)
  exact Except.map_bind_comm id _ (Except.map_id_eq _) (fun _ => rfl)

end

section
variable {σ : Type} {c : BlockCfg σ}

/-- forgetting what has been written down -/
theorem observed_fst : CfgMap c.observed c Prod.fst where
  N := rfl
  ctr := rfl
  early := rfl
  clear := rfl
  loop := rfl
  tr p st := by
    show c.transform p st.1 = ((c.transform p st.1) >>= fun x => .ok (x, st.2 ++ [p.bytes c.N])).map Prod.fst
    cases c.transform p st.1 <;> rfl

/-- something having been written down before -/
theorem observed_prefix (l0 : List (List Byte)) : CfgMap c.observed c.observed (fun x => (x.1, l0 ++ x.2)) where
  N := rfl
  ctr := rfl
  early := rfl
  clear := rfl
  loop := rfl
  tr p st := by
    show ((c.transform p st.1) >>= fun x => .ok (x, l0 ++ st.2 ++ [p.bytes c.N]))
      = ((c.transform p st.1) >>= fun x => .ok (x, st.2 ++ [p.bytes c.N])).map (fun x => (x.1, l0 ++ x.2))
    cases c.transform p st.1 with
    | error e => rfl
    | ok x => simp [Except.map]

theorem watch_fst (s : BlockState σ) : s.watch.mapSt Prod.fst = s := rfl

/-- watching does not change what happens -/
theorem updateObserved_fst (env : Env) (s : BlockState σ) (p : Ptr) (n : Nat) :
    (updateObserved env c s p n).map Prod.fst = update env c s p n := by
  have := update_map env (observed_fst (c := c)) s.watch p n
  rw [watch_fst] at this
  rw [this, updateObserved]
  cases update env c.observed s.watch p n <;> rfl

/-- the block function, writing down -/
def observe (f : σ → List Byte → σ) (x : σ × List (List Byte)) (b : List Byte) : σ × List (List Byte) := (f x.1 b, x.2 ++ [b])

theorem foldl_observe (f : σ → List Byte → σ) (bl : List (List Byte)) (x : σ × List (List Byte)) :
    bl.foldl (observe f) x = (bl.foldl f x.1, x.2 ++ bl) := by
  induction bl generalizing x with
  | nil => simp
  | cons b bl ih => simp [ih, observe]

theorem EngineOk.observed {f : σ → List Byte → σ} (h : EngineOk c f) : EngineOk c.observed (observe f) where
  pos := h.pos
  tr st b more hb := by
    have := h.tr st.1 b more hb
    show ((c.transform (.mem (b ++ more)) st.1) >>= fun x => .ok (x, st.2 ++ [(b ++ more).take c.N])) = _
    rw [this, List.take_append_of_le_length (by show c.N ≤ _; rw [hb]; exact Nat.le_refl _)]
    have hb : b.length = c.N := hb
    rw [← hb, List.take_length]
    rfl

theorem Rel.watched {s : BlockState σ} {a : AState σ} (h : Rel c s a) : Rel c.observed s.watch ⟨(a.st, []), a.tail, a.n⟩ where
  st := by show (s.st, _) = _; rw [h.st]
  buf_len := h.buf_len
  m := h.m
  buf := h.buf
  n := h.n
  wf := ⟨h.wf.tail_lt, h.wf.n_lt⟩
  sync := h.sync
  clear := h.clear

/-- update(), watched -/
theorem updateObserved_ok (env : Env) {f : σ → List Byte → σ} (h : EngineOk c f) {s : BlockState σ} {a : AState σ} (hr : Rel c s a)
    (bs more : List Byte) (hw : (a.n + bs.length) % 2 ^ c.ctrBits % c.N = (a.n + bs.length) % c.N) :
    ∃ s', updateObserved env c s (.mem (bs ++ more)) bs.length = .ok (s', blocks c.N (a.tail ++ bs)) := by
  obtain ⟨s', e, r⟩ := update_ok env h.observed hr.watched bs more hw
  refine ⟨s'.seen.1, ?_⟩
  have e2 : s'.st.2 = blocks c.N (a.tail ++ bs) := by
    rw [r.st]
    show ((blocks c.N (a.tail ++ bs)).foldl (observe f) (a.st, [])).2 = _
    rw [foldl_observe]
    rfl
  simp only [updateObserved, e, Except.bind_ok, Except.pure_eq, ← e2]
  rfl

end

/-- a class, its block function writing down -/
def MdCfg.observed {σ : Type} (D : MdCfg σ) : MdCfg (σ × List (List Byte)) where
  cfg env := (D.cfg env).observed
  pad := D.pad
  iv := (D.iv, [])
  out env st := D.out env st.1

/-- the specification, its compression function writing down -/
def Spec.Md.observed {τ : Type} (T : Md τ) : Md (τ × List (List Byte)) where
  N := T.N
  L := T.L
  encLen := T.encLen
  iv := (T.iv, [])
  compress := observe T.compress
  out st := T.out st.1

theorem Spec.Md.observed_chain {τ : Type} (T : Md τ) (log : List Byte) : T.observed.chain log = (T.chain log, blocks T.N log) := by
  show (blocks T.N log).foldl (observe T.compress) (T.iv, []) = _
  rw [foldl_observe]
  rfl

/-- if the class implements the specification, so does the class that writes down -/
def MdOk.observed {σ τ : Type} {D : MdCfg σ} {T : Md τ} {env : Env} (K : MdOk D T env) : MdOk D.observed T.observed env where
  u x := (K.u x.1, x.2)
  v x := (K.v x.1, x.2)
  uv x := by simp [K.uv]
  vu x := by simp [K.vu]
  hN := K.hN
  ctr := K.ctr
  clear := K.clear
  pos := K.pos
  dvd := K.dvd
  hL := K.hL
  thr := K.thr
  over := K.over
  padLen := K.padLen
  bitsLen := K.bitsLen
  tr st b more h := by
    have h : b.length = T.N := h
    have := K.tr st.1 b more h
    show (((D.cfg env).transform (.mem (b ++ more)) (K.u st.1)) >>= fun x => .ok (x, st.2 ++ [(b ++ more).take (D.cfg env).N])) = _
    rw [this, K.hN, List.take_append_of_le_length (by omega), ← h, List.take_length]
    rfl
  iv := by show (D.iv, _) = _; rw [K.iv]; rfl
  enc := K.enc
  encLen := K.encLen
  out st := K.out st.1

/-- result(), watched -/
theorem MdOk.resultObserved_ok {σ τ : Type} {D : MdCfg σ} {T : Md τ} {env : Env} (K : MdOk D T env) {s : BlockState σ} {log : List Byte}
    (h : Hash2.Rel (D.cfg env) s (K.abs log)) :
    ∃ s', D.resultObserved env s = .ok (s', T.hash log, blocks T.N (rest T.N log ++ T.pad log.length)) ∧
      D.result env s = .ok (s', T.hash log) := by
  -- the same object, after writing down all blocks so far
  have h' : Hash2.Rel (D.observed.cfg env) (s.watch.mapSt (fun x => (x.1, blocks T.N log ++ x.2))) (K.observed.abs log) := by
    have hw := h.watched
    refine ⟨?_, hw.buf_len, hw.m, hw.buf, hw.n, ⟨hw.wf.tail_lt, hw.wf.n_lt⟩, hw.sync, hw.clear⟩
    show (s.st, blocks T.N log ++ []) = (K.u (T.observed.chain log).1, (T.observed.chain log).2)
    rw [Md.observed_chain, List.append_nil, h.st]
    rfl
  obtain ⟨s1, e1, r1, st1⟩ := K.observed.pad_ok h'
  have hm := mdPad_map env (observed_prefix (c := D.cfg env) (blocks T.N log)) D.pad s.watch
  have e1' : mdPad env (D.cfg env).observed D.pad (s.watch.mapSt (fun x => (x.1, blocks T.N log ++ x.2))) = .ok s1 := e1
  rw [e1'] at hm
  have hf := mdPad_map env (observed_fst (c := D.cfg env)) D.pad s.watch
  rw [watch_fst] at hf
  obtain ⟨s2, e2, r2⟩ := K.res h
  cases hp : mdPad env (D.cfg env).observed D.pad s.watch with
  | error e => rw [hp] at hm; cases hm
  | ok t =>
    rw [hp] at hm hf
    simp only [Except.map, Except.ok.injEq] at hm hf
    have hst : s1.st = (K.u (T.chain (log ++ T.pad log.length)), blocks T.N (log ++ T.pad log.length)) := by
      rw [st1]
      show (K.u (T.observed.chain _).1, (T.observed.chain _).2) = _
      rw [Md.observed_chain]
      rfl
    have hst' : t.st.1 = K.u (T.chain (log ++ T.pad log.length)) ∧ blocks T.N log ++ t.st.2 = blocks T.N (log ++ T.pad log.length) := by
      rw [hm] at hst
      simp only [BlockState.mapSt, Prod.mk.injEq] at hst
      exact hst
    have hbl : t.st.2 = blocks T.N (rest T.N log ++ T.pad log.length) := by
      have := hst'.2
      rw [(blocks_split K.pos log _).1] at this
      exact List.append_cancel_left this
    refine ⟨t.seen.1, ?_, ?_⟩
    · simp only [MdCfg.resultObserved, hp, Except.bind_ok, hst'.1, K.out, Except.pure_eq, BlockState.seen, hbl]
      rfl
    · simp only [MdCfg.result, hf, Except.bind_ok, Except.pure_eq]
      show (D.out env t.st.1 >>= fun d => _) = _
      rw [hst'.1, K.out]
      rfl


theorem blocks_length (N : Nat) (l : List Byte) : (blocks N l).length = l.length / N := by simp [blocks]

/-- how many blocks the padding completes -/
theorem MdOk.pad_blocks {σ τ : Type} {D : MdCfg σ} {T : Md τ} {env : Env} (K : MdOk D T env) (log : List Byte) :
    (blocks T.N (rest T.N log ++ T.pad log.length)).length = if log.length % T.N + 1 + T.L ≤ T.N then 1 else 2 := by
  have hp := K.pos
  have hL := K.hL
  have hk := Nat.mod_lt log.length hp
  have hz := K.zeros log.length (log.length % T.N) rfl
  rw [blocks_length, List.length_append, rest_length]
  have hpl : (T.pad log.length).length = (T.N - (log.length + 1 + T.L) % T.N) % T.N + 1 + T.L := by
    simp only [Md.pad, List.cons_append, List.length_cons, List.length_append, List.length_replicate, K.encLen]; omega
  rw [hpl, ← hz]
  split
  · rw [if_pos (by omega), show log.length % T.N + (T.N - T.L - log.length % T.N + T.L) = T.N by omega, Nat.div_self hp]
  · rw [if_neg (by omega), show log.length % T.N + (2 * T.N - T.L - log.length % T.N + T.L) = T.N * 2 by omega, Nat.mul_div_cancel_left _ hp]

/-- the incomplete block of the object is w; of an hmac, the second has none -/
def DigestName.holds : (d : DigestName) → d.machine.S → List Byte → Prop
  | .md5_128, s, w => rest 64 (s : List Byte) = w
  | .sha1_160, s, w => rest 64 (s : List Byte) = w
  | .sha2_256, s, w => rest 64 (s : List Byte) = w
  | .sha2_224, s, w => rest 64 (s : List Byte) = w
  | .sha2_512, s, w => rest 128 (s : List Byte) = w
  | .sha2_384, s, w => rest 128 (s : List Byte) = w
  | .sha2_512_224, s, w => rest 128 (s : List Byte) = w
  | .sha2_512_256, s, w => rest 128 (s : List Byte) = w
  | .ripemd_128, s, w => rest 64 (s : List Byte) = w
  | .ripemd_160, s, w => rest 64 (s : List Byte) = w
  | .hmac H, s, w => H.holds s.1 [] ∧ H.holds s.2 w

theorem DigestName.holds_nil (d : DigestName) : ∀ s : d.machine.S, d.aligned s → d.holds s [] := by
  have key : ∀ N (l : List Byte), l.length % N = 0 → rest N l = [] := fun N l h => List.length_eq_zero_iff.1 (by rw [rest_length]; exact h)
  induction d with
  | hmac H ih => exact fun s h => ⟨ih _ h.1, ih _ h.2⟩
  | _ => exact fun s h => key _ _ h

theorem DigestName.holds_absorb (d : DigestName) : ∀ (s : d.machine.S) (w bs : List Byte), d.holds s w →
    d.holds (d.machine.absorb s bs) (rest d.B (w ++ bs)) := by
  have key : ∀ N, 0 < N → ∀ (l w bs : List Byte), rest N l = w → rest N (l ++ bs) = rest N (w ++ bs) := by
    intro N hN l w bs h
    rw [← h]; exact (blocks_split hN l bs).2
  induction d with
  | hmac H ih => exact fun s w bs h => ⟨h.1, ih _ _ _ h.2⟩
  | _ => exact fun s w bs h => key _ (by decide) _ _ _ h

theorem DigestName.holds_lt (d : DigestName) : ∀ (s : d.machine.S) (w : List Byte), d.holds s w → w.length < d.B := by
  have key : ∀ N, 0 < N → ∀ (l w : List Byte), rest N l = w → w.length < N := by
    intro N hN l w h
    rw [← h]; exact rest_length_lt hN l
  induction d with
  | hmac H ih => exact fun s w h => ih _ _ h.2
  | _ => exact fun s w h => key _ (by decide) _ _ h

theorem DigestName.holds_start (env : Env) (d : DigestName) (c : Ctor) : d.holds (c.start d.machine) [] := by
  have md : ∀ {τ : Type} (T : Md τ) (k : W64), ∃ b, T.machine.seed k = T.machine.bytes b := by
    intro τ T k
    by_cases hk : k = 0
    · exact ⟨[], by subst hk; rfl⟩
    · refine ⟨natLE 8 k.toNat, ?_⟩
      show (if k = 0 then [] else natLE 8 k.toNat ++ T.pad 8) =
        if natLE 8 k.toNat = [] then [] else natLE 8 k.toNat ++ T.pad (natLE 8 k.toNat).length
      rw [if_neg hk, if_neg (by intro h; have := congrArg List.length h; simp [natLE_length] at this), natLE_length]
  have hs : ∀ k, ∃ b, d.machine.seed k = d.machine.bytes b := by
    intro k
    cases d with
    | hmac H => exact ⟨_, rfl⟩
    | _ => exact md _ k
  apply d.holds_nil
  cases c with
  | default => exact (d.init_aligned env).1
  | seed k =>
    obtain ⟨b, e⟩ := hs k
    show d.aligned (d.machine.seed k)
    rw [e]; exact (d.init_aligned env).2 b
  | bytes p n => exact (d.init_aligned env).2 _

theorem Except.eq_of_map_fst {α β ε : Type} {x : Except ε (α × β)} {y : Except ε α} (h : x.map Prod.fst = y) {a : α} {b : β} (e : x = .ok (a, b)) :
    y = .ok a := by
  rw [← h, e]; rfl

theorem MdOk.updateObserved_ok {σ τ : Type} {D : MdCfg σ} {T : Md τ} {env : Env} (K : MdOk D T env) {s : BlockState σ} {log : List Byte}
    (h : Hash2.Rel (D.cfg env) s (K.abs log)) (bs more : List Byte) :
    ∃ s', Hash2.updateObserved env (D.cfg env) s (.mem (bs ++ more)) bs.length = .ok (s', blocks T.N (rest T.N log ++ bs)) ∧
      D.update env s (.mem (bs ++ more)) bs.length = .ok s' := by
  obtain ⟨s', e⟩ := Hash2.updateObserved_ok env K.engine h bs more (by rw [K.ctr, K.hN]; exact Nat.mod_mod_of_dvd _ K.dvd)
  refine ⟨s', ?_, Except.eq_of_map_fst (updateObserved_fst env s _ _) e⟩
  rw [e, K.hN]
  rfl

theorem DigestName.updateObserved_ok (env : Env) (d : DigestName) : ∀ (s : d.impl.State) (a : d.machine.S) (w : List Byte), (d.impls env).1.Rel s a →
    d.holds a w → ∀ bs more : List Byte, ∃ s', d.updateObserved env s (.mem (bs ++ more)) bs.length = .ok (s', blocks d.B (w ++ bs)) ∧
      d.impl.update env s (.mem (bs ++ more)) bs.length = .ok s' := by
  induction d with
  | hmac H ih =>
    intro s a w h hw bs more
    have h := (hmacImpls_rel _ _ _ (H.impls env).2.2.2.1 _ _).1 h
    obtain ⟨s1, e1, e2⟩ := ih _ _ _ h.2 hw.2 bs more
    refine ⟨(⟨Hmac.State.outer s, s1⟩ : Hmac.State H.impl), ?_, ?_⟩
    · show (H.updateObserved env (Hmac.State.inner s) _ _ >>= fun x => _) = _
      rw [e1]; rfl
    · show Hmac.update H.impl env s _ _ = _
      unfold Hmac.update
      rw [e2]; rfl
  | md5_128 => intro s a w h hw bs more; rw [← hw]; exact (Md5.ok env).updateObserved_ok h bs more
  | sha1_160 => intro s a w h hw bs more; rw [← hw]; exact (Sha1.ok env).updateObserved_ok h bs more
  | sha2_256 => intro s a w h hw bs more; rw [← hw]; exact (Sha2.sha256_ok env).updateObserved_ok h bs more
  | sha2_224 => intro s a w h hw bs more; rw [← hw]; exact (Sha2.sha224_ok env).updateObserved_ok h bs more
  | sha2_512 => intro s a w h hw bs more; rw [← hw]; exact (Sha2.sha512_ok env).updateObserved_ok h bs more
  | sha2_384 => intro s a w h hw bs more; rw [← hw]; exact (Sha2.sha384_ok env).updateObserved_ok h bs more
  | sha2_512_224 => intro s a w h hw bs more; rw [← hw]; exact (Sha2.sha512_224_ok env).updateObserved_ok h bs more
  | sha2_512_256 => intro s a w h hw bs more; rw [← hw]; exact (Sha2.sha512_256_ok env).updateObserved_ok h bs more
  | ripemd_128 => intro s a w h hw bs more; rw [← hw]; exact (Rip128.ok env).updateObserved_ok h bs more
  | ripemd_160 => intro s a w h hw bs more; rw [← hw]; exact (Rip160.ok env).updateObserved_ok h bs more

theorem MdOk.finish {σ τ : Type} {D : MdCfg σ} {T : Md τ} {env : Env} (K : MdOk D T env) {s : BlockState σ} {log w : List Byte}
    (h : Hash2.Rel (D.cfg env) s (K.abs log)) (hw : rest T.N log = w) (hL : T.N / 8 = T.L) :
    ∃ s' l, D.resultObserved env s = .ok (s', T.hash log, l) ∧ D.result env s = .ok (s', T.hash log) ∧
      l.length = if w.length % T.N + 1 + T.N / 8 ≤ T.N then 1 else 2 := by
  obtain ⟨s', e, e'⟩ := K.resultObserved_ok h
  refine ⟨s', _, e, e', ?_⟩
  rw [K.pad_blocks, hL, ← hw, rest_length, Nat.mod_mod]

theorem DigestName.resultObserved_ok (env : Env) (d : DigestName) : ∀ (s : d.impl.State) (a : d.machine.S) (w : List Byte), (d.impls env).1.Rel s a →
    d.holds a w → ∃ s' l, d.resultObserved env s = .ok (s', (d.machine.res a).2, l) ∧ d.impl.result env s = .ok (s', (d.machine.res a).2) ∧
      l.length = d.finishCost w.length := by
  induction d with
  | hmac H ih =>
    intro s a w h hw
    have h := (hmacImpls_rel _ _ _ (H.impls env).2.2.2.1 _ _).1 h
    obtain ⟨s1, l1, e1, e1', c1⟩ := ih _ _ _ h.2 hw.2
    obtain ⟨s2, e2, e2'⟩ := H.updateObserved_ok env _ _ _ h.1 hw.1 (H.machine.res a.2).2 []
    obtain ⟨t2, u2, r2⟩ := (H.impls env).1.update_ok (Hmac.State.outer s) a.1 (H.machine.res a.2).2 [] h.1 ((H.impls env).2.1.fits _ _)
    have : s2 = t2 := by
      have := e2'.symm.trans u2
      exact Except.ok.inj this
    subst this
    have hsz := H.res_size a.2
    have hw2 := H.holds_absorb _ _ (H.machine.res a.2).2 hw.1
    obtain ⟨s3, l3, e3, e3', c3⟩ := ih _ _ _ r2 hw2
    rw [List.append_nil] at e2 e2'
    refine ⟨(⟨s3, s1⟩ : Hmac.State H.impl), l1 ++ blocks H.B ([] ++ (H.machine.res a.2).2) ++ l3, ?_, ?_, ?_⟩
    · show (H.resultObserved env (Hmac.State.inner s) >>= fun x => _) = _
      rw [e1]
      simp only [Except.bind_ok]
      rw [e2]
      simp only [Except.bind_ok]
      rw [e3]
      rfl
    · show Hmac.result H.impl env s = _
      unfold Hmac.result
      rw [e1']
      simp only [Except.bind_ok]
      rw [e2']
      simp only [Except.bind_ok]
      rw [e3']
      rfl
    · have hlt : H.resultSize < H.B := by
        clear * -
        induction H with
        | hmac H ih => exact ih
        | _ => decide
      rw [List.length_append, List.length_append, c1, c3, List.nil_append, blocks_length, rest_length, hsz, Nat.div_eq_of_lt hlt,
        Nat.mod_eq_of_lt hlt]
      rfl
  | md5_128 => exact fun s a w h hw => (Md5.ok env).finish h hw rfl
  | sha1_160 => exact fun s a w h hw => (Sha1.ok env).finish h hw rfl
  | sha2_256 => exact fun s a w h hw => (Sha2.sha256_ok env).finish h hw rfl
  | sha2_224 => exact fun s a w h hw => (Sha2.sha224_ok env).finish h hw rfl
  | sha2_512 => exact fun s a w h hw => (Sha2.sha512_ok env).finish h hw rfl
  | sha2_384 => exact fun s a w h hw => (Sha2.sha384_ok env).finish h hw rfl
  | sha2_512_224 => exact fun s a w h hw => (Sha2.sha512_224_ok env).finish h hw rfl
  | sha2_512_256 => exact fun s a w h hw => (Sha2.sha512_256_ok env).finish h hw rfl
  | ripemd_128 => exact fun s a w h hw => (Rip128.ok env).finish h hw rfl
  | ripemd_160 => exact fun s a w h hw => (Rip160.ok env).finish h hw rfl


/-- the same for any algorithm with a block size -/
def AlgName.holds (sz : Nat) : (a : AlgName) → (a.machine sz).S → List Byte → Prop
  | .digest d, s, w => d.holds s w
  | .siphash_64, s, w => Obj.tail s = w
  | .siphash_32, s, w => Obj.tail s = w
  | .xxhash_64, s, w => Obj.tail s = w
  | .xxhash_32, s, w => Obj.tail s = w
  | .murmur3_32, s, w => Obj.tail s = w
  | .murmur3_128, s, w => Obj.tail s = w
  | .spooky2_128, s, w => Obj.tail s = w
  | .fnv1a_32, _, _ => True
  | .fnv1a_64, _, _ => True

theorem AlgName.holds_absorb (sz : Nat) {a : AlgName} {B : Nat} (hB : a.blockBytes = some B) : ∀ (s : (a.machine sz).S) (w bs : List Byte),
    a.holds sz s w → a.holds sz ((a.machine sz).absorb s bs) (rest B (w ++ bs)) := by
  have key : ∀ {τ R : Type} (T : BlockHash τ R) (o : Obj τ) (w bs : List Byte), o.tail = w → (T.absorb o bs).tail = rest T.N (w ++ bs) := by
    rintro τ R T o w bs rfl; rfl
  cases a with
  | digest d => cases hB; exact d.holds_absorb
  | fnv1a_32 => cases hB
  | fnv1a_64 => cases hB
  | _ => cases hB; exact fun s w bs h => key _ s w bs h

theorem AlgName.holds_res (env : Env) (a : AlgName) (s : (a.machine env.sizeBits).S) :
    a.holds env.sizeBits ((a.machine env.sizeBits).res s).1 [] := by
  cases a with
  | digest d => exact d.holds_nil _ (d.res_aligned env s)
  | fnv1a_32 => trivial
  | fnv1a_64 => trivial
  | _ => rfl

theorem AlgName.holds_start (env : Env) (a : AlgName) (c : Ctor) :
    a.holds env.sizeBits (c.start (a.machine env.sizeBits)) [] := by
  cases a with
  | digest d => exact d.holds_start env c
  | fnv1a_32 => trivial
  | fnv1a_64 => trivial
  | siphash_64 =>
    cases c with
    | default => rfl
    | seed k => rfl
    | bytes p n => show (SIP.byteSeed _ _ _ : Obj _).tail = []; unfold SIP.byteSeed; split; exact rfl; split <;> rfl
  | siphash_32 =>
    cases c with
    | default => rfl
    | seed k => rfl
    | bytes p n => show (SIP.byteSeed _ _ _ : Obj _).tail = []; unfold SIP.byteSeed; split; exact rfl; split <;> rfl
  | xxhash_64 =>
    cases c with
    | default => rfl
    | seed k => rfl
    | bytes p n => show (if _ then _ else _ : Obj _).tail = []; split <;> rfl
  | xxhash_32 =>
    cases c with
    | default => rfl
    | seed k => rfl
    | bytes p n => show (if _ then _ else _ : Obj _).tail = []; split <;> rfl
  | murmur3_32 => exact mur32_start _ c
  | murmur3_128 => exact mur128_start _ c
  | spooky2_128 =>
    cases c with
    | default => rfl
    | seed k => rfl
    | bytes p n => show (if _ then _ else _ : Obj _).tail = []; split <;> rfl

theorem StreamOk.updateObserved_ok {σ τ R : Type} {c : BlockCfg σ} {res : BlockState σ → M (BlockState σ × R)} {T : BlockHash τ R}
    (K : StreamOk c res T) (env : Env) {s : BlockState σ} {o : Obj τ} (h : K.RelO s o) (bs more : List Byte) (hf : K.fits o bs) :
    ∃ s', Hash2.updateObserved env c s (.mem (bs ++ more)) bs.length = .ok (s', blocks T.N (o.tail ++ bs)) ∧
      update env c s (.mem (bs ++ more)) bs.length = .ok s' := by
  obtain ⟨s', e⟩ := Hash2.updateObserved_ok env K.engine h bs more (by
    rw [K.ctr, K.hN]
    rcases hf with hf | hf
    · exact Nat.mod_mod_of_dvd _ hf
    · show (o.n + bs.length) % 2 ^ T.ctr % T.N = (o.n + bs.length) % T.N
      rw [Nat.mod_eq_of_lt hf])
  refine ⟨s', ?_, Except.eq_of_map_fst (updateObserved_fst env s _ _) e⟩
  rw [e, K.hN]
  rfl

theorem AlgName.updateObserved_ok (env : Env) {a : AlgName} {B : Nat} (hB : a.blockBytes = some B) : ∀ (s : a.impl.State)
    (x : (a.machine env.sizeBits).S) (w : List Byte), (a.impls env).Rel s x → a.holds env.sizeBits x w →
    ∀ bs more : List Byte, (a.impls env).fits x bs →
      ∃ s', a.updateObserved env s (.mem (bs ++ more)) bs.length = .ok (s', blocks B (w ++ bs)) ∧
      a.impl.update env s (.mem (bs ++ more)) bs.length = .ok s' := by
  cases a with
  | digest d => cases hB; exact fun s x w h hw bs more _ => d.updateObserved_ok env s x w h hw bs more
  | fnv1a_32 => cases hB
  | fnv1a_64 => cases hB
  | siphash_64 => cases hB; rintro s x w h rfl bs more hf; exact (Sip64.ok env).updateObserved_ok env h bs more hf
  | siphash_32 => cases hB; rintro s x w h rfl bs more hf; exact (Sip32.ok env).updateObserved_ok env h bs more hf
  | xxhash_64 => cases hB; rintro s x w h rfl bs more hf; exact (XX64.ok env).updateObserved_ok env h bs more hf
  | xxhash_32 => cases hB; rintro s x w h rfl bs more hf; exact (XX32.ok env).updateObserved_ok env h bs more hf
  | murmur3_32 => cases hB; rintro s x w h rfl bs more hf; exact (Mur32.ok env).updateObserved_ok env h bs more hf
  | murmur3_128 => cases hB; rintro s x w h rfl bs more hf; exact (Mur128.ok env).updateObserved_ok env h bs more hf
  | spooky2_128 => cases hB; rintro s x w h rfl bs more hf; exact (Spooky.ok env).updateObserved_ok env h bs more hf

/-- update( nullptr, 0 ), watched -/
theorem DigestName.updateObserved_fst (env : Env) (d : DigestName) : ∀ (s : d.impl.State) (p : Ptr) (n : Nat),
    (d.updateObserved env s p n).map Prod.fst = d.impl.update env s p n := by
  induction d with
  | hmac H ih =>
    intro s p n
    show ((H.updateObserved env (Hmac.State.inner s) p n) >>= fun x => .ok ((⟨Hmac.State.outer s, x.1⟩ : Hmac.State H.impl), x.2)).map Prod.fst
      = (H.impl.update env (Hmac.State.inner s) p n >>= fun x => .ok (⟨Hmac.State.outer s, x⟩ : Hmac.State H.impl))
    rw [← ih]
    cases H.updateObserved env (Hmac.State.inner s) p n <;> rfl
  | _ => exact fun s p n => Hash2.updateObserved_fst env s p n

theorem AlgName.updateObserved_fst (env : Env) (a : AlgName) : ∀ (s : a.impl.State) (p : Ptr) (n : Nat),
    (a.updateObserved env s p n).map Prod.fst = a.impl.update env s p n := by
  have key : ∀ {α β ε : Type} (x : Except ε α) (b : β), (x >>= fun a => .ok (a, b)).map Prod.fst = x := by
    intro α β ε x b; cases x <;> rfl
  cases a with
  | digest d => exact d.updateObserved_fst env
  | fnv1a_32 => exact fun s p n => key _ _
  | fnv1a_64 => exact fun s p n => key _ _
  | _ => exact fun s p n => Hash2.updateObserved_fst env s p n


theorem Spec.bytesSince_append (ts : List Tok) (t : Tok) : bytesSince (ts ++ [t]) = match t with | .data b => bytesSince ts ++ [b] | .fin => [] := by
  unfold bytesSince
  rw [List.foldl_append]
  cases t <;> rfl

theorem rest_rest {B : Nat} (hB : 0 < B) (x y : List Byte) : rest B (rest B x ++ y) = rest B (x ++ y) := (blocks_split hB x y).2.symm

theorem AlgName.blockBytes_pos {a : AlgName} {B : Nat} (hB : a.blockBytes = some B) : 0 < B := by
  cases a with
  | digest d => cases hB; exact d.B_pos
  | _ => cases hB <;> decide

/-- the incomplete block of an object is the end of the bytes since the last result() -/
theorem AlgName.holds_run (env : Env) {a : AlgName} {B : Nat} (hB : a.blockBytes = some B) (c : Ctor) (ts : List Tok) :
    a.holds env.sizeBits ((a.machine env.sizeBits).run (c.start (a.machine env.sizeBits)) ts).1 (rest B (bytesSince ts)) := by
  have hp := AlgName.blockBytes_pos hB
  have key : ∀ M : Machine a.impl.R, ∀ hd : M.S → List Byte → Prop, (∀ s w bs, hd s w → hd (M.absorb s bs) (rest B (w ++ bs))) →
      (∀ s, hd (M.res s).1 []) → ∀ s, hd s [] → hd (M.run s ts).1 (rest B (bytesSince ts)) := by
    intro M hd h1 h2 s h0
    induction ts using List.reverseRecOn with
    | nil => rw [show bytesSince [] = [] from rfl, rest_short (by simpa using hp)]; exact h0
    | append_singleton ts t ih =>
      rw [Machine.run_append, Spec.bytesSince_append]
      cases t with
      | data b =>
        have := h1 _ _ [b] ih
        rw [rest_rest hp] at this
        exact this
      | fin =>
        show hd (M.res _).1 (rest B [])
        rw [rest_short (by simpa using hp)]
        exact h2 _
  exact key _ _ (a.holds_absorb env.sizeBits hB) (a.holds_res env) _ (a.holds_start env c)

theorem updateObserved_of_watch {σ : Type} {c : BlockCfg σ} {env : Env} {s : BlockState σ} {p : Ptr} {n : Nat}
    (h : update env c.observed s.watch p n = .ok s.watch) : updateObserved env c s p n = .ok (s, []) := by
  unfold updateObserved
  rw [h]
  rfl

theorem MdOk.updateObserved_null {σ τ : Type} {D : MdCfg σ} {T : Md τ} {env : Env} (K : MdOk D T env) {s : BlockState σ} {log : List Byte}
    (h : Hash2.Rel (D.cfg env) s (K.abs log)) (hs : (D.cfg env).early = true ∨ env.loops = true) :
    Hash2.updateObserved env (D.cfg env) s .null 0 = .ok (s, []) := by
  apply updateObserved_of_watch
  have hw := h.watched
  cases he : (D.cfg env).early with
  | true => exact update_zero_early env hw he _
  | false =>
    have hc : env.loops = true := by simpa [he] using hs
    by_cases hm : s.m = 0
    · exact update_null_empty env K.engine.observed hw hm
    · exact update_null_loops env hw he hc (by show 0 < s.m; omega)

theorem DigestName.updateObserved_null (env : Env) (d : DigestName) (hs : d.isSha2 = false ∨ env.loops = true) : ∀ (s : d.impl.State)
    (a : d.machine.S), (d.impls env).1.Rel s a → d.updateObserved env s .null 0 = .ok (s, []) := by
  induction d with
  | hmac H ih =>
    intro s a h
    have h := (hmacImpls_rel _ _ _ (H.impls env).2.2.2.1 _ _).1 h
    show (H.updateObserved env (Hmac.State.inner s) _ _ >>= fun x => _) = _
    rw [ih hs _ _ h.2]; rfl
  | md5_128 => exact fun s a h => (Md5.ok env).updateObserved_null h (.inl rfl)
  | sha1_160 => exact fun s a h => (Sha1.ok env).updateObserved_null h (.inl rfl)
  | sha2_256 => exact fun s a h => (Sha2.sha256_ok env).updateObserved_null h (.inr (by simpa [isSha2] using hs))
  | sha2_224 => exact fun s a h => (Sha2.sha224_ok env).updateObserved_null h (.inr (by simpa [isSha2] using hs))
  | sha2_512 => exact fun s a h => (Sha2.sha512_ok env).updateObserved_null h (.inr (by simpa [isSha2] using hs))
  | sha2_384 => exact fun s a h => (Sha2.sha384_ok env).updateObserved_null h (.inr (by simpa [isSha2] using hs))
  | sha2_512_224 => exact fun s a h => (Sha2.sha512_224_ok env).updateObserved_null h (.inr (by simpa [isSha2] using hs))
  | sha2_512_256 => exact fun s a h => (Sha2.sha512_256_ok env).updateObserved_null h (.inr (by simpa [isSha2] using hs))
  | ripemd_128 => exact fun s a h => (Rip128.ok env).updateObserved_null h (.inl rfl)
  | ripemd_160 => exact fun s a h => (Rip160.ok env).updateObserved_null h (.inl rfl)

theorem StreamOk.updateObserved_null {σ τ R : Type} {c : BlockCfg σ} {res : BlockState σ → M (BlockState σ × R)} {T : BlockHash τ R}
    (K : StreamOk c res T) (env : Env) {s : BlockState σ} {o : Obj τ} (h : K.RelO s o) : Hash2.updateObserved env c s .null 0 = .ok (s, []) :=
  updateObserved_of_watch (update_zero_early env h.watched K.early _)

theorem AlgName.updateObserved_null (env : Env) {a : AlgName} (hs : a.NullOk env) : ∀ (s : a.impl.State)
    (x : (a.machine env.sizeBits).S), (a.impls env).Rel s x → a.updateObserved env s .null 0 = .ok (s, []) := by
  cases a with
  | digest d => exact d.updateObserved_null env hs
  | fnv1a_32 => intro s x h; show (_ >>= fun y => _) = _; rw [(AlgName.fnv1a_32.impls env).null_ok trivial s x h]; rfl
  | fnv1a_64 => intro s x h; show (_ >>= fun y => _) = _; rw [(AlgName.fnv1a_64.impls env).null_ok trivial s x h]; rfl
  | siphash_64 => exact fun s x h => (Sip64.ok env).updateObserved_null env h
  | siphash_32 => exact fun s x h => (Sip32.ok env).updateObserved_null env h
  | xxhash_64 => exact fun s x h => (XX64.ok env).updateObserved_null env h
  | xxhash_32 => exact fun s x h => (XX32.ok env).updateObserved_null env h
  | murmur3_32 => exact fun s x h => (Mur32.ok env).updateObserved_null env h
  | murmur3_128 => exact fun s x h => (Mur128.ok env).updateObserved_null env h
  | spooky2_128 => exact fun s x h => (Spooky.ok env).updateObserved_null env h


theorem DigestName.finishCost_mod (d : DigestName) : ∀ k : Nat, d.finishCost (k % d.B) = d.finishCost k := by
  induction d with
  | hmac H ih => intro k; show H.finishCost (k % H.B) + _ = H.finishCost k + _; rw [ih]
  | _ => intro k; simp only [DigestName.finishCost, Nat.mod_mod]

theorem DigestName.work_mod (d : DigestName) (ts : List Tok) : ∀ k : Nat, d.work (k % d.B) ts = d.work k ts := by
  induction ts with
  | nil => intro k; rfl
  | cons t ts ih =>
    intro k
    cases t with
    | data b =>
      show (if (k % d.B + 1) % d.B = 0 then 1 else 0) + d.work (k % d.B + 1) ts = (if (k + 1) % d.B = 0 then 1 else 0) + d.work (k + 1) ts
      rw [Nat.mod_add_mod, ← ih (k % d.B + 1), Nat.mod_add_mod, ih]
    | fin =>
      show d.finishCost (k % d.B) + _ = d.finishCost k + _
      rw [d.finishCost_mod]

theorem DigestName.work_data (d : DigestName) (bs : List Byte) (ts : List Tok) : ∀ k : Nat,
    d.work k (bs.map .data ++ ts) = (k % d.B + bs.length) / d.B + d.work (k + bs.length) ts := by
  have hB := d.B_pos
  induction bs with
  | nil =>
    intro k
    rw [List.map_nil, List.nil_append, List.length_nil, Nat.add_zero, Nat.add_zero, Nat.div_eq_of_lt (Nat.mod_lt _ hB), Nat.zero_add]
  | cons b bs ih =>
    intro k
    show (if (k + 1) % d.B = 0 then 1 else 0) + d.work (k + 1) (bs.map .data ++ ts) = _
    rw [ih, List.length_cons, show k + 1 + bs.length = k + (bs.length + 1) by omega, ← Nat.add_assoc]
    congr 1
    have h1 := Nat.mod_lt k hB
    have h2 : (k + 1) % d.B = (k % d.B + 1) % d.B := by rw [Nat.mod_add_mod]
    by_cases h : k % d.B + 1 = d.B
    · have h3 : (k + 1) % d.B = 0 := by rw [h2, h, Nat.mod_self]
      rw [if_pos h3, h3, show k % d.B + (bs.length + 1) = bs.length + d.B by omega, Nat.add_div_right _ hB, Nat.zero_add]
      omega
    · have h3 : (k + 1) % d.B = k % d.B + 1 := by rw [h2, Nat.mod_eq_of_lt (by omega)]
      rw [if_neg (by omega), h3, show k % d.B + 1 + bs.length = k % d.B + (bs.length + 1) by omega]
      omega

theorem DigestName.runCounted_ok (env : Env) (d : DigestName) (ops : List Op) : ∀ (ts : List Tok), stream ops = some ts →
    ((AlgName.digest d).NullOk env ∨ NoNull ops) → ∀ (s : d.impl.State) (x : d.machine.S) (w : List Byte), (d.impls env).1.Rel s x → d.holds x w →
    ∃ s', (∃ rs, d.impl.toHash.run env s ops = .ok (s', rs)) ∧ d.runCounted env s ops = .ok (s', d.work w.length ts) := by
  induction ops with
  | nil =>
    intro ts hs hn s x w h hw
    simp only [stream, Option.some.injEq] at hs; subst hs
    exact ⟨s, ⟨[], rfl⟩, rfl⟩
  | cons op ops ih =>
    intro ts hs hn s x w h hw
    simp only [stream, Option.bind_eq_bind, Option.pure_def, Option.bind_eq_some_iff, Option.some.injEq] at hs
    obtain ⟨t, ht, ts', hts', rfl⟩ := hs
    have hn' : (AlgName.digest d).NullOk env ∨ NoNull ops := hn.imp id (fun h n hm => h n (List.mem_cons_of_mem _ hm))
    cases op with
    | result =>
      simp only [Op.toks, Option.some.injEq] at ht; subst ht
      obtain ⟨s1, l, e1, e1', c1⟩ := d.resultObserved_ok env s x w h hw
      obtain ⟨t1, u1, r1⟩ := (d.impls env).1.result_ok s x h
      have : s1 = t1 := by
        have := Except.ok.inj (e1'.symm.trans u1)
        exact congrArg Prod.fst this
      subst this
      obtain ⟨s2, ⟨rs, e2⟩, e2'⟩ := ih ts' hts' hn' s1 _ [] r1 (d.holds_nil _ (d.res_aligned env x))
      refine ⟨s2, ⟨(d.machine.res x).2 :: rs, ?_⟩, ?_⟩
      · show (d.impl.result env s >>= fun y => d.impl.toHash.run env y.1 ops >>= fun z => _) = _
        rw [e1']
        simp only [Except.bind_ok]
        rw [e2]
        rfl
      · show (d.resultObserved env s >>= fun y => d.runCounted env y.1 ops >>= fun z => _) = _
        rw [e1]
        simp only [Except.bind_ok]
        rw [e2']
        simp only [Except.bind_ok, c1]
        rfl
    | update p n =>
      have key : ∃ (s1 : d.impl.State) (x1 : d.machine.S) (bs : List Byte), t = bs.map .data ∧ d.updateObserved env s p n = .ok (s1, blocks d.B (w ++ bs)) ∧
          (d.impls env).1.Rel s1 x1 ∧ d.holds x1 (rest d.B (w ++ bs)) := by
        cases p with
        | null =>
          simp only [Op.toks] at ht
          split at ht
          · rename_i h0
            subst h0
            simp only [Option.some.injEq] at ht; subst ht
            have hwl : w.length < d.B := d.holds_lt x w hw
            refine ⟨s, x, [], rfl, ?_, h, ?_⟩
            · rw [List.append_nil, blocks_short hwl]
              exact d.updateObserved_null env (hn.resolve_right (fun h => h 0 (by simp))) s x h
            · rw [List.append_nil, rest_short hwl]; exact hw
          · cases ht
        | mem bs =>
          simp only [Op.toks] at ht
          split at ht
          · rename_i hle
            simp only [Option.some.injEq] at ht
            obtain ⟨s1, e1, e1'⟩ := d.updateObserved_ok env s x w h hw (bs.take n) (bs.drop n)
            obtain ⟨t1, u1, r1⟩ := (d.impls env).1.update_ok s x (bs.take n) (bs.drop n) h ((d.impls env).2.1.fits _ _)
            have : s1 = t1 := Except.ok.inj (e1'.symm.trans u1)
            subst this
            rw [List.take_append_drop, List.length_take, Nat.min_eq_left hle] at e1
            exact ⟨s1, _, bs.take n, ht.symm, e1, r1, d.holds_absorb _ _ _ hw⟩
          · cases ht
      obtain ⟨s1, x1, bs, rfl, e1, r1, w1⟩ := key
      have e1' := Except.eq_of_map_fst (d.updateObserved_fst env s p n) e1
      obtain ⟨s2, ⟨rs, e2⟩, e2'⟩ := ih ts' hts' hn' s1 x1 _ r1 w1
      refine ⟨s2, ⟨rs, ?_⟩, ?_⟩
      · show (d.impl.update env s p n >>= fun y => d.impl.toHash.run env y ops) = _
        rw [e1']
        simp only [Except.bind_ok]
        rw [e2]
      · show (d.updateObserved env s p n >>= fun y => d.runCounted env y.1 ops >>= fun z => _) = _
        rw [e1]
        simp only [Except.bind_ok]
        rw [e2']
        have hwl : w.length < d.B := d.holds_lt x w hw
        simp only [Except.bind_ok, blocks_length, rest_length, List.length_append]
        rw [d.work_data, d.work_mod, Nat.mod_eq_of_lt hwl]
        rfl

end Hash2

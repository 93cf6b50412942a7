import Verif.Spec.Reach
import Verif.Lemmas.Bits
import Verif.Lemmas.Standards
/-
Lemmas for Props/Distinct.lean: objects in different states stay in different states.
-/
namespace Hash2
open Spec

/-- a relation between states that is kept by every step is kept by every stream -/
theorem Spec.Machine.run_pair {R : Type} (M : Machine R) (Q : M.S → M.S → Prop) (V : R → R → Prop) (ts : List Tok)
    (ha : ∀ s s' b, Q s s' → Q (M.absorb s [b]) (M.absorb s' [b]))
    (hr : Tok.fin ∈ ts → ∀ s s', Q s s' → Q (M.res s).1 (M.res s').1 ∧ V (M.res s).2 (M.res s').2) {s s' : M.S} (h : Q s s') :
    Q (M.run s ts).1 (M.run s' ts).1 ∧ List.Forall₂ V (M.run s ts).2 (M.run s' ts).2 := by
  induction ts generalizing s s' with
  | nil => exact ⟨h, .nil⟩
  | cons t ts ih =>
    cases t with
    | data b => exact ih (fun hf => hr (List.mem_cons_of_mem _ hf)) (ha _ _ b h)
    | fin =>
      have h1 := hr (List.mem_cons_self ..) s s' h
      have h2 := ih (fun hf => hr (List.mem_cons_of_mem _ hf)) h1.1
      exact ⟨h2.1, .cons h1.2 h2.2⟩

/-- the objects are at the same place in the stream but have different chaining values -/
def Ne1 {τ : Type} (o o' : Obj τ) : Prop := o.tail = o'.tail ∧ o.n = o'.n ∧ o.st ≠ o'.st

theorem ne1_start {τ : Type} {s s' : τ} (h : s ≠ s') : Ne1 (Obj.start s) (Obj.start s') := ⟨rfl, rfl, h⟩

section
variable {τ R : Type} (T : BlockHash τ R) (hc : ∀ b s t, T.compress s b = T.compress t b → s = t)
include hc

theorem ne1_absorb {o o' : Obj τ} (bs : List Byte) (h : Ne1 o o') : Ne1 (T.absorb o bs) (T.absorb o' bs) := by
  obtain ⟨h1, h2, h3⟩ := h
  refine ⟨by simp only [BlockHash.absorb, h1], by simp only [BlockHash.absorb, h2], fun h => h3 ?_⟩
  simp only [BlockHash.absorb, h1] at h
  exact XX64L.foldl_inj h hc

theorem ne1_run {init : Obj τ} {seed : BitVec 64 → Obj τ} {bytes : List Byte → Obj τ} (ts : List Tok)
    (hf : Tok.fin ∈ ts → ∀ tail n s t, (T.finish s tail n).1 = (T.finish t tail n).1 → s = t) {o o' : Obj τ} (h : Ne1 o o') :
    Ne1 ((T.machine init seed bytes).run o ts).1 ((T.machine init seed bytes).run o' ts).1 := by
  refine ((T.machine init seed bytes).run_pair Ne1 (fun _ _ => True) ts (fun s s' b h => ne1_absorb T hc [b] h) ?_ h).1
  intro hm s s' h
  refine ⟨⟨rfl, ?_, fun e => h.2.2 ?_⟩, trivial⟩
  · show T.renum ((s.n + (T.N - s.tail.length)) % 2 ^ T.ctr) = T.renum ((s'.n + (T.N - s'.tail.length)) % 2 ^ T.ctr)
    rw [h.1, h.2.1]
  · refine hf hm s.tail s.n _ _ ?_
    have e : (T.finish s.st s.tail s.n).1 = (T.finish s'.st s'.tail s'.n).1 := e
    rw [e, h.1, h.2.1]

theorem ne1_results {init : Obj τ} {seed : BitVec 64 → Obj τ} {bytes : List Byte → Obj τ} (ts : List Tok)
    (hf : ∀ tail n s t, (T.finish s tail n).1 = (T.finish t tail n).1 → s = t)
    (hr : ∀ tail n s t, (T.finish s tail n).2 = (T.finish t tail n).2 → s = t) {o o' : Obj τ} (h : Ne1 o o') :
    List.Forall₂ (· ≠ ·) ((T.machine init seed bytes).run o ts).2 ((T.machine init seed bytes).run o' ts).2 := by
  refine ((T.machine init seed bytes).run_pair Ne1 (· ≠ ·) ts (fun s s' b h => ne1_absorb T hc [b] h) ?_ h).2
  intro hm s s' h
  refine ⟨⟨rfl, ?_, fun e => h.2.2 ?_⟩, fun e => h.2.2 ?_⟩
  · show T.renum ((s.n + (T.N - s.tail.length)) % 2 ^ T.ctr) = T.renum ((s'.n + (T.N - s'.tail.length)) % 2 ^ T.ctr)
    rw [h.1, h.2.1]
  · refine hf s.tail s.n _ _ ?_
    have e : (T.finish s.st s.tail s.n).1 = (T.finish s'.st s'.tail s'.n).1 := e
    rw [e, h.1, h.2.1]
  · refine hr s.tail s.n _ _ ?_
    have e : (T.finish s.st s.tail s.n).2 = (T.finish s'.st s'.tail s'.n).2 := e
    rw [e, h.1, h.2.1]

end

theorem StreamOk.ne_of_ne1 {σ τ R : Type} {c : BlockCfg σ} {res : BlockState σ → M (BlockState σ × R)} {T : BlockHash τ R}
    (K : StreamOk c res T) {s s' : BlockState σ} {o o' : Obj τ} (h : K.RelO s o) (h' : K.RelO s' o') (hn : Ne1 o o') : s ≠ s' := by
  rintro rfl
  apply hn.2.2
  have e : K.u o.st = K.u o'.st := h.st.symm.trans h'.st
  rw [← K.vu o.st, e, K.vu]

/-- the state reached is in the state the specification says -/
theorem AlgName.reach_ok {env : Env} {c : Ctor} {ops : List Op} {ts : List Tok} {a : AlgName} (hv : c.Valid)
    (hs : stream ops = some ts) (hn : a.NullOk env ∨ NoNull ops) (h : a.Room env c ts) :
    ∃ s, a.impl.reach env c ops = .ok s ∧
      (a.impls env).Rel s ((a.machine env.sizeBits).run (c.start (a.machine env.sizeBits)) ts).1 := by
  obtain ⟨s, e, r⟩ := construct_ok hv h
  obtain ⟨s', e', r'⟩ := (a.impls env).run_ok r ops ts hs (hn.imp nullSafe id) (fits h)
  exact ⟨s', by simp only [HashAlg.reach, e, Except.bind_ok, e', Except.pure_eq], r'⟩

/-- different abstract states mean different states -/
theorem AlgName.endDifferent {env : Env} {c c' : Ctor} {ops : List Op} {ts : List Tok} {a : AlgName} (hv : c.Valid) (hv' : c'.Valid)
    (hs : stream ops = some ts) (hn : a.NullOk env ∨ NoNull ops) (h : a.Room env c ts) (h' : a.Room env c' ts)
    (hne : ∀ s s', (a.impls env).Rel s ((a.machine env.sizeBits).run (c.start (a.machine env.sizeBits)) ts).1 →
      (a.impls env).Rel s' ((a.machine env.sizeBits).run (c'.start (a.machine env.sizeBits)) ts).1 → s ≠ s') :
    a.impl.EndDifferent env c c' ops := by
  obtain ⟨s, e, r⟩ := reach_ok hv hs hn h
  obtain ⟨s', e', r'⟩ := reach_ok hv' hs hn h'
  exact ⟨s, s', e, e', hne s s' r r'⟩

theorem AlgName.resultsDiffer {env : Env} {c c' : Ctor} {ops : List Op} {ts : List Tok} {a : AlgName} (hv : c.Valid) (hv' : c'.Valid)
    (hs : stream ops = some ts) (hn : a.NullOk env ∨ NoNull ops) (h : a.Room env c ts) (h' : a.Room env c' ts)
    (hne : List.Forall₂ (· ≠ ·) ((a.machine env.sizeBits).run (c.start (a.machine env.sizeBits)) ts).2
      ((a.machine env.sizeBits).run (c'.start (a.machine env.sizeBits)) ts).2) :
    a.impl.ResultsDiffer env c c' ops :=
  ⟨_, _, exec_ok hv hs hn h, exec_ok hv' hs hn h', hne⟩

end Hash2

namespace Hash2
open Spec

theorem xor_left_cancel {w : Nat} {a x y : BitVec w} (h : a ^^^ x = a ^^^ y) : x = y := by
  have := congrArg (a ^^^ ·) h
  simpa [← BitVec.xor_assoc] using this

theorem sip_start_inj {w : Nat} (V : SIP.Variant w) {k0 k1 k0' k1' : BitVec w} (h : SIP.start V k0 k1 = SIP.start V k0' k1') :
    k0 = k0' ∧ k1 = k1' := by
  simp only [SIP.start, SIP.St.mk.injEq] at h
  exact ⟨xor_left_cancel h.1, xor_left_cancel h.2.1⟩

theorem sip_compress_inj {w : Nat} (V : SIP.Variant w) (ctr : Nat) (b : List Byte) (s t : SIP.St w)
    (h : (SIP.obj V ctr).compress s b = (SIP.obj V ctr).compress t b) : s = t := SIPL.compress_inj V _ h

theorem sip_finish_inj {w : Nat} (V : SIP.Variant w) (ctr : Nat) (tail : List Byte) (n : Nat) (s t : SIP.St w)
    (h : ((SIP.obj V ctr).finish s tail n).1 = ((SIP.obj V ctr).finish t tail n).1) : s = t :=
  SIPL.compress_inj V _ (SIPL.finalize_inj V h)

/-- a 64-bit integer is its two halves -/
theorem halves_inj {k k' : W64} (h0 : BitVec.ofNat 32 k.toNat = BitVec.ofNat 32 k'.toNat)
    (h1 : BitVec.ofNat 32 (k.toNat / 2 ^ 32) = BitVec.ofNat 32 (k'.toNat / 2 ^ 32)) : k = k' := by
  have h0 := congrArg BitVec.toNat h0
  have h1 := congrArg BitVec.toNat h1
  simp only [BitVec.toNat_ofNat] at h0 h1
  have := k.isLt; have := k'.isLt
  apply BitVec.eq_of_toNat_eq
  omega

theorem leWord_inj {n : Nat} {bs bs' : List Byte} (h : bs.length = n) (h' : bs'.length = n) (e : leWord (8 * n) bs = leWord (8 * n) bs') :
    bs = bs' := by
  have e := congrArg BitVec.toNat e
  unfold leWord at e
  rw [BitVec.toNat_ofNat, BitVec.toNat_ofNat, Nat.mod_eq_of_lt, Nat.mod_eq_of_lt] at e
  · exact leNat_inj (h.trans h'.symm) e
  · have := leNat_lt bs'; rwa [h', show 256 = 2 ^ 8 from rfl, ← Nat.pow_mul] at this
  · have := leNat_lt bs; rwa [h, show 256 = 2 ^ 8 from rfl, ← Nat.pow_mul] at this

end Hash2

namespace Hash2.SpookyL
open Spec SPOOKY

theorem eidx : ∀ i : Fin 12, i + 2 ≠ i + 11 := by decide

theorem endStep_inj (r : Nat) (i : Fin 12) {s t : Words 12} (h : endStep r i s = endStep r i t) : s = t := by
  unfold endStep at h
  simp only at h
  have h := put_inj1 (i + 1) (·.rotateLeft r) (fun x y h => rotl_inj r h) h
  have h := put_inj (i + 2) (i + 11) (eidx i) (· ^^^ ·) (fun z x y h => (BitVec.xor_left_inj _).1 h) h
  exact put_inj (i + 11) (i + 1) (idx1 i) (· + ·) (fun z x y h => (BitVec.add_left_inj _).1 h) h

theorem endPartial_inj {s t : Words 12} (h : endPartial s = endPartial t) : s = t := by
  unfold endPartial at h
  exact XX64L.foldl_inj h (fun _ _ _ h => endStep_inj _ _ h)

theorem finalBlock_inj (b : List Byte) {s t : Words 12} (h : finalBlock s b = finalBlock t b) : s = t := by
  have h := endPartial_inj (endPartial_inj (endPartial_inj h))
  funext i
  exact (BitVec.add_left_inj _).1 (congrFun h i)

theorem compress_inj (ctr : Nat) (b : List Byte) (s t : Words 12) (h : (obj ctr).compress s b = (obj ctr).compress t b) : s = t :=
  XX64L.foldl_inj (f := mix) h (fun b _ _ h => mix_inj b h)

theorem start_inj {k k' j j' : Word} (h : start k j = start k' j') : k = k' ∧ j = j' := ⟨congrFun h 0, congrFun h 1⟩

/-- different states; before the first block they differ in a word that the short hash leaves alone -/
def Ne2 (o o' : Obj (Words 12)) : Prop :=
  Ne1 o o' ∧ (o.n < 192 → o.tail.length = o.n ∧ ∃ i : Fin 12, i ≠ 0 ∧ i ≠ 1 ∧ o.st i ≠ o'.st i)

theorem ne2_start {k k' j j' : Word} (h : (k, j) ≠ (k', j')) : Ne2 (Obj.start (start k j)) (Obj.start (start k' j')) := by
  have hs : start k j ≠ start k' j' := fun e => h (by rw [(start_inj e).1, (start_inj e).2])
  refine ⟨ne1_start hs, fun _ => ⟨rfl, ?_⟩⟩
  by_cases hk : k = k'
  · refine ⟨4, by decide, by decide, fun e => h ?_⟩
    have e : j = j' := e
    rw [hk, e]
  · exact ⟨3, by decide, by decide, hk⟩

theorem ne2_absorb (ctr : Nat) {o o' : Obj (Words 12)} (b : Byte) (h : Ne2 o o') (hf : o.n + 1 < 2 ^ ctr) :
    Ne2 ((obj ctr).absorb o [b]) ((obj ctr).absorb o' [b]) := by
  refine ⟨ne1_absorb (obj ctr) (compress_inj ctr) [b] h.1, ?_⟩
  show (o.n + 1) % 2 ^ ctr < 192 → (rest 192 (o.tail ++ [b])).length = (o.n + 1) % 2 ^ ctr ∧ ∃ i : Fin 12, i ≠ 0 ∧ i ≠ 1 ∧
    (blocks 192 (o.tail ++ [b])).foldl (obj ctr).compress o.st i ≠ (blocks 192 (o'.tail ++ [b])).foldl (obj ctr).compress o'.st i
  rw [Nat.mod_eq_of_lt hf]
  intro hn
  obtain ⟨hl, hi⟩ := h.2 (by omega)
  have hs : (o.tail ++ [b]).length < 192 := by simp; omega
  rw [← h.1.1, rest_short hs, blocks_short hs]
  exact ⟨by simp; omega, hi⟩

theorem put_other {n : Nat} (s : Words n) (i : Fin n) (w : Word) {j : Fin n} (h : j ≠ i) : put s i w j = s j := by
  simp [put, h]

theorem finish_ne {s t : Words 12} (tail : List Byte) (n : Nat) (h : s ≠ t)
    (h2 : n < 192 → ∃ i : Fin 12, i ≠ 0 ∧ i ≠ 1 ∧ s i ≠ t i) : finish s tail n ≠ finish t tail n := by
  unfold finish
  by_cases hlt : n < 192
  · rw [if_pos hlt, if_pos hlt]
    obtain ⟨i, i0, i1, hi⟩ := h2 hlt
    intro e
    have e := congrFun e i
    simp only [put_other _ _ _ i0, put_other _ _ _ i1] at e
    exact hi e
  · rw [if_neg hlt, if_neg hlt]
    intro e
    exact h (XX64L.foldl_inj (finalBlock_inj _ e) (fun b _ _ h => mix_inj b h))

theorem renum_ge (ctr : Nat) {n : Nat} (h : 192 ≤ n) : (obj ctr).renum n = n := if_neg (Nat.not_lt.2 h)

theorem res_n_eq (ctr : Nat) (o : Obj (Words 12)) (h2 : o.n < 192 → o.tail.length = o.n) (hl : o.tail.length < 192)
    (hf : o.n + 192 < 2 ^ ctr) : 192 ≤ ((obj ctr).res o).1.n := by
  have hs : ((obj ctr).res o).1.n = (obj ctr).renum ((o.n + (192 - o.tail.length)) % 2 ^ ctr) := rfl
  rw [hs, Nat.mod_eq_of_lt (by omega), renum_ge ctr (by omega)]
  omega

theorem res_st (ctr : Nat) (o : Obj (Words 12)) : ((obj ctr).res o).1.st = finish o.st o.tail o.n := rfl
theorem res_n' (ctr : Nat) (o : Obj (Words 12)) :
    ((obj ctr).res o).1.n = (obj ctr).renum ((o.n + (192 - o.tail.length)) % 2 ^ ctr) := rfl
theorem res_tail (ctr : Nat) (o : Obj (Words 12)) : ((obj ctr).res o).1.tail = [] := rfl

theorem ne2_res (ctr : Nat) {o o' : Obj (Words 12)} (h : Ne2 o o') (hl : o.tail.length < 192) (hf : o.n + 192 < 2 ^ ctr) :
    Ne2 ((obj ctr).res o).1 ((obj ctr).res o').1 := by
  obtain ⟨h1, h2⟩ := h
  have hge := res_n_eq ctr o (fun h => (h2 h).1) hl hf
  have hst : ((obj ctr).res o).1.st ≠ ((obj ctr).res o').1.st := by
    rw [res_st, res_st, ← h1.1, ← h1.2.1]
    exact finish_ne _ _ h1.2.2 (fun h => (h2 h).2)
  have hn : ((obj ctr).res o).1.n = ((obj ctr).res o').1.n := by
    rw [res_n', res_n', h1.1, h1.2.1]
  have ht : ((obj ctr).res o).1.tail = ((obj ctr).res o').1.tail := by rw [res_tail, res_tail]
  generalize ((obj ctr).res o).1 = x at *
  generalize ((obj ctr).res o').1 = y at *
  exact ⟨⟨ht, hn, hst⟩, fun hlt => absurd hlt (Nat.not_lt.2 hge)⟩

theorem ne2_run (ctr : Nat) (ts : List Tok) {o o' : Obj (Words 12)} (h : Ne2 o o') (hl : o.tail.length < 192)
    (hf : o.n + cost ts < 2 ^ ctr) : Ne1 ((machine ctr).run o ts).1 ((machine ctr).run o' ts).1 := by
  induction ts generalizing o o' with
  | nil => exact h.1
  | cons t ts ih =>
    rw [cost_cons] at hf
    cases t with
    | data b =>
      simp only [Tok.cost] at hf
      refine ih (o := (obj ctr).absorb o [b]) (o' := (obj ctr).absorb o' [b]) (ne2_absorb ctr b h (by omega)) ?_ ?_
      · exact rest_length_lt (N := 192) (by decide) _
      · have := (obj ctr).absorb_n o [b]
        simp only [List.length_singleton] at this
        omega
    | fin =>
      simp only [Tok.cost] at hf
      refine ih (o := ((obj ctr).res o).1) (o' := ((obj ctr).res o').1) (ne2_res ctr h hl (by omega)) ?_ ?_
      · exact Nat.zero_lt_succ _
      · have : _ ≤ o.n + 192 := (obj ctr).res_n (spooky_renum _) o
        omega

end Hash2.SpookyL

namespace Hash2
open Spec

/-- a word made of at most as many bytes as it has -/
theorem leWord_inj_le {w : Nat} {bs bs' : List Byte} (h : 8 * bs.length ≤ w) (h' : bs.length = bs'.length) (e : leWord w bs = leWord w bs') :
    bs = bs' := by
  have e := congrArg BitVec.toNat e
  unfold leWord at e
  have hp : ∀ bs : List Byte, 8 * bs.length ≤ w → leNat bs < 2 ^ w := fun bs hb => by
    have := leNat_lt bs
    rw [show 256 = 2 ^ 8 from rfl, ← Nat.pow_mul] at this
    exact Nat.lt_of_lt_of_le this (Nat.pow_le_pow_right (by decide) hb)
  rw [BitVec.toNat_ofNat, BitVec.toNat_ofNat, Nat.mod_eq_of_lt (hp _ h), Nat.mod_eq_of_lt (hp _ (by omega))] at e
  exact leNat_inj h' e

theorem sip_key_ne {w : Nat} (V : SIP.Variant w) (ctr : Nat) (hw : w = 8 * V.bytes) {k k' : List Byte} (h : k.length = 2 * V.bytes)
    (h' : k'.length = 2 * V.bytes) (hne : k ≠ k') : Ne1 (SIP.byteSeed V ctr k) (SIP.byteSeed V ctr k') := by
  unfold SIP.byteSeed
  rw [if_pos h, if_pos h']
  apply ne1_start
  intro e
  apply hne
  obtain ⟨e0, e1⟩ := sip_start_inj V e
  have e0 := leWord_inj_le (by simp; omega) (by simp; omega) e0
  have e1 := leWord_inj_le (by simp; omega) (by simp; omega) e1
  rw [← List.take_append_drop V.bytes k, e0, e1, List.take_append_drop]

theorem mur32_key_ne (ctr : Nat) {k k' : List Byte} (hs : k.length ≤ 4) (hl : k.length = k'.length) (h : k ≠ k') :
    Ne1 ((MURMUR3.x86_32.machine ctr).bytes k) ((MURMUR3.x86_32.machine ctr).bytes k') := by
  show Ne1 (if k.length ≤ 4 then _ else _) (if k'.length ≤ 4 then _ else _)
  rw [if_pos hs, if_pos (hl ▸ hs)]
  exact ne1_start fun e => h (leWord_inj_le (by omega) hl e)

theorem two_words_inj {k k' : List Byte} (hs : k.length ≤ 16) (hl : k.length = k'.length)
    (e0 : leWord 64 (k.take 8) = leWord 64 (k'.take 8)) (e1 : leWord 64 (k.drop 8) = leWord 64 (k'.drop 8)) : k = k' := by
  have e0 := leWord_inj_le (by simp; omega) (by simp; omega) e0
  have e1 := leWord_inj_le (by simp; omega) (by simp; omega) e1
  rw [← List.take_append_drop 8 k, e0, e1, List.take_append_drop]

theorem mur128_key_ne (ctr : Nat) {k k' : List Byte} (hs : k.length ≤ 16) (hl : k.length = k'.length) (h : k ≠ k') :
    Ne1 ((MURMUR3.x64_128.machine ctr).bytes k) ((MURMUR3.x64_128.machine ctr).bytes k') := by
  show Ne1 (if k.length ≤ 8 then _ else if k.length ≤ 16 then _ else _) (if k'.length ≤ 8 then _ else if k'.length ≤ 16 then _ else _)
  by_cases h8 : k.length ≤ 8
  · rw [if_pos h8, if_pos (hl ▸ h8)]
    exact ne1_start fun e => h (leWord_inj_le (by omega) hl (congrArg MURMUR3.x64_128.St.h1 e))
  · have h8' : ¬ k'.length ≤ 8 := hl ▸ h8
    rw [if_neg h8, if_neg h8', if_pos hs, if_pos (hl ▸ hs)]
    exact ne1_start fun e => h (two_words_inj hs hl (congrArg MURMUR3.x64_128.St.h1 e) (congrArg MURMUR3.x64_128.St.h2 e))

theorem spooky_key_ne (ctr : Nat) {k k' : List Byte} (hs : k.length ≤ 16) (hl : k.length = k'.length) (h : k ≠ k') :
    SpookyL.Ne2 ((SPOOKY.machine ctr).bytes k) ((SPOOKY.machine ctr).bytes k') := by
  show SpookyL.Ne2 (if k.length ≤ 16 then _ else _) (if k'.length ≤ 16 then _ else _)
  rw [if_pos hs, if_pos (hl ▸ hs)]
  refine SpookyL.ne2_start fun e => h ?_
  rw [Prod.mk.injEq] at e
  exact two_words_inj hs hl e.1 e.2

theorem mur32_tail_ignored (ctr : Nat) {k x y : List Byte} (hk : k.length = 4) (hx : x.length < 4) (h : x.length = y.length) :
    (MURMUR3.x86_32.machine ctr).bytes (k ++ x) = (MURMUR3.x86_32.machine ctr).bytes (k ++ y) := by
  by_cases h0 : x.length = 0
  · have h1 : y.length = 0 := h ▸ h0
    rw [List.length_eq_zero_iff] at h0 h1
    rw [h0, h1]
  · have key : ∀ z : List Byte, z.length < 4 → z.length ≠ 0 → (MURMUR3.x86_32.machine ctr).bytes (k ++ z)
        = (⟨leWord 32 k, [], ((0 + z.length) % 2 ^ ctr + (4 - z.length)) % 2 ^ ctr⟩ : Obj (BitVec 32)) := fun z hz h0 => by
      refine (if_neg (show ¬ (k ++ z).length ≤ 4 by simp; omega)).trans ?_
      rw [List.take_left' hk, List.drop_left' hk]
      have : (MURMUR3.x86_32.obj ctr).absorb (Obj.start (leWord 32 k)) z = ⟨leWord 32 k, z, (0 + z.length) % 2 ^ ctr⟩ := by
        show (⟨(blocks 4 z).foldl _ _, rest 4 z, _⟩ : Obj (BitVec 32)) = _
        rw [blocks_short hz, rest_short hz]; rfl
      rw [this]
      rfl
    rw [key x hx h0, key y (h ▸ hx) (h ▸ h0), h]

theorem mur128_tail_ignored (ctr : Nat) {k x y : List Byte} (hk : k.length = 16) (hx : x.length < 16) (h : x.length = y.length) :
    (MURMUR3.x64_128.machine ctr).bytes (k ++ x) = (MURMUR3.x64_128.machine ctr).bytes (k ++ y) := by
  by_cases h0 : x.length = 0
  · have h1 : y.length = 0 := h ▸ h0
    rw [List.length_eq_zero_iff] at h0 h1
    rw [h0, h1]
  · have key : ∀ z : List Byte, z.length < 16 → z.length ≠ 0 → (MURMUR3.x64_128.machine ctr).bytes (k ++ z)
        = (⟨⟨leWord 64 (k.take 8), leWord 64 ((k.drop 8).take 8)⟩, [], ((0 + z.length) % 2 ^ ctr + (16 - z.length)) % 2 ^ ctr⟩ :
          Obj MURMUR3.x64_128.St) := fun z hz h0 => by
      refine (if_neg (show ¬ (k ++ z).length ≤ 8 by simp; omega)).trans ?_
      refine (if_neg (show ¬ (k ++ z).length ≤ 16 by simp; omega)).trans ?_
      rw [List.drop_left' hk, List.take_append_of_le_length (by omega), List.drop_append_of_le_length (by omega),
        List.take_append_of_le_length (by simp; omega)]
      generalize (⟨leWord 64 (k.take 8), leWord 64 ((k.drop 8).take 8)⟩ : MURMUR3.x64_128.St) = st
      have : (MURMUR3.x64_128.obj ctr).absorb (Obj.start st) z = ⟨st, z, (0 + z.length) % 2 ^ ctr⟩ := by
        show (⟨(blocks 16 z).foldl _ _, rest 16 z, _⟩ : Obj MURMUR3.x64_128.St) = _
        rw [blocks_short hz, rest_short hz]; rfl
      rw [this]
      rfl
    rw [key x hx h0, key y (h ▸ hx) (h ▸ h0), h]

/-- the inverses of the primes -/
def Spec.FNV.invprime32 : BitVec 32 := 0x359c449b#32
def Spec.FNV.invprime64 : BitVec 64 := 0xce965057aff6957b#64

theorem fnv_feed_inj {w : Nat} (p q : BitVec w) (hp : p * q = 1#w) (bs : List Byte) {s t : BitVec w}
    (h : FNV.feed p s bs = FNV.feed p t bs) : s = t :=
  XX64L.foldl_inj (f := fun h (octet : Byte) => (h ^^^ BitVec.ofNat w octet.toNat) * p) h
    (fun _ _ _ h => (BitVec.xor_left_inj _).1 (mul_inj q hp h))

theorem fnv_run_ne {w : Nat} (p q : BitVec w) (hp : p * q = 1#w) (ts : List Tok) {s t : BitVec w} (h : s ≠ t) :
    List.Forall₂ (· ≠ ·) ((FNV.machine p).run s ts).2 ((FNV.machine p).run t ts).2 :=
  ((FNV.machine p).run_pair (· ≠ ·) (· ≠ ·) ts (fun _ _ b h e => h (fnv_feed_inj p q hp [b] e))
    (fun _ _ _ h => ⟨fun e => h (fnv_feed_inj p q hp [0xFF] e), h⟩) h).2

theorem fnv_byte_ne {w : Nat} (p q : BitVec w) (hp : p * q = 1#w) (hw : 8 ≤ w) (s : BitVec w) (pre post : List Byte) {x y : Byte}
    (h : x ≠ y) : FNV.feed p s (pre ++ x :: post) ≠ FNV.feed p s (pre ++ y :: post) := by
  intro e
  unfold FNV.feed at e
  rw [List.foldl_append, List.foldl_append, List.foldl_cons, List.foldl_cons] at e
  have e := mul_inj q hp (fnv_feed_inj p q hp post e)
  have e := xor_left_cancel e
  apply h
  have e := congrArg BitVec.toNat e
  rw [BitVec.toNat_ofNat, BitVec.toNat_ofNat] at e
  have hp : 2 ^ 8 ≤ 2 ^ w := Nat.pow_le_pow_right (by decide) hw
  have := x.isLt; have := y.isLt
  rw [Nat.mod_eq_of_lt (by omega), Nat.mod_eq_of_lt (by omega)] at e
  exact BitVec.eq_of_toNat_eq e

end Hash2

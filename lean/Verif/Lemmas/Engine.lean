import Verif.Model.Block
import Verif.Lemmas.Core
import Verif.Lemmas.Blocks
/-
The buffering engine refines an abstract one: chaining value, incomplete block, byte counter.
-/
namespace Hash2
open Spec

/-- abstract state of a block-buffering hash object -/
structure AState (σ : Type) where
  st : σ
  tail : List Byte
  n : Nat

/-- abstract update -/
def AState.absorb {σ : Type} (f : σ → List Byte → σ) (N ctr : Nat) (a : AState σ) (bs : List Byte) : AState σ :=
  { st := (blocks N (a.tail ++ bs)).foldl f a.st, tail := rest N (a.tail ++ bs), n := (a.n + bs.length) % 2 ^ ctr }

/-- a state the object can be in: the incomplete block is incomplete, the counter is in range -/
structure AState.Wf {σ : Type} (N ctr : Nat) (a : AState σ) : Prop where
  tail_lt : a.tail.length < N
  n_lt : a.n < 2 ^ ctr

theorem AState.absorb_nil {σ : Type} {f : σ → List Byte → σ} {N ctr : Nat} {a : AState σ} (h : a.Wf N ctr) :
    a.absorb f N ctr [] = a := by
  cases a with
  | mk st tail n =>
    have h1 := h.tail_lt; have h2 := h.n_lt
    simp only at h1 h2
    simp [AState.absorb, blocks_short h1, rest_short h1, Nat.mod_eq_of_lt h2]

theorem AState.absorb_wf {σ : Type} {f : σ → List Byte → σ} {N ctr : Nat} (hN : 0 < N) (a : AState σ)
    (bs : List Byte) : (a.absorb f N ctr bs).Wf N ctr :=
  ⟨rest_length_lt hN _, Nat.mod_lt _ (Nat.two_pow_pos ctr)⟩

theorem AState.absorb_append {σ : Type} {f : σ → List Byte → σ} {N ctr : Nat} (hN : 0 < N) (a : AState σ)
    (xs ys : List Byte) : a.absorb f N ctr (xs ++ ys) = (a.absorb f N ctr xs).absorb f N ctr ys := by
  have h := blocks_split hN (a.tail ++ xs) ys
  rw [List.append_assoc] at h
  simp only [AState.absorb, h.1, h.2, List.foldl_append, List.length_append, ← Nat.add_assoc, Nat.mod_add_mod]

/-- the object `s` is in the abstract state `a` -/
structure Rel {σ : Type} (c : BlockCfg σ) (s : BlockState σ) (a : AState σ) : Prop where
  st : s.st = a.st
  buf_len : s.buf.length = c.N
  m : s.m = a.tail.length
  buf : s.buf.take s.m = a.tail
  n : s.n = a.n
  wf : a.Wf c.N c.ctrBits
  sync : s.m = s.n % c.N
  clear : c.clear = true → s.buf = a.tail ++ List.replicate (c.N - a.tail.length) 0

/-- the pointer p gives access to the n bytes `bs` -/
def Ptr.Gives (p : Ptr) (n : Nat) (bs : List Byte) : Prop := bs.length = n ∧ ∃ more, p = .mem (bs ++ more)

section
variable {σ : Type} {N : Nat} {tr : Ptr → σ → M σ} {f : σ → List Byte → σ}

theorem whileBlocks_ok (hN : 0 < N)
    (htr : ∀ st b more, b.length = N → tr (.mem (b ++ more)) st = .ok (f st b)) :
    ∀ (fuel : Nat) (bs more : List Byte) (st : σ), bs.length < fuel →
      whileBlocks N tr fuel (.mem (bs ++ more)) bs.length st
        = .ok (.mem (rest N bs ++ more), (rest N bs).length, (blocks N bs).foldl f st) := by
  intro fuel
  induction fuel with
  | zero => intro bs more st h; omega
  | succ fuel ih =>
    intro bs more st h
    unfold whileBlocks
    by_cases hk : N ≤ bs.length
    · obtain ⟨b, t, rfl, hb⟩ : ∃ b t, bs = b ++ t ∧ b.length = N :=
        ⟨bs.take N, bs.drop N, (List.take_append_drop N bs).symm, by simp; omega⟩
      rw [if_pos hk, List.append_assoc, htr _ _ _ hb]
      simp only [Except.bind_ok]
      rw [Ptr.add_mem (by simp; omega)]
      simp only [Except.bind_ok]
      rw [List.drop_append, List.drop_of_length_le (by omega), List.nil_append, hb, Nat.sub_self, List.drop_zero,
        List.length_append, hb, Nat.add_sub_cancel_left, ih t more _ (by simp at h; omega), blocks_append hN hb,
        rest_append hN hb, List.foldl_cons]
    · rw [if_neg hk, blocks_short (by omega), rest_short (by omega)]; rfl

theorem countedBlocks_ok (hN : 0 < N)
    (htr : ∀ st b more, b.length = N → tr (.mem (b ++ more)) st = .ok (f st b)) :
    ∀ (k : Nat) (bs more : List Byte) (st : σ), bs.length / N = k →
      countedBlocks N tr k (.mem (bs ++ more)) st = .ok ((blocks N bs).foldl f st) := by
  intro k
  induction k with
  | zero =>
    intro bs more st h
    have : bs.length < N := by
      rcases Nat.lt_or_ge bs.length N with h' | h'
      · exact h'
      · have := Nat.div_pos h' hN; omega
    rw [blocks_short this]; rfl
  | succ k ih =>
    intro bs more st h
    have hk : N ≤ bs.length := by
      rcases Nat.lt_or_ge bs.length N with h' | h'
      · rw [Nat.div_eq_of_lt h'] at h; omega
      · exact h'
    obtain ⟨b, t, rfl, hb⟩ : ∃ b t, bs = b ++ t ∧ b.length = N :=
      ⟨bs.take N, bs.drop N, (List.take_append_drop N bs).symm, by simp; omega⟩
    unfold countedBlocks
    rw [List.append_assoc, htr _ _ _ hb]
    simp only [Except.bind_ok]
    rw [Ptr.add_mem (by simp; omega)]
    simp only [Except.bind_ok]
    rw [List.drop_append, List.drop_of_length_le (by omega), List.nil_append, hb, Nat.sub_self, List.drop_zero,
      ih t more _ (by rw [List.length_append, hb, Nat.add_comm, Nat.add_div_right _ hN] at h; omega),
      blocks_append hN hb, List.foldl_cons]

end

/-- what a class has to provide to be an instance of the engine: processing a block is the function f of the block -/
structure EngineOk {σ : Type} (c : BlockCfg σ) (f : σ → List Byte → σ) : Prop where
  pos : 0 < c.N
  tr : ∀ st b more, b.length = c.N → c.transform (.mem (b ++ more)) st = .ok (f st b)

section
variable {σ : Type} {c : BlockCfg σ} {f : σ → List Byte → σ}

theorem bulk_ok (h : EngineOk c f) (bs more : List Byte) (st : σ) :
    bulk c (.mem (bs ++ more)) bs.length st
      = .ok (.mem (rest c.N bs ++ more), (rest c.N bs).length, (blocks c.N bs).foldl f st) := by
  unfold bulk
  split
  · exact whileBlocks_ok h.pos h.tr _ _ _ _ (by omega)
  · have hle := Nat.mul_div_le bs.length c.N
    simp only [countedBlocks_ok h.pos h.tr _ bs more st rfl, Except.bind_ok]
    rw [Ptr.add_mem (by simp; omega)]
    simp only [Except.bind_ok]
    rw [csub_ok hle]
    simp only [Except.bind_ok, Except.pure_eq]
    rw [List.drop_append_of_le_length hle, rest_length, rest,
      show bs.length - c.N * (bs.length / c.N) = bs.length % c.N by
        have := Nat.div_add_mod bs.length c.N; omega]

theorem updateTail_ok (env : Env) (h : EngineOk c f) (s : BlockState σ) (bs more : List Byte) (hm : s.m = 0)
    (hbuf : s.buf.length = c.N) (hn : s.n % c.N = bs.length % c.N)
    (hclear : c.clear = true → s.buf = List.replicate c.N 0) :
    ∃ buf, updateTail env c s (.mem (bs ++ more)) bs.length
        = .ok ⟨(blocks c.N bs).foldl f s.st, buf, (rest c.N bs).length, s.n⟩ ∧
      buf.length = c.N ∧ buf.take (rest c.N bs).length = rest c.N bs ∧
      (c.clear = true → buf = rest c.N bs ++ List.replicate (c.N - (rest c.N bs).length) 0) := by
  have hlt : (rest c.N bs).length < c.N := rest_length_lt h.pos bs
  have hsync : (rest c.N bs).length = s.n % c.N := by rw [rest_length, hn]
  unfold updateTail
  rw [check_ok hm]
  simp only [Except.bind_ok]
  rw [bulk_ok h]
  simp only [Except.bind_ok]
  rw [check_ok hlt]
  simp only [Except.bind_ok]
  by_cases hz : (rest c.N bs).length > 0
  · rw [if_pos hz, memcpy_ok _ _ _ _ _ (by simp) (by rw [hbuf]; omega)]
    simp only [Except.bind_ok, Except.pure_eq]
    rw [check_ok hsync]
    simp only [Except.bind_ok, List.take_zero, List.nil_append, Nat.zero_add, List.take_left]
    refine ⟨_, rfl, ?_, ?_, ?_⟩
    · simp; omega
    · simp
    · intro hc
      rw [hclear hc, List.drop_replicate]
  · have h0 : (rest c.N bs).length = 0 := by omega
    have h0' : rest c.N bs = [] := List.length_eq_zero_iff.1 h0
    rw [if_neg hz]
    simp only [Except.bind_ok, Except.pure_eq]
    rw [check_ok (by rw [hm, ← hsync, h0])]
    simp only [Except.bind_ok]
    refine ⟨s.buf, ?_, hbuf, ?_, ?_⟩
    · rw [h0, hm]
    · rw [h0, h0']; simp
    · intro hc; rw [hclear hc, h0']; simp

/-- with an empty buffer, a counter that disagrees with the number of bytes fails the assertion at the end of update() -/
theorem update_unsync (env : Env) (h : EngineOk c f) {s : BlockState σ} {a : AState σ} (hr : Rel c s a) (ht : a.tail = [])
    (bs more : List Byte) (hb : 0 < bs.length) (hw : (a.n + bs.length) % 2 ^ c.ctrBits % c.N ≠ bs.length % c.N) :
    update env c s (.mem (bs ++ more)) bs.length = .error .assertFailed := by
  have hm : s.m = 0 := by rw [hr.m, ht]; rfl
  unfold update
  rw [check_ok hr.sync]
  simp only [Except.bind_ok]
  rw [if_neg (by omega), if_neg (by simp only [hm]; omega)]
  unfold updateTail
  have hlt : (rest c.N bs).length < c.N := rest_length_lt h.pos bs
  rw [check_ok hm]
  simp only [Except.bind_ok]
  rw [bulk_ok h]
  simp only [Except.bind_ok]
  rw [check_ok hlt]
  simp only [Except.bind_ok]
  have hbad : ¬ (rest c.N bs).length = (s.n + bs.length) % 2 ^ c.ctrBits % c.N := by rw [rest_length, hr.n]; exact fun e => hw e.symm
  by_cases hz : (rest c.N bs).length > 0
  · rw [if_pos hz, memcpy_ok _ _ _ _ _ (by simp) (by rw [hr.buf_len]; omega)]
    simp only [Except.bind_ok, Except.pure_eq]
    simp [check, hbad]
  · rw [if_neg hz]
    simp only [Except.bind_ok, Except.pure_eq]
    have : ¬ 0 = (s.n + bs.length) % 2 ^ c.ctrBits % c.N := by
      intro e
      apply hbad
      omega
    simp [check, this, hm]

/-- **update() implements the abstract update** -/
theorem update_ok (env : Env) (h : EngineOk c f) {s : BlockState σ} {a : AState σ} (hr : Rel c s a)
    (bs more : List Byte) (hw : (a.n + bs.length) % 2 ^ c.ctrBits % c.N = (a.n + bs.length) % c.N) :
    ∃ s', update env c s (.mem (bs ++ more)) bs.length = .ok s' ∧ Rel c s' (a.absorb f c.N c.ctrBits bs) := by
  have hN := h.pos
  have htl := hr.wf.tail_lt
  have hsync : a.tail.length = a.n % c.N := by rw [← hr.m, ← hr.n]; exact hr.sync
  have hlen : (a.n + bs.length) % c.N = (a.tail.length + bs.length) % c.N := by
    rw [hsync, Nat.mod_add_mod]
  unfold update
  rw [check_ok hr.sync]
  simp only [Except.bind_ok]
  by_cases he : c.early = true ∧ bs.length = 0
  · rw [if_pos he]
    have hb0 : bs = [] := List.length_eq_zero_iff.1 he.2
    subst hb0
    exact ⟨s, rfl, by rw [AState.absorb_nil hr.wf]; exact hr⟩
  · rw [if_neg he]
    by_cases hm : s.m > 0
    · simp only [if_pos hm]
      have hmle : s.m ≤ c.N := by rw [hr.m]; omega
      rw [csub_ok hmle]
      simp only [Except.bind_ok]
      by_cases hk : bs.length < c.N - s.m
      · -- everything fits into the buffer
        simp only [if_pos hk]
        rw [memcpy_ok _ _ _ _ _ (by simp) (by rw [hr.buf_len]; omega)]
        simp only [Except.bind_ok]
        rw [Ptr.add_mem (by simp)]
        simp only [Except.bind_ok]
        rw [csub_ok (Nat.le_refl _)]
        simp only [Except.bind_ok]
        rw [if_pos (by omega)]
        refine ⟨_, rfl, ?_⟩
        have hshort : (a.tail ++ bs).length < c.N := by rw [List.length_append, ← hr.m]; omega
        have hbuf := hr.buf
        refine ⟨?_, ?_, ?_, ?_, ?_, AState.absorb_wf hN _ _, ?_, ?_⟩
        · simp [AState.absorb, blocks_short hshort, hr.st]
        · simp [hr.buf_len]; omega
        · simp [AState.absorb, rest_short hshort, hr.m]
        · simp only [AState.absorb, rest_short hshort, hbuf, List.take_left]
          rw [List.take_append_of_le_length (by rw [List.length_append, hr.m]; exact Nat.le_refl _),
            List.take_of_length_le (by rw [List.length_append, hr.m]; exact Nat.le_refl _)]
        · simp [AState.absorb, hr.n]
        · simp only [hr.n]
          rw [hw, hlen, hr.m, Nat.mod_eq_of_lt (by rwa [List.length_append] at hshort)]
        · intro hc
          simp only [AState.absorb, rest_short hshort, hbuf, List.take_left]
          rw [hr.clear hc, hr.m, List.drop_append, List.drop_of_length_le (by omega), List.nil_append,
            List.drop_replicate, List.length_append]
          congr 2; omega
      · -- the buffer fills up
        simp only [if_neg hk]
        obtain ⟨b1, b2, rfl, hb1⟩ : ∃ b1 b2, bs = b1 ++ b2 ∧ b1.length = c.N - s.m :=
          ⟨bs.take (c.N - s.m), bs.drop (c.N - s.m), (List.take_append_drop _ bs).symm, by simp; omega⟩
        rw [List.append_assoc, ← hb1, memcpy_ok _ _ _ _ _ (by simp) (by rw [hr.buf_len]; omega)]
        simp only [Except.bind_ok]
        rw [Ptr.add_mem (by simp)]
        simp only [Except.bind_ok]
        rw [csub_ok (by simp)]
        simp only [Except.bind_ok]
        have hfull : s.m + b1.length = c.N := by omega
        rw [if_neg (by omega), check_ok hfull]
        simp only [Except.bind_ok, List.take_left, List.drop_left, hr.buf]
        have hblk : (a.tail ++ b1).length = c.N := by rw [List.length_append, ← hr.m]; exact hfull
        rw [hfull, List.drop_of_length_le (by rw [hr.buf_len]; exact Nat.le_refl _)]
        rw [h.tr _ _ [] hblk]
        simp only [Except.bind_ok, List.append_nil]
        have hlen2 : b1.length + b2.length - b1.length = b2.length := by omega
        rw [List.length_append, hlen2]
        have hnn : (s.n + (b1.length + b2.length)) % 2 ^ c.ctrBits % c.N = b2.length % c.N := by
          rw [hr.n, ← List.length_append, hw, hlen, List.length_append, ← Nat.add_assoc, ← hr.m, hfull,
            Nat.add_mod_left]
        have key : ∀ buf : List Byte, buf.length = c.N → (c.clear = true → buf = List.replicate c.N 0) →
            ∃ s', updateTail env c ⟨f s.st (a.tail ++ b1), buf, 0, (s.n + (b1.length + b2.length)) % 2 ^ c.ctrBits⟩
                (.mem (b2 ++ more)) b2.length = .ok s' ∧ Rel c s' (a.absorb f c.N c.ctrBits (b1 ++ b2)) := by
          intro buf hl hc
          obtain ⟨buf', e, hl', ht', hc'⟩ := updateTail_ok env h
            ⟨f s.st (a.tail ++ b1), buf, 0, (s.n + (b1.length + b2.length)) % 2 ^ c.ctrBits⟩ b2 more rfl hl hnn hc
          refine ⟨_, e, ?_⟩
          have hab : a.absorb f c.N c.ctrBits (b1 ++ b2) =
              ⟨(blocks c.N b2).foldl f (f a.st (a.tail ++ b1)), rest c.N b2,
                (a.n + (b1 ++ b2).length) % 2 ^ c.ctrBits⟩ := by
            unfold AState.absorb
            rw [← List.append_assoc, blocks_append hN hblk, rest_append hN hblk, List.foldl_cons]
          refine ⟨?_, hl', ?_, ?_, ?_, AState.absorb_wf hN _ _, ?_, ?_⟩
          · rw [hab, hr.st]
          · rw [hab]
          · rw [hab]; exact ht'
          · rw [hab, List.length_append, hr.n]
          · simp only [hnn]; rw [rest_length]
          · rw [hab]; exact hc'
        by_cases hcl : c.clear = true
        · simp only [if_pos hcl]
          rw [memset_ok _ _ _ _ _ (by rw [hblk]; omega)]
          simp only [Except.bind_ok, Except.pure_eq, List.take_zero, List.nil_append, Nat.zero_add]
          rw [List.drop_of_length_le (by rw [hblk]; exact Nat.le_refl _), List.append_nil]
          exact key _ (by simp) (fun _ => rfl)
        · simp only [if_neg hcl, Except.bind_ok, Except.pure_eq]
          exact key _ hblk (fun hc => absurd hc hcl)
    · -- empty buffer
      simp only [if_neg hm]
      have hm0 : s.m = 0 := by omega
      have ht0 : a.tail = [] := List.length_eq_zero_iff.1 (by rw [← hr.m]; exact hm0)
      have hnn : (s.n + bs.length) % 2 ^ c.ctrBits % c.N = bs.length % c.N := by
        rw [hr.n, hw, hlen, ht0]; simp
      obtain ⟨buf', e, hl', ht', hc'⟩ := updateTail_ok env h
        ⟨s.st, s.buf, s.m, (s.n + bs.length) % 2 ^ c.ctrBits⟩ bs more hm0 hr.buf_len hnn (by
          intro hc; have := hr.clear hc; rw [ht0] at this; simpa using this)
      refine ⟨_, e, ?_⟩
      have hab : a.absorb f c.N c.ctrBits bs =
          ⟨(blocks c.N bs).foldl f a.st, rest c.N bs, (a.n + bs.length) % 2 ^ c.ctrBits⟩ := by
        simp [AState.absorb, ht0]
      refine ⟨?_, hl', ?_, ?_, ?_, AState.absorb_wf hN _ _, ?_, ?_⟩
      · rw [hab, hr.st]
      · rw [hab]
      · rw [hab]; exact ht'
      · rw [hab, hr.n]
      · simp only [hnn]; rw [rest_length]
      · rw [hab]; exact hc'

/-- `update( p, 0 )` for any p, null included, where the class returns early -/
theorem update_zero_early (env : Env) {s : BlockState σ} {a : AState σ} (hr : Rel c s a) (he : c.early = true) (p : Ptr) :
    update env c s p 0 = .ok s := by
  unfold update
  rw [check_ok hr.sync]
  simp [he]

/-- `update( nullptr, 0 )` where the class does not return early: harmless with an empty buffer -/
theorem update_null_empty (env : Env) (h : EngineOk c f) {s : BlockState σ} {a : AState σ} (hr : Rel c s a)
    (hm : s.m = 0) : update env c s .null 0 = .ok s := by
  have hN := h.pos
  have hnlt : s.n % 2 ^ c.ctrBits = s.n := Nat.mod_eq_of_lt (by rw [hr.n]; exact hr.wf.n_lt)
  have hns : s.m = s.n % c.N := hr.sync
  unfold update
  rw [check_ok hr.sync]
  by_cases he : c.early = true
  · simp [he]
  · have hb : bulk c .null 0 s.st = .ok (.null, 0, s.st) := by
      unfold bulk
      split
      · unfold whileBlocks
        rw [if_neg (by omega)]
      · simp [countedBlocks, Nat.zero_div, csub]
    simp [he, hm, updateTail, hb, hnlt, check_ok hN, ← hns]
    cases s; simp_all

/-- `update( nullptr, 0 )` where the class does not return early and bytes are buffered: std::memcpy( .., nullptr, 0 ) -/
theorem update_null_fault (env : Env) {s : BlockState σ} {a : AState σ} (hr : Rel c s a) (he : c.early = false)
    (hc : env.loops = false) (hm : 0 < s.m) : update env c s .null 0 = .error .nullMemcpy := by
  have hmle : s.m ≤ c.N := by rw [hr.m]; exact Nat.le_of_lt hr.wf.tail_lt
  unfold update
  rw [check_ok hr.sync]
  simp [he, hm, csub_ok hmle, memcpy, hc, stdMemcpy]

/-- .. and harmless where detail::memcpy is a loop -/
theorem update_null_loops (env : Env) {s : BlockState σ} {a : AState σ} (hr : Rel c s a) (he : c.early = false)
    (hc : env.loops = true) (hm : 0 < s.m) : update env c s .null 0 = .ok s := by
  have hmlt : s.m < c.N := by rw [hr.m]; exact hr.wf.tail_lt
  have hnlt : s.n % 2 ^ c.ctrBits = s.n := Nat.mod_eq_of_lt (by rw [hr.n]; exact hr.wf.n_lt)
  unfold update
  rw [check_ok hr.sync]
  have h0 : (if 0 < c.N - s.m then 0 else c.N - s.m) = 0 := if_pos (by omega)
  simp [he, hm, csub_ok (Nat.le_of_lt hmlt), memcpy, hc, h0, forLoop, hmlt, hnlt]

end

end Hash2

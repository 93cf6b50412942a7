import Verif.Lemmas.All
import Verif.Spec.SpookyWrap
/-
What spooky2_128 does when its byte counter wraps.
-/
namespace Hash2
open Spec

section
variable {σ : Type} {c : BlockCfg σ} {f : σ → List Byte → σ}

theorem check_no {p : Prop} [Decidable p] (h : ¬ p) : check (decide p) = .error .assertFailed := by simp [check, h]

/-- an object whose counter disagrees with its buffer survives no call of update() -/
theorem update_lost (env : Env) (s : BlockState σ) (h : ¬ s.m = s.n % c.N) (p : Ptr) (n : Nat) :
    update env c s p n = .error .assertFailed := by
  unfold update
  rw [check_no h]
  rfl

theorem updateTail_lost (env : Env) (h : EngineOk c f) (s : BlockState σ) (bs more : List Byte) (hm : s.m = 0)
    (hbuf : s.buf.length = c.N) (hn : s.n % c.N ≠ bs.length % c.N) :
    updateTail env c s (.mem (bs ++ more)) bs.length = .error .assertFailed := by
  have hlt : (rest c.N bs).length < c.N := rest_length_lt h.pos bs
  unfold updateTail
  rw [check_ok hm]
  simp only [Except.bind_ok]
  rw [bulk_ok h]
  simp only [Except.bind_ok]
  rw [check_ok hlt]
  simp only [Except.bind_ok]
  have hbad : ¬ (rest c.N bs).length = s.n % c.N := by rw [rest_length]; exact fun e => hn e.symm
  by_cases hz : (rest c.N bs).length > 0
  · rw [if_pos hz, memcpy_ok _ _ _ _ _ (by simp) (by rw [hbuf]; omega)]
    simp only [Except.bind_ok, Except.pure_eq]
    rw [check_no hbad]
    rfl
  · rw [if_neg hz]
    simp only [Except.bind_ok, Except.pure_eq]
    rw [check_no (by rw [hm]; omega)]
    rfl

/-- the data go into the buffer after bytes it already holds: nothing is noticed -/
theorem update_lost_later (env : Env) {s : BlockState σ} {a : AState σ} (hr : Rel c s a)
    (bs more : List Byte) (hb : 0 < bs.length) (ht : 0 < a.tail.length) (hlt : a.tail.length + bs.length < c.N) :
    ∃ s', update env c s (.mem (bs ++ more)) bs.length = .ok s' ∧ s'.m = a.tail.length + bs.length ∧
      s'.n = (a.n + bs.length) % 2 ^ c.ctrBits := by
  have hm := hr.m
  unfold update
  rw [check_ok hr.sync]
  simp only [Except.bind_ok]
  rw [if_neg (by omega), if_pos (by show 0 < s.m; omega), csub_ok (by show s.m ≤ _; omega)]
  simp only [Except.bind_ok]
  rw [if_pos (by omega)]
  rw [memcpy_ok _ _ _ _ _ (by simp) (by rw [hr.buf_len]; omega)]
  simp only [Except.bind_ok]
  rw [Ptr.add_mem (by simp)]
  simp only [Except.bind_ok]
  rw [csub_ok (Nat.le_refl _)]
  simp only [Except.bind_ok]
  rw [if_pos (by omega)]
  exact ⟨_, rfl, by simp only [hm], by simp only [hr.n]⟩

/-- otherwise the assertion at the end of update() fails -/
theorem update_lost_now (env : Env) (h : EngineOk c f) (hcl : c.clear = false) {s : BlockState σ} {a : AState σ} (hr : Rel c s a)
    (bs more : List Byte) (hb : 0 < bs.length) (ht : a.tail.length = 0 ∨ c.N ≤ a.tail.length + bs.length)
    (hw : (a.n + bs.length) % 2 ^ c.ctrBits % c.N ≠ (a.n + bs.length) % c.N) :
    update env c s (.mem (bs ++ more)) bs.length = .error .assertFailed := by
  have hm := hr.m
  have htl := hr.wf.tail_lt
  have hsync : a.tail.length = a.n % c.N := by rw [← hr.m, ← hr.n]; exact hr.sync
  have hlen : (a.n + bs.length) % c.N = (a.tail.length + bs.length) % c.N := by
    rw [hsync, Nat.mod_add_mod]
  by_cases h0 : a.tail.length = 0
  · refine update_unsync env h hr (List.length_eq_zero_iff.1 h0) bs more hb ?_
    rw [hlen, h0, Nat.zero_add] at hw
    exact hw
  · have hle := ht.resolve_left h0
    unfold update
    rw [check_ok hr.sync]
    simp only [Except.bind_ok]
    rw [if_neg (by omega), if_pos (by show 0 < s.m; omega), csub_ok (by show s.m ≤ _; omega)]
    simp only [Except.bind_ok]
    rw [if_neg (by omega)]
    obtain ⟨b1, b2, rfl, hb1⟩ : ∃ b1 b2, bs = b1 ++ b2 ∧ b1.length = c.N - s.m :=
      ⟨bs.take (c.N - s.m), bs.drop (c.N - s.m), (List.take_append_drop _ bs).symm, by simp; omega⟩
    rw [List.append_assoc, ← hb1, memcpy_ok _ _ _ _ _ (by simp) (by rw [hr.buf_len]; omega)]
    simp only [Except.bind_ok]
    rw [Ptr.add_mem (by simp)]
    simp only [Except.bind_ok]
    rw [csub_ok (by simp)]
    simp only [Except.bind_ok]
    have hfull : s.m + b1.length = c.N := by omega
    rw [if_neg (by omega), check_ok hfull]
    simp only [Except.bind_ok, List.take_left, List.drop_left, hr.buf]
    have hblk : (a.tail ++ b1).length = c.N := by rw [List.length_append, ← hr.m]; exact hfull
    rw [hfull, List.drop_of_length_le (Nat.le_of_eq hr.buf_len)]
    rw [h.tr _ _ [] hblk]
    simp only [Except.bind_ok, List.append_nil]
    have hlen2 : b1.length + b2.length - b1.length = b2.length := by omega
    rw [List.length_append, hlen2]
    simp only [hcl, Bool.false_eq_true, if_false, Except.bind_ok, Except.pure_eq]
    refine updateTail_lost env h _ b2 more rfl hblk ?_
    show (s.n + (b1.length + b2.length)) % 2 ^ c.ctrBits % c.N ≠ _
    rw [hr.n]
    rw [List.length_append] at hw hlen
    rw [hlen] at hw
    rwa [← Nat.add_assoc a.tail.length, ← hm, hfull, Nat.add_mod_left] at hw

end

/-! one step of a program -/

theorem HashAlg.run_update {A : HashAlg} {env : Env} {s s1 : A.State} {p : Ptr} {n : Nat} (e : A.update env s p n = .ok s1)
    (ops : List Op) : A.run env s (.update p n :: ops) = A.run env s1 ops := by
  simp only [HashAlg.run, e, Except.bind_ok]

theorem HashAlg.run_update_error {A : HashAlg} {env : Env} {s : A.State} {p : Ptr} {n : Nat} {x : Fault}
    (e : A.update env s p n = .error x) (ops : List Op) : A.run env s (.update p n :: ops) = .error x := by
  simp only [HashAlg.run, e]; rfl

theorem HashAlg.run_result {A : HashAlg} {env : Env} {s s1 : A.State} {r : A.R} (e : A.result env s = .ok (s1, r)) (ops : List Op) :
    (∀ x, A.run env s1 ops = .error x → A.run env s (.result :: ops) = .error x) ∧
    ∀ s2 rs, A.run env s1 ops = .ok (s2, rs) → A.run env s (.result :: ops) = .ok (s2, r :: rs) := by
  constructor
  · intro x h
    simp only [HashAlg.run, e, Except.bind_ok, h]; rfl
  · intro s2 rs h
    simp only [HashAlg.run, e, Except.bind_ok, h]; rfl

theorem HashAlg.run_result_error {A : HashAlg} {env : Env} {s : A.State} {x : Fault} (e : A.result env s = .error x) (ops : List Op) :
    A.run env s (.result :: ops) = .error x := by
  simp only [HashAlg.run, e]; rfl

open SPOOKY

theorem Spooky.result_lost (env : Env) (s : BlockState Spooky.V) (h : ¬ s.m = s.n % 192) : Spooky.result env s = .error .assertFailed := by
  unfold Spooky.result
  rw [check_no h]
  rfl

theorem Spooky.run_lost (env : Env) (s : BlockState Spooky.V) (h : ¬ s.m = s.n % 192) (ops : List Op) (ho : ops ≠ []) :
    AlgName.spooky2_128.impl.run env s ops = .error .assertFailed := by
  match ops, ho with
  | .result :: ops, _ =>
    exact HashAlg.run_result_error (A := AlgName.spooky2_128.impl) (Spooky.result_lost env s h) ops
  | .update p n :: ops, _ =>
    exact HashAlg.run_update_error (A := AlgName.spooky2_128.impl) (update_lost env s h p n) ops

/-- 192 does not divide the size of the range of the counter -/
theorem wrap_mod (env : Env) (x : Nat) (h1 : 2 ^ env.sizeBits ≤ x) (h2 : x < 2 ^ env.sizeBits + 2 ^ env.sizeBits) :
    x % 2 ^ env.sizeBits % 192 ≠ x % 192 := by
  have hp : 2 ^ env.sizeBits % 192 = 64 := by rcases sizeBits_cases env with h | h <;> rw [h]
  generalize 2 ^ env.sizeBits = P at *
  have e : x % P = x - P := by
    rw [Nat.mod_eq_sub_mod h1]
    exact Nat.mod_eq_of_lt (by omega)
  rw [e]
  omega

/-- the counter after result() -/
theorem spooky_res_n (env : Env) (o : Obj (Words 12)) (ht : o.tail.length = o.n % 192) (hn : o.n < 2 ^ env.sizeBits) :
    ((obj env.sizeBits).res o).1.n = if (o.n / 192 + 1) * 192 < 2 ^ env.sizeBits then (o.n / 192 + 1) * 192 else 0 := by
  have hfin : ((obj env.sizeBits).res o).1.n = (if (o.n + (192 - o.tail.length)) % 2 ^ env.sizeBits < 192 then 0
    else (o.n + (192 - o.tail.length)) % 2 ^ env.sizeBits) := rfl
  have hp : 192 < 2 ^ env.sizeBits := by rcases sizeBits_cases env with h | h <;> rw [h] <;> decide
  rw [hfin]
  generalize 2 ^ env.sizeBits = P at *
  have e : o.n + (192 - o.tail.length) = (o.n / 192 + 1) * 192 := by omega
  rw [e]
  by_cases hlt : (o.n / 192 + 1) * 192 < P
  · rw [if_pos hlt, Nat.mod_eq_of_lt hlt, if_neg (by omega)]
  · rw [if_neg hlt, if_pos]
    rw [Nat.mod_eq_sub_mod (by omega), Nat.mod_eq_of_lt (by omega)]
    omega

theorem spooky_run_exact (env : Env) (ops : List Op) :
    ∀ (ts : List Tok) (s : BlockState Spooky.V) (o : Obj (Words 12)), (Spooky.ok env).RelO s o → stream ops = some ts →
    (∀ op ∈ ops, op.LengthFits env.sizeBits) →
    (SpookyWraps env.sizeBits o.n ops → AlgName.spooky2_128.impl.run env s ops = .error .assertFailed) ∧
    (¬ SpookyWraps env.sizeBits o.n ops →
      ∃ s', AlgName.spooky2_128.impl.run env s ops = .ok (s', ((SPOOKY.machine env.sizeBits).run o ts).2)) := by
  induction ops with
  | nil =>
    intro ts s o _ hs _
    simp only [stream, Option.some.injEq] at hs; subst hs
    exact ⟨fun h => h.elim, fun _ => ⟨s, rfl⟩⟩
  | cons op ops ih =>
    intro ts s o hr hs hl
    have hl' := fun op hm => hl op (List.mem_cons_of_mem _ hm)
    simp only [stream, Option.bind_eq_bind, Option.pure_def, Option.bind_eq_some_iff, Option.some.injEq] at hs
    obtain ⟨t, ht, ts', hts', rfl⟩ := hs
    have hsync : o.tail.length = o.n % 192 := by
      have h1 := hr.sync
      have h2 : s.m = o.tail.length := hr.m
      have h3 : s.n = o.n := hr.n
      rw [← h2, ← h3]; exact h1
    have hlt : o.n < 2 ^ env.sizeBits := hr.wf.n_lt
    cases op with
    | result =>
      obtain ⟨s1, e1, r1⟩ := (Spooky.ok env).res' hr
      have h := ih ts' s1 _ r1 hts' hl'
      rw [spooky_res_n env o hsync hlt] at h
      have R := HashAlg.run_result (A := AlgName.spooky2_128.impl) (env := env) e1 ops
      refine ⟨fun hw => R.1 _ (h.1 hw), fun hw => ?_⟩
      obtain ⟨s2, e2⟩ := h.2 hw
      simp only [Op.toks, Option.some.injEq] at ht; subst ht
      exact ⟨s2, R.2 _ _ e2⟩
    | update p n =>
      have hln : n < 2 ^ env.sizeBits := hl _ (List.mem_cons_self ..)
      have go : ∀ s1 o1, AlgName.spooky2_128.impl.update env s p n = .ok s1 → (Spooky.ok env).RelO s1 o1 → o1.n = o.n + n → o.n + n < 2 ^ env.sizeBits →
          (SPOOKY.machine env.sizeBits).run o t = (o1, []) →
          (SpookyWraps env.sizeBits o.n (.update p n :: ops) → AlgName.spooky2_128.impl.run env s (.update p n :: ops) = .error .assertFailed) ∧
          (¬ SpookyWraps env.sizeBits o.n (.update p n :: ops) →
            ∃ s', AlgName.spooky2_128.impl.run env s (.update p n :: ops) = .ok (s', ((SPOOKY.machine env.sizeBits).run o (t ++ ts')).2)) := by
        intro s1 o1 e1 r1 hn1 hfit hm
        have h := ih ts' s1 o1 r1 hts' hl'
        have hd : SpookyWraps env.sizeBits o.n (.update p n :: ops) ↔ SpookyWraps env.sizeBits o1.n ops := by
          rw [hn1]
          simp only [SpookyWraps, if_pos hfit]
        rw [hd]
        have hra : ((SPOOKY.machine env.sizeBits).run o (t ++ ts')).2 = ((SPOOKY.machine env.sizeBits).run o1 ts').2 := by
          refine (congrArg Prod.snd (Machine.run_append (SPOOKY.machine env.sizeBits) o t ts')).trans ?_
          show ((SPOOKY.machine env.sizeBits).run o t).2 ++ ((SPOOKY.machine env.sizeBits).run ((SPOOKY.machine env.sizeBits).run o t).1 ts').2 = _
          rw [hm]
          rfl
        rw [HashAlg.run_update e1, hra]
        exact h
      cases p with
      | null =>
        have hz : n = 0 := by
          by_contra h
          simp [Op.toks, h] at ht
        subst hz
        simp only [Op.toks, if_true, Option.some.injEq] at ht; subst ht
        exact go s o (update_zero_early env hr rfl .null) hr rfl hlt rfl
      | mem bs =>
        simp only [Op.toks] at ht
        split at ht
        · rename_i hle
          simp only [Option.some.injEq] at ht; subst ht
          have hlen : (bs.take n).length = n := by simp; omega
          have hrd := ((Spooky.implements env).run_data hr (bs.take n)).1
          by_cases hfit : o.n + n < 2 ^ env.sizeBits
          · have hu := (Spooky.ok env).upd env hr (bs.take n) (bs.drop n) (.inr (by rw [hlen]; exact hfit))
            rw [List.take_append_drop, hlen] at hu
            obtain ⟨s1, e1, r1⟩ := hu
            refine go s1 _ e1 r1 ?_ hfit hrd
            show (o.n + (bs.take n).length) % 2 ^ env.sizeBits = _
            rw [hlen, Nat.mod_eq_of_lt hfit]
          · have hpos : 0 < (bs.take n).length := by rw [hlen]; omega
            have hmod := wrap_mod env (o.n + n) (Nat.le_of_not_lt hfit) (by omega)
            have hd : SpookyWraps env.sizeBits o.n (.update (.mem bs) n :: ops) ↔ (o.n % 192 = 0 ∨ 192 ≤ o.n % 192 + n ∨ ops ≠ []) := by
              simp only [SpookyWraps, if_neg hfit]
            rw [hd]
            by_cases hnow : o.tail.length = 0 ∨ 192 ≤ o.tail.length + n
            · have e := update_lost_now env (Spooky.ok env).engine rfl hr (bs.take n) (bs.drop n) hpos
                (by rw [hlen]; exact hnow) (by rw [hlen]; exact hmod)
              rw [List.take_append_drop, hlen] at e
              refine ⟨fun _ => HashAlg.run_update_error (A := AlgName.spooky2_128.impl) e ops, fun h => absurd ?_ h⟩
              rw [hsync] at hnow
              exact hnow.imp id .inl
            · push Not at hnow
              obtain ⟨s1, e1, hm1, hn1⟩ := update_lost_later env hr (bs.take n) (bs.drop n) hpos (Nat.pos_of_ne_zero hnow.1)
                (by rw [hlen]; exact hnow.2)
              rw [List.take_append_drop, hlen] at e1
              rw [hlen] at hm1 hn1
              have R := HashAlg.run_update (A := AlgName.spooky2_128.impl) (env := env) e1 ops
              have hlost : ¬ s1.m = s1.n % 192 := by
                have hm1 : s1.m = o.tail.length + n := hm1
                have hn1 : s1.n = (o.n + n) % 2 ^ env.sizeBits := hn1
                rw [hm1, hn1]
                intro h
                refine hmod (h.symm.trans ?_)
                omega
              rw [hsync] at hnow
              refine ⟨fun h => ?_, fun h => ?_⟩
              · have hne : ops ≠ [] := by
                  rcases h with h | h | h
                  · exact absurd h hnow.1
                  · exact absurd h (by omega)
                  · exact h
                exact R.trans (Spooky.run_lost env s1 hlost ops hne)
              · push Not at h
                have hts0 : ts' = [] := by
                  rw [h.2.2] at hts'
                  simpa [stream] using hts'.symm
                refine ⟨s1, R.trans ?_⟩
                rw [hts0, List.append_nil, show ((SPOOKY.machine env.sizeBits).run o ((bs.take n).map .data)).2 = [] from congrArg Prod.snd hrd, h.2.2]
                rfl
        · cases ht

theorem spooky_construct (env : Env) (c : Ctor) (hv : c.Valid) (hl : c.LengthFits env.sizeBits) :
    ∃ s, AlgName.spooky2_128.impl.construct env c = .ok s ∧ (Spooky.ok env).RelO s (c.start (SPOOKY.machine env.sizeBits)) ∧
      Obj.n (c.start (SPOOKY.machine env.sizeBits)) = c.counted env.sizeBits := by
  cases c with
  | default => exact ⟨_, rfl, Spooky.start_ok env 0 0, rfl⟩
  | seed k => exact ⟨_, rfl, Spooky.start_ok env k 0, rfl⟩
  | bytes p n =>
    cases p with
    | null =>
      have hn : n = 0 := hv
      subst hn
      exact ⟨_, rfl, Spooky.start_ok env 0 0, rfl⟩
    | mem bs =>
      have hle : n ≤ bs.length := hv
      have hl : n < 2 ^ env.sizeBits := hl
      have hlen : (bs.take n).length = n := by simp; omega
      obtain ⟨s, e, r⟩ := Spooky.bytes_ok env (bs.take n) (bs.drop n) (by rw [hlen]; exact hl)
      rw [List.take_append_drop, hlen] at e
      refine ⟨s, e, r, ?_⟩
      show Obj.n (if (bs.take n).length ≤ 16 then _ else _) = if n ≤ 16 then 0 else _
      rw [hlen]
      by_cases h16 : n ≤ 16
      · rw [if_pos h16, if_pos h16]; rfl
      · rw [if_neg h16, if_neg h16, show (Ptr.mem bs).bytes n = bs.take n from rfl]
        have hd : ((bs.take n).drop 16).length = n - 16 := by rw [List.length_drop, hlen]
        generalize hx : Obj.start (start (leWord 64 ((bs.take n).take 8)) (leWord 64 (((bs.take n).drop 8).take 8))) = x
        have hx0 : x.n = 0 := by rw [← hx]; rfl
        have hxt : x.tail = [] := by rw [← hx]; rfl
        have hn1 : ((obj env.sizeBits).absorb x ((bs.take n).drop 16)).n = n - 16 := by
          show (x.n + ((bs.take n).drop 16).length) % 2 ^ env.sizeBits = _
          rw [hx0, hd, Nat.zero_add, Nat.mod_eq_of_lt (by omega)]
        rw [spooky_res_n env _ ?_ (by rw [hn1]; omega), hn1]
        rw [hn1]
        show (rest 192 (x.tail ++ (bs.take n).drop 16)).length = _
        rw [rest_length, hxt, List.nil_append, hd]

/-- **Exactly the programs that wrap the counter fail.** -/
theorem spooky_exec_exact (env : Env) (c : Ctor) (hv : c.Valid) (hl : c.LengthFits env.sizeBits) (ops : List Op) (ts : List Tok)
    (hs : stream ops = some ts) (ho : ∀ op ∈ ops, op.LengthFits env.sizeBits) :
    (SpookyWraps env.sizeBits (c.counted env.sizeBits) ops → AlgName.spooky2_128.impl.exec env c ops = .error .assertFailed) ∧
    (¬ SpookyWraps env.sizeBits (c.counted env.sizeBits) ops → AlgName.spooky2_128.impl.exec env c ops =
      .ok ((SPOOKY.machine env.sizeBits).run (c.start (SPOOKY.machine env.sizeBits)) ts).2) := by
  obtain ⟨s, e, r, hn⟩ := spooky_construct env c hv hl
  have h := spooky_run_exact env ops ts s _ r hs ho
  rw [hn] at h
  have key : ∀ {A : HashAlg} {s : A.State}, A.construct env c = .ok s →
      (∀ f, A.run env s ops = .error f → A.exec env c ops = .error f) ∧ ∀ x rs, A.run env s ops = .ok (x, rs) → A.exec env c ops = .ok rs := by
    intro A s e
    constructor
    · intro f h
      simp only [HashAlg.exec, e, Except.bind_ok, h]; rfl
    · intro x rs h
      simp only [HashAlg.exec, e, Except.bind_ok, h]; rfl
  refine ⟨fun hw => (key e).1 _ (h.1 hw), fun hw => ?_⟩
  obtain ⟨s', e'⟩ := h.2 hw
  exact (key e).2 _ _ e'

end Hash2

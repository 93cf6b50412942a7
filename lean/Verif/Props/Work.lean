import Verif.Lemmas.Work
import Verif.Spec.Platforms
/-
C61: the work an object does.
-/
namespace Hash2
open Spec

/-- **C61.** Watching is harmless: whatever the object, the call does the same, with the same outcome, whether or not the blocks are
written down. -/
theorem watched_update_same (a : AlgName) (env : Env) (s : a.impl.State) (p : Ptr) (n : Nat) :
    (a.updateObserved env s p n).map Prod.fst = a.impl.update env s p n := a.updateObserved_fst env s p n

theorem watched_result_same (d : DigestName) (env : Env) : ∀ s : d.impl.State,
    (d.resultObserved env s).map (fun x => (x.1, x.2.1)) = d.impl.result env s := by
  induction d with
  | hmac H ih =>
    intro s
    show ((H.resultObserved env (Hmac.State.inner s)) >>= fun x => (H.updateObserved env (Hmac.State.outer s) (.mem x.2.1) x.2.1.length) >>=
      fun y => (H.resultObserved env y.1) >>= fun z => .ok ((⟨z.1, x.1⟩ : Hmac.State H.impl), z.2.1, x.2.2 ++ y.2 ++ z.2.2)).map _ =
      (H.impl.result env (Hmac.State.inner s) >>= fun x => H.impl.update env (Hmac.State.outer s) (.mem x.2) x.2.length >>=
        fun y => H.impl.result env y >>= fun z => .ok ((⟨z.1, x.1⟩ : Hmac.State H.impl), z.2))
    refine (Except.map_bind_comm (fun x => (x.1, x.2.1)) _ (ih _).symm (fun x => ?_)).symm
    refine Except.map_bind_comm Prod.fst _ (H.updateObserved_fst env _ _ _).symm (fun y => ?_)
    exact Except.map_bind_comm (fun x => (x.1, x.2.1)) _ (ih _).symm (fun z => rfl)
  | _ =>
    intro s
    refine (Except.map_bind_comm (BlockState.mapSt Prod.fst) _ (mdPad_map env observed_fst _ (BlockState.watch s)) (fun t => ?_)).symm
    exact Except.map_bind_comm id _ (Except.map_id_eq _) (fun _ => rfl)

/-- **C61.** Work of update(). Any algorithm with a block size, any platform, any constructor, any history of valid calls: the next
update( p, n ) applies the block function to the blocks which the n bytes complete: those of the incomplete block (the end of what has been
passed since the last result()) followed by the n bytes, each once and in order. -/
theorem update_work (a : AlgName) (B : Nat) (hB : a.blockBytes = some B) (env : Env) (c : Ctor) (ops : List Op) (ts : List Tok) (p : Ptr) (n : Nat)
    (hc : c.Valid) (hs : stream ops = some ts) (hp : p.Readable n) (hn : a.NullOk env ∨ NoNull (ops ++ [.update p n]))
    (hr : a.Room env c (ts ++ (p.bytes n).map .data)) :
    ∃ s s', a.impl.reach env c ops = .ok s ∧ a.impl.update env s p n = .ok s' ∧
      a.updateObserved env s p n = .ok (s', blocks B (rest B (bytesSince ts) ++ p.bytes n)) := by
  have hn1 : a.NullOk env ∨ NoNull ops := hn.imp id (fun h m hm => h m (List.mem_append_left _ hm))
  have hfit := AlgName.fits hr
  rw [Implements.fitsAll_append] at hfit
  obtain ⟨s, e, r⟩ := AlgName.construct_ok hc hr
  obtain ⟨s1, e1, r1⟩ := (a.impls env).run_ok r ops ts hs (hn1.imp AlgName.nullSafe id) hfit.1
  have hre : a.impl.reach env c ops = .ok s1 := by simp only [HashAlg.reach, e, Except.bind_ok, e1, Except.pure_eq]
  have hw := a.holds_run env hB c ts
  have key : ∃ s', a.updateObserved env s1 p n = .ok (s', blocks B (rest B (bytesSince ts) ++ p.bytes n)) := by
    cases p with
    | null =>
      have : n = 0 := hp
      subst this
      have hnull : a.NullOk env := hn.resolve_right (fun h => h 0 (by simp))
      refine ⟨s1, ?_⟩
      rw [a.updateObserved_null env hnull s1 _ r1, show Ptr.bytes .null 0 = [] from rfl, List.append_nil,
        blocks_short (rest_length_lt (AlgName.blockBytes_pos hB) _)]
    | mem bs =>
      have hle : n ≤ bs.length := hp
      obtain ⟨s2, e2, _⟩ := a.updateObserved_ok env hB s1 _ _ r1 hw (bs.take n) (bs.drop n)
        (((a.impls env).run_data r1 (bs.take n)).2.1 hfit.2)
      rw [List.take_append_drop, List.length_take, Nat.min_eq_left hle] at e2
      exact ⟨s2, e2⟩
  obtain ⟨s2, e2⟩ := key
  exact ⟨s1, s2, hre, Except.eq_of_map_fst (watched_update_same a env s1 p n) e2, e2⟩

/-- **C61.** So it is called (pending + n) / B times. -/
theorem update_work_count (a : AlgName) (B : Nat) (hB : a.blockBytes = some B) (env : Env) (c : Ctor) (ops : List Op) (ts : List Tok) (p : Ptr)
    (n : Nat) (hc : c.Valid) (hs : stream ops = some ts) (hp : p.Readable n) (hn : a.NullOk env ∨ NoNull (ops ++ [.update p n]))
    (hr : a.Room env c (ts ++ (p.bytes n).map .data)) :
    ∃ s s' l, a.impl.reach env c ops = .ok s ∧ a.updateObserved env s p n = .ok (s', l) ∧
      l.length = ((bytesSince ts).length % B + n) / B := by
  obtain ⟨s, s', e, _, e'⟩ := update_work a B hB env c ops ts p n hc hs hp hn hr
  refine ⟨s, s', _, e, e', ?_⟩
  rw [blocks_length, List.length_append, rest_length]
  cases p with
  | null => have : n = 0 := hp; subst this; rfl
  | mem bs => have hle : n ≤ bs.length := hp; rw [show Ptr.bytes (.mem bs) n = bs.take n from rfl, List.length_take, Nat.min_eq_left hle]

/-- **C61.** Work of result(), for a digest or an hmac over one (to any depth): after k bytes since the last one it is `finishCost k`. -/
theorem result_work (d : DigestName) (env : Env) (c : Ctor) (ops : List Op) (ts : List Tok) (hc : c.Valid) (hs : stream ops = some ts)
    (hn : (AlgName.digest d).NullOk env ∨ NoNull ops) :
    ∃ s s' r l, (AlgName.digest d).impl.reach env c ops = .ok s ∧ d.impl.result env s = .ok (s', r) ∧
      d.resultObserved env s = .ok (s', r, l) ∧ l.length = d.finishCost (bytesSince ts).length := by
  obtain ⟨s, e, r⟩ := AlgName.reach_ok (a := .digest d) (c := c) hc hs hn trivial
  obtain ⟨s', l, e1, e2, e3⟩ := d.resultObserved_ok env s _ _ r ((AlgName.digest d).holds_run env rfl c ts)
  refine ⟨s, s', _, l, e, e2, e1, ?_⟩
  rw [e3, rest_length, DigestName.finishCost_mod]

/-- **C61.** And the blocks are those which the padding of the standard completes. (Default constructed MD5, SHA-1, SHA-2, RIPEMD objects.) -/
theorem result_work_blocks (d : DigestName) {σ : Type} (D : Md σ) (hd : d.md = some ⟨σ, D⟩) (env : Env) (ops : List Op)
    (ts : List Tok) (hs : stream ops = some ts) (hn : (AlgName.digest d).NullOk env ∨ NoNull ops) :
    ∃ s s', (AlgName.digest d).impl.reach env .default ops = .ok s ∧
      d.resultObserved env s = .ok (s', D.hash (D.log ts), blocks D.N (rest D.N (D.log ts) ++ D.pad (D.log ts).length)) := by
  obtain ⟨s, e, r⟩ := AlgName.reach_ok (a := .digest d) (c := .default) trivial hs hn trivial
  refine ⟨s, ?_⟩
  have key : ∀ {σ τ : Type} {M : MdCfg σ} {T : Md τ} (K : MdOk M T env) (s : BlockState σ),
      Hash2.Rel (M.cfg env) s (K.abs (T.machine.run ([] : List Byte) ts).1) →
      ∃ s', M.resultObserved env s = .ok (s', T.hash (T.log ts), blocks T.N (rest T.N (T.log ts) ++ T.pad (T.log ts).length)) := by
    intro σ τ M T K s h
    rw [Md.run_log] at h
    obtain ⟨s', e, _⟩ := K.resultObserved_ok h
    exact ⟨s', e⟩
  cases d <;> simp only [DigestName.md, Option.some.injEq, Sigma.mk.injEq, reduceCtorEq] at hd <;> obtain ⟨rfl, hd⟩ := hd <;> cases hd
  · obtain ⟨s', h⟩ := key (Md5.ok env) s r; exact ⟨s', e, h⟩
  · obtain ⟨s', h⟩ := key (Sha1.ok env) s r; exact ⟨s', e, h⟩
  · obtain ⟨s', h⟩ := key (Sha2.sha256_ok env) s r; exact ⟨s', e, h⟩
  · obtain ⟨s', h⟩ := key (Sha2.sha224_ok env) s r; exact ⟨s', e, h⟩
  · obtain ⟨s', h⟩ := key (Sha2.sha512_ok env) s r; exact ⟨s', e, h⟩
  · obtain ⟨s', h⟩ := key (Sha2.sha384_ok env) s r; exact ⟨s', e, h⟩
  · obtain ⟨s', h⟩ := key (Sha2.sha512_224_ok env) s r; exact ⟨s', e, h⟩
  · obtain ⟨s', h⟩ := key (Sha2.sha512_256_ok env) s r; exact ⟨s', e, h⟩
  · obtain ⟨s', h⟩ := key (Rip128.ok env) s r; exact ⟨s', e, h⟩
  · obtain ⟨s', h⟩ := key (Rip160.ok env) s r; exact ⟨s', e, h⟩

/-- **C61.** What a whole history costs depends on the stream only, not on how it is cut into calls. -/
theorem history_work (d : DigestName) (env : Env) (c : Ctor) (ops : List Op) (ts : List Tok) (hc : c.Valid) (hs : stream ops = some ts)
    (hn : (AlgName.digest d).NullOk env ∨ NoNull ops) :
    ∃ s s', (AlgName.digest d).impl.construct env c = .ok s ∧ (AlgName.digest d).impl.reach env c ops = .ok s' ∧
      d.runCounted env s ops = .ok (s', d.work 0 ts) := by
  obtain ⟨s, e, r⟩ := AlgName.construct_ok (a := .digest d) (c := c) (ts := ts) hc trivial
  obtain ⟨s', e1, e2⟩ := d.runCounted_ok env ops ts hs hn s _ [] r (d.holds_start env c)
  refine ⟨s, s', e, ?_, e2⟩
  obtain ⟨rs, e1⟩ := e1
  simp only [HashAlg.reach, e, Except.bind_ok]
  have e1 : (AlgName.digest d).impl.run env s ops = .ok (s', rs) := e1
  rw [e1]
  rfl

/-- **C61.** Closed form for a message: a call for each of its whole blocks, and the end. -/
theorem message_work (d : DigestName) (msg : List Byte) :
    d.work 0 (msg.map .data ++ [.fin]) = msg.length / d.B + d.finishCost msg.length := by
  rw [d.work_data, Nat.zero_mod, Nat.zero_add]
  rfl

/-- **C61.** The end costs 1 or 2 calls for a digest, and 2 or 3 for an HMAC over one. -/
theorem finish_bounds (d : DigestName) (hd : ∀ H, d ≠ .hmac H) (k : Nat) :
    1 ≤ d.finishCost k ∧ d.finishCost k ≤ 2 ∧ (DigestName.hmac d).finishCost k = d.finishCost k + 1 := by
  have h1 : d.finishCost k = if k % d.B + 1 + d.B / 8 ≤ d.B then 1 else 2 := by
    cases d with
    | hmac H => exact absurd rfl (hd H)
    | _ => rfl
  have h2 : d.finishCost d.resultSize = 1 := by
    cases d with
    | hmac H => exact absurd rfl (hd H)
    | _ => rfl
  refine ⟨?_, ?_, ?_⟩
  · rw [h1]; split <;> omega
  · rw [h1]; split <;> omega
  · show d.finishCost k + d.finishCost d.resultSize = _
    rw [h2]

/-- **C61.** The work is linear: B times the number of calls is at most the number of bytes, and 2 (3 for HMAC) blocks for each result(). -/
theorem work_linear (d : DigestName) (m : Nat) (hm : ∀ k, d.finishCost k ≤ m) (ts : List Tok) :
    d.B * d.work 0 ts ≤ (ts.filter (· ≠ .fin)).length + d.B * m * (ts.filter (· = .fin)).length := by
  have key : ∀ (ts : List Tok) (k : Nat),
      d.B * d.work k ts ≤ k % d.B + (ts.filter (· ≠ .fin)).length + d.B * m * (ts.filter (· = .fin)).length := by
    intro ts
    have hB := d.B_pos
    induction ts with
    | nil => intro k; simp [DigestName.work]
    | cons t ts ih =>
      intro k
      cases t with
      | data b =>
        have := ih (k + 1)
        simp only [DigestName.work, List.filter_cons, ne_eq, reduceCtorEq, not_false_eq_true, decide_true, decide_false, if_true,
          List.length_cons, Bool.false_eq_true, if_false]
        simp only [ne_eq] at this
        have hk : d.B * (if (k + 1) % d.B = 0 then 1 else 0) + (k + 1) % d.B ≤ k % d.B + 1 := by
          have h1 := Nat.mod_lt k hB
          have h2 : (k + 1) % d.B = (k % d.B + 1) % d.B := by rw [Nat.mod_add_mod]
          by_cases h : k % d.B + 1 = d.B
          · have : (k + 1) % d.B = 0 := by rw [h2, h, Nat.mod_self]
            rw [if_pos this, this]; omega
          · have : (k + 1) % d.B = k % d.B + 1 := by rw [h2, Nat.mod_eq_of_lt (by omega)]
            rw [if_neg (by omega), this]; omega
        rw [Nat.mul_add]
        omega
      | fin =>
        have := ih 0
        have h2 := Nat.mul_le_mul_left d.B (hm k)
        simp only [DigestName.work, List.filter_cons, ne_eq, not_true_eq_false, decide_true, decide_false, if_true,
          List.length_cons, Bool.false_eq_true, if_false]
        simp only [ne_eq, Nat.zero_mod] at this
        rw [Nat.mul_add, Nat.mul_succ]
        omega
  have := key ts 0
  simpa using this


-- 3 bytes, then 130: two blocks of 64 bytes are completed, 5 bytes wait; the end costs 1 (2 with HMAC)
example : ∃ s s' l, (AlgName.digest .md5_128).impl.reach le64 .default [.update (.mem abc) 3] = .ok s ∧
    AlgName.updateObserved le64 (.digest .md5_128) s (.mem (List.replicate 130 7)) 130 = .ok (s', l) ∧ l.length = 2 := by
  obtain ⟨s, s', l, h1, h2, h3⟩ := update_work_count (.digest .md5_128) 64 rfl le64 .default [.update (.mem abc) 3] _ (.mem (List.replicate 130 7)) 130
    trivial rfl (show 130 ≤ (List.replicate 130 (7 : Byte)).length by simp) (.inl (.inl rfl)) trivial
  exact ⟨s, s', l, h1, h2, h3⟩
example : ∃ s s' l, AlgName.spooky2_128.impl.reach be32 (.seed 5) [.update (.mem abc) 3, .result, .update .null 0] = .ok s ∧
    AlgName.updateObserved be32 .spooky2_128 s (.mem abc) 2 = .ok (s', l) ∧ l.length = 0 := by
  obtain ⟨s, s', l, h1, h2, h3⟩ := update_work_count .spooky2_128 192 rfl be32 (.seed 5) [.update (.mem abc) 3, .result, .update .null 0] _ (.mem abc) 2
    trivial rfl (by decide : 2 ≤ 3) (.inl trivial) (show (_ : Nat) < 2 ^ be32.sizeBits from by decide)
  exact ⟨s, s', l, h1, h2, h3⟩
example : ∃ s s', (AlgName.digest (.hmac .sha2_256)).impl.construct le64 (.bytes (.mem abc) 3) = .ok s ∧
    (AlgName.digest (.hmac .sha2_256)).impl.reach le64 (.bytes (.mem abc) 3) [.update (.mem abc) 3, .result] = .ok s' ∧
    DigestName.runCounted le64 (.hmac .sha2_256) s [.update (.mem abc) 3, .result] = .ok (s', 2) :=
  history_work (.hmac .sha2_256) le64 (.bytes (.mem abc) 3) [.update (.mem abc) 3, .result] _ (by decide : 3 ≤ 3) rfl
    (.inr (fun n => by simp))
-- a message of 55 bytes takes one call, of 56 two, of 64 two, of 1000000 15626
example : DigestName.finishCost .md5_128 55 = 1 ∧ DigestName.finishCost .md5_128 56 = 2 ∧ 64 / 64 + DigestName.finishCost .md5_128 64 = 2 ∧
    1000000 / 64 + DigestName.finishCost .md5_128 1000000 = 15626 := by decide
example (ts : List Tok) : 64 * DigestName.work .md5_128 0 ts ≤ (ts.filter (· ≠ .fin)).length + 64 * 2 * (ts.filter (· = .fin)).length :=
  work_linear .md5_128 2 (fun k => (finish_bounds .md5_128 (fun _ h => by cases h) k).2.1) ts
example (ts : List Tok) : 64 * DigestName.work (.hmac .md5_128) 0 ts ≤ (ts.filter (· ≠ .fin)).length + 64 * 3 * (ts.filter (· = .fin)).length :=
  work_linear (.hmac .md5_128) 3 (fun k => by
    have := finish_bounds .md5_128 (fun _ h => by cases h) k
    rw [this.2.2]; omega) ts

end Hash2

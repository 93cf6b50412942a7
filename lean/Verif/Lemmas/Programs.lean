import Verif.Lemmas.HashAppend
import Verif.Lemmas.Platform
/-
Programs with hash_append do what they are to do.
-/
namespace Hash2
open Spec

theorem encode_length {w : Nat} (q : SHA2.St w) : (SHA2.encode q).length = 8 * (w / 8) := by
  simp [SHA2.encode, natBE_length]; omega

theorem DigestName.res_length (d : DigestName) (s : d.machine.S) : 8 ≤ (d.machine.res s).2.length := by
  have h32 : ∀ (q : SHA2.St 32) n, 8 ≤ n → 8 ≤ ((SHA2.encode q).take n).length := fun q n h => by
    rw [List.length_take, encode_length]; omega
  have h64 : ∀ (q : SHA2.St 64) n, 8 ≤ n → 8 ≤ ((SHA2.encode q).take n).length := fun q n h => by
    rw [List.length_take, encode_length]; omega
  induction d with
  | md5_128 => show 8 ≤ (MD5.md5.hash s).length; simp [Md.hash, MD5.md5, natLE_length]
  | sha1_160 => show 8 ≤ (SHA1.sha1.hash s).length; simp [Md.hash, SHA1.sha1, natBE_length]
  | ripemd_128 => show 8 ≤ (RIPEMD.ripemd128.hash s).length; simp [Md.hash, RIPEMD.ripemd128, natLE_length]
  | ripemd_160 => show 8 ≤ (RIPEMD.ripemd160.hash s).length; simp [Md.hash, RIPEMD.ripemd160, natLE_length]
  | sha2_256 => exact h32 _ 32 (by decide)
  | sha2_224 => exact h32 _ 28 (by decide)
  | sha2_512 => exact h64 _ 64 (by decide)
  | sha2_384 => exact h64 _ 48 (by decide)
  | sha2_512_224 => exact h64 _ 28 (by decide)
  | sha2_512_256 => exact h64 _ 32 (by decide)
  | hmac H ih => exact ih _

theorem integral_digest (env : Env) (r : List Byte) (h : 8 ≤ r.length) : Integral.getDigest env 8 r = .ok (leWord 64 (r.take 8)) := by
  unfold Integral.getDigest
  rw [read64le_ok env r h]
  simp

theorem murmur_finish_length (s : MURMUR3.x64_128.St) (tail : List Byte) (n : Nat) : 8 ≤ (MURMUR3.x64_128.finish s tail n).length := by
  unfold MURMUR3.x64_128.finish
  simp only [List.length_append, natLE_length]
  omega

theorem outBytes_length (h : SPOOKY.Word × SPOOKY.Word) : 8 ≤ (SPOOKY.outBytes h).length := by
  simp [SPOOKY.outBytes, natLE_length]

/-- the number of a result: get_integral_result never fails on results -/
theorem AlgName.integral_ok (a : AlgName) (ctr : Nat) (s : (a.machine ctr).S) :
    ∃ x, ∀ env', a.impl.integral env' ((a.machine ctr).res s).2 = .ok x := by
  cases a with
  | digest d => exact ⟨_, fun env' => integral_digest env' _ (d.res_length s)⟩
  | murmur3_128 => exact ⟨_, fun env' => integral_digest env' _ (murmur_finish_length _ _ _)⟩
  | spooky2_128 => exact ⟨_, fun env' => integral_digest env' _ (outBytes_length _)⟩
  | _ => exact ⟨_, fun _ => rfl⟩

theorem AlgName.numberOf_ok (a : AlgName) (env : Env) (ctr : Nat) (s : (a.machine ctr).S) :
    a.impl.integral env ((a.machine ctr).res s).2 = .ok (a.impl.numberOf env ((a.machine ctr).res s).2) := by
  obtain ⟨x, h⟩ := a.integral_ok ctr s
  unfold HashAlg.numberOf
  rw [h env]

theorem AlgName.numberOf_env (a : AlgName) (env env' : Env) (ctr : Nat) (s : (a.machine ctr).S) :
    a.impl.numberOf env ((a.machine ctr).res s).2 = a.impl.numberOf env' ((a.machine ctr).res s).2 := by
  obtain ⟨x, h⟩ := a.integral_ok ctr s
  unfold HashAlg.numberOf
  rw [h env, h env']

theorem noNull_append {xs ys : List Op} : NoNull (xs ++ ys) ↔ NoNull xs ∧ NoNull ys := by
  unfold NoNull
  constructor
  · exact fun h => ⟨fun n hm => h n (List.mem_append_left _ hm), fun n hm => h n (List.mem_append_right _ hm)⟩
  · rintro ⟨h1, h2⟩ n hm
    rcases List.mem_append.1 hm with hm | hm
    · exact h1 n hm
    · exact h2 n hm

section
variable {A : HashAlg} {env : Env} {S : Machine A.R} (I : Implements A env S) {c : Ctor}

/-- the number of the hash of bs is what the machine says -/
theorem number_eq {s₀ : A.State} {start : S.S} (hc : A.construct env c = .ok s₀) (hr : I.Rel s₀ start) {done : List Op} {td : List Tok}
    (hd : stream done = some td) (hn : I.nullSafe ∨ NoNull done) (bs : List Byte)
    (hf : I.FitsAll start (td ++ bs.map .data)) :
    A.number env c done bs = A.numberOf env (S.res (S.absorb (S.run start td).1 bs)).2 := by
  have hf' := (I.fitsAll_append td (bs.map .data)).1 hf
  obtain ⟨s1, e1, r1⟩ := I.run_ok hr done td hd hn hf'.1
  have hb := (I.run_data r1 bs).1
  have hst : stream (done ++ [.update (.mem bs) bs.length, .result]) = some (td ++ (bs.map .data ++ [.fin])) := by
    rw [stream_append, hd]
    simp [stream, Op.toks]
  have hnn : I.nullSafe ∨ NoNull (done ++ [.update (.mem bs) bs.length, .result]) :=
    hn.imp id fun h => noNull_append.2 ⟨h, by intro n; simp⟩
  have hff : I.FitsAll start (td ++ (bs.map .data ++ [.fin])) := by
    rw [← List.append_assoc, I.fitsAll_append]
    exact ⟨hf, trivial⟩
  obtain ⟨s2, e2, -⟩ := I.run_ok hr _ _ hst hnn hff
  have hres : (S.run start (td ++ (bs.map .data ++ [.fin]))).2 = (S.run start td).2 ++ [(S.res (S.absorb (S.run start td).1 bs)).2] := by
    rw [Machine.run_append, Machine.run_append, hb]
    rfl
  unfold HashAlg.number HashAlg.exec
  rw [hc, Except.bind_ok, e2, hres]
  simp

theorem message_weight (env : Env) (f : Flavor) (H : List Byte → W64) (t : Ty) (v : t.Val) (p : List Byte) :
    (message (layout env f) H t v p).length ≤ weight t v :=
  message_length_le (L := layout env f) H f.sizeType.n_le env.ptrSz.n_le t v p

theorem progCost_cons (p : Stmt) (ps : List Stmt) : progCost (p :: ps) = p.cost + progCost ps := by simp [progCost]

/-- **A program with hash_append** and the calls it is to make -/
theorem stmts_ok {P : Prop} (hP : P → I.nullSafe) {s₀ : A.State} {start : S.S} (hc : A.construct env c = .ok s₀) (hr : I.Rel s₀ start) (hround : env.fp.roundDown = false)
    (hint : ∀ a, A.integral env (S.res a).2 = .ok (A.numberOf env (S.res a).2)) (ps : List Stmt) :
    ∀ done td s, stream done = some td → (P ∨ NoNull done) → I.Rel s (S.run start td).1 → (∀ p ∈ ps, p.Valid env) →
    (P ∨ ∀ p ∈ ps, p.NoNull env) → (∀ ts, cost ts ≤ progCost ps → I.FitsAll start (td ++ ts)) →
    ∃ ts s', stream (A.expand env c done ps) = some ts ∧ (P ∨ NoNull (A.expand env c done ps)) ∧ cost ts ≤ progCost ps ∧
      A.runStmts env s ps = .ok (s', (S.run (S.run start td).1 ts).2) ∧ I.Rel s' (S.run (S.run start td).1 ts).1 := by
  induction ps with
  | nil => exact fun done td s _ _ h _ _ _ => ⟨[], s, rfl, .inr (by intro n; simp [HashAlg.expand]), Nat.zero_le _, rfl, h⟩
  | cons q ps ih =>
    intro done td s hd hn hs hv hnull hfit
    have hv' := fun p hm => hv p (List.mem_cons_of_mem _ hm)
    have hnull' : P ∨ ∀ p ∈ ps, p.NoNull env := hnull.imp id fun h p hm => h p (List.mem_cons_of_mem _ hm)
    have hq := hv q (List.mem_cons_self ..)
    have hqn : P ∨ q.NoNull env := hnull.imp id fun h => h q (List.mem_cons_self ..)
    -- the call the statement is to make, its tokens, its effect
    have key : ∃ (op : Op) (t : List Tok), A.expand env c done (q :: ps) = op :: A.expand env c (done ++ [op]) ps ∧ op.toks = some t ∧
        (P ∨ NoNull [op]) ∧ cost t ≤ q.cost ∧
        ((∃ s1, I.Rel s1 (S.run (S.run start td).1 t).1 ∧ ∀ s2 rs, A.runStmts env s1 ps = .ok (s2, rs) →
          A.runStmts env s (q :: ps) = .ok (s2, (S.run (S.run start td).1 t).2 ++ rs))) := by
      have hfit1 : ∀ ts, cost ts ≤ q.cost → I.FitsAll (S.run start td).1 ts := fun ts h =>
        ((I.fitsAll_append td ts).1 (hfit ts (by rw [progCost_cons]; omega))).2
      cases q with
      | call op =>
        obtain ⟨t, ht⟩ := Option.isSome_iff_exists.1 (show op.toks.isSome = true from hq)
        have hno : P ∨ NoNull [op] := hqn.imp id fun h n hm => h n (List.mem_singleton.1 hm).symm
        have hct : cost t ≤ (Stmt.call op).cost := by
          cases op with
          | result => simp only [Op.toks, Option.some.injEq] at ht; subst ht; exact Nat.le_refl _
          | update p n =>
            cases p with
            | null =>
              simp only [Op.toks] at ht
              split at ht
              · simp only [Option.some.injEq] at ht; subst ht; exact Nat.zero_le _
              · cases ht
            | mem bs =>
              simp only [Op.toks] at ht
              split at ht
              · simp only [Option.some.injEq] at ht; subst ht
                rw [cost_data, List.length_take]; exact Nat.min_le_left _ _
              · cases ht
        have hst1 : stream [op] = some t := by simp [stream, ht]
        obtain ⟨s1, e1, r1⟩ := I.run_ok hs [op] t hst1 (hno.imp hP id) (hfit1 t hct)
        refine ⟨op, t, rfl, ht, hno, hct, s1, r1, fun s2 rs he => ?_⟩
        cases op with
        | result =>
          simp only [HashAlg.run] at e1
          cases hres : A.result env s with
          | error e => rw [hres] at e1; cases e1
          | ok x =>
            obtain ⟨sx, r⟩ := x
            rw [hres] at e1
            simp only [Except.bind_ok, Except.pure_eq, Except.ok.injEq, Prod.mk.injEq] at e1
            obtain ⟨e1a, e1b⟩ := e1
            subst e1a
            simp only [HashAlg.runStmts, hres, Except.bind_ok, he, Except.pure_eq, ← e1b, List.singleton_append]
        | update p n =>
          simp only [HashAlg.run] at e1
          cases hres : A.update env s p n with
          | error e => rw [hres] at e1; cases e1
          | ok x =>
            rw [hres] at e1
            simp only [Except.bind_ok, Except.ok.injEq, Prod.mk.injEq] at e1
            obtain ⟨e1a, e1b⟩ := e1
            subst e1a
            simp only [HashAlg.runStmts, hres, Except.bind_ok, he, ← e1b, List.nil_append]
      | append f t v =>
        obtain ⟨hw, hval, hconst⟩ := hq
        have hroom : Room I (S.run start td).1 [] (weight t v) := by
          intro bs hl
          have := hfit1 (bs.map .data) (by rw [cost_data]; exact hl)
          exact ((I.run_data hs bs).2).1 this
        have hH : ∀ bs, I.fits (S.run start td).1 bs → A.number env c done bs =
            A.numberOf env (S.res (S.absorb (S.run start td).1 bs)).2 := by
          intro bs hb
          have h0 : I.FitsAll start td := by simpa using hfit [] (Nat.zero_le _)
          refine number_eq I hc hr hd (hn.imp hP id) bs ((I.fitsAll_append _ _).2 ⟨h0, ((I.run_data hs bs).2).2 hb⟩)
        have hm := message_weight env f (A.number env c done) t v []
        obtain ⟨s1, e1, r1⟩ := append_feeds (I := I) (a₀ := (S.run start td).1) (f := f) (A.number env c done) (int := A.numberOf env)
          (fun s a _ => hint a) hround hH t v ⟨hw, hval, hconst, hqn.imp hP id⟩ [] (weight t v) hroom (Nat.le_refl _) s
          (by rw [I.absorb_nil s _ hs]; exact hs)
        rw [List.nil_append] at r1
        refine ⟨.update (.mem (A.messageOf env c done f t v)) (A.messageOf env c done f t v).length,
          (A.messageOf env c done f t v).map .data, rfl, ?_, .inr (by intro n; simp), ?_, s1, ?_, fun s2 rs he => ?_⟩
        · simp [Op.toks]
        · rw [cost_data]; exact hm
        · rw [(I.run_data hs _).1]; exact r1
        · rw [(I.run_data hs _).1]
          simp only [HashAlg.runStmts, hashAppend, e1, Except.bind_ok, he, List.nil_append]
    obtain ⟨op, t, he, ht, hno, hct, s1, r1, hrun⟩ := key
    have hd' : stream (done ++ [op]) = some (td ++ t) := by rw [stream_append, hd]; simp [stream, ht]
    have hn' : P ∨ NoNull (done ++ [op]) := by
      rcases hn with h | h
      · exact .inl h
      · rcases hno with h' | h'
        · exact .inl h'
        · exact .inr (noNull_append.2 ⟨h, h'⟩)
    have hra : S.run start (td ++ t) = ((S.run (S.run start td).1 t).1, (S.run start td).2 ++ (S.run (S.run start td).1 t).2) :=
      Machine.run_append S start td t
    obtain ⟨ts, s2, h1, h2, h3, h4, h5⟩ := ih (done ++ [op]) (td ++ t) s1 hd' hn' (by rw [hra]; exact r1) hv' hnull'
      (fun ts h => by rw [List.append_assoc]; exact hfit _ (by rw [cost_append, progCost_cons]; omega))
    refine ⟨t ++ ts, s2, ?_, ?_, ?_, ?_, ?_⟩
    · rw [he]; simp [stream, ht, h1]
    · rw [he]
      rcases hno with h | h
      · exact .inl h
      · exact h2.imp id fun h' => noNull_append.2 ⟨h, h'⟩
    · rw [cost_append, progCost_cons]; omega
    · rw [hra] at h4
      rw [Machine.run_append S _ t ts]
      exact hrun _ _ h4
    · rw [hra] at h5
      rw [Machine.run_append S _ t ts]
      exact h5

end

theorem AlgName.room_of {a : AlgName} {env : Env} {c : Ctor} {k : Nat} {ts : List Tok} (h : a.RoomFor env c k) (hk : cost ts ≤ k) :
    a.Room env c ts := by
  cases a with
  | spooky2_128 =>
    have h : c.cost + k < 2 ^ env.sizeBits := h
    show c.cost + cost ts < 2 ^ env.sizeBits
    omega
  | _ => trivial

/-- **What programs with hash_append return** -/
theorem AlgName.runs_ok {a : AlgName} {env : Env} {c : Ctor} {ps : List Stmt} (h : a.Runs env c ps) :
    ∃ ts, stream (a.impl.expand env c [] ps) = some ts ∧ cost ts ≤ progCost ps ∧
      (a.NullOk env ∨ NoNull (a.impl.expand env c [] ps)) ∧
      a.impl.execStmts env c ps = .ok ((a.machine env.sizeBits).run (c.start (a.machine env.sizeBits)) ts).2 := by
  obtain ⟨s, e, r⟩ := construct_ok (ts := []) h.ctor (room_of h.room (Nat.zero_le _))
  obtain ⟨ts, s', h1, h2, h3, h4, -⟩ := stmts_ok (a.impls env) (P := a.NullOk env) nullSafe e r h.round (fun x => a.numberOf_ok env _ x) ps [] [] s rfl
    (.inr (by intro n; simp)) r h.valid h.null (fun ts hts => fits (room_of h.room hts))
  refine ⟨ts, h1, h3, h2, ?_⟩
  unfold HashAlg.execStmts
  rw [e, Except.bind_ok, h4]
  rfl

/-- **hash_append is update with the message.** -/
theorem AlgName.runs_expand {a : AlgName} {env : Env} {c : Ctor} {ps : List Stmt} (h : a.Runs env c ps) :
    ∃ rs, a.impl.execStmts env c ps = .ok rs ∧ a.impl.exec env c (a.impl.expand env c [] ps) = .ok rs := by
  obtain ⟨ts, h1, h2, h3, h4⟩ := runs_ok h
  exact ⟨_, h4, exec_ok h.ctor h1 h3 (room_of h.room h2)⟩

end Hash2

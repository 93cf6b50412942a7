import Mathlib.Data.Nat.ModEq
import Verif.Lemmas.Extended
import Verif.Props.Distinct
import Verif.Lemmas.Pigeon
/-
C53, C54: result() called several times, to extend the output.
-/
namespace Hash2
open Spec

theorem stream_more_results (ops : List Op) (ts : List Tok) (h : stream ops = some ts) (k : Nat) :
    stream (ops ++ List.replicate k .result) = some (ts ++ List.replicate k .fin) := by
  induction k with
  | zero => simpa using h
  | succ k ih => rw [List.replicate_succ', List.replicate_succ', ← List.append_assoc, ← List.append_assoc]; exact stream_result _ _ ih

theorem noNull_results {ops : List Op} (h : NoNull ops) (k : Nat) : NoNull (ops ++ List.replicate k .result) := by
  intro n hm
  rcases List.mem_append.1 hm with hm | hm
  · exact h n hm
  · exact absurd (List.eq_of_mem_replicate hm) (by simp)

/-- **C53.** The ten digests: every one of the results of repeated result() calls is the standard's digest of an encoding of the message
from which the message can be recovered. So no result forgets a part of the message that the first one depends on. -/
theorem digest_extended_output_partial (d : DigestName) (σ : Type) (D : Md σ) (hd : d.md = some ⟨σ, D⟩) (c : Ctor) (hc : c.Valid) :
    ∃ encoding : Nat → List Byte → List Byte, (∀ i m m', encoding i m = encoding i m' → m = m') ∧
      ∀ (env : Env) (ops : List Op) (m : List Byte) (k : Nat), stream ops = some (m.map .data) →
        (d.isSha2 = false ∨ env.loops = true ∨ NoNull ops) →
        d.impl.toHash.exec env c (ops ++ List.replicate k .result) = .ok ((List.range k).map fun i => D.hash (encoding i m)) := by
  refine ⟨fun i m => D.log (c.history ++ m.map .data ++ List.replicate i .fin), fun i m m' h => DigestName.log_inj hd _ i h, ?_⟩
  intro env ops m k h hn
  have hn : (AlgName.digest d).NullOk env ∨ NoNull (ops ++ List.replicate k .result) := by
    rcases hn with h | h | h
    exacts [.inl (.inl h), .inl (.inr h), .inr (noNull_results h k)]
  refine (AlgName.exec_ok (a := .digest d) hc (stream_more_results ops _ h k) hn trivial).trans (congrArg Except.ok ?_)
  have key : ∀ M : Machine (List Byte), M = D.machine → (M.run (c.start M) (m.map Tok.data ++ List.replicate k Tok.fin)).2 =
      (List.range k).map fun i => D.hash (D.log (c.history ++ m.map .data ++ List.replicate i .fin)) := by
    rintro _ rfl
    rw [D.run_fins, Machine.run_data', List.nil_append]
  exact key d.machine (DigestName.machine_of_md hd)

/-- 512 bits from sha2_256 -/
example (env : Env) : ∃ encoding : Nat → List Byte → List Byte, (∀ i m m', encoding i m = encoding i m' → m = m') ∧
    DigestName.sha2_256.impl.toHash.exec env .default [.update (.mem abc) 3, .result, .result] =
      .ok [SHA2.sha256.hash (encoding 0 abc), SHA2.sha256.hash (encoding 1 abc)] := by
  obtain ⟨e, hi, h⟩ := digest_extended_output_partial .sha2_256 _ _ rfl .default trivial
  exact ⟨e, hi, h env [.update (.mem abc) 3] abc 2 rfl (.inr (.inr (by intro n; simp)))⟩

private theorem mur_tail {τ R : Type} (T : BlockHash τ R) (hN : 0 < T.N) (hst : ∀ s t n, (T.finish s t n).1 = s) (hr : T.renum = id) (o : Obj τ) (ho : o.tail = [])
    (m x y : List Byte) (hl : x.length = y.length) (hx : m.length % T.N + x.length < T.N) :
    (T.res (T.absorb o (m ++ x))).1 = (T.res (T.absorb o (m ++ y))).1 := by
  have bl : ∀ x : List Byte, m.length % T.N + x.length < T.N → blocks T.N (m ++ x) = blocks T.N m := by
    intro x hx
    rw [(blocks_split hN m x).1, blocks_short (l := Spec.rest T.N m ++ x) (by rw [List.length_append, rest_length]; exact hx), List.append_nil]
  apply T.same_after
  · rw [hst, hst]
    simp only [BlockHash.absorb, ho, List.nil_append]
    rw [bl x hx, bl y (by omega)]
  · simp only [BlockHash.absorb, List.length_append, hl]
  · simp only [BlockHash.absorb, ho, List.nil_append, rest_length, List.length_append, hl]

private theorem mur_later {τ R : Type} (T : BlockHash τ R) (hN : 0 < T.N) (hst : ∀ s t n, (T.finish s t n).1 = s) (hr : T.renum = id)
    {init : Obj τ} {seed : BitVec 64 → Obj τ} {bytes : List Byte → Obj τ} (o : Obj τ) (ho : o.tail = []) (hd : ∀ (m : List Byte),
      ((T.machine init seed bytes).run o (m.map .data)).1 = T.absorb o m)
    (m x y : List Byte) (hl : x.length = y.length) (hx : m.length % T.N + x.length < T.N) (tm : List Tok) :
    ∃ (r r' : R) (rs : List R), ((T.machine init seed bytes).run o ((m ++ x).map .data ++ [.fin] ++ tm)).2 = r :: rs ∧
      ((T.machine init seed bytes).run o ((m ++ y).map .data ++ [.fin] ++ tm)).2 = r' :: rs := by
  have e : ∀ z : List Byte, ((T.machine init seed bytes).run o (z.map .data ++ [.fin] ++ tm)).2 =
      (T.res (T.absorb o z)).2 :: ((T.machine init seed bytes).run (T.res (T.absorb o z)).1 tm).2 := by
    intro z
    have q := Machine.run_append (T.machine init seed bytes) o (z.map .data) ([.fin] ++ tm)
    rw [List.append_assoc]
    refine (congrArg Prod.snd q).trans ?_
    show ((T.machine init seed bytes).run o (z.map .data)).2 ++ ((T.machine init seed bytes).run ((T.machine init seed bytes).run o (z.map .data)).1 ([.fin] ++ tm)).2 = _
    rw [hd, show ((T.machine init seed bytes).run o (z.map .data)).2 = [] from Machine.run_data' (T.machine init seed bytes) z o]
    rfl
  refine ⟨_, (T.res (T.absorb o (m ++ y))).2, _, e (m ++ x), ?_⟩
  rw [e, mur_tail T hN hst hr o ho m x y hl hx]

private theorem data_stream (bs : List Byte) : stream [.update (.mem bs) bs.length, .result] = some (bs.map .data ++ [.fin]) := by
  simp [stream, Op.toks]

/-- **C53 fails** for murmur3: all results but the first ignore the bytes of the last incomplete block. After a message m, two
continuations x and y of the same length that do not complete the block are told apart by the first result only, whatever follows. -/
theorem murmur3_later_results_ignore_tail (a : AlgName) (N : Nat) (ha : a = .murmur3_32 ∧ N = 4 ∨ a = .murmur3_128 ∧ N = 16) (env : Env)
    (c : Ctor) (hc : c.Valid) (before more : List Op) (m x y : List Byte) (tm : List Tok) (hb : stream before = some (m.map .data))
    (hm : stream more = some tm) (hl : x.length = y.length) (hx : m.length % N + x.length < N) :
    ∃ (r r' : a.impl.R) (rs : List a.impl.R),
      a.impl.exec env c (before ++ [.update (.mem x) x.length, .result] ++ more) = .ok (r :: rs) ∧
      a.impl.exec env c (before ++ [.update (.mem y) y.length, .result] ++ more) = .ok (r' :: rs) := by
  have S : ∀ z : List Byte, stream (before ++ [.update (.mem z) z.length, .result] ++ more) = some ((m ++ z).map .data ++ [.fin] ++ tm) := by
    intro z
    rw [stream_append, stream_append, hb, data_stream, hm]
    simp
  rcases ha with ⟨rfl, rfl⟩ | ⟨rfl, rfl⟩
  · obtain ⟨s, _, r⟩ := AlgName.construct_ok (a := .murmur3_32) (env := env) (ts := []) hc trivial
    obtain ⟨q, q', qs, e, e'⟩ := mur_later (MURMUR3.x86_32.obj env.sizeBits) (show 0 < 4 by decide) (fun _ _ _ => rfl) rfl
      (c.start (MURMUR3.x86_32.machine env.sizeBits)) (mur32_start _ c)
      (fun m => congrArg Prod.fst ((AlgName.murmur3_32.impls env).run_data r m).1) m x y hl hx tm
    exact ⟨q, q', qs, (AlgName.exec_ok (a := .murmur3_32) hc (S x) (.inl trivial) trivial).trans (congrArg Except.ok e),
      (AlgName.exec_ok (a := .murmur3_32) hc (S y) (.inl trivial) trivial).trans (congrArg Except.ok e')⟩
  · obtain ⟨s, _, r⟩ := AlgName.construct_ok (a := .murmur3_128) (env := env) (ts := []) hc trivial
    obtain ⟨q, q', qs, e, e'⟩ := mur_later (MURMUR3.x64_128.obj env.sizeBits) (show 0 < 16 by decide) (fun _ _ _ => rfl) rfl
      (c.start (MURMUR3.x64_128.machine env.sizeBits)) (mur128_start _ c)
      (fun m => congrArg Prod.fst ((AlgName.murmur3_128.impls env).run_data r m).1) m x y hl hx tm
    exact ⟨q, q', qs, (AlgName.exec_ok (a := .murmur3_128) hc (S x) (.inl trivial) trivial).trans (congrArg Except.ok e),
      (AlgName.exec_ok (a := .murmur3_128) hc (S y) (.inl trivial) trivial).trans (congrArg Except.ok e')⟩

/-- all messages of 15 bytes, for instance, give the same second, third and fourth results of murmur3_128 -/
example (env : Env) (x y : List Byte) (hx : x.length = 15) (hy : y.length = 15) : ∃ (r r' : List Byte) (rs : List (List Byte)),
    AlgName.murmur3_128.impl.exec env .default ([] ++ [.update (.mem x) x.length, .result] ++ [.result, .result, .result]) = .ok (r :: rs) ∧
    AlgName.murmur3_128.impl.exec env .default ([] ++ [.update (.mem y) y.length, .result] ++ [.result, .result, .result]) = .ok (r' :: rs) :=
  murmur3_later_results_ignore_tail .murmur3_128 16 (.inr ⟨rfl, rfl⟩) env .default trivial [] [.result, .result, .result] [] x y
    [.fin, .fin, .fin] rfl rfl (hx.trans hy.symm) (by rw [hx]; decide)

private theorem mul_mod_iff (N p : Nat) (n i j : Nat) (hN : 0 < N) : (n + N * i) % (N * p) = (n + N * j) % (N * p) ↔ i % p = j % p := by
  have e : (n + N * i) % (N * p) = (n + N * j) % (N * p) ↔ N * i % (N * p) = N * j % (N * p) := by
    constructor
    · intro h
      have := Nat.ModEq.add_left_cancel' n h
      exact this
    · intro h
      exact Nat.ModEq.add_left n h
  rw [e, Nat.mul_mod_mul_left, Nat.mul_mod_mul_left, Nat.mul_right_inj (by omega)]

/-- **C54, exactly, for murmur3_32.** After the first result the successive results of result() repeat with period 2^30 and not before:
the i-th and the j-th are equal exactly if i and j are equal modulo 2^30. -/
theorem murmur3_32_result_period (env : Env) (c : Ctor) (hc : c.Valid) (ops : List Op) (ts : List Tok) (h : stream ops = some ts) :
    ∃ (rs : List W32) (f : Nat → W32), (∀ k, AlgName.murmur3_32.impl.exec env c (ops ++ [.result] ++ List.replicate k .result) =
      .ok (rs ++ (List.range k).map f)) ∧ ∀ i j, f i = f j ↔ i % 2 ^ 30 = j % 2 ^ 30 := by
  let M := MURMUR3.x86_32.machine env.sizeBits
  let T := MURMUR3.x86_32.obj env.sizeBits
  let o : Obj (BitVec 32) := (M.run (c.start M) (ts ++ [.fin])).1
  have ho : o = ⟨o.st, [], o.n⟩ ∧ o.n < 2 ^ env.sizeBits := by
    have e : o = (T.res (M.run (c.start M) ts).1).1 := by
      show (M.run (c.start M) (ts ++ [.fin])).1 = _
      rw [Machine.run_append]; rfl
    rw [e]
    exact ⟨rfl, Nat.mod_lt _ (Nat.two_pow_pos _)⟩
  have hsz : 2 ^ env.sizeBits = 2 ^ 32 * 2 ^ (env.sizeBits - 32) := by rcases sizeBits_cases env with h | h <;> rw [h] <;> rfl
  refine ⟨(M.run (c.start M) (ts ++ [.fin])).2, fun i => MURMUR3.x86_32.finish o.st [] ((o.n + 4 * i) % 2 ^ env.sizeBits), fun k => ?_, fun i j => ?_⟩
  · refine (AlgName.exec_ok (a := .murmur3_32) (env := env) hc (stream_more_results _ _ (stream_result ops ts h) k) (.inl trivial) trivial).trans (congrArg Except.ok ?_)
    show (M.run (c.start M) (ts ++ [.fin] ++ List.replicate k .fin)).2 = _
    rw [Machine.run_append]
    show _ ++ (M.run o (List.replicate k .fin)).2 = _
    rw [ho.1]
    exact congrArg (_ ++ ·) (T.run_fins (fun _ _ _ => rfl) rfl o.st o.n k ho.2)
  · constructor
    · intro e
      have := mur32_len_inj e
      rw [hsz, Nat.mod_mul_right_mod, Nat.mod_mul_right_mod] at this
      exact (mul_mod_iff 4 (2 ^ 30) o.n i j (by decide)).1 this
    · intro e
      have := (mul_mod_iff 4 (2 ^ 30) o.n i j (by decide)).2 e
      have q : ∀ n : Nat, BitVec.ofNat 32 (n % 2 ^ env.sizeBits) = BitVec.ofNat 32 (n % 2 ^ 32) := by
        intro n
        apply BitVec.eq_of_toNat_eq
        rw [BitVec.toNat_ofNat, BitVec.toNat_ofNat, hsz, Nat.mod_mul_right_mod, Nat.mod_mod]
      have this : (o.n + 4 * i) % 2 ^ 32 = (o.n + 4 * j) % 2 ^ 32 := this
      show MURMUR3.x86_32.fmix (_ ^^^ BitVec.ofNat 32 _) = MURMUR3.x86_32.fmix (_ ^^^ BitVec.ofNat 32 _)
      rw [q, q, this]

/-- **C54, exactly, for murmur3_128**: the period is 2^60 if std::size_t has 64 bits, and 2^28 if it has 32. -/
theorem murmur3_128_result_period (env : Env) (c : Ctor) (hc : c.Valid) (ops : List Op) (ts : List Tok) (h : stream ops = some ts) :
    ∃ (rs : List (List Byte)) (f : Nat → List Byte), (∀ k, AlgName.murmur3_128.impl.exec env c (ops ++ [.result] ++ List.replicate k .result) =
      .ok (rs ++ (List.range k).map f)) ∧ ∀ i j, f i = f j ↔ i % 2 ^ (env.sizeBits - 4) = j % 2 ^ (env.sizeBits - 4) := by
  let M := MURMUR3.x64_128.machine env.sizeBits
  let T := MURMUR3.x64_128.obj env.sizeBits
  let o : Obj MURMUR3.x64_128.St := (M.run (c.start M) (ts ++ [.fin])).1
  have ho : o = ⟨o.st, [], o.n⟩ ∧ o.n < 2 ^ env.sizeBits := by
    have e : o = (T.res (M.run (c.start M) ts).1).1 := by
      show (M.run (c.start M) (ts ++ [.fin])).1 = _
      rw [Machine.run_append]; rfl
    rw [e]
    exact ⟨rfl, Nat.mod_lt _ (Nat.two_pow_pos _)⟩
  have hsz : 2 ^ env.sizeBits = 16 * 2 ^ (env.sizeBits - 4) := by rcases sizeBits_cases env with h | h <;> rw [h] <;> rfl
  have hle : 2 ^ env.sizeBits ≤ 2 ^ 64 := by rcases sizeBits_cases env with h | h <;> rw [h] <;> decide
  refine ⟨(M.run (c.start M) (ts ++ [.fin])).2, fun i => MURMUR3.x64_128.finish o.st [] ((o.n + 16 * i) % 2 ^ env.sizeBits), fun k => ?_, fun i j => ?_⟩
  · refine (AlgName.exec_ok (a := .murmur3_128) (env := env) hc (stream_more_results _ _ (stream_result ops ts h) k) (.inl trivial) trivial).trans (congrArg Except.ok ?_)
    show (M.run (c.start M) (ts ++ [.fin] ++ List.replicate k .fin)).2 = _
    rw [Machine.run_append]
    show _ ++ (M.run o (List.replicate k .fin)).2 = _
    rw [ho.1]
    exact congrArg (_ ++ ·) (T.run_fins (fun _ _ _ => rfl) rfl o.st o.n k ho.2)
  · constructor
    · intro e
      have := mur128_len_inj e
      have lt : ∀ n, n % 2 ^ env.sizeBits % 2 ^ 64 = n % 2 ^ env.sizeBits := fun n =>
        Nat.mod_eq_of_lt (Nat.lt_of_lt_of_le (Nat.mod_lt _ (Nat.two_pow_pos _)) hle)
      rw [lt, lt, hsz] at this
      exact (mul_mod_iff 16 _ o.n i j (by decide)).1 this
    · intro e
      have := (mul_mod_iff 16 _ o.n i j (by decide)).2 e
      rw [← hsz] at this
      show MURMUR3.x64_128.finish _ _ _ = MURMUR3.x64_128.finish _ _ _
      rw [this]

example : ∃ (rs : List W32) (f : Nat → W32), (∀ k, AlgName.murmur3_32.impl.exec le64 (.seed 7)
      ([.update (.mem abc) 3, .result, .update (.mem abc) 2] ++ [.result] ++ List.replicate k .result) = .ok (rs ++ (List.range k).map f)) ∧
    f 0 ≠ f 1 ∧ f 0 = f (2 ^ 30) := by
  obtain ⟨rs, f, h1, h2⟩ := murmur3_32_result_period le64 (.seed 7) trivial [.update (.mem abc) 3, .result, .update (.mem abc) 2]
    [.data 0x61, .data 0x62, .data 0x63, .fin, .data 0x61, .data 0x62] rfl
  exact ⟨rs, f, h1, fun e => absurd ((h2 0 1).1 e) (by decide), (h2 _ _).2 (by decide)⟩

end Hash2

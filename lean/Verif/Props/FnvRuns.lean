import Verif.Lemmas.FnvRuns
import Verif.Lemmas.Stream
import Verif.Lemmas.Distinct
import Verif.Spec.Platforms
/-
C66: FNV-1a of runs of one byte (test/quality.cpp, test_seq_length, for all lengths).
-/
namespace Hash2
open Spec

theorem stream_runOfBytes (b : Byte) (n : Nat) : stream (runOfBytes b n) = some ((List.replicate n b).map .data ++ [.fin]) := by
  simp [runOfBytes, stream, Op.toks]

/-! ### fnv1a_32 -/

/-- **C66, fnv1a_32.** After any valid program: a run of n bytes b and a run of m bytes b lead to the same result if and only if n and m are
congruent modulo a power of two, at most 2^32; exactly 2^32 for every odd b. -/
theorem fnv1a_32_runs_after (env : Env) (c : Ctor) (hc : c.Valid) (ops : List Op) (ts : List Tok) (hs : stream ops = some ts) (b : Byte) :
    ∃ k ≤ 32, (b.toNat % 2 = 1 → k = 32) ∧ ∃ (rs : List W32) (f : Nat → W32),
      (∀ n, AlgName.fnv1a_32.impl.exec env c (ops ++ runOfBytes b n) = .ok (rs ++ [f n])) ∧ ∀ n m, f n = f m ↔ n % 2 ^ k = m % 2 ^ k := by
  have h2 := fun n => (AlgName.exec_ok (a := .fnv1a_32) (env := env) (ops := ops ++ runOfBytes b n) (ts := ts ++ ((List.replicate n b).map .data ++ [.fin])) hc
      (by rw [stream_append, hs, stream_runOfBytes]; rfl) (.inl trivial) trivial).trans
      (congrArg (fun x => Except.ok x.2) (Machine.run_append (AlgName.fnv1a_32.machine env.sizeBits)
        (c.start (AlgName.fnv1a_32.machine env.sizeBits)) ts ((List.replicate n b).map .data ++ [.fin])))
  generalize ((AlgName.fnv1a_32.machine env.sizeBits).run (c.start (AlgName.fnv1a_32.machine env.sizeBits)) ts).1 = s at h2
  generalize ((AlgName.fnv1a_32.machine env.sizeBits).run (c.start (AlgName.fnv1a_32.machine env.sizeBits)) ts).2 = rs at h2
  obtain ⟨k, hk, hP⟩ := FnvRuns.period (w := 32) (by decide) (p := FNV.prime32) (by decide) b s
  refine ⟨k, hk, fun hb => ?_, rs, fun n => FNV.feed FNV.prime32 s (List.replicate n b), fun n => ?_, fun n m => FnvRuns.runs hP n m⟩
  · have h1 := FnvRuns.period32 b
    rw [FNV.runLog32, if_pos hb] at h1
    exact Nat.pow_right_injective (Nat.le_refl 2) (hP.symm.trans (FnvRuns.full h1 s))
  · exact (h2 n).trans (congrArg (fun l => Except.ok (rs ++ l)) (FnvRuns.run_bytes FNV.prime32 (List.replicate n b) s))

/-- **C66, fnv1a_32.** A default constructed object: n bytes b and m bytes b have the same hash if and only if n and m are congruent modulo
2 ^ runLog32 b (Spec/FnvRuns.lean), which is 2^32 for odd b, 2^30 for zeros, and at least 2^21. -/
theorem fnv1a_32_runs (env : Env) (b : Byte) :
    ∃ f : Nat → W32, (∀ n, AlgName.fnv1a_32.impl.exec env .default (runOfBytes b n) = .ok [f n]) ∧
      ∀ n m, f n = f m ↔ n % 2 ^ FNV.runLog32 b = m % 2 ^ FNV.runLog32 b := by
  refine ⟨fun n => FNV.feed FNV.prime32 (FNV.basis FNV.prime32) (List.replicate n b), fun n => ?_, fun n m => FnvRuns.runs (FnvRuns.period32 b) n m⟩
  have h2 := AlgName.exec_ok (a := .fnv1a_32) (env := env) (c := .default) (ops := runOfBytes b n) trivial (stream_runOfBytes b n) (.inl trivial) trivial
  exact h2.trans (congrArg Except.ok (FnvRuns.run_bytes FNV.prime32 (List.replicate n b) (FNV.basis FNV.prime32)))

/-- **C66, fnv1a_32.** So runs of one byte that are shorter than 2^21 bytes all have different hashes, whatever the byte; and this is the best
bound: 2^21 times '|' (0x7C) has the hash of the empty message. -/
theorem fnv1a_32_short_runs (env : Env) (b : Byte) (n m : Nat) (hn : n < 2 ^ 21) (hm : m < 2 ^ 21) (hne : n ≠ m) :
    ∃ r r' : W32, AlgName.fnv1a_32.impl.exec env .default (runOfBytes b n) = .ok [r] ∧
      AlgName.fnv1a_32.impl.exec env .default (runOfBytes b m) = .ok [r'] ∧ r ≠ r' := by
  obtain ⟨f, h1, h2⟩ := fnv1a_32_runs env b
  refine ⟨_, _, h1 n, h1 m, fun e => hne ?_⟩
  have hlo : 21 ≤ FNV.runLog32 b := by unfold FNV.runLog32; split_ifs <;> omega
  have hp := Nat.pow_le_pow_right (n := 2) (by decide) hlo
  have e := (h2 n m).1 e
  rwa [Nat.mod_eq_of_lt (Nat.lt_of_lt_of_le hn hp), Nat.mod_eq_of_lt (Nat.lt_of_lt_of_le hm hp)] at e

theorem fnv1a_32_long_run (env : Env) :
    AlgName.fnv1a_32.impl.exec env .default (runOfBytes 0x7C (2 ^ 21)) = AlgName.fnv1a_32.impl.exec env .default (runOfBytes 0x7C 0) := by
  obtain ⟨f, h1, h2⟩ := fnv1a_32_runs env 0x7C
  have e : f (2 ^ 21) = f 0 := (h2 _ _).2 (by rw [show FNV.runLog32 0x7C = 21 by decide]; simp)
  rw [h1, h1, e]

example : ∃ r r' : W32, AlgName.fnv1a_32.impl.exec le64 .default (runOfBytes 0x7C (2 ^ 20)) = .ok [r] ∧
    AlgName.fnv1a_32.impl.exec le64 .default (runOfBytes 0x7C 0) = .ok [r'] ∧ r ≠ r' :=
  fnv1a_32_short_runs le64 0x7C _ _ (by decide) (by decide) (by decide)

example : ∃ k ≤ 32, ((0x61#8).toNat % 2 = 1 → k = 32) ∧ ∃ (rs : List W32) (f : Nat → W32),
    (∀ n, AlgName.fnv1a_32.impl.exec le64 (.seed 7) ([.update (.mem abc) 3, .result] ++ runOfBytes 0x61 n) = .ok (rs ++ [f n])) ∧
    ∀ n m, f n = f m ↔ n % 2 ^ k = m % 2 ^ k :=
  fnv1a_32_runs_after le64 (.seed 7) trivial [.update (.mem abc) 3, .result] _ rfl 0x61

/-! ### fnv1a_64 -/

/-- **C66, fnv1a_64.** After any valid program: a run of n bytes b and a run of m bytes b lead to the same result if and only if n and m are
congruent modulo a power of two, at most 2^64; exactly 2^64 for every odd b. -/
theorem fnv1a_64_runs_after (env : Env) (c : Ctor) (hc : c.Valid) (ops : List Op) (ts : List Tok) (hs : stream ops = some ts) (b : Byte) :
    ∃ k ≤ 64, (b.toNat % 2 = 1 → k = 64) ∧ ∃ (rs : List W64) (f : Nat → W64),
      (∀ n, AlgName.fnv1a_64.impl.exec env c (ops ++ runOfBytes b n) = .ok (rs ++ [f n])) ∧ ∀ n m, f n = f m ↔ n % 2 ^ k = m % 2 ^ k := by
  have h2 := fun n => (AlgName.exec_ok (a := .fnv1a_64) (env := env) (ops := ops ++ runOfBytes b n) (ts := ts ++ ((List.replicate n b).map .data ++ [.fin])) hc
      (by rw [stream_append, hs, stream_runOfBytes]; rfl) (.inl trivial) trivial).trans
      (congrArg (fun x => Except.ok x.2) (Machine.run_append (AlgName.fnv1a_64.machine env.sizeBits)
        (c.start (AlgName.fnv1a_64.machine env.sizeBits)) ts ((List.replicate n b).map .data ++ [.fin])))
  generalize ((AlgName.fnv1a_64.machine env.sizeBits).run (c.start (AlgName.fnv1a_64.machine env.sizeBits)) ts).1 = s at h2
  generalize ((AlgName.fnv1a_64.machine env.sizeBits).run (c.start (AlgName.fnv1a_64.machine env.sizeBits)) ts).2 = rs at h2
  obtain ⟨k, hk, hP⟩ := FnvRuns.period (w := 64) (by decide) (p := FNV.prime64) (by decide) b s
  refine ⟨k, hk, fun hb => ?_, rs, fun n => FNV.feed FNV.prime64 s (List.replicate n b), fun n => ?_, fun n m => FnvRuns.runs hP n m⟩
  · have h1 := FnvRuns.period64 b
    rw [FNV.runLog64, if_pos hb] at h1
    exact Nat.pow_right_injective (Nat.le_refl 2) (hP.symm.trans (FnvRuns.full h1 s))
  · exact (h2 n).trans (congrArg (fun l => Except.ok (rs ++ l)) (FnvRuns.run_bytes FNV.prime64 (List.replicate n b) s))

/-- **C66, fnv1a_64.** A default constructed object: n bytes b and m bytes b have the same hash if and only if n and m are congruent modulo
2 ^ runLog64 b (Spec/FnvRuns.lean), which is 2^64 for odd b, 2^62 for zeros, and at least 2^52. -/
theorem fnv1a_64_runs (env : Env) (b : Byte) :
    ∃ f : Nat → W64, (∀ n, AlgName.fnv1a_64.impl.exec env .default (runOfBytes b n) = .ok [f n]) ∧
      ∀ n m, f n = f m ↔ n % 2 ^ FNV.runLog64 b = m % 2 ^ FNV.runLog64 b := by
  refine ⟨fun n => FNV.feed FNV.prime64 (FNV.basis FNV.prime64) (List.replicate n b), fun n => ?_, fun n m => FnvRuns.runs (FnvRuns.period64 b) n m⟩
  have h2 := AlgName.exec_ok (a := .fnv1a_64) (env := env) (c := .default) (ops := runOfBytes b n) trivial (stream_runOfBytes b n) (.inl trivial) trivial
  exact h2.trans (congrArg Except.ok (FnvRuns.run_bytes FNV.prime64 (List.replicate n b) (FNV.basis FNV.prime64)))

/-- **C66, fnv1a_64.** So runs of one byte that are shorter than 2^52 bytes all have different hashes, whatever the byte; and this is the best
bound: 2^52 times 0xE2 has the hash of the empty message. -/
theorem fnv1a_64_short_runs (env : Env) (b : Byte) (n m : Nat) (hn : n < 2 ^ 52) (hm : m < 2 ^ 52) (hne : n ≠ m) :
    ∃ r r' : W64, AlgName.fnv1a_64.impl.exec env .default (runOfBytes b n) = .ok [r] ∧
      AlgName.fnv1a_64.impl.exec env .default (runOfBytes b m) = .ok [r'] ∧ r ≠ r' := by
  obtain ⟨f, h1, h2⟩ := fnv1a_64_runs env b
  refine ⟨_, _, h1 n, h1 m, fun e => hne ?_⟩
  have hlo : 52 ≤ FNV.runLog64 b := by unfold FNV.runLog64; split_ifs <;> omega
  have hp := Nat.pow_le_pow_right (n := 2) (by decide) hlo
  have e := (h2 n m).1 e
  rwa [Nat.mod_eq_of_lt (Nat.lt_of_lt_of_le hn hp), Nat.mod_eq_of_lt (Nat.lt_of_lt_of_le hm hp)] at e

theorem fnv1a_64_long_run (env : Env) :
    AlgName.fnv1a_64.impl.exec env .default (runOfBytes 0xE2 (2 ^ 52)) = AlgName.fnv1a_64.impl.exec env .default (runOfBytes 0xE2 0) := by
  obtain ⟨f, h1, h2⟩ := fnv1a_64_runs env 0xE2
  have e : f (2 ^ 52) = f 0 := (h2 _ _).2 (by rw [show FNV.runLog64 0xE2 = 52 by decide]; simp)
  rw [h1, h1, e]

example : ∃ r r' : W64, AlgName.fnv1a_64.impl.exec le64 .default (runOfBytes 0x7C (2 ^ 20)) = .ok [r] ∧
    AlgName.fnv1a_64.impl.exec le64 .default (runOfBytes 0x7C 0) = .ok [r'] ∧ r ≠ r' :=
  fnv1a_64_short_runs le64 0x7C _ _ (by decide) (by decide) (by decide)

example : ∃ k ≤ 64, ((0x61#8).toNat % 2 = 1 → k = 64) ∧ ∃ (rs : List W64) (f : Nat → W64),
    (∀ n, AlgName.fnv1a_64.impl.exec le64 (.seed 7) ([.update (.mem abc) 3, .result] ++ runOfBytes 0x61 n) = .ok (rs ++ [f n])) ∧
    ∀ n m, f n = f m ↔ n % 2 ^ k = m % 2 ^ k :=
  fnv1a_64_runs_after le64 (.seed 7) trivial [.update (.mem abc) 3, .result] _ rfl 0x61

end Hash2

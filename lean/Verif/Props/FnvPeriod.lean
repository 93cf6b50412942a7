import Verif.Lemmas.FnvResults
import Verif.Lemmas.Distinct
import Verif.Lemmas.Stream
import Verif.Spec.Platforms
/-
C37: the results of FNV-1a objects asked again and again.
-/
namespace Hash2
open Spec

/-- **C37, fnv1a_32.** After any valid program, up to 2^32 successive calls of result() return pairwise different values; 2^32
calls return every value. -/
theorem fnv1a_32_full_period (env : Env) (c : Ctor) (hc : c.Valid) (ops : List Op) (ts : List Tok) (hs : stream ops = some ts)
    (k : Nat) (hk : k ≤ 2 ^ 32) :
    ∃ rs rs' : List W32, AlgName.fnv1a_32.impl.exec env c ops = .ok rs ∧
      AlgName.fnv1a_32.impl.exec env c (ops ++ List.replicate k .result) = .ok (rs ++ rs') ∧
      rs'.length = k ∧ rs'.Nodup ∧ (k = 2 ^ 32 → ∀ x, x ∈ rs') := by
  have h1 := AlgName.exec_ok (a := .fnv1a_32) (env := env) hc hs (.inl trivial) trivial
  have hs2 : stream (ops ++ List.replicate k .result) = some (ts ++ List.replicate k .fin) := by
    rw [stream_append, hs, stream_results]; rfl
  have h2 := AlgName.exec_ok (a := .fnv1a_32) (env := env) hc hs2 (.inl trivial) trivial
  rw [Machine.run_append] at h2
  have hn := FnvPeriod.fins_nodup (w := 32) (by decide) FNV.prime32 FnvPeriod.good32
    (((AlgName.fnv1a_32.machine env.sizeBits).run (c.start (AlgName.fnv1a_32.machine env.sizeBits)) ts).1) k hk
  have hl := FnvPeriod.fins_length (w := 32) FNV.prime32
    (((AlgName.fnv1a_32.machine env.sizeBits).run (c.start (AlgName.fnv1a_32.machine env.sizeBits)) ts).1) k
  exact ⟨_, _, h1, h2, hl, hn, fun e => FnvPeriod.all_mem _ hn (hl.trans e)⟩

/-- **C37, fnv1a_64.** -/
theorem fnv1a_64_full_period (env : Env) (c : Ctor) (hc : c.Valid) (ops : List Op) (ts : List Tok) (hs : stream ops = some ts)
    (k : Nat) (hk : k ≤ 2 ^ 64) :
    ∃ rs rs' : List W64, AlgName.fnv1a_64.impl.exec env c ops = .ok rs ∧
      AlgName.fnv1a_64.impl.exec env c (ops ++ List.replicate k .result) = .ok (rs ++ rs') ∧
      rs'.length = k ∧ rs'.Nodup ∧ (k = 2 ^ 64 → ∀ x, x ∈ rs') := by
  have h1 := AlgName.exec_ok (a := .fnv1a_64) (env := env) hc hs (.inl trivial) trivial
  have hs2 : stream (ops ++ List.replicate k .result) = some (ts ++ List.replicate k .fin) := by
    rw [stream_append, hs, stream_results]; rfl
  have h2 := AlgName.exec_ok (a := .fnv1a_64) (env := env) hc hs2 (.inl trivial) trivial
  rw [Machine.run_append] at h2
  have hn := FnvPeriod.fins_nodup (w := 64) (by decide) FNV.prime64 FnvPeriod.good64
    (((AlgName.fnv1a_64.machine env.sizeBits).run (c.start (AlgName.fnv1a_64.machine env.sizeBits)) ts).1) k hk
  have hl := FnvPeriod.fins_length (w := 64) FNV.prime64
    (((AlgName.fnv1a_64.machine env.sizeBits).run (c.start (AlgName.fnv1a_64.machine env.sizeBits)) ts).1) k
  exact ⟨_, _, h1, h2, hl, hn, fun e => FnvPeriod.all_mem _ hn (hl.trans e)⟩

example : ∃ rs rs' : List W32, AlgName.fnv1a_32.impl.exec le64 (.seed 5) [.update (.mem abc) 3] = .ok rs ∧
      AlgName.fnv1a_32.impl.exec le64 (.seed 5) ([.update (.mem abc) 3] ++ List.replicate (2 ^ 32) .result) = .ok (rs ++ rs') ∧
      rs'.length = 2 ^ 32 ∧ rs'.Nodup ∧ (2 ^ 32 = 2 ^ 32 → ∀ x, x ∈ rs') :=
  fnv1a_32_full_period le64 (.seed 5) trivial _ _ rfl _ (Nat.le_refl _)

/-- **C37, fnv1a_32.** Two objects with any histories, about to return different results: whatever the same calls `more` made on
both, all results differ, place by place. So update() and result() never merge different objects. -/
theorem fnv1a_32_differences_persist (env : Env) (c c' : Ctor) (hc : c.Valid) (hc' : c'.Valid) (ops ops' more : List Op) (ts ts' tm : List Tok)
    (hs : stream ops = some ts) (hs' : stream ops' = some ts') (hm : stream more = some tm) (rs rs' : List W32) (r r' : W32)
    (h : AlgName.fnv1a_32.impl.exec env c (ops ++ [.result]) = .ok (rs ++ [r]))
    (h' : AlgName.fnv1a_32.impl.exec env c' (ops' ++ [.result]) = .ok (rs' ++ [r'])) (hne : r ≠ r') :
    ∃ qs qs' : List W32, AlgName.fnv1a_32.impl.exec env c (ops ++ more) = .ok (rs ++ qs) ∧
      AlgName.fnv1a_32.impl.exec env c' (ops' ++ more) = .ok (rs' ++ qs') ∧ List.Forall₂ (· ≠ ·) qs qs' := by
  have key : ∀ (c : Ctor) (hc : c.Valid) (ops : List Op) (ts : List Tok) (hs : stream ops = some ts) (rs : List W32) (r : W32)
      (h : AlgName.fnv1a_32.impl.exec env c (ops ++ [.result]) = .ok (rs ++ [r])),
      AlgName.fnv1a_32.impl.exec env c (ops ++ more) = .ok (rs ++ ((FNV.machine FNV.prime32).run r tm).2) := by
    intro c hc ops ts hs rs r h
    have h1 := AlgName.exec_ok (a := .fnv1a_32) (env := env) (ops := ops ++ [.result]) (ts := ts ++ [.fin]) hc
      (by rw [stream_append, hs]; rfl) (.inl trivial) trivial
    have h2 := AlgName.exec_ok (a := .fnv1a_32) (env := env) (ops := ops ++ more) (ts := ts ++ tm) hc
      (by rw [stream_append, hs, hm]; rfl) (.inl trivial) trivial
    rw [Machine.run_append] at h1 h2
    have e := List.append_inj' (Except.ok.inj (h.symm.trans h1)) rfl
    have e2 := (List.cons.inj e.2).1
    rw [e.1, e2]
    exact h2
  exact ⟨_, _, key c hc ops ts hs rs r h, key c' hc' ops' ts' hs' rs' r' h', fnv_run_ne FNV.prime32 FNV.invprime32 (by decide) tm hne⟩

/-- **C37, fnv1a_64.** Two objects with any histories, about to return different results: whatever the same calls `more` made on
both, all results differ, place by place. So update() and result() never merge different objects. -/
theorem fnv1a_64_differences_persist (env : Env) (c c' : Ctor) (hc : c.Valid) (hc' : c'.Valid) (ops ops' more : List Op) (ts ts' tm : List Tok)
    (hs : stream ops = some ts) (hs' : stream ops' = some ts') (hm : stream more = some tm) (rs rs' : List W64) (r r' : W64)
    (h : AlgName.fnv1a_64.impl.exec env c (ops ++ [.result]) = .ok (rs ++ [r]))
    (h' : AlgName.fnv1a_64.impl.exec env c' (ops' ++ [.result]) = .ok (rs' ++ [r'])) (hne : r ≠ r') :
    ∃ qs qs' : List W64, AlgName.fnv1a_64.impl.exec env c (ops ++ more) = .ok (rs ++ qs) ∧
      AlgName.fnv1a_64.impl.exec env c' (ops' ++ more) = .ok (rs' ++ qs') ∧ List.Forall₂ (· ≠ ·) qs qs' := by
  have key : ∀ (c : Ctor) (hc : c.Valid) (ops : List Op) (ts : List Tok) (hs : stream ops = some ts) (rs : List W64) (r : W64)
      (h : AlgName.fnv1a_64.impl.exec env c (ops ++ [.result]) = .ok (rs ++ [r])),
      AlgName.fnv1a_64.impl.exec env c (ops ++ more) = .ok (rs ++ ((FNV.machine FNV.prime64).run r tm).2) := by
    intro c hc ops ts hs rs r h
    have h1 := AlgName.exec_ok (a := .fnv1a_64) (env := env) (ops := ops ++ [.result]) (ts := ts ++ [.fin]) hc
      (by rw [stream_append, hs]; rfl) (.inl trivial) trivial
    have h2 := AlgName.exec_ok (a := .fnv1a_64) (env := env) (ops := ops ++ more) (ts := ts ++ tm) hc
      (by rw [stream_append, hs, hm]; rfl) (.inl trivial) trivial
    rw [Machine.run_append] at h1 h2
    have e := List.append_inj' (Except.ok.inj (h.symm.trans h1)) rfl
    have e2 := (List.cons.inj e.2).1
    rw [e.1, e2]
    exact h2
  exact ⟨_, _, key c hc ops ts hs rs r h, key c' hc' ops' ts' hs' rs' r' h', fnv_run_ne FNV.prime64 FNV.invprime64 (by decide) tm hne⟩

example : ∃ qs qs' : List W32, AlgName.fnv1a_32.impl.exec le64 .default ([.update (.mem [1]) 1] ++ [.update (.mem abc) 3, .result, .result]) = .ok ([] ++ qs) ∧
    AlgName.fnv1a_32.impl.exec le64 .default ([.update (.mem [2]) 1] ++ [.update (.mem abc) 3, .result, .result]) = .ok ([] ++ qs') ∧
    List.Forall₂ (· ≠ ·) qs qs' :=
  fnv1a_32_differences_persist le64 .default .default trivial trivial _ _ _ _ _ _ rfl rfl rfl [] [] _ _ rfl rfl (by decide)

end Hash2

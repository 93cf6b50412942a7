import Verif.Lemmas.FnvBits
import Verif.Lemmas.FnvRuns
import Verif.Lemmas.Stream
import Verif.Lemmas.Distinct
import Verif.Spec.Platforms
/-
C67: what the lower bits of an FNV-1a hash depend on.
-/
namespace Hash2
open Spec

/-- **C67, fnv1a_32.** Two programs that make the same calls with bytes that agree in their lowest k bits get results that agree in their
lowest k bits, one after another. -/
theorem fnv1a_32_low_bits (env : Env) (c : Ctor) (hc : c.Valid) (k : ℕ) (hk : k ≤ 32) (ops ops' : List Op) (ts ts' : List Tok)
    (hs : stream ops = some ts) (hs' : stream ops' = some ts') (h : LowAlike k ts ts') :
    ∃ rs rs' : List W32, AlgName.fnv1a_32.impl.exec env c ops = .ok rs ∧ AlgName.fnv1a_32.impl.exec env c ops' = .ok rs' ∧
      List.Forall₂ (fun r r' => r.toNat % 2 ^ k = r'.toNat % 2 ^ k) rs rs' := by
  have h1 := AlgName.exec_ok (a := .fnv1a_32) (env := env) (ops := ops) hc hs (.inl trivial) trivial
  have h2 := AlgName.exec_ok (a := .fnv1a_32) (env := env) (ops := ops') hc hs' (.inl trivial) trivial
  exact ⟨_, _, h1, h2, FnvBits.run (p := FNV.prime32) hk hk rfl h rfl⟩

/-- **C67, fnv1a_64.** -/
theorem fnv1a_64_low_bits (env : Env) (c : Ctor) (hc : c.Valid) (k : ℕ) (hk : k ≤ 64) (ops ops' : List Op) (ts ts' : List Tok)
    (hs : stream ops = some ts) (hs' : stream ops' = some ts') (h : LowAlike k ts ts') :
    ∃ rs rs' : List W64, AlgName.fnv1a_64.impl.exec env c ops = .ok rs ∧ AlgName.fnv1a_64.impl.exec env c ops' = .ok rs' ∧
      List.Forall₂ (fun r r' => r.toNat % 2 ^ k = r'.toNat % 2 ^ k) rs rs' := by
  have h1 := AlgName.exec_ok (a := .fnv1a_64) (env := env) (ops := ops) hc hs (.inl trivial) trivial
  have h2 := AlgName.exec_ok (a := .fnv1a_64) (env := env) (ops := ops') hc hs' (.inl trivial) trivial
  exact ⟨_, _, h1, h2, FnvBits.run (p := FNV.prime64) hk hk rfl h rfl⟩

theorem basis_odd : (FNV.basis FNV.prime32).toNat % 2 = 1 ∧ (FNV.basis FNV.prime64).toNat % 2 = 1 := by decide +kernel

/-- **C67.** The lowest bit of the hash tells how many bytes are odd, no more: whatever their order, and whatever the number of even bytes. -/
theorem fnv1a_32_parity (env : Env) (ops : List Op) (m : List Byte) (hs : stream ops = some (m.map .data ++ [.fin])) :
    ∃ r : W32, AlgName.fnv1a_32.impl.exec env .default ops = .ok [r] ∧ r.toNat % 2 = (1 + oddBytes m) % 2 := by
  have h1 := AlgName.exec_ok (a := .fnv1a_32) (env := env) (c := .default) (ops := ops) trivial hs (.inl trivial) trivial
  refine ⟨_, h1.trans (congrArg Except.ok (FnvRuns.run_bytes FNV.prime32 m (FNV.basis FNV.prime32))), ?_⟩
  rw [FnvBits.parity (by decide) (by decide), Nat.add_mod, basis_odd.1]
  omega

theorem fnv1a_64_parity (env : Env) (ops : List Op) (m : List Byte) (hs : stream ops = some (m.map .data ++ [.fin])) :
    ∃ r : W64, AlgName.fnv1a_64.impl.exec env .default ops = .ok [r] ∧ r.toNat % 2 = (1 + oddBytes m) % 2 := by
  have h1 := AlgName.exec_ok (a := .fnv1a_64) (env := env) (c := .default) (ops := ops) trivial hs (.inl trivial) trivial
  refine ⟨_, h1.trans (congrArg Except.ok (FnvRuns.run_bytes FNV.prime64 m (FNV.basis FNV.prime64))), ?_⟩
  rw [FnvBits.parity (by decide) (by decide), Nat.add_mod, basis_odd.2]
  omega

theorem basis_alike : (FNV.basis FNV.prime32).toNat % 2 ^ 5 = (FNV.basis FNV.prime64).toNat % 2 ^ 5 := by decide +kernel

/-- **C67.** fnv1a_32 and fnv1a_64 agree in the lowest five bits: after the same constructor and the same calls, result by result. -/
theorem fnv1a_32_64_agree (env : Env) (c : Ctor) (hc : c.Valid) (ops : List Op) (ts : List Tok) (hs : stream ops = some ts) :
    ∃ (rs : List W32) (rs' : List W64), AlgName.fnv1a_32.impl.exec env c ops = .ok rs ∧ AlgName.fnv1a_64.impl.exec env c ops = .ok rs' ∧
      List.Forall₂ (fun r r' => r.toNat % 32 = r'.toNat % 32) rs rs' := by
  have h1 := AlgName.exec_ok (a := .fnv1a_32) (env := env) (ops := ops) hc hs (.inl trivial) trivial
  have h2 := AlgName.exec_ok (a := .fnv1a_64) (env := env) (ops := ops) hc hs (.inl trivial) trivial
  refine ⟨_, _, h1, h2, FnvBits.run (k := 5) (p := FNV.prime32) (p' := FNV.prime64) (by decide) (by decide) (by decide) (FnvBits.alike_refl 5 ts) ?_⟩
  cases c with
  | default => exact basis_alike
  | seed k =>
    by_cases hk : k = 0
    · subst hk; exact basis_alike
    · have e1 : (Ctor.seed k).start (AlgName.fnv1a_32.machine env.sizeBits) = FNV.feed FNV.prime32 (FNV.basis FNV.prime32) (natLE 8 k.toNat) := if_neg hk
      have e2 : (Ctor.seed k).start (AlgName.fnv1a_64.machine env.sizeBits) = FNV.feed FNV.prime64 (FNV.basis FNV.prime64) (natLE 8 k.toNat) := if_neg hk
      rw [e1, e2]
      exact FnvBits.feed (by decide) (by decide) (by decide) _ basis_alike
  | bytes p n => exact FnvBits.feed (k := 5) (by decide) (by decide) (by decide) _ basis_alike

/-- 'a' and 'q' differ in one bit, the fifth: the hashes agree in the lowest four -/
example : ∃ rs rs' : List W32, AlgName.fnv1a_32.impl.exec le64 .default [.update (.mem [0x61]) 1, .result] = .ok rs ∧
    AlgName.fnv1a_32.impl.exec le64 .default [.update (.mem [0x71]) 1, .result] = .ok rs' ∧
    List.Forall₂ (fun r r' => r.toNat % 2 ^ 4 = r'.toNat % 2 ^ 4) rs rs' :=
  fnv1a_32_low_bits le64 .default trivial 4 (by decide) _ _ _ _ rfl rfl (.data (by decide) (.fin .nil))

example : ∃ r : W64, AlgName.fnv1a_64.impl.exec le64 .default [.update (.mem abc) 3, .result] = .ok [r] ∧ r.toNat % 2 = (1 + 2) % 2 :=
  fnv1a_64_parity le64 _ abc rfl

example : ∃ (rs : List W32) (rs' : List W64), AlgName.fnv1a_32.impl.exec le64 (.seed 7) [.update (.mem abc) 3, .result, .result] = .ok rs ∧
    AlgName.fnv1a_64.impl.exec le64 (.seed 7) [.update (.mem abc) 3, .result, .result] = .ok rs' ∧
    List.Forall₂ (fun r r' => r.toNat % 32 = r'.toNat % 32) rs rs' :=
  fnv1a_32_64_agree le64 (.seed 7) trivial _ _ rfl

end Hash2

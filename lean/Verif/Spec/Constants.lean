import Verif.Spec.Bytes
import Mathlib.Analysis.SpecialFunctions.Pow.Real
import Mathlib.Analysis.SpecialFunctions.Trigonometric.Basic
import Mathlib.Data.Nat.Nth
import Mathlib.Data.Nat.Prime.Defs
/-
The real numbers from which the standards take their constants (C40). Nothing here refers to the code.
-/
namespace Hash2.Spec

/-- the t-th prime number, counted from 0: 2, 3, 5, 7, ... -/
noncomputable def nthPrime (t : ℕ) : ℕ := Nat.nth Nat.Prime t

/-- the first w bits of the fractional part of x -/
noncomputable def fracBits (w : ℕ) (x : ℝ) : BitVec w := BitVec.ofNat w ⌊Int.fract x * 2 ^ w⌋₊

/-- the cube root -/
noncomputable def cbrt (x : ℝ) : ℝ := x ^ (1 / 3 : ℝ)

/-- the integer part of 2^k x, as a word -/
noncomputable def intBits (w k : ℕ) (x : ℝ) : BitVec w := BitVec.ofNat w ⌊2 ^ k * x⌋₊

end Hash2.Spec

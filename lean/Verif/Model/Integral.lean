import Verif.Model.Core
/-
Model of include/boost/hash2/get_integral_result.hpp. Sizes are in bytes; `int` has 4. A signed T is the same bits as its
unsigned counterpart U (the last static_cast), so the model returns the bits.
-/
namespace Hash2.Integral

/-- get_result_multiplier<U, R>(), get_integral_result.hpp:21-128, by sizeof(R) and sizeof(U) -/
def multiplier : Nat → Nat → Nat
  -- contraction, 30-78
  | 2, 1 => 0xBF01
  | 4, 1 => 0x7F7F7F7F
  | 8, 1 => 0x7F7F7F7F7F7F7F7F
  | 4, 2 => 0xBFFF0001
  | 8, 2 => 0xBFFFBFFFBFFFBFFF
  | 8, 4 => 0xBFFFFFFF00000001
  -- expansion, 80-128
  | 1, 2 => 0x7F7F
  | 1, 4 => 0xBFBFBFBF
  | 1, 8 => 0xDFDFDFDFDFDFDFDF
  | 2, 4 => 0x7FFF7FFF
  | 2, 8 => 0x7FFF7FFF7FFF7FFF
  | 4, 8 => 0x7FFFFFFF7FFFFFFF
  -- identity, 21-28
  | _, _ => 1

/-- `r * m`, get_integral_result.hpp:147, 165, for operands of an unsigned type of sz bytes: types smaller than int are promoted to
(signed, 32 bit) int -/
def mul (sz a b : Nat) : M Nat :=
  if sz < 4 then
    if a * b < 2 ^ 31 then .ok (a * b) else .error .signedOverflow
  else .ok (a * b % 2 ^ (8 * sz))

/-- get_integral_result<T>( R const& r ) for integral R, get_integral_result.hpp:132-166: sizes rs = sizeof(R), ts = sizeof(T) -/
def get (rs ts : Nat) (r : BitVec (8 * rs)) : M (BitVec (8 * ts)) := do
  let m := multiplier rs ts
  if rs > ts then
    let x ← mul rs r.toNat m
    return BitVec.ofNat (8 * ts) (x >>> (8 * rs - 8 * ts))
  else
    let x ← mul ts r.toNat m
    return BitVec.ofNat (8 * ts) x

/-- get_integral_result<T>( R const& r ) for array-like R, get_integral_result.hpp:168-180; the static_assert on the size is a
precondition -/
def getDigest (env : Env) (ts : Nat) (r : List Byte) : M (BitVec (8 * ts)) := do
  let v ← read64le env (.mem r)
  return v.truncate (8 * ts)

end Hash2.Integral

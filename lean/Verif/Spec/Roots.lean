/-
Integer roots, used by the standards to define their constants. Nothing here refers to the code.
-/
namespace Hash2.Spec

/-- binary search from the bit `b - 1` down -/
def rootAux (k n : Nat) : Nat → Nat → Nat
  | 0, r => r
  | b + 1, r => rootAux k n b (if (r + 2 ^ b) ^ k ≤ n then r + 2 ^ b else r)

/-- the integer part of the k-th root of n, for n below 2^(128 k) -/
def root (k n : Nat) : Nat := rootAux k n 128 0

/-- the first 80 primes -/
def primes : List Nat := [
  2, 3, 5, 7, 11, 13, 17, 19, 23, 29, 31, 37, 41, 43, 47, 53, 59, 61, 67, 71,
  73, 79, 83, 89, 97, 101, 103, 107, 109, 113, 127, 131, 137, 139, 149, 151, 157, 163, 167, 173,
  179, 181, 191, 193, 197, 199, 211, 223, 227, 229, 233, 239, 241, 251, 257, 263, 269, 271, 277, 281,
  283, 293, 307, 311, 313, 317, 331, 337, 347, 349, 353, 359, 367, 373, 379, 383, 389, 397, 401, 409]

/-- the t-th prime, counted from 0 -/
def prime (t : Nat) : Nat := primes.getD t 0

/-- the first w bits of the fractional part of the square root of p -/
def fracSqrt (w p : Nat) : BitVec w := BitVec.ofNat w (root 2 (p * 2 ^ (2 * w)))

/-- the first w bits of the fractional part of the cube root of p -/
def fracCbrt (w p : Nat) : BitVec w := BitVec.ofNat w (root 3 (p * 2 ^ (3 * w)))

end Hash2.Spec

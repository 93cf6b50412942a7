import Verif.Lemmas.Roots
import Verif.Lemmas.Sines
import Verif.Lemmas.Sha2
import Verif.Model.Md5
import Verif.Model.Sha1
import Verif.Model.Rip128
import Verif.Model.Rip160
import Verif.Model.Sip64
import Verif.Model.Sip32
import Verif.Model.Fnv
import Verif.Spec.Fnv
/-
C40: the constants of the code are the ones the standards define: by real numbers (Spec/Constants.lean), or by a text.
-/
namespace Hash2
open Spec

/-- the words of a state -/
def Q8.words {α : Type} (q : Q8 α) : List α := [q.a, q.b, q.c, q.d, q.e, q.f, q.g, q.h]

/-- **C40, MD5.** The constant of step i is the integer part of 2^32 |sin(i + 1)|, i + 1 in radians. -/
theorem md5_constants_are_sines (i : ℕ) (hi : i < 64) :
    (Md5.rows[i]?).map (·.ac) = some (intBits 32 32 |Real.sin ((i + 1 : ℕ) : ℝ)|) := by
  have h : ∀ i : Fin 64, (Md5.rows[i.1]?).map (·.ac) = some (MD5.T.getD i.1 0) := by decide +kernel
  rw [h ⟨i, hi⟩, intBits, ← Sines.table_sin i hi]
  simp

/-- MD5 has 64 steps -/
example : Md5.rows.length = 64 := by decide

/-- **C40, SHA-1.** 2^30 times the square roots of 2, 3, 5, 10. -/
theorem sha1_constants_are_roots :
    Sha1.Fn.R1.const = intBits 32 30 (Real.sqrt 2) ∧ Sha1.Fn.R2.const = intBits 32 30 (Real.sqrt 2) ∧
    Sha1.Fn.R3.const = intBits 32 30 (Real.sqrt 3) ∧ Sha1.Fn.R4.const = intBits 32 30 (Real.sqrt 5) ∧
    Sha1.Fn.R5.const = intBits 32 30 (Real.sqrt 10) := by
  have h2 := intSqrt_eq 2 (by decide)
  have h3 := intSqrt_eq 3 (by decide)
  have h5 := intSqrt_eq 5 (by decide)
  have h10 := intSqrt_eq 10 (by decide)
  push_cast at h2 h3 h5 h10
  rw [← h2, ← h3, ← h5, ← h10]
  decide +kernel

/-- **C40, RIPEMD-160.** 0 and 2^30 times the square roots of 2, 3, 5, 7; 2^30 times the cube roots of these and 0. -/
theorem ripemd160_constants_are_roots :
    Rip160.Fn.R1.const = 0 ∧ Rip160.Fn.R2.const = intBits 32 30 (Real.sqrt 2) ∧ Rip160.Fn.R3.const = intBits 32 30 (Real.sqrt 3) ∧
    Rip160.Fn.R4.const = intBits 32 30 (Real.sqrt 5) ∧ Rip160.Fn.R5.const = intBits 32 30 (Real.sqrt 7) ∧
    Rip160.Fn.RR1.const = intBits 32 30 (cbrt 2) ∧ Rip160.Fn.RR2.const = intBits 32 30 (cbrt 3) ∧
    Rip160.Fn.RR3.const = intBits 32 30 (cbrt 5) ∧ Rip160.Fn.RR4.const = intBits 32 30 (cbrt 7) ∧ Rip160.Fn.RR5.const = 0 := by
  have h2 := intSqrt_eq 2 (by decide)
  have h3 := intSqrt_eq 3 (by decide)
  have h5 := intSqrt_eq 5 (by decide)
  have h7 := intSqrt_eq 7 (by decide)
  have c2 := intCbrt_eq 2 (by decide)
  have c3 := intCbrt_eq 3 (by decide)
  have c5 := intCbrt_eq 5 (by decide)
  have c7 := intCbrt_eq 7 (by decide)
  push_cast at h2 h3 h5 h7 c2 c3 c5 c7
  rw [← h2, ← h3, ← h5, ← h7, ← c2, ← c3, ← c5, ← c7]
  decide +kernel

/-- **C40, RIPEMD-128.** -/
theorem ripemd128_constants_are_roots :
    Rip128.Fn.R1.const = 0 ∧ Rip128.Fn.R2.const = intBits 32 30 (Real.sqrt 2) ∧ Rip128.Fn.R3.const = intBits 32 30 (Real.sqrt 3) ∧
    Rip128.Fn.R4.const = intBits 32 30 (Real.sqrt 5) ∧ Rip128.Fn.RR1.const = intBits 32 30 (cbrt 2) ∧
    Rip128.Fn.RR2.const = intBits 32 30 (cbrt 3) ∧ Rip128.Fn.RR3.const = intBits 32 30 (cbrt 5) ∧ Rip128.Fn.RR4.const = 0 := by
  have h2 := intSqrt_eq 2 (by decide)
  have h3 := intSqrt_eq 3 (by decide)
  have h5 := intSqrt_eq 5 (by decide)
  have c2 := intCbrt_eq 2 (by decide)
  have c3 := intCbrt_eq 3 (by decide)
  have c5 := intCbrt_eq 5 (by decide)
  push_cast at h2 h3 h5 c2 c3 c5
  rw [← h2, ← h3, ← h5, ← c2, ← c3, ← c5]
  decide +kernel

/-- **C40, SHA-224 and SHA-256.** "The first thirty-two bits of the fractional parts of the cube roots of the first sixty-four
prime numbers" -/
theorem sha256_constants_are_roots :
    Sha2.K256.length = 64 ∧ ∀ t < 64, Sha2.K256[t]? = some (fracBits 32 (cbrt (nthPrime t))) := by
  refine ⟨by decide, fun t ht => ?_⟩
  rw [nthPrime_eq t (by omega), ← fracCbrt_eq 32 _ (by decide) (prime_lt t (by omega)), Sha2.S256.K_eq, List.getElem?_map,
    List.getElem?_range ht]
  rfl

/-- **C40, SHA-384, SHA-512, SHA-512/t.** "The first sixty-four bits of the fractional parts of the cube roots of the first eighty
prime numbers" -/
theorem sha512_constants_are_roots :
    Sha2.K512.length = 80 ∧ ∀ t < 80, Sha2.K512[t]? = some (fracBits 64 (cbrt (nthPrime t))) := by
  refine ⟨by decide, fun t ht => ?_⟩
  rw [nthPrime_eq t ht, ← fracCbrt_eq 64 _ (by decide) (prime_lt t ht), Sha2.S512.K_eq, List.getElem?_map, List.getElem?_range ht]
  rfl

/-- **C40, initial values of SHA-2.** SHA-256, SHA-512: the first bits of the fractional parts of the square roots of the first
eight prime numbers. SHA-384: those of the ninth through sixteenth. SHA-224: the second thirty-two bits of these. -/
theorem sha2_initial_values_are_roots :
    Sha2.sha256IV.words = (List.range 8).map (fun i => fracBits 32 (Real.sqrt (nthPrime i))) ∧
    Sha2.sha512IV.words = (List.range 8).map (fun i => fracBits 64 (Real.sqrt (nthPrime i))) ∧
    Sha2.sha384IV.words = (List.range 8).map (fun i => fracBits 64 (Real.sqrt (nthPrime (8 + i)))) ∧
    Sha2.sha224IV.words = (List.range 8).map (fun i => (fracBits 64 (Real.sqrt (nthPrime (8 + i)))).truncate 32) := by
  have h1 := map_fracSqrt 32 0 8 (by decide) (by decide)
  have h2 := map_fracSqrt 64 0 8 (by decide) (by decide)
  have h3 := map_fracSqrt 64 8 8 (by decide) (by decide)
  simp only [Nat.zero_add] at h1 h2
  have h4 : ((List.range 8).map fun i => (fracBits 64 (Real.sqrt (nthPrime (8 + i)))).truncate 32) =
      ((List.range 8).map fun i => fracSqrt 64 (prime (8 + i))).map (BitVec.truncate 32) := by
    rw [← h3, List.map_map]; rfl
  rw [h1, h2, h3, h4]
  decide +kernel

/-- **C40, initial values of SHA-512/t.** The words of SHA-512 of "SHA-512/224" and "SHA-512/256", computed with an initial value
made of that of SHA-512 xored with a5a5a5a5a5a5a5a5. -/
theorem sha512t_initial_values :
    (Sha2.sha512_224IV.words = (Sha2.rep (SHA2.ivT ("SHA-512/224".toList.map fun c => BitVec.ofNat 8 c.toNat))).words) ∧
    (Sha2.sha512_256IV.words = (Sha2.rep (SHA2.ivT ("SHA-512/256".toList.map fun c => BitVec.ofNat 8 c.toNat))).words) := by
  have e1 : ("SHA-512/224".toList.map fun c => BitVec.ofNat 8 c.toNat) = SHA2.name224 := by decide +kernel
  have e2 : ("SHA-512/256".toList.map fun c => BitVec.ofNat 8 c.toNat) = SHA2.name256 := by decide +kernel
  rw [e1, e2, Sha2.iv512_224, Sha2.iv512_256]
  exact ⟨rfl, rfl⟩

/-- **C40, initial values of MD5, SHA-1, RIPEMD.** The bytes 01 23 45 67 89 ab cd ef fe dc ba 98 76 54 32 10 f0 e1 d2 c3. -/
theorem md_initial_values :
    let text : List Byte := [0x01, 0x23, 0x45, 0x67, 0x89, 0xab, 0xcd, 0xef, 0xfe, 0xdc, 0xba, 0x98, 0x76, 0x54, 0x32, 0x10, 0xf0, 0xe1, 0xd2, 0xc3]
    let word := fun i => leWord 32 ((text.drop (4 * i)).take 4)
    Md5.iv = ⟨word 0, word 1, word 2, word 3⟩ ∧ Rip128.iv = ⟨word 0, word 1, word 2, word 3⟩ ∧
    Sha1.iv = ⟨word 0, word 1, word 2, word 3, word 4⟩ ∧ Rip160.iv = ⟨word 0, word 1, word 2, word 3, word 4⟩ := by
  decide +kernel

/-- **C40, SipHash.** The text "somepseudorandomlygeneratedbytes"; HalfSipHash uses the upper halves of the last two words. -/
theorem siphash_initial_values :
    let text : List Byte := "somepseudorandomlygeneratedbytes".toList.map fun c => BitVec.ofNat 8 c.toNat
    let word := fun i => beWord 64 ((text.drop (8 * i)).take 8)
    Sip64.iv = ⟨word 0, word 1, word 2, word 3⟩ ∧
    Sip32.iv = ⟨0, 0, ((word 2) >>> 32).truncate 32, ((word 3) >>> 32).truncate 32⟩ := by
  decide +kernel

/-- **C40, FNV-1a.** The primes 2^24 + 2^8 + 0x93 and 2^40 + 2^8 + 0xb3, and as offset basis the FNV-0 hash of
"chongo <Landon Curt Noll> /\../\". -/
theorem fnv_constants :
    Fnv.c32 = ⟨FNV.basis FNV.prime32, FNV.prime32⟩ ∧ Fnv.c64 = ⟨FNV.basis FNV.prime64, FNV.prime64⟩ := by
  constructor <;> rfl

/-- **C40, RIPEMD.** The order of the message words: ρ applied round by round to the natural order on the left line, to 9 i + 5 on
the right line. -/
theorem ripemd_orders :
    let ρ := fun i => [7, 4, 13, 1, 10, 6, 15, 3, 12, 0, 9, 5, 2, 14, 11, 8].getD i 0
    (∀ round < 5, ∀ i < 16, (Rip160.rows.map (·.k))[32 * round + i]? = some (ρ^[round] i)) ∧
    (∀ round < 5, ∀ i < 16, (Rip160.rows.map (·.k))[32 * round + 16 + i]? = some (ρ^[round] ((9 * i + 5) % 16))) ∧
    (∀ round < 4, ∀ i < 16, (Rip128.rows.map (·.k))[32 * round + i]? = some (ρ^[round] i)) ∧
    (∀ round < 4, ∀ i < 16, (Rip128.rows.map (·.k))[32 * round + 16 + i]? = some (ρ^[round] ((9 * i + 5) % 16))) := by
  decide +kernel

end Hash2

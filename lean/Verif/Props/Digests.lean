import Verif.Lemmas.DigestOps
import Verif.Spec.Platforms
/-
C34, C35: comparison of digests and their conversion to text. `hex` is in Spec/Hex.lean.
-/
namespace Hash2
open Spec

/-- **C34.** a == b holds exactly if all bytes are equal, at run time and in constant expressions. -/
theorem digest_eq_iff (env : Env) (N : Nat) (a b : List Byte) (ha : a.length = N) (hb : b.length = N) :
    Digest.eq env N a b = .ok (decide (a = b)) := by
  obtain ⟨r, e, h⟩ := memcmp_eq env a b N ha hb
  rw [Digest.eq, e, Except.bind_ok]
  have : (r == 0) = decide (a = b) := by
    by_cases hc : a = b
    · simp [hc, h.2 hc]
    · simp [hc, mt h.1 hc]
  rw [this]
  rfl

/-- **C34.** a != b holds exactly if some byte differs. -/
theorem digest_ne_iff (env : Env) (N : Nat) (a b : List Byte) (ha : a.length = N) (hb : b.length = N) :
    Digest.ne env N a b = .ok (decide (a ≠ b)) := by
  simp only [Digest.ne, digest_eq_iff env N a b ha hb, Except.bind_ok, Except.pure_eq, decide_not]

example : Digest.eq le64 4 [1, 2, 3, 4] [1, 2, 3, 5] = .ok false := digest_eq_iff le64 4 _ _ rfl rfl
example : Digest.ne be32 4 [1, 2, 3, 4] [1, 2, 3, 5] = .ok true := digest_ne_iff be32 4 _ _ rfl rfl
example : Digest.eq { le64 with constEval := true } 2 [0, 0xFF] [0, 0xFF] = .ok true := digest_eq_iff _ 2 _ _ rfl rfl

/-- A digest made from an array holds the bytes of the array, and operator[], front() and back() return them; a default
constructed one holds zeros. -/
theorem digest_of_array (env : Env) (N : Nat) (v : List Byte) (hv : v.length = N) :
    Digest.ofArray env N v = .ok v ∧ (∀ i (h : i < N), Digest.get N v i = .ok (v[i]'(hv ▸ h))) ∧
    (∀ i, N ≤ i → Digest.get N v i = .error .assertFailed) ∧
    (∀ h : 0 < N, Digest.front v = .ok (v[0]'(hv ▸ h)) ∧ Digest.back N v = .ok (v[N - 1]'(by omega))) ∧
    ∀ i (h : i < N), Digest.get N (Digest.zero N) i = .ok 0 := by
  refine ⟨?_, ?_, ?_, ?_, ?_⟩
  · rw [Digest.ofArray, memcpy_ok _ _ _ _ _ (by omega) (by simp [Digest.zero])]
    subst hv
    simp [Digest.zero]
  · intro i h
    rw [Digest.get, check_ok h, Except.bind_ok, aget_ok]
  · intro i h
    have : ¬ i < N := by omega
    simp [Digest.get, check, this]
  · intro h
    exact ⟨aget_ok (by omega), aget_ok (by omega)⟩
  · intro i h
    rw [Digest.get, check_ok h, Except.bind_ok, aget_ok (by simpa [Digest.zero] using h)]
    simp [Digest.zero]

/-- **C35.** to_chars( v, first, last ), with last - first = len characters of the memory `buf` at first (or last before
first): with less room than 2N it returns null and writes nothing, else it writes the 2N digits, nothing else, and returns
first + 2N. The hypothesis on N is that 2N is a std::ptrdiff_t. -/
theorem to_chars_writes_hex (env : Env) (N : Nat) (v : List Byte) (hv : v.length = N) (h : 4 * N < 2 ^ env.sizeBits)
    (buf : List Byte) (len : Int) (hb : len ≤ buf.length) :
    Digest.toChars env N v buf len = if len < 2 * N then .ok (none, buf) else .ok (some (2 * N), hex v ++ buf.drop (2 * N)) :=
  Digest.toChars_eq env N v hv h buf len hb

/-- **C35.** The overload for arrays writes the digits and a terminating zero. -/
theorem to_chars_array (env : Env) (N : Nat) (v : List Byte) (hv : v.length = N) (h : 4 * N < 2 ^ env.sizeBits) (w : List Byte)
    (hw : 2 * N + 1 ≤ w.length) : Digest.toCharsArray env N v w = .ok (hex v ++ [0] ++ w.drop (2 * N + 1)) := by
  rw [Digest.toCharsArray_eq env N v hv h w hw]
  simp

/-- **C35.** to_string is the 2N digits, and a stream gets the same. -/
theorem to_string_is_hex (env : Env) (N : Nat) (v : List Byte) (hv : v.length = N) (h : 4 * N < 2 ^ env.sizeBits) (os : List Byte) :
    Digest.toString env N v = .ok (hex v) ∧ (hex v).length = 2 * N ∧ Digest.insert env N os v = .ok (os ++ hex v) := by
  have hl : (hex v).length = 2 * N := by rw [Digest.hex_length, hv]
  refine ⟨?_, hl, ?_⟩
  · rw [Digest.toString, Digest.toCharsArray_eq env N v hv h _ (by rw [Digest.tmp_length]; exact Nat.le_refl _), Except.bind_ok,
      if_pos (by rw [List.length_append]; omega), ← hl, List.take_left]
    rfl
  · rw [Digest.insert, Digest.toCharsArray_eq env N v hv h _ (by rw [Digest.tmp_length]; exact Nat.le_refl _), Except.bind_ok, Digest.cstring_hex, Except.bind_ok]
    rfl

/-- **C35.** Different digests have different strings, on any two platforms. -/
theorem to_string_injective (env env' : Env) (N : Nat) (u v : List Byte) (hu : u.length = N) (hv : v.length = N)
    (h : 4 * N < 2 ^ env.sizeBits) (h' : 4 * N < 2 ^ env'.sizeBits) (e : Digest.toString env N u = Digest.toString env' N v) : u = v := by
  rw [(to_string_is_hex env N u hu h []).1, (to_string_is_hex env' N v hv h' []).1] at e
  exact Digest.hex_inj (Except.ok.inj e)

/-- the digits are those one expects -/
theorem hex_example : hex [0x00, 0x9A, 0xBC, 0xDE, 0xF1, 0x23] = "009abcdef123".toList.map fun c => BitVec.ofNat 8 c.toNat := by decide +kernel

example : Digest.toString le64 2 [0x1F, 0xA0] = .ok [0x31, 0x66, 0x61, 0x30] := (to_string_is_hex le64 2 _ rfl (by decide) []).1
example : Digest.toChars le64 2 [0x1F, 0xA0] [7, 7, 7, 7, 7] 5 = .ok (some 4, [0x31, 0x66, 0x61, 0x30, 7]) :=
  to_chars_writes_hex le64 2 _ rfl (by decide) _ 5 (by decide)
example : Digest.toChars le64 2 [0x1F, 0xA0] [7, 7, 7, 7, 7] 3 = .ok (none, [7, 7, 7, 7, 7]) :=
  to_chars_writes_hex le64 2 _ rfl (by decide) _ 3 (by decide)

/-- The hypothesis on N is needed: if 2N is no std::ptrdiff_t, but a std::size_t, to_chars writes to an empty buffer. (No
digest of the library is this large.) -/
theorem to_chars_huge (env : Env) (N : Nat) (v : List Byte) (hv : v.length = N) (h : 2 ^ env.sizeBits ≤ 4 * N) (h' : 2 * N < 2 ^ env.sizeBits) :
    Digest.toChars env N v [] 0 = .error .oob := by
  have hp : 0 < 2 ^ env.sizeBits := Nat.two_pow_pos _
  have hr : Digest.room env N < 0 := by
    unfold Digest.room
    rw [BitVec.toInt_eq_toNat_cond, BitVec.toNat_ofNat, Nat.mod_eq_of_lt h', if_neg (by omega)]
    omega
  have hN : 0 < N := by omega
  obtain ⟨k, rfl⟩ : ∃ k, N = k + 1 := ⟨N - 1, by omega⟩
  rw [Digest.toChars, if_neg (by omega)]
  have hg : Digest.get (k + 1) v 0 = .ok (v[0]'(by omega)) := by rw [Digest.get, check_ok (by omega), Except.bind_ok, aget_ok]
  simp only [forLoop, hg, Except.bind_ok, Digest.digits_high]
  rfl

example (v : List Byte) (hv : v.length = 2 ^ 30) : Digest.toChars be32 (2 ^ 30) v [] 0 = .error .oob :=
  to_chars_huge be32 (2 ^ 30) v hv (by decide) (by decide)

end Hash2

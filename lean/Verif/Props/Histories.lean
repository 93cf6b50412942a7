import Verif.Lemmas.Platform
import Verif.Spec.Platforms
/-
C01, C02, C03, C22: histories of calls of update() and result(), on any class of the library.

`stream ops = some ts` says that the calls `ops` are valid (n bytes are readable at p, or n is 0) and that they send the
tokens `ts`, one per byte and one per result(); it does not mention how the bytes are split over the calls.
-/
namespace Hash2
open Spec

/-- **C01.** Two programs that construct an object of any class in the same way and send it the same bytes between the same
result() calls, however split over update() calls, get the same results (and both run without a fault).
`NullOk`/`NoNull`: see C02. `Room` only concerns spooky2_128. -/
theorem chunking (a : AlgName) (env : Env) (c : Ctor) (ops₁ ops₂ : List Op) (ts : List Tok) (hc : c.Valid)
    (h₁ : stream ops₁ = some ts) (h₂ : stream ops₂ = some ts)
    (n₁ : a.NullOk env ∨ NoNull ops₁) (n₂ : a.NullOk env ∨ NoNull ops₂) (hr : a.Room env c ts) :
    ∃ rs, a.impl.exec env c ops₁ = .ok rs ∧ a.impl.exec env c ops₂ = .ok rs :=
  ⟨_, AlgName.exec_ok hc h₁ n₁ hr, AlgName.exec_ok hc h₂ n₂ hr⟩

-- hmac<sha2_256> with a key, "abc" split in two ways
example : ∃ rs, (AlgName.digest (.hmac .sha2_256)).impl.exec le64 (.bytes (.mem [1, 2]) 2)
      [.update (.mem [0x61]) 1, .update (.mem [0x62, 0x63]) 2, .result] = .ok rs ∧
    (AlgName.digest (.hmac .sha2_256)).impl.exec le64 (.bytes (.mem [1, 2]) 2)
      [.update (.mem [0x61, 0x62, 0x63]) 2, .update (.mem [0x63]) 1, .result] = .ok rs :=
  chunking _ _ _ _ _ [.data 0x61, .data 0x62, .data 0x63, .fin] (Nat.le_refl 2) rfl rfl
    (.inr (by intro n; simp)) (.inr (by intro n; simp)) trivial

-- an actual value: SipHash-2-4 of 01 02 03 under the zero key
example : (show M (List W64) from AlgName.siphash_64.impl.exec le64 .default [.update (.mem [1, 2]) 2, .update (.mem [3]) 1, .result])
    = .ok [0x63dda4d2454077fd] := by decide +kernel

/-- **C02 (partial: see `sha2_null_update_undefined`).** A call update( p, 0 ) changes no result, at any point of any history,
for any p; a null p only where `NullOk`: not for SHA-2 at run time. -/
theorem zero_length_update_partial (a : AlgName) (env : Env) (c : Ctor) (p : Ptr) (before after : List Op) (ts : List Tok)
    (hc : c.Valid) (h : stream (before ++ after) = some ts) (hr : a.Room env c ts)
    (hn : a.NullOk env ∨ (p ≠ .null ∧ NoNull (before ++ after))) :
    ∃ rs, a.impl.exec env c (before ++ .update p 0 :: after) = .ok rs ∧ a.impl.exec env c (before ++ after) = .ok rs := by
  refine chunking a env c _ _ ts hc ?_ h ?_ (hn.imp id And.right) hr
  · rw [stream_append] at h ⊢
    rw [← h]
    cases p <;> simp [stream, Op.toks]
  · refine hn.imp id fun ⟨hp, hnn⟩ n hm => ?_
    rcases List.mem_append.1 hm with hm | hm
    · exact hnn n (List.mem_append_left _ hm)
    · rcases List.mem_cons.1 hm with hm | hm
      · exact hp (by cases hm; rfl)
      · exact hnn n (List.mem_append_right _ hm)

example : ∃ rs, (AlgName.digest .md5_128).impl.exec le64 .default ([.update (.mem abc) 3] ++ .update .null 0 :: [.result]) = .ok rs ∧
    (AlgName.digest .md5_128).impl.exec le64 .default ([.update (.mem abc) 3] ++ [.result]) = .ok rs :=
  zero_length_update_partial _ _ _ _ _ _ [.data 0x61, .data 0x62, .data 0x63, .fin] trivial rfl trivial (.inl (.inl rfl))

/-- **C02, C03 are false of SHA-2**: at run time (where detail::memcpy is std::memcpy) update( nullptr, 0 ) on an object holding an incomplete block passes a null
pointer to std::memcpy (sha2.hpp:52-103 lacks the `if( n == 0 ) return;` of the other classes). This holds of all six SHA-2
classes and every hmac over them, with any number of bytes that is not a multiple of the block size. -/
theorem sha2_null_update_undefined (d : DigestName) (hd : d.isSha2 = true) (env : Env) (he : env.loops = false)
    (msg : List Byte) (hm : msg.length % d.B ≠ 0) :
    d.impl.toHash.exec env .default [.update (.mem msg) msg.length, .update .null 0] = .error .nullMemcpy :=
  sha2_null_fault d hd env he msg hm

example : (AlgName.digest .sha2_256).impl.exec le64 .default [.update (.mem abc) 3, .update .null 0] = .error .nullMemcpy :=
  sha2_null_update_undefined .sha2_256 rfl le64 rfl abc (by decide)

/-- **C03 (partial: see `sha2_null_update_undefined`).** No program of valid calls reads or writes out of bounds, hands a null
pointer to memcpy, fails an assertion or wraps a length, whatever its size. -/
theorem no_undefined_behaviour_partial (a : AlgName) (env : Env) (c : Ctor) (ops : List Op) (ts : List Tok) (hc : c.Valid)
    (h : stream ops = some ts) (hn : a.NullOk env ∨ NoNull ops) (hr : a.Room env c ts) :
    ∃ rs, a.impl.exec env c ops = .ok rs :=
  ⟨_, AlgName.exec_ok hc h hn hr⟩

example : ∃ rs, AlgName.spooky2_128.impl.exec be32 (.seed 7) [.result, .update (.mem abc) 2, .update .null 0, .result] = .ok rs :=
  no_undefined_behaviour_partial _ _ _ _ [.fin, .data 0x61, .data 0x62, .fin] trivial rfl (.inl trivial) (by show 0 + (192 + (1 + (1 + (192 + 0)))) < 2 ^ 32; decide)

/-- **C03 is false for spooky2_128 when the byte counter wraps**, as it does on a 32 bit platform after four updates with 2^30 bytes: 192
does not divide 2^32 (nor 2^64), and an assertion fails. -/
theorem spooky2_wrap_fails_assertion (env : Env) (bs : List Byte) (hb : 4 * bs.length = 2 ^ env.sizeBits) :
    AlgName.spooky2_128.impl.exec env .default (List.replicate 4 (.update (.mem bs) bs.length)) = .error .assertFailed :=
  spooky_wrap env bs hb

example : 4 * (List.replicate (2 ^ 30) (0 : Byte)).length = 2 ^ be32.sizeBits := by
  rw [List.length_replicate]; rfl

/-- validity is needed: reading more than there is faults -/
theorem invalid_update_faults (env : Env) :
    (AlgName.digest .md5_128).impl.exec env .default [.update (.mem [1, 2]) 3] = .error .oob := by
  cases env with
  | mk native ce bi c14 s64 en g fp => cases ce <;> cases bi <;> cases c14 <;> rfl

/-- **C22.** The results of a program of valid calls are the same on any two platforms: byte order, constant evaluation or run
time, compilers with and without is_constant_evaluated and constexpr functions, width of std::size_t, contents of uninitialised memory. Classes that count bytes in std::size_t need the count to fit the
smaller one if the two widths differ. -/
theorem platform_independent (a : AlgName) (env₁ env₂ : Env) (c : Ctor) (ops : List Op) (ts : List Tok) (hc : c.Valid)
    (h : stream ops = some ts) (n₁ : a.NullOk env₁ ∨ NoNull ops) (n₂ : a.NullOk env₂ ∨ NoNull ops)
    (r₁ : a.Room env₁ c ts) (r₂ : a.Room env₂ c ts)
    (hs : env₁.size64 = env₂.size64 ∨ a.countsInSizeT = false ∨ c.cost + cost ts < 2 ^ 32) :
    ∃ rs, a.impl.exec env₁ c ops = .ok rs ∧ a.impl.exec env₂ c ops = .ok rs := by
  refine ⟨_, AlgName.exec_ok hc h n₁ r₁, ?_⟩
  rw [AlgName.exec_ok hc h n₂ r₂, AlgName.run_width a env₁ env₂ c ts hs]

example : ∃ rs, AlgName.xxhash_32.impl.exec le64 (.seed 5) [.update (.mem abc) 3, .result] = .ok rs ∧
    AlgName.xxhash_32.impl.exec be32 (.seed 5) [.update (.mem abc) 3, .result] = .ok rs :=
  platform_independent _ _ _ _ _ [.data 0x61, .data 0x62, .data 0x63, .fin] trivial rfl (.inl trivial) (.inl trivial) trivial trivial
    (.inr (.inr (by decide)))

end Hash2

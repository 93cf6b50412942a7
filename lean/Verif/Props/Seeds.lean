import Verif.Lemmas.Seeds
import Verif.Spec.Platforms
/-
C17-C20, C36: constructors. Statements about `exec ... ops` for all `ops` are about every program, valid or not: "the object
behaves exactly like".
-/
namespace Hash2
open Spec

/-! ### C17 -/

/-- **C17.** the seed 0 is the default -/
theorem seed_zero_is_default (a : AlgName) (env : Env) (ops : List Op) :
    a.impl.exec env (.seed 0) ops = a.impl.exec env .default ops := by
  apply HashAlg.exec_congr
  cases a with
  | digest d => cases d <;> rfl
  | siphash_64 => rfl
  | siphash_32 => rfl
  | xxhash_64 => rfl
  | xxhash_32 => rfl
  | fnv1a_32 => rfl
  | fnv1a_64 => rfl
  | murmur3_32 => rfl
  | murmur3_128 => rfl
  | spooky2_128 => rfl

/-- **C17.** the empty byte sequence, null or not, is the default -/
theorem empty_seed_is_default (a : AlgName) (env : Env) (p : Ptr) (ops : List Op) :
    a.impl.exec env (.bytes p 0) ops = a.impl.exec env .default ops := by
  apply HashAlg.exec_congr
  cases a with
  | digest d => cases d <;> rfl
  | siphash_64 => rfl
  | siphash_32 => rfl
  | xxhash_64 => rfl
  | xxhash_32 => rfl
  | fnv1a_32 => rfl
  | fnv1a_64 => rfl
  | murmur3_32 => rfl
  | murmur3_128 => rfl
  | spooky2_128 => rfl

example : (AlgName.digest (.hmac .sha1_160)).impl.exec le64 (.bytes .null 0) [.update (.mem abc) 3, .result]
    = (AlgName.digest (.hmac .sha1_160)).impl.exec le64 .default [.update (.mem abc) 3, .result] :=
  empty_seed_is_default _ _ _ _

/-! ### C18 -/

/-- **C18.** MD5, SHA-1, SHA-2, RIPEMD: a non-zero integer seed is an update with its 8 little-endian bytes and a discarded
result() -/
theorem seed_is_update_and_result (d : DigestName) (hd : ∀ H, d ≠ .hmac H) (env : Env) (k : W64) (hk : k ≠ 0) (ops : List Op) :
    (AlgName.digest d).impl.exec env (.seed k) ops
      = ((AlgName.digest d).impl.exec env .default (.update (.mem (natLE 8 k.toNat)) 8 :: .result :: ops)).map List.tail := by
  apply HashAlg.exec_after
  cases d with
  | hmac H => exact absurd rfl (hd H)
  | _ => exact ctorSeed_ne _ _ _ env hk

/-- **C18.** MD5, SHA-1, SHA-2, RIPEMD, xxHash: a non-empty byte seed is an update with it and a discarded result() -/
theorem byte_seed_is_update_and_result (a : AlgName) (ha : (∃ d, a = .digest d ∧ ∀ H, d ≠ .hmac H) ∨ a = .xxhash_64 ∨ a = .xxhash_32)
    (env : Env) (p : Ptr) (n : Nat) (hn : n ≠ 0) (ops : List Op) :
    a.impl.exec env (.bytes p n) ops = (a.impl.exec env .default (.update p n :: .result :: ops)).map List.tail := by
  apply HashAlg.exec_after
  rcases ha with ⟨d, rfl, hd⟩ | rfl | rfl
  · cases d with
    | hmac H => exact absurd rfl (hd H)
    | _ => exact ctorBytes_ne _ _ _ env p hn
  · exact ctorBytes_ne _ _ _ env p hn
  · exact ctorBytes_ne _ _ _ env p hn

/-- **C18.** siphash_64: so is a non-empty byte seed that has not 16 bytes; siphash_32: 8 (a seed of these sizes is the key:
C10, C11) -/
theorem siphash64_byte_seed (env : Env) (p : Ptr) (n : Nat) (hn : n ≠ 0) (h16 : n ≠ 16) (ops : List Op) :
    AlgName.siphash_64.impl.exec env (.bytes p n) ops
      = (AlgName.siphash_64.impl.exec env .default (.update p n :: .result :: ops)).map List.tail := by
  apply HashAlg.exec_after
  show Sip64.initBytes env p n = _
  unfold Sip64.initBytes
  rw [if_neg h16, if_pos hn]
  rfl

theorem siphash32_byte_seed (env : Env) (p : Ptr) (n : Nat) (hn : n ≠ 0) (h8 : n ≠ 8) (ops : List Op) :
    AlgName.siphash_32.impl.exec env (.bytes p n) ops
      = (AlgName.siphash_32.impl.exec env .default (.update p n :: .result :: ops)).map List.tail := by
  apply HashAlg.exec_after
  show Sip32.initBytes env p n = _
  unfold Sip32.initBytes
  rw [if_neg h8, if_pos hn]
  rfl

/-- **C18.** FNV-1a: a seed is a prefix of the message -/
theorem fnv1a_seed_is_update (a : AlgName) (ha : a = .fnv1a_32 ∨ a = .fnv1a_64) (env : Env) (k : W64) (hk : k ≠ 0) (ops : List Op) :
    a.impl.exec env (.seed k) ops = a.impl.exec env .default (.update (.mem (natLE 8 k.toNat)) 8 :: ops) := by
  apply HashAlg.exec_prefix
  rcases ha with rfl | rfl
  · show Fnv.initSeed Fnv.c32 env k = _
    unfold Fnv.initSeed
    rw [if_pos hk, seedBytes_ok]
    rfl
  · show Fnv.initSeed Fnv.c64 env k = _
    unfold Fnv.initSeed
    rw [if_pos hk, seedBytes_ok]
    rfl

theorem fnv1a_byte_seed_is_update (a : AlgName) (ha : a = .fnv1a_32 ∨ a = .fnv1a_64) (env : Env) (p : Ptr) (n : Nat) (ops : List Op) :
    a.impl.exec env (.bytes p n) ops = a.impl.exec env .default (.update p n :: ops) := by
  apply HashAlg.exec_prefix
  by_cases hn : n = 0
  · subst hn; rcases ha with rfl | rfl <;> rfl
  · rcases ha with rfl | rfl
    · show Fnv.initBytes Fnv.c32 p n = _
      unfold Fnv.initBytes
      rw [if_pos hn]
      rfl
    · show Fnv.initBytes Fnv.c64 p n = _
      unfold Fnv.initBytes
      rw [if_pos hn]
      rfl

example : (AlgName.digest .md5_128).impl.exec be32 (.seed 0x0102) [.update (.mem abc) 3, .result]
    = ((AlgName.digest .md5_128).impl.exec be32 .default
        [.update (.mem [2, 1, 0, 0, 0, 0, 0, 0]) 8, .result, .update (.mem abc) 3, .result]).map List.tail :=
  seed_is_update_and_result .md5_128 (by simp) be32 0x0102 (by decide) _

/-! ### C36 -/

/-- **C36.** an integer seed of hmac is the key of its 8 little-endian bytes -/
theorem hmac_seed_is_key (H : DigestName) (env : Env) (k : W64) (hk : k ≠ 0) (ops : List Op) :
    (AlgName.digest (.hmac H)).impl.exec env (.seed k) ops
      = (AlgName.digest (.hmac H)).impl.exec env (.bytes (.mem (natLE 8 k.toNat)) 8) ops := by
  apply HashAlg.exec_congr
  show Hmac.initSeed H.impl env k = _
  unfold Hmac.initSeed
  rw [if_neg hk, seedBytes_ok]
  rfl

/-- **C36.** a key longer than the block is replaced by its digest: whatever the program -/
theorem hmac_long_key (H : DigestName) (env : Env) (key digest : List Byte) (hl : H.B < key.length)
    (hd : (AlgName.digest H).impl.exec env .default [.update (.mem key) key.length, .result] = .ok [digest])
    (ops : List Op) (ts : List Tok) (h : stream ops = some ts) (hn : H.isSha2 = false ∨ env.loops = true ∨ NoNull ops) :
    (AlgName.digest (.hmac H)).impl.exec env (.bytes (.mem key) key.length) ops
      = (AlgName.digest (.hmac H)).impl.exec env (.bytes (.mem digest) digest.length) ops := by
  have hn : (AlgName.digest (.hmac H)).NullOk env ∨ NoNull ops := by
    rcases hn with h | h | h
    exacts [.inl (.inl h), .inl (.inr h), .inr h]
  rw [AlgName.exec_ok (a := .digest (.hmac H)) (c := .bytes (.mem key) key.length) (Nat.le_refl _) h hn trivial,
    AlgName.exec_ok (a := .digest (.hmac H)) (c := .bytes (.mem digest) digest.length) (Nat.le_refl _) h hn trivial]
  have hv : digest = H.machine.value H.machine.init key := by
    have h1 := H.value_ok (env := env) (stream_once key) (.inr (noNull_once key _))
    rw [show ([Op.update (.mem key) key.length, .result] : List Op) = [.update (.mem key) key.length] ++ [.result] from rfl, h1] at hd
    exact (List.cons.inj (Except.ok.inj hd)).1.symm
  have hs : Ctor.start (DigestName.hmac H).machine (.bytes (.mem key) key.length)
      = Ctor.start (DigestName.hmac H).machine (.bytes (.mem digest) digest.length) := by
    show Machine.hmac.keyed H.machine H.B (key.take key.length) = Machine.hmac.keyed H.machine H.B (digest.take digest.length)
    rw [List.take_length, List.take_length]
    have : hmacKey (H.machine.value H.machine.init) H.B key = hmacKey (H.machine.value H.machine.init) H.B digest := by
      unfold hmacKey
      have hdl : digest.length ≤ H.B := by rw [hv]; exact DigestName.resLen H _
      rw [if_neg (by omega), if_pos hdl, hv]
    unfold Machine.hmac.keyed
    rw [this]
  exact congrArg (fun s => Except.ok ((DigestName.hmac H).machine.run s ts).2) hs

-- a key of 65 bytes for a block of 64
example : (AlgName.digest (.hmac .md5_128)).impl.exec le64 (.bytes (.mem (List.replicate 65 7)) 65) [.update (.mem abc) 3, .result]
    = (AlgName.digest (.hmac .md5_128)).impl.exec le64
        (.bytes (.mem (MD5.md5.hash (List.replicate 65 7))) (MD5.md5.hash (List.replicate 65 7)).length) [.update (.mem abc) 3, .result] :=
  hmac_long_key .md5_128 _ (List.replicate 65 7) _ (by decide) (DigestName.value_ok .md5_128 (stream_once _) (.inl (.inl rfl)))
    _ [.data 0x61, .data 0x62, .data 0x63, .fin] rfl (.inl rfl)

/-- **C36.** zero bytes appended to a key, up to the block size, change nothing -/
theorem hmac_key_zeros (H : DigestName) (env : Env) (key : List Byte) (z : Nat) (hl : key.length + z ≤ H.B)
    (ops : List Op) (ts : List Tok) (h : stream ops = some ts) (hn : H.isSha2 = false ∨ env.loops = true ∨ NoNull ops) :
    (AlgName.digest (.hmac H)).impl.exec env (.bytes (.mem (key ++ List.replicate z 0)) (key.length + z)) ops
      = (AlgName.digest (.hmac H)).impl.exec env (.bytes (.mem key) key.length) ops := by
  have hn : (AlgName.digest (.hmac H)).NullOk env ∨ NoNull ops := by
    rcases hn with h | h | h
    exacts [.inl (.inl h), .inl (.inr h), .inr h]
  have hlen : (key ++ List.replicate z (0 : Byte)).length = key.length + z := by simp
  rw [AlgName.exec_ok (a := .digest (.hmac H)) (c := .bytes (.mem key) key.length) (Nat.le_refl _) h hn trivial,
    AlgName.exec_ok (a := .digest (.hmac H)) (c := .bytes (.mem (key ++ List.replicate z 0)) (key.length + z))
      (Nat.le_of_eq hlen.symm) h hn trivial]
  have hs : Ctor.start (DigestName.hmac H).machine (.bytes (.mem (key ++ List.replicate z 0)) (key.length + z))
      = Ctor.start (DigestName.hmac H).machine (.bytes (.mem key) key.length) := by
    show Machine.hmac.keyed H.machine H.B ((key ++ List.replicate z 0).take (key.length + z))
      = Machine.hmac.keyed H.machine H.B (key.take key.length)
    rw [List.take_length, List.take_of_length_le (Nat.le_of_eq hlen)]
    have : hmacKey (H.machine.value H.machine.init) H.B (key ++ List.replicate z 0) = hmacKey (H.machine.value H.machine.init) H.B key := by
      unfold hmacKey
      rw [if_pos (by omega), if_pos (by omega)]
      simp only [hlen, List.append_assoc, List.replicate_append_replicate]
      rw [show z + (H.B - (key.length + z)) = H.B - key.length by omega]
    unfold Machine.hmac.keyed
    rw [this]
  exact congrArg (fun s => Except.ok ((DigestName.hmac H).machine.run s ts).2) hs

example : (AlgName.digest (.hmac .sha2_256)).impl.exec le64 (.bytes (.mem ([1, 2] ++ List.replicate 3 0)) (2 + 3)) [.result]
    = (AlgName.digest (.hmac .sha2_256)).impl.exec le64 (.bytes (.mem [1, 2]) 2) [.result] :=
  hmac_key_zeros .sha2_256 _ [1, 2] 3 (by decide) _ [.fin] rfl (.inr (.inr (by intro n; simp)))

end Hash2

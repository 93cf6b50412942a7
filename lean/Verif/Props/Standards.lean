import Verif.Lemmas.Standards
import Verif.Spec.Platforms
/-
C04-C15, C39: the first result is the value of the standard's function on the message, however the message is split over
update() calls, on any platform. The functions on the right-hand sides are those of Verif/Spec (RFC 1321, FIPS 180-4, the
RIPEMD, SipHash, xxHash, FNV, MurmurHash3 and SpookyHash descriptions, RFC 2104); `stream ops = some (msg.map .data)` says that
`ops` are valid update() calls whose bytes, concatenated, are msg.
The examples are the published test vectors.
-/
namespace Hash2
open Spec

/-- two accounts of the same run: used to obtain the test vectors by running the model in the kernel -/
theorem same_result {R : Type} {m : M (List R)} {x y : R} (h : m = .ok [x]) (h' : m = .ok [y]) : x = y := by
  rw [h] at h'
  exact (List.cons.inj (Except.ok.inj h')).1

def yields (m : M (List (List Byte))) (y : List Byte) : Bool :=
  match m with
  | .ok [x] => x == y
  | _ => false

theorem of_check (m : M (List (List Byte))) {y : List Byte} (h : yields m y = true) : m = .ok [y] := by
  unfold yields at h
  split at h
  · simp at h; rw [h]
  · simp at h

/-! ### C04 -/

/-- **C04.** md5_128 is RFC 1321 -/
theorem md5_rfc1321 (env : Env) (ops : List Op) (msg : List Byte) (h : stream ops = some (msg.map .data)) :
    (AlgName.digest .md5_128).impl.exec env .default (ops ++ [.result]) = .ok [MD5.md5.hash msg] :=
  DigestName.value_ok .md5_128 h (.inl (.inl rfl))

example : (AlgName.digest .md5_128).impl.exec le64 .default ([.update (.mem abc) 1, .update .null 0, .update (.mem [0x62, 0x63]) 2] ++ [.result])
    = .ok [MD5.md5.hash abc] := md5_rfc1321 _ _ _ rfl

-- RFC 1321 A.5: MD5 ("abc") = 900150983cd24fb0d6963f7d28e17f72
example : MD5.md5.hash abc
    = [0x90, 0x01, 0x50, 0x98, 0x3c, 0xd2, 0x4f, 0xb0, 0xd6, 0x96, 0x3f, 0x7d, 0x28, 0xe1, 0x7f, 0x72] :=
  same_result (m := (AlgName.digest .md5_128).impl.exec le64 .default ([.update (.mem abc) 3] ++ [.result]))
    (md5_rfc1321 le64 _ _ rfl) (of_check _ (by decide +kernel))

/-! ### C05 -/

/-- **C05.** sha1_160 is FIPS 180-4 SHA-1 -/
theorem sha1_fips180 (env : Env) (ops : List Op) (msg : List Byte) (h : stream ops = some (msg.map .data)) :
    (AlgName.digest .sha1_160).impl.exec env .default (ops ++ [.result]) = .ok [SHA1.sha1.hash msg] :=
  DigestName.value_ok .sha1_160 h (.inl (.inl rfl))

example : (AlgName.digest .sha1_160).impl.exec be32 .default ([.update (.mem abc) 3] ++ [.result]) = .ok [SHA1.sha1.hash abc] :=
  sha1_fips180 _ _ _ rfl

-- a9993e36 4706816a ba3e2571 7850c26c 9cd0d89d
example : SHA1.sha1.hash abc
    = [0xa9, 0x99, 0x3e, 0x36, 0x47, 0x06, 0x81, 0x6a, 0xba, 0x3e, 0x25, 0x71, 0x78, 0x50, 0xc2, 0x6c,
    0x9c, 0xd0, 0xd8, 0x9d] :=
  same_result (m := (AlgName.digest .sha1_160).impl.exec le64 .default ([.update (.mem abc) 3] ++ [.result]))
    (sha1_fips180 le64 _ _ rfl) (of_check _ (by decide +kernel))

/-! ### C06 -/

/-- **C06.** sha2_256 is FIPS 180-4 SHA-256 (no null pointer at run time: C02) -/
theorem sha256_fips180 (env : Env) (ops : List Op) (msg : List Byte) (h : stream ops = some (msg.map .data))
    (hn : env.loops = true ∨ NoNull ops) :
    (AlgName.digest .sha2_256).impl.exec env .default (ops ++ [.result]) = .ok [SHA2.sha256.hash msg] :=
  DigestName.value_ok .sha2_256 h (hn.imp .inr id)

/-- **C06.** sha2_224 is FIPS 180-4 SHA-224 -/
theorem sha224_fips180 (env : Env) (ops : List Op) (msg : List Byte) (h : stream ops = some (msg.map .data))
    (hn : env.loops = true ∨ NoNull ops) :
    (AlgName.digest .sha2_224).impl.exec env .default (ops ++ [.result]) = .ok [SHA2.sha224.hash msg] :=
  DigestName.value_ok .sha2_224 h (hn.imp .inr id)

example : (AlgName.digest .sha2_256).impl.exec le64 .default ([.update (.mem abc) 2, .update (.mem [0x63]) 1] ++ [.result])
    = .ok [SHA2.sha256.hash abc] := sha256_fips180 _ _ _ rfl (.inr (by intro n; simp))

-- ba7816bf 8f01cfea 414140de 5dae2223 b00361a3 96177a9c b410ff61 f20015ad
example : SHA2.sha256.hash abc
    = [0xba, 0x78, 0x16, 0xbf, 0x8f, 0x01, 0xcf, 0xea, 0x41, 0x41, 0x40, 0xde, 0x5d, 0xae, 0x22, 0x23,
    0xb0, 0x03, 0x61, 0xa3, 0x96, 0x17, 0x7a, 0x9c, 0xb4, 0x10, 0xff, 0x61, 0xf2, 0x00, 0x15, 0xad] :=
  same_result (m := (AlgName.digest .sha2_256).impl.exec le64 .default ([.update (.mem abc) 3] ++ [.result]))
    (sha256_fips180 le64 _ _ rfl (.inr (by intro n; simp))) (of_check _ (by decide +kernel))

-- 23097d22 3405d822 8642a477 bda255b3 2aadbce4 bda0b3f7 e36c9da7
example : SHA2.sha224.hash abc
    = [0x23, 0x09, 0x7d, 0x22, 0x34, 0x05, 0xd8, 0x22, 0x86, 0x42, 0xa4, 0x77, 0xbd, 0xa2, 0x55, 0xb3,
    0x2a, 0xad, 0xbc, 0xe4, 0xbd, 0xa0, 0xb3, 0xf7, 0xe3, 0x6c, 0x9d, 0xa7] :=
  same_result (m := (AlgName.digest .sha2_224).impl.exec le64 .default ([.update (.mem abc) 3] ++ [.result]))
    (sha224_fips180 le64 _ _ rfl (.inr (by intro n; simp))) (of_check _ (by decide +kernel))

/-! ### C07 -/

/-- **C07.** sha2_512 is FIPS 180-4 SHA-512, for messages of less than 2^61 bytes (2^64 bits): beyond, the code loses the upper
half of the 128-bit length (`sha512_length_mod64`) -/
theorem sha512_fips180 (env : Env) (ops : List Op) (msg : List Byte) (h : stream ops = some (msg.map .data))
    (hl : msg.length < 2 ^ 61) (hn : env.loops = true ∨ NoNull ops) :
    (AlgName.digest .sha2_512).impl.exec env .default (ops ++ [.result]) = .ok [SHA2.sha512.hash msg] := by
  rw [← Md.hash_mod64 _ hl]; exact DigestName.value_ok .sha2_512 h (hn.imp .inr id)

theorem sha384_fips180 (env : Env) (ops : List Op) (msg : List Byte) (h : stream ops = some (msg.map .data))
    (hl : msg.length < 2 ^ 61) (hn : env.loops = true ∨ NoNull ops) :
    (AlgName.digest .sha2_384).impl.exec env .default (ops ++ [.result]) = .ok [SHA2.sha384.hash msg] := by
  rw [← Md.hash_mod64 _ hl]; exact DigestName.value_ok .sha2_384 h (hn.imp .inr id)

theorem sha512_224_fips180 (env : Env) (ops : List Op) (msg : List Byte) (h : stream ops = some (msg.map .data))
    (hl : msg.length < 2 ^ 61) (hn : env.loops = true ∨ NoNull ops) :
    (AlgName.digest .sha2_512_224).impl.exec env .default (ops ++ [.result]) = .ok [SHA2.sha512_224.hash msg] := by
  rw [← Md.hash_mod64 _ hl]; exact DigestName.value_ok .sha2_512_224 h (hn.imp .inr id)

theorem sha512_256_fips180 (env : Env) (ops : List Op) (msg : List Byte) (h : stream ops = some (msg.map .data))
    (hl : msg.length < 2 ^ 61) (hn : env.loops = true ∨ NoNull ops) :
    (AlgName.digest .sha2_512_256).impl.exec env .default (ops ++ [.result]) = .ok [SHA2.sha512_256.hash msg] := by
  rw [← Md.hash_mod64 _ hl]; exact DigestName.value_ok .sha2_512_256 h (hn.imp .inr id)

/-- Without the bound: what the four classes compute for any message is the function of FIPS 180-4 with the length field reduced
modulo 2^64 -/
theorem sha512_length_mod64 (env : Env) (ops : List Op) (msg : List Byte) (h : stream ops = some (msg.map .data))
    (hn : env.loops = true ∨ NoNull ops) :
    (AlgName.digest .sha2_512).impl.exec env .default (ops ++ [.result]) = .ok [SHA2.sha512.mod64.hash msg] ∧
    (AlgName.digest .sha2_384).impl.exec env .default (ops ++ [.result]) = .ok [SHA2.sha384.mod64.hash msg] ∧
    (AlgName.digest .sha2_512_224).impl.exec env .default (ops ++ [.result]) = .ok [SHA2.sha512_224.mod64.hash msg] ∧
    (AlgName.digest .sha2_512_256).impl.exec env .default (ops ++ [.result]) = .ok [SHA2.sha512_256.mod64.hash msg] :=
  ⟨DigestName.value_ok .sha2_512 h (hn.imp .inr id), DigestName.value_ok .sha2_384 h (hn.imp .inr id),
    DigestName.value_ok .sha2_512_224 h (hn.imp .inr id), DigestName.value_ok .sha2_512_256 h (hn.imp .inr id)⟩

/-- which is what FIPS 180-4 says exactly if the message has less than 2^61 bytes: for all longer messages (up to FIPS 180-4's limit
of 2^128 bits) the code processes other blocks than the standard. -/
theorem sha512_padding_exact (len : Nat) (hl : len < 2 ^ 125) :
    (SHA2.sha512.mod64.pad len = SHA2.sha512.pad len ↔ len < 2 ^ 61) ∧
    (SHA2.sha384.mod64.pad len = SHA2.sha384.pad len ↔ len < 2 ^ 61) ∧
    (SHA2.sha512_224.mod64.pad len = SHA2.sha512_224.pad len ↔ len < 2 ^ 61) ∧
    (SHA2.sha512_256.mod64.pad len = SHA2.sha512_256.pad len ↔ len < 2 ^ 61) := by
  have key : ∀ zs : List Byte, 0x80#8 :: zs ++ natBE 16 (8 * len % 2 ^ 64) = 0x80#8 :: zs ++ natBE 16 (8 * len) ↔ len < 2 ^ 61 := by
    intro zs
    rw [List.append_cancel_left_eq]
    constructor
    · intro h
      have h1 := natLE_inj (k := 16) (v := 8 * len % 2 ^ 64) (w := 8 * len) (by omega) (by omega) (List.reverse_inj.1 h)
      omega
    · intro h
      rw [Nat.mod_eq_of_lt (by omega)]
  exact ⟨key _, key _, key _, key _⟩

example : SHA2.sha512.mod64.pad (2 ^ 61) ≠ SHA2.sha512.pad (2 ^ 61) := fun h => absurd ((sha512_padding_exact (2 ^ 61) (by decide)).1.1 h) (by decide)

example : (AlgName.digest .sha2_512_256).impl.exec le64 .default ([.update (.mem abc) 3] ++ [.result]) = .ok [SHA2.sha512_256.hash abc] :=
  sha512_256_fips180 _ _ _ rfl (by decide) (.inr (by intro n; simp))

-- ddaf35a193617aba cc417349ae204131 12e6fa4e89a97ea2 0a9eeee64b55d39a 2192992a274fc1a8 36ba3c23a3feebbd 454d4423643ce80e 2a9ac94fa54ca49f
example : SHA2.sha512.hash abc
    = natBE 64 0xddaf35a193617abacc417349ae20413112e6fa4e89a97ea20a9eeee64b55d39a2192992a274fc1a836ba3c23a3feebbd454d4423643ce80e2a9ac94fa54ca49f :=
  same_result (m := (AlgName.digest .sha2_512).impl.exec le64 .default ([.update (.mem abc) 3] ++ [.result]))
    (sha512_fips180 le64 _ _ rfl (by decide) (.inr (by intro n; simp))) (of_check _ (by decide +kernel))

-- SHA-384 of "abc"
example : SHA2.sha384.hash abc
    = natBE 48 0xcb00753f45a35e8bb5a03d699ac65007272c32ab0eded1631a8b605a43ff5bed8086072ba1e7cc2358baeca134c825a7 :=
  same_result (m := (AlgName.digest .sha2_384).impl.exec le64 .default ([.update (.mem abc) 3] ++ [.result]))
    (sha384_fips180 le64 _ _ rfl (by decide) (.inr (by intro n; simp))) (of_check _ (by decide +kernel))

-- SHA-512/224 and SHA-512/256 of "abc"
example : SHA2.sha512_224.hash abc
    = natBE 28 0x4634270f707b6a54daae7530460842e20e37ed265ceee9a43e8924aa :=
  same_result (m := (AlgName.digest .sha2_512_224).impl.exec le64 .default ([.update (.mem abc) 3] ++ [.result]))
    (sha512_224_fips180 le64 _ _ rfl (by decide) (.inr (by intro n; simp))) (of_check _ (by decide +kernel))
example : SHA2.sha512_256.hash abc
    = natBE 32 0x53048e2681941ef99b2e29b76b4c7dabe4c2d0c634fc6d46e0e2f13107e7af23 :=
  same_result (m := (AlgName.digest .sha2_512_256).impl.exec le64 .default ([.update (.mem abc) 3] ++ [.result]))
    (sha512_256_fips180 le64 _ _ rfl (by decide) (.inr (by intro n; simp))) (of_check _ (by decide +kernel))

/-! ### C08, C09 -/

/-- **C08.** -/
theorem ripemd160_paper (env : Env) (ops : List Op) (msg : List Byte) (h : stream ops = some (msg.map .data)) :
    (AlgName.digest .ripemd_160).impl.exec env .default (ops ++ [.result]) = .ok [RIPEMD.ripemd160.hash msg] :=
  DigestName.value_ok .ripemd_160 h (.inl (.inl rfl))

/-- **C09.** -/
theorem ripemd128_paper (env : Env) (ops : List Op) (msg : List Byte) (h : stream ops = some (msg.map .data)) :
    (AlgName.digest .ripemd_128).impl.exec env .default (ops ++ [.result]) = .ok [RIPEMD.ripemd128.hash msg] :=
  DigestName.value_ok .ripemd_128 h (.inl (.inl rfl))

example : (AlgName.digest .ripemd_160).impl.exec le64 .default ([.update (.mem abc) 3] ++ [.result]) = .ok [RIPEMD.ripemd160.hash abc] :=
  ripemd160_paper _ _ _ rfl

example : RIPEMD.ripemd160.hash abc
    = natBE 20 0x8eb208f7e05d987a9b044a8e98c6b087f15a0bfc :=
  same_result (m := (AlgName.digest .ripemd_160).impl.exec le64 .default ([.update (.mem abc) 3] ++ [.result]))
    (ripemd160_paper le64 _ _ rfl) (of_check _ (by decide +kernel))
example : RIPEMD.ripemd128.hash abc
    = natBE 16 0xc14a12199c66e4ba84636b0f69144c77 :=
  same_result (m := (AlgName.digest .ripemd_128).impl.exec le64 .default ([.update (.mem abc) 3] ++ [.result]))
    (ripemd128_paper le64 _ _ rfl) (of_check _ (by decide +kernel))

/-! ### C10, C11 -/

/-- **C10.** a key of 16 bytes -/
theorem siphash64_key (env : Env) (k0 k1 : List Byte) (ops : List Op) (msg : List Byte) (h0 : k0.length = 8) (h1 : k1.length = 8)
    (h : stream ops = some (msg.map .data)) :
    AlgName.siphash_64.impl.exec env (.bytes (.mem (k0 ++ k1)) 16) (ops ++ [.result])
      = .ok [SIP.hash SIP.sip64 (leWord 64 k0) (leWord 64 k1) msg] := by
  have hl : (k0 ++ k1).length = 16 := by simp; omega
  rw [AlgName.exec_message (a := .siphash_64) (c := .bytes (.mem (k0 ++ k1)) 16) (Nat.le_of_eq hl.symm) h (.inl trivial) trivial]
  have hs : SIP.byteSeed SIP.sip64 64 ((k0 ++ k1).take 16) = Obj.start (SIP.start SIP.sip64 (leWord 64 k0) (leWord 64 k1)) := by
    rw [List.take_of_length_le (Nat.le_of_eq hl)]
    unfold SIP.byteSeed
    rw [if_pos (show (k0 ++ k1).length = 2 * SIP.sip64.bytes from hl), show SIP.sip64.bytes = 8 from rfl, List.take_left' h0, List.drop_left' h0]
  rw [← sip_value SIP.sip64 64 (by decide) (Obj.start (SIP.start SIP.sip64 0 0)) (fun k => Obj.start (SIP.start SIP.sip64 k 0))
    (SIP.byteSeed SIP.sip64 64) _ _ msg]
  exact congrArg (fun s => Except.ok [SIP.machine64.value s msg]) hs

/-- **C10.** an integer, the first half of the key -/
theorem siphash64_seed (env : Env) (k : W64) (ops : List Op) (msg : List Byte) (h : stream ops = some (msg.map .data)) :
    AlgName.siphash_64.impl.exec env (.seed k) (ops ++ [.result]) = .ok [SIP.hash SIP.sip64 k 0 msg] := by
  rw [AlgName.exec_message (a := .siphash_64) (c := .seed k) trivial h (.inl trivial) trivial]
  exact congrArg (fun r => Except.ok [r]) (sip_value SIP.sip64 64 (by decide) _ _ _ k 0 msg)

/-- **C10.** default: the zero key -/
theorem siphash64_default (env : Env) (ops : List Op) (msg : List Byte) (h : stream ops = some (msg.map .data)) :
    AlgName.siphash_64.impl.exec env .default (ops ++ [.result]) = .ok [SIP.hash SIP.sip64 0 0 msg] := by
  rw [AlgName.exec_message (a := .siphash_64) (c := .default) trivial h (.inl trivial) trivial]
  exact congrArg (fun r => Except.ok [r]) (sip_value SIP.sip64 64 (by decide) _ _ _ 0 0 msg)

example : AlgName.siphash_64.impl.exec be32 (.bytes (.mem ([0, 1, 2, 3, 4, 5, 6, 7] ++ [8, 9, 10, 11, 12, 13, 14, 15])) 16)
    ([.update (.mem abc) 3] ++ [.result])
    = .ok [SIP.hash SIP.sip64 (leWord 64 [0, 1, 2, 3, 4, 5, 6, 7]) (leWord 64 [8, 9, 10, 11, 12, 13, 14, 15]) abc] :=
  siphash64_key _ _ _ _ _ rfl rfl rfl

-- the SipHash paper, appendix A: key 00..0f, message 00..0e
example : SIP.hash SIP.sip64 (leWord 64 [0, 1, 2, 3, 4, 5, 6, 7]) (leWord 64 [8, 9, 10, 11, 12, 13, 14, 15])
    [0, 1, 2, 3, 4, 5, 6, 7, 8, 9, 10, 11, 12, 13, 14] = 0xa129ca6149be45e5 := by decide +kernel

/-- **C11.** a key of 8 bytes -/
theorem siphash32_key (env : Env) (k0 k1 : List Byte) (ops : List Op) (msg : List Byte) (h0 : k0.length = 4) (h1 : k1.length = 4)
    (h : stream ops = some (msg.map .data)) :
    AlgName.siphash_32.impl.exec env (.bytes (.mem (k0 ++ k1)) 8) (ops ++ [.result])
      = .ok [SIP.hash SIP.sip32 (leWord 32 k0) (leWord 32 k1) msg] := by
  have hl : (k0 ++ k1).length = 8 := by simp; omega
  rw [AlgName.exec_message (a := .siphash_32) (c := .bytes (.mem (k0 ++ k1)) 8) (Nat.le_of_eq hl.symm) h (.inl trivial) trivial]
  have hs : SIP.byteSeed SIP.sip32 32 ((k0 ++ k1).take 8) = Obj.start (SIP.start SIP.sip32 (leWord 32 k0) (leWord 32 k1)) := by
    rw [List.take_of_length_le (Nat.le_of_eq hl)]
    unfold SIP.byteSeed
    rw [if_pos (show (k0 ++ k1).length = 2 * SIP.sip32.bytes from hl), show SIP.sip32.bytes = 4 from rfl, List.take_left' h0, List.drop_left' h0]
  rw [← sip_value SIP.sip32 32 (by decide) (Obj.start (SIP.start SIP.sip32 0 0))
    (fun k => Obj.start (SIP.start SIP.sip32 (BitVec.ofNat 32 k.toNat) (BitVec.ofNat 32 (k.toNat / 2 ^ 32))))
    (SIP.byteSeed SIP.sip32 32) _ _ msg]
  exact congrArg (fun s => Except.ok [SIP.machine32.value s msg]) hs

/-- **C11.** the key as an integer -/
theorem siphash32_seed (env : Env) (k : W64) (ops : List Op) (msg : List Byte) (h : stream ops = some (msg.map .data)) :
    AlgName.siphash_32.impl.exec env (.seed k) (ops ++ [.result])
      = .ok [SIP.hash SIP.sip32 (BitVec.ofNat 32 k.toNat) (BitVec.ofNat 32 (k.toNat / 2 ^ 32)) msg] := by
  rw [AlgName.exec_message (a := .siphash_32) (c := .seed k) trivial h (.inl trivial) trivial]
  exact congrArg (fun r => Except.ok [r]) (sip_value SIP.sip32 32 (by decide) _ _ _ _ _ msg)

/-- **C11.** default: the zero key -/
theorem siphash32_default (env : Env) (ops : List Op) (msg : List Byte) (h : stream ops = some (msg.map .data)) :
    AlgName.siphash_32.impl.exec env .default (ops ++ [.result]) = .ok [SIP.hash SIP.sip32 0 0 msg] := by
  rw [AlgName.exec_message (a := .siphash_32) (c := .default) trivial h (.inl trivial) trivial]
  exact congrArg (fun r => Except.ok [r]) (sip_value SIP.sip32 32 (by decide) _ _ _ 0 0 msg)

example : AlgName.siphash_32.impl.exec le64 (.bytes (.mem ([0, 1, 2, 3] ++ [4, 5, 6, 7])) 8) ([.update (.mem abc) 3] ++ [.result])
    = .ok [SIP.hash SIP.sip32 (leWord 32 [0, 1, 2, 3]) (leWord 32 [4, 5, 6, 7]) abc] :=
  siphash32_key _ _ _ _ _ rfl rfl rfl

-- HalfSipHash reference vectors (vectors_hsip32): key 00..07, messages 00, and 00..3
example : SIP.hash SIP.sip32 (leWord 32 [0, 1, 2, 3]) (leWord 32 [4, 5, 6, 7]) [] = leWord 32 [0xa9, 0x35, 0x9f, 0x5b] := by decide +kernel
example : SIP.hash SIP.sip32 (leWord 32 [0, 1, 2, 3]) (leWord 32 [4, 5, 6, 7]) [0] = leWord 32 [0x27, 0x47, 0x5a, 0xb8] := by decide +kernel

/-! ### C12, C13 -/

/-- **C12.** xxhash_64( k ) is XXH64 with seed k; the bound is what a uint64_t length can say (longer messages do not exist) -/
theorem xxhash64_spec (env : Env) (k : W64) (ops : List Op) (msg : List Byte) (h : stream ops = some (msg.map .data))
    (hl : msg.length < 2 ^ 64) :
    AlgName.xxhash_64.impl.exec env (.seed k) (ops ++ [.result]) = .ok [XXH64.hash k msg] := by
  rw [AlgName.exec_message (a := .xxhash_64) (c := .seed k) trivial h (.inl trivial) trivial]
  exact congrArg (fun r => Except.ok [r]) (xxh64_value k msg hl)

theorem xxhash64_default (env : Env) (ops : List Op) (msg : List Byte) (h : stream ops = some (msg.map .data))
    (hl : msg.length < 2 ^ 64) :
    AlgName.xxhash_64.impl.exec env .default (ops ++ [.result]) = .ok [XXH64.hash 0 msg] := by
  rw [AlgName.exec_message (a := .xxhash_64) (c := .default) trivial h (.inl trivial) trivial]
  exact congrArg (fun r => Except.ok [r]) (xxh64_value 0 msg hl)

example : AlgName.xxhash_64.impl.exec be32 (.seed 7) ([.update (.mem abc) 3] ++ [.result]) = .ok [XXH64.hash 7 abc] :=
  xxhash64_spec _ _ _ _ rfl (by decide)

-- XXH64("abc", 0) and XXH64("", 0)
example : XXH64.hash 0 abc = 0x44BC2CF5AD770999 := by decide +kernel
example : XXH64.hash 0 [] = 0xEF46DB3751D8E999 := by decide +kernel

/-- **C13.** xxhash_32( k ), k below 2^32, is XXH32 with seed k, as long as the length fits std::size_t -/
theorem xxhash32_spec (env : Env) (k : W64) (hk : k.toNat < 2 ^ 32) (ops : List Op) (msg : List Byte)
    (h : stream ops = some (msg.map .data)) (hl : msg.length < 2 ^ env.sizeBits) :
    AlgName.xxhash_32.impl.exec env (.seed k) (ops ++ [.result]) = .ok [XXH32.hash (BitVec.ofNat 32 k.toNat) msg] := by
  rw [AlgName.exec_message (a := .xxhash_32) (c := .seed k) trivial h (.inl trivial) trivial]
  exact congrArg (fun r => Except.ok [r]) (xxh32_value env.sizeBits k hk msg hl)

theorem xxhash32_default (env : Env) (ops : List Op) (msg : List Byte) (h : stream ops = some (msg.map .data))
    (hl : msg.length < 2 ^ env.sizeBits) :
    AlgName.xxhash_32.impl.exec env .default (ops ++ [.result]) = .ok [XXH32.hash 0 msg] := by
  rw [AlgName.exec_message (a := .xxhash_32) (c := .default) trivial h (.inl trivial) trivial]
  exact congrArg (fun r => Except.ok [r]) (xxh32_value env.sizeBits 0 (by decide) msg hl)

example : AlgName.xxhash_32.impl.exec be32 (.seed 7) ([.update (.mem abc) 3] ++ [.result]) = .ok [XXH32.hash 7 abc] :=
  xxhash32_spec _ _ (by decide) _ _ rfl (by decide)

-- XXH32("abc", 0) and XXH32("", 0)
example : XXH32.hash 0 abc = 0x32D153FF := by decide +kernel
example : XXH32.hash 0 [] = 0x02CC5D05 := by decide +kernel

/-! ### C14 -/

/-- **C14.** -/
theorem fnv1a_32_spec (env : Env) (ops : List Op) (msg : List Byte) (h : stream ops = some (msg.map .data)) :
    AlgName.fnv1a_32.impl.exec env .default (ops ++ [.result]) = .ok [FNV.hash FNV.prime32 msg] :=
  AlgName.exec_message (a := .fnv1a_32) (c := .default) trivial h (.inl trivial) trivial

theorem fnv1a_64_spec (env : Env) (ops : List Op) (msg : List Byte) (h : stream ops = some (msg.map .data)) :
    AlgName.fnv1a_64.impl.exec env .default (ops ++ [.result]) = .ok [FNV.hash FNV.prime64 msg] :=
  AlgName.exec_message (a := .fnv1a_64) (c := .default) trivial h (.inl trivial) trivial

example : AlgName.fnv1a_64.impl.exec le64 .default ([.update (.mem abc) 3] ++ [.result]) = .ok [FNV.hash FNV.prime64 abc] :=
  fnv1a_64_spec _ _ _ rfl

-- draft-eastlake-fnv, appendix: FNV-1a of "a"
example : FNV.hash FNV.prime32 [0x61] = 0xe40c292c := by decide +kernel
example : FNV.hash FNV.prime64 [0x61] = 0xaf63dc4c8601ec8c := by decide +kernel

/-! ### C15 -/

/-- **C15.** For any class H with a block_size — itself possibly an hmac — if `Hf` is the function H computes, then hmac<H>
constructed from a key of any length computes RFC 2104's HMAC over `Hf`. -/
theorem hmac_rfc2104 (H : DigestName) (env : Env) (Hf : List Byte → List Byte)
    (hH : ∀ m, (AlgName.digest H).impl.exec env .default [.update (.mem m) m.length, .result] = .ok [Hf m])
    (p : Ptr) (n : Nat) (hp : p.Readable n) (ops : List Op) (msg : List Byte) (h : stream ops = some (msg.map .data))
    (hn : H.isSha2 = false ∨ env.loops = true ∨ NoNull ops) :
    (AlgName.digest (.hmac H)).impl.exec env (.bytes p n) (ops ++ [.result]) = .ok [Spec.hmac Hf H.B (p.bytes n) msg] := by
  rw [DigestName.hmac_ok (c := .bytes p n) H hp rfl h (by rcases hn with h | h | h; exacts [.inl (.inl h), .inl (.inr h), .inr h]),
    H.value_unique hH]

/-- **C15.** The ten unnested instances; `Hf` is the standard's function. For the SHA-512 family there must be less than 2^61
bytes in all. -/
theorem hmac_md5_rfc2104 (env : Env) (p : Ptr) (n : Nat) (hp : p.Readable n) (ops : List Op) (msg : List Byte)
    (h : stream ops = some (msg.map .data)) :
    (AlgName.digest (.hmac .md5_128)).impl.exec env (.bytes p n) (ops ++ [.result])
      = .ok [Spec.hmac MD5.md5.hash 64 (p.bytes n) msg] :=
  hmac_rfc2104 .md5_128 env _ (fun m => md5_rfc1321 env _ m (stream_once m)) p n hp ops msg h (.inl rfl)

theorem hmac_sha1_rfc2104 (env : Env) (p : Ptr) (n : Nat) (hp : p.Readable n) (ops : List Op) (msg : List Byte)
    (h : stream ops = some (msg.map .data)) :
    (AlgName.digest (.hmac .sha1_160)).impl.exec env (.bytes p n) (ops ++ [.result])
      = .ok [Spec.hmac SHA1.sha1.hash 64 (p.bytes n) msg] :=
  hmac_rfc2104 .sha1_160 env _ (fun m => sha1_fips180 env _ m (stream_once m)) p n hp ops msg h (.inl rfl)

theorem hmac_ripemd160_rfc2104 (env : Env) (p : Ptr) (n : Nat) (hp : p.Readable n) (ops : List Op) (msg : List Byte)
    (h : stream ops = some (msg.map .data)) :
    (AlgName.digest (.hmac .ripemd_160)).impl.exec env (.bytes p n) (ops ++ [.result])
      = .ok [Spec.hmac RIPEMD.ripemd160.hash 64 (p.bytes n) msg] :=
  hmac_rfc2104 .ripemd_160 env _ (fun m => ripemd160_paper env _ m (stream_once m)) p n hp ops msg h (.inl rfl)

theorem hmac_ripemd128_rfc2104 (env : Env) (p : Ptr) (n : Nat) (hp : p.Readable n) (ops : List Op) (msg : List Byte)
    (h : stream ops = some (msg.map .data)) :
    (AlgName.digest (.hmac .ripemd_128)).impl.exec env (.bytes p n) (ops ++ [.result])
      = .ok [Spec.hmac RIPEMD.ripemd128.hash 64 (p.bytes n) msg] :=
  hmac_rfc2104 .ripemd_128 env _ (fun m => ripemd128_paper env _ m (stream_once m)) p n hp ops msg h (.inl rfl)

theorem hmac_sha256_rfc2104 (env : Env) (p : Ptr) (n : Nat) (hp : p.Readable n) (ops : List Op) (msg : List Byte)
    (h : stream ops = some (msg.map .data)) (hn : env.loops = true ∨ NoNull ops) :
    (AlgName.digest (.hmac .sha2_256)).impl.exec env (.bytes p n) (ops ++ [.result])
      = .ok [Spec.hmac SHA2.sha256.hash 64 (p.bytes n) msg] :=
  hmac_rfc2104 .sha2_256 env _ (fun m => sha256_fips180 env _ m (stream_once m) (.inr (noNull_once m _))) p n hp ops msg h (.inr hn)

theorem hmac_sha224_rfc2104 (env : Env) (p : Ptr) (n : Nat) (hp : p.Readable n) (ops : List Op) (msg : List Byte)
    (h : stream ops = some (msg.map .data)) (hn : env.loops = true ∨ NoNull ops) :
    (AlgName.digest (.hmac .sha2_224)).impl.exec env (.bytes p n) (ops ++ [.result])
      = .ok [Spec.hmac SHA2.sha224.hash 64 (p.bytes n) msg] :=
  hmac_rfc2104 .sha2_224 env _ (fun m => sha224_fips180 env _ m (stream_once m) (.inr (noNull_once m _))) p n hp ops msg h (.inr hn)

theorem hmac_sha512_rfc2104 (env : Env) (p : Ptr) (n : Nat) (hp : p.Readable n) (ops : List Op) (msg : List Byte)
    (h : stream ops = some (msg.map .data)) (hn : env.loops = true ∨ NoNull ops)
    (hk : n < 2 ^ 61) (hm : msg.length + 256 < 2 ^ 61) :
    (AlgName.digest (.hmac .sha2_512)).impl.exec env (.bytes p n) (ops ++ [.result])
      = .ok [Spec.hmac SHA2.sha512.hash 128 (p.bytes n) msg] := by
  rw [← hmac_mod64 SHA2.sha512 (fun s => md64_out_length _ 64 s (by decide)) _ msg (Nat.lt_of_le_of_lt (Ptr.bytes_length p n) hk) hm]
  exact hmac_rfc2104 .sha2_512 env _
    (fun m => DigestName.value_ok (env := env) .sha2_512 (stream_once m) (.inr (noNull_once m _))) p n hp ops msg h (.inr hn)

theorem hmac_sha384_rfc2104 (env : Env) (p : Ptr) (n : Nat) (hp : p.Readable n) (ops : List Op) (msg : List Byte)
    (h : stream ops = some (msg.map .data)) (hn : env.loops = true ∨ NoNull ops)
    (hk : n < 2 ^ 61) (hm : msg.length + 256 < 2 ^ 61) :
    (AlgName.digest (.hmac .sha2_384)).impl.exec env (.bytes p n) (ops ++ [.result])
      = .ok [Spec.hmac SHA2.sha384.hash 128 (p.bytes n) msg] := by
  rw [← hmac_mod64 SHA2.sha384 (fun s => md64_out_length _ 48 s (by decide)) _ msg (Nat.lt_of_le_of_lt (Ptr.bytes_length p n) hk) hm]
  exact hmac_rfc2104 .sha2_384 env _
    (fun m => DigestName.value_ok (env := env) .sha2_384 (stream_once m) (.inr (noNull_once m _))) p n hp ops msg h (.inr hn)

theorem hmac_sha512_224_rfc2104 (env : Env) (p : Ptr) (n : Nat) (hp : p.Readable n) (ops : List Op) (msg : List Byte)
    (h : stream ops = some (msg.map .data)) (hn : env.loops = true ∨ NoNull ops)
    (hk : n < 2 ^ 61) (hm : msg.length + 256 < 2 ^ 61) :
    (AlgName.digest (.hmac .sha2_512_224)).impl.exec env (.bytes p n) (ops ++ [.result])
      = .ok [Spec.hmac SHA2.sha512_224.hash 128 (p.bytes n) msg] := by
  rw [← hmac_mod64 SHA2.sha512_224 (fun s => md64_out_length _ 28 s (by decide)) _ msg (Nat.lt_of_le_of_lt (Ptr.bytes_length p n) hk) hm]
  exact hmac_rfc2104 .sha2_512_224 env _
    (fun m => DigestName.value_ok (env := env) .sha2_512_224 (stream_once m) (.inr (noNull_once m _))) p n hp ops msg h (.inr hn)

theorem hmac_sha512_256_rfc2104 (env : Env) (p : Ptr) (n : Nat) (hp : p.Readable n) (ops : List Op) (msg : List Byte)
    (h : stream ops = some (msg.map .data)) (hn : env.loops = true ∨ NoNull ops)
    (hk : n < 2 ^ 61) (hm : msg.length + 256 < 2 ^ 61) :
    (AlgName.digest (.hmac .sha2_512_256)).impl.exec env (.bytes p n) (ops ++ [.result])
      = .ok [Spec.hmac SHA2.sha512_256.hash 128 (p.bytes n) msg] := by
  rw [← hmac_mod64 SHA2.sha512_256 (fun s => md64_out_length _ 32 s (by decide)) _ msg (Nat.lt_of_le_of_lt (Ptr.bytes_length p n) hk) hm]
  exact hmac_rfc2104 .sha2_512_256 env _
    (fun m => DigestName.value_ok (env := env) .sha2_512_256 (stream_once m) (.inr (noNull_once m _))) p n hp ops msg h (.inr hn)

-- a key longer than the block, the message in two pieces
example : (AlgName.digest (.hmac .md5_128)).impl.exec le64 (.bytes (.mem (List.replicate 80 0xaa)) 80)
    ([.update (.mem [0x61]) 1, .update (.mem [0x62, 0x63]) 2] ++ [.result])
    = .ok [Spec.hmac MD5.md5.hash 64 (List.replicate 80 0xaa) abc] :=
  hmac_md5_rfc2104 _ _ _ (by decide) _ _ rfl

-- hmac< hmac< md5_128 > >
example (msg : List Byte) : (AlgName.digest (.hmac (.hmac .md5_128))).impl.exec le64 (.bytes (.mem abc) 3)
      [.update (.mem msg) msg.length, .result]
    = .ok [Spec.hmac (Spec.hmac MD5.md5.hash 64 []) 64 abc msg] :=
  hmac_rfc2104 (.hmac .md5_128) le64 _
    (fun m => DigestName.hmac_ok .md5_128 (c := .default) trivial rfl (stream_once m) (.inl (.inl rfl)))
    _ _ (by decide) _ _ (stream_once msg) (.inl rfl)

-- RFC 2202, test case 2: key "Jefe", data "what do ya want for nothing?"
def jefe : List Byte := [0x4a, 0x65, 0x66, 0x65]
def ya : List Byte := [0x77, 0x68, 0x61, 0x74, 0x20, 0x64, 0x6f, 0x20, 0x79, 0x61, 0x20, 0x77, 0x61, 0x6e, 0x74, 0x20, 0x66, 0x6f, 0x72,
  0x20, 0x6e, 0x6f, 0x74, 0x68, 0x69, 0x6e, 0x67, 0x3f]
example : Spec.hmac MD5.md5.hash 64 jefe ya = natBE 16 0x750c783e6ab0b503eaa86e310a5db738 := by
  have h := hmac_md5_rfc2104 le64 (.mem jefe) 4 (by decide) [.update (.mem ya) 28] ya (stream_once ya)
  have h2 : (AlgName.digest (.hmac .md5_128)).impl.exec le64 (.bytes (.mem jefe) 4) ([.update (.mem ya) 28] ++ [.result])
    = .ok [natBE 16 0x750c783e6ab0b503eaa86e310a5db738] := of_check _ (by decide +kernel)
  rw [h] at h2
  exact (List.cons.inj (Except.ok.inj h2)).1
example : Spec.hmac SHA1.sha1.hash 64 jefe ya = natBE 20 0xeffcdf6ae5eb2fa2d27416d5f184df9c259a7c79 := by
  have h := hmac_sha1_rfc2104 le64 (.mem jefe) 4 (by decide) [.update (.mem ya) 28] ya (stream_once ya)
  have h2 : (AlgName.digest (.hmac .sha1_160)).impl.exec le64 (.bytes (.mem jefe) 4) ([.update (.mem ya) 28] ++ [.result])
    = .ok [natBE 20 0xeffcdf6ae5eb2fa2d27416d5f184df9c259a7c79] := of_check _ (by decide +kernel)
  rw [h] at h2
  exact (List.cons.inj (Except.ok.inj h2)).1
-- RFC 4231, test case 2
example : Spec.hmac SHA2.sha256.hash 64 jefe ya = natBE 32 0x5bdcc146bf60754e6a042426089575c75a003f089d2739839dec58b964ec3843 := by
  have h := hmac_sha256_rfc2104 le64 (.mem jefe) 4 (by decide) [.update (.mem ya) 28] ya (stream_once ya) (.inr (by intro n; simp))
  have h2 : (AlgName.digest (.hmac .sha2_256)).impl.exec le64 (.bytes (.mem jefe) 4) ([.update (.mem ya) 28] ++ [.result])
    = .ok [natBE 32 0x5bdcc146bf60754e6a042426089575c75a003f089d2739839dec58b964ec3843] := of_check _ (by decide +kernel)
  rw [h] at h2
  exact (List.cons.inj (Except.ok.inj h2)).1
-- RFC 2286, test case 2
example : Spec.hmac RIPEMD.ripemd160.hash 64 jefe ya = natBE 20 0xdda6c0213a485a9e24f4742064a7f033b43c4069 := by
  have h := hmac_ripemd160_rfc2104 le64 (.mem jefe) 4 (by decide) [.update (.mem ya) 28] ya (stream_once ya)
  have h2 : (AlgName.digest (.hmac .ripemd_160)).impl.exec le64 (.bytes (.mem jefe) 4) ([.update (.mem ya) 28] ++ [.result])
    = .ok [natBE 20 0xdda6c0213a485a9e24f4742064a7f033b43c4069] := of_check _ (by decide +kernel)
  rw [h] at h2
  exact (List.cons.inj (Except.ok.inj h2)).1

/-! ### C39 -/

/-- **C39.** murmur3_32( k ), k below 2^32, is MurmurHash3_x86_32 with seed k -/
theorem murmur3_32_reference (env : Env) (k : W64) (hk : k.toNat < 2 ^ 32) (ops : List Op) (msg : List Byte)
    (h : stream ops = some (msg.map .data)) (hl : msg.length < 2 ^ env.sizeBits) :
    AlgName.murmur3_32.impl.exec env (.seed k) (ops ++ [.result]) = .ok [MURMUR3.x86_32.hash (BitVec.ofNat 32 k.toNat) msg] := by
  rw [AlgName.exec_message (a := .murmur3_32) (c := .seed k) trivial h (.inl trivial) trivial,
    ← murmur32_value env.sizeBits _ msg hl]
  refine congrArg (fun s => Except.ok [(MURMUR3.x86_32.machine env.sizeBits).value s msg]) ?_
  show Obj.start (if BitVec.ofNat 32 (k.toNat / 2 ^ 32) = 0 then _ else _) = _
  rw [if_pos (by rw [Nat.div_eq_of_lt hk]; rfl)]

theorem murmur3_32_default (env : Env) (ops : List Op) (msg : List Byte)
    (h : stream ops = some (msg.map .data)) (hl : msg.length < 2 ^ env.sizeBits) :
    AlgName.murmur3_32.impl.exec env .default (ops ++ [.result]) = .ok [MURMUR3.x86_32.hash 0 msg] := by
  rw [AlgName.exec_message (a := .murmur3_32) (c := .default) trivial h (.inl trivial) trivial]
  exact congrArg (fun r => Except.ok [r]) (murmur32_value env.sizeBits 0 msg hl)

/-- **C39.** murmur3_128( k ) is MurmurHash3_x64_128 with seed k in both halves (the original's seed has 32 bits) -/
theorem murmur3_128_reference (env : Env) (k : W64) (ops : List Op) (msg : List Byte)
    (h : stream ops = some (msg.map .data)) (hl : msg.length < 2 ^ env.sizeBits) :
    AlgName.murmur3_128.impl.exec env (.seed k) (ops ++ [.result]) = .ok [MURMUR3.x64_128.hash k k msg] := by
  rw [AlgName.exec_message (a := .murmur3_128) (c := .seed k) trivial h (.inl trivial) trivial]
  exact congrArg (fun r => Except.ok [r]) (murmur128_value env.sizeBits k k msg hl)

theorem murmur3_128_default (env : Env) (ops : List Op) (msg : List Byte)
    (h : stream ops = some (msg.map .data)) (hl : msg.length < 2 ^ env.sizeBits) :
    AlgName.murmur3_128.impl.exec env .default (ops ++ [.result]) = .ok [MURMUR3.x64_128.hash 0 0 msg] := by
  rw [AlgName.exec_message (a := .murmur3_128) (c := .default) trivial h (.inl trivial) trivial]
  exact congrArg (fun r => Except.ok [r]) (murmur128_value env.sizeBits 0 0 msg hl)

/-- **C39.** spooky2_128( k ) is SpookyHash V2 Hash128 with seeds k and 0 -/
theorem spooky2_reference (env : Env) (k : W64) (ops : List Op) (msg : List Byte)
    (h : stream ops = some (msg.map .data)) (hl : msg.length + 192 < 2 ^ env.sizeBits) :
    AlgName.spooky2_128.impl.exec env (.seed k) (ops ++ [.result]) = .ok [SPOOKY.outBytes (SPOOKY.hash128 k 0 msg)] := by
  rw [AlgName.exec_message (a := .spooky2_128) (c := .seed k) trivial h (.inl trivial) (by
    show 0 + cost _ < _
    rw [Nat.zero_add, cost_message]; exact hl)]
  exact congrArg (fun r => Except.ok [r]) (spooky_value env.sizeBits k 0 msg (by omega))

theorem spooky2_default (env : Env) (ops : List Op) (msg : List Byte)
    (h : stream ops = some (msg.map .data)) (hl : msg.length + 192 < 2 ^ env.sizeBits) :
    AlgName.spooky2_128.impl.exec env .default (ops ++ [.result]) = .ok [SPOOKY.outBytes (SPOOKY.hash128 0 0 msg)] := by
  rw [AlgName.exec_message (a := .spooky2_128) (c := .default) trivial h (.inl trivial) (by
    show 0 + cost _ < _
    rw [Nat.zero_add, cost_message]; exact hl)]
  exact congrArg (fun r => Except.ok [r]) (spooky_value env.sizeBits 0 0 msg (by omega))

example : AlgName.spooky2_128.impl.exec be32 (.seed 7) ([.update (.mem abc) 3] ++ [.result])
    = .ok [SPOOKY.outBytes (SPOOKY.hash128 7 0 abc)] := spooky2_reference _ _ _ _ rfl (by decide)

example : AlgName.murmur3_32.impl.exec be32 (.seed 7) ([.update (.mem abc) 3] ++ [.result])
    = .ok [MURMUR3.x86_32.hash 7 abc] := murmur3_32_reference _ _ (by decide) _ _ rfl (by decide)

-- MurmurHash3_x86_32("", 1) and of the four bytes 21 43 65 87
example : MURMUR3.x86_32.hash 1 [] = 0x514E28B7 := by decide +kernel
example : MURMUR3.x86_32.hash 0 [0x21, 0x43, 0x65, 0x87] = 0xF55B516B := by decide +kernel

end Hash2

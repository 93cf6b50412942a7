import Verif.Props.TwoSeeds
/-
C75: what the seeds of murmur3_32, murmur3_128 and spooky2_128 do.
-/
namespace Hash2
open Spec

/-- a constructor that does what another one does, then updates and discards a result -/
theorem HashAlg.exec_rest {A : HashAlg} {env : Env} {c c' : Ctor} {p : Ptr} {n : Nat}
    (h : A.construct env c = (do
      let s ← A.construct env c'
      let s ← A.update env s p n
      let (s, _) ← A.result env s
      return s)) (ops : List Op) :
    A.exec env c ops = (A.exec env c' (.update p n :: .result :: ops)).map List.tail := by
  unfold HashAlg.exec
  rw [h]
  cases A.construct env c' with
  | error e => rfl
  | ok s =>
    simp only [HashAlg.run, Except.bind_ok]
    cases A.update env s p n with
    | error e => rfl
    | ok s =>
      simp only [Except.bind_ok]
      cases A.result env s with
      | error e => rfl
      | ok x =>
        simp only [Except.bind_ok]
        show (A.run env x.1 ops >>= fun y => pure y.2) = _
        cases A.run env x.1 ops with
        | error e => rfl
        | ok y => rfl

/-- **C75.** murmur3_32( p, n ) with 1 to 4 bytes: the integer seed whose bytes these are, least significant first -/
theorem murmur3_32_short_key (env : Env) (key : List Byte) (h0 : key ≠ []) (h4 : key.length ≤ 4) (ops : List Op) :
    AlgName.murmur3_32.impl.exec env (.bytes (.mem key) key.length) ops = AlgName.murmur3_32.impl.exec env (.seed (BitVec.ofNat 64 (leNat key))) ops := by
  apply HashAlg.exec_congr
  show Mur32.initBytes env (.mem key) key.length = .ok (Mur32.initSeed env _)
  have hl := leNat_lt key
  have hp : 256 ^ key.length ≤ 256 ^ 4 := Nat.pow_le_pow_right (by decide) h4
  unfold Mur32.initBytes
  rw [if_neg (by simpa using h0), if_pos h4, stdMemcpy_ok _ _ _ _ (Nat.le_refl _) (by simpa using h4)]
  simp only [Except.bind_ok, List.take_zero, List.nil_append, Nat.zero_add, List.take_length, List.drop_replicate]
  rw [read32le_ok env _ (by simp; omega), List.take_of_length_le (by simp; omega), leWord_zeros]
  unfold Mur32.initSeed
  have e1 : (BitVec.ofNat 64 (leNat key)).truncate 32 = leWord 32 key := by
    apply BitVec.eq_of_toNat_eq; simp [leWord]
  have e2 : ((BitVec.ofNat 64 (leNat key)) >>> 32).truncate 32 = 0#32 := by
    apply BitVec.eq_of_toNat_eq
    simp only [BitVec.truncate_eq_setWidth, BitVec.toNat_setWidth, BitVec.toNat_ushiftRight, BitVec.toNat_ofNat, Nat.shiftRight_eq_div_pow]
    omega
  simp only [e1, e2]
  rfl

/-- **C75.** murmur3_32( p, n ) with more than 4 bytes: the first four are the seed, then update() with the others, and a discarded result() -/
theorem murmur3_32_long_key (env : Env) (first others : List Byte) (h4 : first.length = 4) (ho : others ≠ []) (ops : List Op) :
    AlgName.murmur3_32.impl.exec env (.bytes (.mem (first ++ others)) (4 + others.length)) ops
      = (AlgName.murmur3_32.impl.exec env (.bytes (.mem first) 4) (.update (.mem others) others.length :: .result :: ops)).map List.tail := by
  apply HashAlg.exec_rest
  have hl : 0 < others.length := List.length_pos_iff.mpr ho
  show Mur32.initBytes env (.mem (first ++ others)) (4 + others.length) = (do
    let s ← Mur32.initBytes env (.mem first) 4
    let s ← Mur32.upd env s (.mem others) others.length
    let (s, _) ← Mur32.result env s
    return s)
  unfold Mur32.initBytes
  rw [if_neg (by omega), if_neg (by omega), if_neg (by decide), if_pos (Nat.le_refl _), stdMemcpy_ok _ _ _ _ (by omega) (by simp)]
  simp only [Except.bind_ok, List.take_zero, List.nil_append, Nat.zero_add, List.drop_replicate]
  rw [read32le_ok env _ (by simp; omega), read32le_ok env _ (by simp; omega), Ptr.add_mem (by simp; omega), csub_ok (by omega)]
  simp only [Except.bind_ok]
  rw [show 4 + others.length - 4 = others.length by omega, List.drop_left' h4, List.take_left' h4, List.take_of_length_le (Nat.le_of_eq h4), Nat.sub_self, List.replicate_zero,
    List.append_nil, List.take_of_length_le (Nat.le_of_eq h4)]
  rfl

/-- **C75.** murmur3_32( k ) with k of 2^32 and more: the lower half is the seed of MurmurHash3_x86_32, and the upper half is processed as a first
block that does not count for the length -/
theorem murmur3_32_wide_seed (env : Env) (k : W64) (hk : 2 ^ 32 ≤ k.toNat) (ops : List Op) (msg : List Byte)
    (h : stream ops = some (msg.map .data)) (hl : msg.length < 2 ^ env.sizeBits) :
    AlgName.murmur3_32.impl.exec env (.seed k) (ops ++ [.result])
      = .ok [MURMUR3.x86_32.hash (MURMUR3.x86_32.body (BitVec.ofNat 32 k.toNat) (BitVec.ofNat 32 (k.toNat / 2 ^ 32))) msg] := by
  rw [AlgName.exec_message (a := .murmur3_32) (c := .seed k) trivial h (.inl trivial) trivial,
    ← murmur32_value env.sizeBits _ msg hl]
  refine congrArg (fun s => Except.ok [(MURMUR3.x86_32.machine env.sizeBits).value s msg]) ?_
  show Obj.start (if BitVec.ofNat 32 (k.toNat / 2 ^ 32) = 0 then _ else _) = _
  rw [if_neg (fun e => by
    have := congrArg BitVec.toNat e
    rw [BitVec.toNat_ofNat] at this
    have hb := k.isLt
    simp only [BitVec.ofNat_eq_ofNat, BitVec.toNat_ofNat, Nat.zero_mod] at this
    omega)]

/-- **C75.** murmur3_128( p, n ) with 1 to 8 bytes: the integer seed whose bytes these are, least significant first -/
theorem murmur3_128_short_key (env : Env) (key : List Byte) (h0 : key ≠ []) (h8 : key.length ≤ 8) (ops : List Op) :
    AlgName.murmur3_128.impl.exec env (.bytes (.mem key) key.length) ops = AlgName.murmur3_128.impl.exec env (.seed (BitVec.ofNat 64 (leNat key))) ops := by
  apply HashAlg.exec_congr
  show Mur128.initBytes env (.mem key) key.length = .ok (Mur128.initSeed env _)
  unfold Mur128.initBytes
  rw [if_neg (by simpa using h0), if_pos h8, stdMemcpy_ok _ _ _ _ (Nat.le_refl _) (by simpa using h8)]
  simp only [Except.bind_ok, List.take_zero, List.nil_append, Nat.zero_add, List.take_length, List.drop_replicate]
  rw [read64le_ok env _ (by simp; omega), List.take_of_length_le (by simp; omega), leWord_zeros]
  rfl

/-- **C75.** murmur3_128( p, n ) with 9 to 16 bytes: as with zeros appended up to 16 bytes; these are two integer seeds (C45) -/
theorem murmur3_128_padded_key (env : Env) (key : List Byte) (h8 : 8 < key.length) (h16 : key.length ≤ 16) (ops : List Op) :
    AlgName.murmur3_128.impl.exec env (.bytes (.mem key) key.length) ops
      = AlgName.murmur3_128.impl.exec env (.bytes (.mem (key ++ List.replicate (16 - key.length) 0)) 16) ops := by
  apply HashAlg.exec_congr
  show Mur128.initBytes env (.mem key) key.length = Mur128.initBytes env (.mem (key ++ List.replicate (16 - key.length) 0)) 16
  have hlen : (key ++ List.replicate (16 - key.length) (0 : Byte)).length = 16 := by simp; omega
  unfold Mur128.initBytes
  rw [if_neg (by omega), if_neg (by omega), if_pos h16, if_neg (by decide), if_neg (by decide), if_pos (Nat.le_refl _),
    stdMemcpy_ok _ _ _ _ (Nat.le_refl _) (by simp; omega), stdMemcpy_ok _ _ _ _ (by omega) (by simp)]
  simp only [List.take_zero, List.nil_append, Nat.zero_add, List.take_length, List.drop_replicate]
  rw [List.take_of_length_le (Nat.le_of_eq hlen), List.append_assoc, List.replicate_append_replicate, show 16 - key.length + (18 - 16) = 18 - key.length by omega]

/-- **C75.** murmur3_128( p, n ) with more than 16 bytes: the first 16 are the two seeds, then update() with the others, and a discarded result() -/
theorem murmur3_128_long_key (env : Env) (first others : List Byte) (h16 : first.length = 16) (ho : others ≠ []) (ops : List Op) :
    AlgName.murmur3_128.impl.exec env (.bytes (.mem (first ++ others)) (16 + others.length)) ops
      = (AlgName.murmur3_128.impl.exec env (.bytes (.mem first) 16) (.update (.mem others) others.length :: .result :: ops)).map List.tail := by
  apply HashAlg.exec_rest
  have hl : 0 < others.length := List.length_pos_iff.mpr ho
  show Mur128.initBytes env (.mem (first ++ others)) (16 + others.length) = (do
    let s ← Mur128.initBytes env (.mem first) 16
    let s ← Mur128.upd env s (.mem others) others.length
    let (s, _) ← Mur128.result env s
    return s)
  unfold Mur128.initBytes
  rw [if_neg (by omega), if_neg (by omega), if_neg (by omega), if_neg (by decide), if_neg (by decide), if_pos (Nat.le_refl _),
    stdMemcpy_ok _ _ _ _ (by omega) (by simp)]
  simp only [Except.bind_ok, List.take_zero, List.nil_append, Nat.zero_add, List.drop_replicate]
  rw [Ptr.add_mem (Nat.zero_le _), Ptr.add_mem (by simp only [List.length_append]; omega), Ptr.add_mem (by simp only [List.length_append]; omega), Ptr.add_mem (Nat.zero_le _), Ptr.add_mem (by simp; omega), csub_ok (by omega)]
  simp only [Except.bind_ok, List.drop_zero]
  rw [read64le_ok env _ (by simp; omega), read64le_ok env _ (by simp; omega), read64le_ok env _ (by simp; omega), read64le_ok env _ (by simp; omega)]
  simp only [Except.bind_ok]
  rw [show 16 + others.length - 16 = others.length by omega, List.drop_left' h16, List.take_of_length_le (l := first) (Nat.le_of_eq h16)]
  have t : ∀ l : List Byte, (first ++ l).take 8 = first.take 8 := fun l => List.take_append_of_le_length (by omega)
  have d : ∀ l : List Byte, ((first ++ l).drop 8).take 8 = (first.drop 8).take 8 := fun l => by
    rw [List.drop_append_of_le_length (by omega), List.take_append_of_le_length (by simp; omega)]
  simp only [t, d]
  rfl

/-- **C75.** spooky2_128( p, n ) with up to 16 bytes: as with zeros appended up to 16 bytes; these are two integer seeds (C45) -/
theorem spooky2_128_padded_key (env : Env) (key : List Byte) (h0 : key ≠ []) (h16 : key.length ≤ 16) (ops : List Op) :
    AlgName.spooky2_128.impl.exec env (.bytes (.mem key) key.length) ops
      = AlgName.spooky2_128.impl.exec env (.bytes (.mem (key ++ List.replicate (16 - key.length) 0)) 16) ops := by
  apply HashAlg.exec_congr
  show Spooky.initBytes env (.mem key) key.length = Spooky.initBytes env (.mem (key ++ List.replicate (16 - key.length) 0)) 16
  have hlen : (key ++ List.replicate (16 - key.length) (0 : Byte)).length = 16 := by simp; omega
  unfold Spooky.initBytes
  rw [if_neg (by simpa using h0), if_pos h16, if_neg (by decide), if_pos (Nat.le_refl _),
    stdMemcpy_ok _ _ _ _ (Nat.le_refl _) (by simp; omega), stdMemcpy_ok _ _ _ _ (by omega) (by simp)]
  simp only [List.take_zero, List.nil_append, Nat.zero_add, List.take_length, List.drop_replicate]
  rw [List.take_of_length_le (Nat.le_of_eq hlen), List.append_assoc, List.replicate_append_replicate, show 16 - key.length + (18 - 16) = 18 - key.length by omega]

/-- **C75.** spooky2_128( p, n ) with 1 to 8 bytes: the integer seed whose bytes these are, least significant first -/
theorem spooky2_128_short_key (env : Env) (key : List Byte) (h0 : key ≠ []) (h8 : key.length ≤ 8) (ops : List Op) :
    AlgName.spooky2_128.impl.exec env (.bytes (.mem key) key.length) ops = AlgName.spooky2_128.impl.exec env (.seed (BitVec.ofNat 64 (leNat key))) ops := by
  rw [spooky2_128_padded_key env key h0 (by omega)]
  apply HashAlg.exec_congr
  have e : key ++ List.replicate (16 - key.length) 0 = natLE 8 (leWord 64 key).toNat ++ natLE 8 (0 : W64).toNat := by
    have hl := leNat_lt key
    have hp : 256 ^ key.length ≤ 256 ^ 8 := Nat.pow_le_pow_right (by decide) h8
    have e1 : natLE 8 (leWord 64 key).toNat = key ++ List.replicate (8 - key.length) 0 := by
      have : (leWord 64 key).toNat = leNat (key ++ List.replicate (8 - key.length) 0) := by
        rw [leNat_zeros, leWord, BitVec.toNat_ofNat, Nat.mod_eq_of_lt (by omega)]
      rw [this]
      exact natLE_leNat' (by simp; omega)
    have e2 : natLE 8 (0 : W64).toNat = List.replicate 8 0 := by decide
    rw [e1, e2, List.append_assoc, List.replicate_append_replicate, show 8 - key.length + 8 = 16 - key.length by omega]
  rw [e]
  exact spooky2_128_two_seeds env (leWord 64 key) 0

/-- **C75.** spooky2_128( p, n ) with more than 16 bytes: the first 16 are the two seeds, then update() with the others, and a discarded result() -/
theorem spooky2_128_long_key (env : Env) (first others : List Byte) (h16 : first.length = 16) (ho : others ≠ []) (ops : List Op) :
    AlgName.spooky2_128.impl.exec env (.bytes (.mem (first ++ others)) (16 + others.length)) ops
      = (AlgName.spooky2_128.impl.exec env (.bytes (.mem first) 16) (.update (.mem others) others.length :: .result :: ops)).map List.tail := by
  apply HashAlg.exec_rest
  have hl : 0 < others.length := List.length_pos_iff.mpr ho
  show Spooky.initBytes env (.mem (first ++ others)) (16 + others.length) = (do
    let s ← Spooky.initBytes env (.mem first) 16
    let s ← Spooky.upd env s (.mem others) others.length
    let (s, _) ← Spooky.result env s
    return s)
  unfold Spooky.initBytes
  rw [if_neg (by omega), if_neg (by omega), if_neg (by decide), if_pos (Nat.le_refl _), stdMemcpy_ok _ _ _ _ (by omega) (by simp)]
  simp only [Except.bind_ok, List.take_zero, List.nil_append, Nat.zero_add, List.drop_replicate]
  rw [Ptr.add_mem (Nat.zero_le _), Ptr.add_mem (by simp only [List.length_append]; omega), Ptr.add_mem (by simp only [List.length_append]; omega), Ptr.add_mem (Nat.zero_le _), Ptr.add_mem (by simp; omega), csub_ok (by omega)]
  simp only [Except.bind_ok, List.drop_zero]
  rw [read64le_ok env _ (by simp; omega), read64le_ok env _ (by simp; omega), read64le_ok env _ (by simp; omega), read64le_ok env _ (by simp; omega)]
  simp only [Except.bind_ok]
  rw [show 16 + others.length - 16 = others.length by omega, List.drop_left' h16, List.take_of_length_le (l := first) (Nat.le_of_eq h16)]
  have t : ∀ l : List Byte, (first ++ l).take 8 = first.take 8 := fun l => List.take_append_of_le_length (by omega)
  have d : ∀ l : List Byte, ((first ++ l).drop 8).take 8 = (first.drop 8).take 8 := fun l => by
    rw [List.drop_append_of_le_length (by omega), List.take_append_of_le_length (by simp; omega)]
  simp only [t, d]
  rfl

-- three bytes are the seed 0x030201
example : AlgName.murmur3_32.impl.exec be32 (.bytes (.mem [1, 2, 3]) 3) [.update (.mem abc) 3, .result, .result]
    = AlgName.murmur3_32.impl.exec be32 (.seed 0x030201) [.update (.mem abc) 3, .result, .result] := murmur3_32_short_key _ _ (by decide) (by decide) _
example : AlgName.spooky2_128.impl.exec be32 (.bytes (.mem [1, 2, 3]) 3) [.result]
    = AlgName.spooky2_128.impl.exec be32 (.seed 0x030201) [.result] := spooky2_128_short_key _ _ (by decide) (by decide) _
example : AlgName.murmur3_128.impl.exec le64 (.bytes (.mem (List.replicate 16 7 ++ abc)) 19) [.result]
    = (AlgName.murmur3_128.impl.exec le64 (.bytes (.mem (List.replicate 16 7)) 16) [.update (.mem abc) 3, .result, .result]).map List.tail :=
  murmur3_128_long_key _ _ _ (by decide) (by decide) _

end Hash2

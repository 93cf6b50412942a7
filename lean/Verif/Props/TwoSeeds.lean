import Verif.Props.Distinct
/-
C45: the constructors of murmur3_128 and spooky2_128 with two integers, and keys of up to 16 bytes.
-/
namespace Hash2
open Spec

theorem leWord_natLE8 (k : W64) : leWord 64 (natLE 8 k.toNat) = k := by
  unfold leWord
  rw [leNat_natLE]
  apply BitVec.eq_of_toNat_eq
  rw [BitVec.toNat_ofNat]
  have := k.isLt
  omega

theorem take_natLE8 (k1 k2 : W64) (more : List Byte) :
    (natLE 8 k1.toNat ++ natLE 8 k2.toNat ++ more).take 8 = natLE 8 k1.toNat := by
  rw [List.append_assoc, List.take_append_of_le_length (by simp), List.take_of_length_le (by simp)]

theorem take_drop_natLE8 (k1 k2 : W64) (more : List Byte) :
    ((natLE 8 k1.toNat ++ natLE 8 k2.toNat ++ more).drop 8).take 8 = natLE 8 k2.toNat := by
  rw [List.append_assoc, List.drop_append_of_le_length (by simp), List.drop_eq_nil_of_le (by simp), List.nil_append,
    List.take_append_of_le_length (by simp), List.take_of_length_le (by simp)]

/-- **C45.** murmur3_128( k1, k2 ): the object made from the 16 bytes of k1 and k2, least significant first -/
theorem murmur3_128_two_seeds (env : Env) (k1 k2 : W64) :
    murmur3_128.construct env (.bytes (.mem (natLE 8 k1.toNat ++ natLE 8 k2.toNat)) 16) = .ok (Mur128.initSeed2 env k1 k2) := by
  show Mur128.initBytes env _ 16 = _
  unfold Mur128.initBytes
  rw [if_neg (by decide), if_neg (by decide), if_pos (by decide), stdMemcpy_ok _ _ _ _ (by simp) (by simp)]
  simp only [Except.bind_ok, List.take_zero, List.nil_append, Nat.zero_add, List.drop_replicate]
  rw [List.take_of_length_le (l := natLE 8 k1.toNat ++ natLE 8 k2.toNat) (by simp), Ptr.add_mem (by simp), Ptr.add_mem (by simp)]
  simp only [Except.bind_ok]
  rw [read64le_ok env _ (by simp), read64le_ok env _ (by simp)]
  simp only [Except.bind_ok, List.drop_zero]
  rw [take_natLE8, take_drop_natLE8, leWord_natLE8, leWord_natLE8]
  rfl

/-- **C45.** spooky2_128( k1, k2 ): likewise -/
theorem spooky2_128_two_seeds (env : Env) (k1 k2 : W64) :
    spooky2_128.construct env (.bytes (.mem (natLE 8 k1.toNat ++ natLE 8 k2.toNat)) 16) = .ok (Spooky.initSeed2 env k1 k2) := by
  show Spooky.initBytes env _ 16 = _
  unfold Spooky.initBytes
  rw [if_neg (by decide), if_pos (by decide), stdMemcpy_ok _ _ _ _ (by simp) (by simp)]
  simp only [Except.bind_ok, List.take_zero, List.nil_append, Nat.zero_add, List.drop_replicate]
  rw [List.take_of_length_le (l := natLE 8 k1.toNat ++ natLE 8 k2.toNat) (by simp), Ptr.add_mem (by simp), Ptr.add_mem (by simp)]
  simp only [Except.bind_ok]
  rw [read64le_ok env _ (by simp), read64le_ok env _ (by simp)]
  simp only [Except.bind_ok, List.drop_zero]
  rw [take_natLE8, take_drop_natLE8, leWord_natLE8, leWord_natLE8]
  rfl

theorem two_seeds_valid (k1 k2 : W64) : (Ctor.bytes (.mem (natLE 8 k1.toNat ++ natLE 8 k2.toNat)) 16).Valid := by
  show 16 ≤ (natLE 8 k1.toNat ++ natLE 8 k2.toNat).length
  simp

/-- the results of a program, given what its constructor makes -/
theorem exec_of_construct {A : HashAlg} {env : Env} {c : Ctor} {s : A.State} (h : A.construct env c = .ok s) {ops : List Op} {rs : List A.R}
    (he : A.exec env c ops = .ok rs) : ∃ s', A.run env s ops = .ok (s', rs) := by
  unfold HashAlg.exec at he
  rw [h] at he
  simp only [Except.bind_ok] at he
  cases hr : A.run env s ops with
  | error e => rw [hr] at he; simp at he
  | ok p => rw [hr] at he; exact ⟨p.1, by rw [← Except.ok.inj he]⟩

theorem mur128_bytes16 (ctr : Nat) (bs : List Byte) (h : 8 < bs.length) (h' : bs.length ≤ 16) : (MURMUR3.x64_128.machine ctr).bytes bs
    = Obj.start ⟨leWord 64 (bs.take 8), leWord 64 (bs.drop 8)⟩ := (if_neg (by omega)).trans (if_pos h')

theorem spooky_bytes16 (ctr : Nat) (bs : List Byte) (h : bs.length ≤ 16) : (SPOOKY.machine ctr).bytes bs
    = Obj.start (SPOOKY.start (leWord 64 (bs.take 8)) (leWord 64 (bs.drop 8))) := if_pos h

/-- **C45.** murmur3_128( k1, k2 ) is MurmurHash3_x64_128 started with k1 and k2 in its two halves -/
theorem murmur3_128_two_seeds_reference (env : Env) (k1 k2 : W64) (ops : List Op) (msg : List Byte)
    (h : stream ops = some (msg.map .data)) (hl : msg.length < 2 ^ env.sizeBits) :
    ∃ s, murmur3_128.run env (Mur128.initSeed2 env k1 k2) (ops ++ [.result]) = .ok (s, [MURMUR3.x64_128.hash k1 k2 msg]) := by
  refine exec_of_construct (murmur3_128_two_seeds env k1 k2) ?_
  refine (AlgName.exec_message (a := .murmur3_128) (two_seeds_valid k1 k2) h (.inl trivial) trivial).trans ?_
  rw [← murmur128_value env.sizeBits k1 k2 msg hl]
  refine congrArg (fun s => Except.ok [(MURMUR3.x64_128.machine env.sizeBits).value s msg]) ?_
  show (MURMUR3.x64_128.machine env.sizeBits).bytes (List.take 16 _) = _
  rw [List.take_of_length_le (by simp)]
  rw [mur128_bytes16 _ _ (by simp) (by simp)]
  have e1 := take_natLE8 k1 k2 []
  have e2 := take_drop_natLE8 k1 k2 []
  rw [List.append_nil] at e1 e2
  rw [List.take_of_length_le (by simp)] at e2
  rw [e1, e2, leWord_natLE8, leWord_natLE8]

/-- **C45.** spooky2_128( k1, k2 ) is SpookyHash V2 Hash128 with seeds k1 and k2 -/
theorem spooky2_128_two_seeds_reference (env : Env) (k1 k2 : W64) (ops : List Op) (msg : List Byte)
    (h : stream ops = some (msg.map .data)) (hl : msg.length + 16 + 2 * 192 < 2 ^ env.sizeBits) :
    ∃ s, spooky2_128.run env (Spooky.initSeed2 env k1 k2) (ops ++ [.result])
      = .ok (s, [SPOOKY.outBytes (SPOOKY.hash128 k1 k2 msg)]) := by
  refine exec_of_construct (spooky2_128_two_seeds env k1 k2) ?_
  refine (AlgName.exec_message (a := .spooky2_128) (two_seeds_valid k1 k2) h (.inl trivial) (by
    show 16 + 192 + cost _ < _
    rw [cost_message]; omega)).trans ?_
  rw [← spooky_value env.sizeBits k1 k2 msg (by omega)]
  refine congrArg (fun s => Except.ok [(SPOOKY.machine env.sizeBits).value s msg]) ?_
  show (SPOOKY.machine env.sizeBits).bytes (List.take 16 _) = _
  rw [List.take_of_length_le (by simp)]
  rw [spooky_bytes16 _ _ (by simp)]
  have e1 := take_natLE8 k1 k2 []
  have e2 := take_drop_natLE8 k1 k2 []
  rw [List.append_nil] at e1 e2
  rw [List.take_of_length_le (by simp)] at e2
  rw [e1, e2, leWord_natLE8, leWord_natLE8]

example : ∃ s, murmur3_128.run be32 (Mur128.initSeed2 be32 3 4) ([.update (.mem abc) 3] ++ [.result])
    = .ok (s, [MURMUR3.x64_128.hash 3 4 abc]) := murmur3_128_two_seeds_reference _ _ _ _ _ rfl (by decide)
example : ∃ s, spooky2_128.run be32 (Spooky.initSeed2 be32 3 4) ([.update (.mem abc) 1, .update .null 0, .update (.mem [0x62, 0x63]) 2] ++ [.result])
    = .ok (s, [SPOOKY.outBytes (SPOOKY.hash128 3 4 abc)]) := spooky2_128_two_seeds_reference _ _ _ _ _ rfl (by decide)

/-- **C38, C45.** murmur3_128 and murmur3_32: different keys of the same size (16 or at most 8 or 4 bytes, or two integers) give different results
everywhere in any common program -/
theorem murmur3_keys_results_differ (a : AlgName) (ha : a = .murmur3_128 ∨ a = .murmur3_32) (env : Env) (k k' : List Byte)
    (hk : KeySize a k.length) (hl : k.length = k'.length) (h : k ≠ k') (ops : List Op) (ts : List Tok) (hs : stream ops = some ts) :
    a.impl.ResultsDiffer env (.bytes (.mem k) k.length) (.bytes (.mem k') k'.length) ops := by
  have hv : (Ctor.bytes (.mem k) k.length).Valid := Nat.le_refl _
  have hv' : (Ctor.bytes (.mem k') k'.length).Valid := Nat.le_refl _
  have ht : (Ptr.mem k).bytes k.length = k := List.take_length ..
  have ht' : (Ptr.mem k').bytes k'.length = k' := List.take_length ..
  rcases ha with rfl | rfl
  · refine AlgName.resultsDiffer (a := .murmur3_128) hv hv' hs (.inl trivial) trivial trivial ?_
    refine ne1_results (MURMUR3.x64_128.obj env.sizeBits) (fun b s t => MurL.body128_inj b) ts (fun _ _ _ _ h => h)
      (fun tail n s t h => MurL.finish128_inj tail n h) ?_
    show Ne1 ((MURMUR3.x64_128.machine env.sizeBits).bytes _) ((MURMUR3.x64_128.machine env.sizeBits).bytes _)
    rw [ht, ht']
    exact mur128_key_ne _ hk hl h
  · refine AlgName.resultsDiffer (a := .murmur3_32) hv hv' hs (.inl trivial) trivial trivial ?_
    refine ne1_results (MURMUR3.x86_32.obj env.sizeBits) (fun b s t => MurL.body32_inj _) ts (fun _ _ _ _ h => h)
      (fun tail n s t h => MurL.finish32_inj tail n h) ?_
    show Ne1 ((MURMUR3.x86_32.machine env.sizeBits).bytes _) ((MURMUR3.x86_32.machine env.sizeBits).bytes _)
    rw [ht, ht']
    exact mur32_key_ne _ hk hl h

/-- **C38, C45.** spooky2_128: different keys of the same size, at most 16 bytes (or two integers), leave different objects after any
common program, as long as the byte counter does not wrap -/
theorem spooky2_keys_stay_different (env : Env) (k k' : List Byte)
    (hk : k.length ≤ 16) (hl : k.length = k'.length) (h : k ≠ k') (ops : List Op) (ts : List Tok) (hs : stream ops = some ts)
    (hr : k.length + 192 + cost ts < 2 ^ env.sizeBits) :
    AlgName.spooky2_128.impl.EndDifferent env (.bytes (.mem k) k.length) (.bytes (.mem k') k'.length) ops := by
  have hv : (Ctor.bytes (.mem k) k.length).Valid := Nat.le_refl _
  have hv' : (Ctor.bytes (.mem k') k'.length).Valid := Nat.le_refl _
  have ht : (Ptr.mem k).bytes k.length = k := List.take_length ..
  have ht' : (Ptr.mem k').bytes k'.length = k' := List.take_length ..
  refine AlgName.endDifferent (a := .spooky2_128) (ts := ts) hv hv' hs (.inl trivial) hr (hl ▸ hr) fun s s' r r' => ?_
  refine (Spooky.ok env).ne_of_ne1 r r' ?_
  show Ne1 ((SPOOKY.machine env.sizeBits).run ((SPOOKY.machine env.sizeBits).bytes _) ts).1
    ((SPOOKY.machine env.sizeBits).run ((SPOOKY.machine env.sizeBits).bytes _) ts).1
  have hn := spooky_key_ne env.sizeBits hk hl h
  rw [ht, ht']
  rw [spooky_bytes16 _ k hk, spooky_bytes16 _ k' (hl ▸ hk)] at hn ⊢
  refine SpookyL.ne2_run _ ts hn ?_ ?_
  · exact Nat.zero_lt_succ _
  · show 0 + cost ts < _
    omega

example : AlgName.murmur3_128.impl.ResultsDiffer be32 (.bytes (.mem (List.replicate 16 1)) 16) (.bytes (.mem (List.replicate 15 1 ++ [2])) 16)
    [.update (.mem abc) 3, .result, .update (.mem abc) 2, .result] :=
  murmur3_keys_results_differ .murmur3_128 (.inl rfl) be32 (List.replicate 16 1) (List.replicate 15 1 ++ [2]) (Nat.le_refl 16) rfl (by decide) _ _ rfl
example : AlgName.spooky2_128.impl.EndDifferent be32 (.bytes (.mem (List.replicate 16 1)) 16) (.bytes (.mem (List.replicate 15 1 ++ [2])) 16)
    [.update (.mem abc) 3, .result, .update (.mem abc) 2, .result] :=
  spooky2_keys_stay_different be32 (List.replicate 16 1) (List.replicate 15 1 ++ [2]) (by decide) rfl (by decide) _ _ rfl (by decide)

end Hash2

import Verif.Lemmas.Distinct
import Verif.Lemmas.Seeds
import Verif.Props.Seeds
import Verif.Props.Standards
/-
C19, C20, C38: do different seeds make different objects? Statements of the form `... exec env c ops = ... exec env c' ops` for all
`ops` say that no program whatever can tell the two objects apart.
-/
namespace Hash2
open Spec

/-! ### C19: integer seeds -/

/-- **C19.** siphash_64, siphash_32, xxhash_64, murmur3_128, spooky2_128: different integers initialise the object differently -/
theorem integer_seeds_distinct_partial (a : AlgName)
    (ha : a = .siphash_64 ∨ a = .siphash_32 ∨ a = .xxhash_64 ∨ a = .murmur3_128 ∨ a = .spooky2_128) (env : Env) (k k' : W64)
    (h : k ≠ k') : a.impl.EndDifferent env (.seed k) (.seed k') [] := by
  rcases ha with rfl | rfl | rfl | rfl | rfl
  · refine AlgName.endDifferent (a := .siphash_64) (ts := []) trivial trivial rfl (.inl trivial) trivial trivial fun s s' r r' => ?_
    exact (Sip64.ok env).ne_of_ne1 r r' (ne1_start fun e => h (sip_start_inj _ e).1)
  · refine AlgName.endDifferent (a := .siphash_32) (ts := []) trivial trivial rfl (.inl trivial) trivial trivial fun s s' r r' => ?_
    exact (Sip32.ok env).ne_of_ne1 r r' (ne1_start fun e => h (halves_inj (sip_start_inj _ e).1 (sip_start_inj _ e).2))
  · refine AlgName.endDifferent (a := .xxhash_64) (ts := []) trivial trivial rfl (.inl trivial) trivial trivial fun s s' r r' => ?_
    exact (XX64.ok env).ne_of_ne1 r r' (ne1_start fun e => h (congrArg Acc4.a3 e))
  · refine AlgName.endDifferent (a := .murmur3_128) (ts := []) trivial trivial rfl (.inl trivial) trivial trivial fun s s' r r' => ?_
    exact (Mur128.ok env).ne_of_ne1 r r' (ne1_start fun e => h (congrArg MURMUR3.x64_128.St.h1 e))
  · have hroom : AlgName.spooky2_128.Room env (.seed k) [] := Nat.two_pow_pos _
    refine AlgName.endDifferent (a := .spooky2_128) (ts := []) trivial trivial rfl (.inl trivial) hroom hroom fun s s' r r' => ?_
    exact (Spooky.ok env).ne_of_ne1 r r' (ne1_start fun e => h (SpookyL.start_inj e).1)

/-- the upper half of a seed -/
def hi32 (k : W64) : BitVec 32 := BitVec.ofNat 32 (k.toNat / 2 ^ 32)
/-- the lower half of a seed -/
def lo32 (k : W64) : BitVec 32 := BitVec.ofNat 32 k.toNat

theorem xx32_seeded_ne {k k' : W64} (hh : hi32 k = hi32 k') (h : k ≠ k') : XXH32.seeded k ≠ XXH32.seeded k' := by
  intro e
  apply h
  refine halves_inj ?_ hh
  unfold XXH32.seeded at e
  change (if hi32 k = 0 then XXH32.start (lo32 k) else _) = (if hi32 k' = 0 then XXH32.start (lo32 k') else _) at e
  by_cases h0 : hi32 k = 0
  · rw [if_pos h0, if_pos (hh ▸ h0)] at e
    exact congrArg Acc4.a3 e
  · rw [if_neg h0, if_neg (hh ▸ h0)] at e
    have e := congrArg Acc4.a3 e
    change XXH32.round (lo32 k) (hi32 k) = XXH32.round (lo32 k') (hi32 k') at e
    rw [hh] at e
    exact XX32L.round_inj _ e

theorem mur32_seeded_ne {k k' : W64} (hh : hi32 k = hi32 k') (h : k ≠ k') :
    (if hi32 k = 0 then lo32 k else MURMUR3.x86_32.body (lo32 k) (hi32 k))
      ≠ (if hi32 k' = 0 then lo32 k' else MURMUR3.x86_32.body (lo32 k') (hi32 k')) := by
  intro e
  apply h
  refine halves_inj ?_ hh
  by_cases h0 : hi32 k = 0
  · rw [if_pos h0, if_pos (hh ▸ h0)] at e
    exact e
  · rw [if_neg h0, if_neg (hh ▸ h0), hh] at e
    exact MurL.body32_inj _ e

/-- **C19.** xxhash_32, murmur3_32: different integers with the same upper half (for instance, integers below 2^32) initialise the
object differently -/
theorem integer_seeds_same_upper_half_distinct_partial (a : AlgName) (ha : a = .xxhash_32 ∨ a = .murmur3_32) (env : Env) (k k' : W64)
    (hh : k.toNat / 2 ^ 32 = k'.toNat / 2 ^ 32) (h : k ≠ k') : a.impl.EndDifferent env (.seed k) (.seed k') [] := by
  have hh : hi32 k = hi32 k' := congrArg (BitVec.ofNat 32) hh
  rcases ha with rfl | rfl
  · refine AlgName.endDifferent (a := .xxhash_32) (ts := []) trivial trivial rfl (.inl trivial) trivial trivial fun s s' r r' => ?_
    exact (XX32.ok env).ne_of_ne1 r r' (ne1_start (xx32_seeded_ne hh h))
  · refine AlgName.endDifferent (a := .murmur3_32) (ts := []) trivial trivial rfl (.inl trivial) trivial trivial fun s s' r r' => ?_
    exact (Mur32.ok env).ne_of_ne1 r r' (ne1_start (mur32_seeded_ne hh h))

example : AlgName.siphash_64.impl.EndDifferent le64 (.seed 1) (.seed 2) [] :=
  integer_seeds_distinct_partial _ (.inl rfl) _ _ _ (by decide)
example : AlgName.xxhash_32.impl.EndDifferent be32 (.seed 1) (.seed 2) [] :=
  integer_seeds_same_upper_half_distinct_partial _ (.inl rfl) _ _ _ (by decide) (by decide)

/-- **C19 fails** for xxhash_32: with a non-zero upper half, only `lower + upper * PRIME32_2` matters -/
theorem xxhash_32_seeds_collide : ∃ k k' : W64, k ≠ k' ∧ ∀ env ops,
    AlgName.xxhash_32.impl.exec env (.seed k) ops = AlgName.xxhash_32.impl.exec env (.seed k') ops := by
  refine ⟨0x200000000#64, 0x185EBCA77#64, by decide, fun env ops => HashAlg.exec_congr ?_ ops⟩
  exact congrArg Except.ok (by decide +kernel : XX32.initSeed 0x200000000#64 = XX32.initSeed 0x185EBCA77#64)

/-- **C19 fails** for murmur3_32: 64 bits of seed, 32 bits of state -/
theorem murmur3_32_seeds_collide : ∃ k k' : W64, k ≠ k' ∧ ∀ env ops,
    AlgName.murmur3_32.impl.exec env (.seed k) ops = AlgName.murmur3_32.impl.exec env (.seed k') ops := by
  refine ⟨0x100000000#64, 0x2288e2ee7#64, by decide, fun env ops => HashAlg.exec_congr ?_ ops⟩
  refine congrArg Except.ok ?_
  show Mur32.initSeed env _ = Mur32.initSeed env _
  exact congrArg (fun h : W32 => (⟨h, uninit env 4, 0, 0⟩ : BlockState W32)) (by decide +kernel)

/-- **C19 fails** for fnv1a_32 -/
theorem fnv1a_32_seeds_collide : ∃ k k' : W64, k ≠ k' ∧ ∀ env ops,
    AlgName.fnv1a_32.impl.exec env (.seed k) ops = AlgName.fnv1a_32.impl.exec env (.seed k') ops := by
  refine ⟨0x364f719#64, 0x4000005#64, by decide, fun env ops => HashAlg.exec_congr ?_ ops⟩
  show Fnv.initSeed Fnv.c32 env 0x364f719#64 = Fnv.initSeed Fnv.c32 env 0x4000005#64
  unfold Fnv.initSeed
  rw [seedBytes_ok, seedBytes_ok, if_pos (by decide), if_pos (by decide)]
  decide +kernel

/-- **C19 fails** for fnv1a_64, although it has 64 bits of state -/
theorem fnv1a_64_seeds_collide : ∃ k k' : W64, k ≠ k' ∧ ∀ env ops,
    AlgName.fnv1a_64.impl.exec env (.seed k) ops = AlgName.fnv1a_64.impl.exec env (.seed k') ops := by
  refine ⟨0x4d5e3c0d00636c2d#64, 0x7d6800d76c1232ae#64, by decide, fun env ops => HashAlg.exec_congr ?_ ops⟩
  show Fnv.initSeed Fnv.c64 env 0x4d5e3c0d00636c2d#64 = Fnv.initSeed Fnv.c64 env 0x7d6800d76c1232ae#64
  unfold Fnv.initSeed
  rw [seedBytes_ok, seedBytes_ok, if_pos (by decide), if_pos (by decide)]
  decide +kernel

/-! ### C20: byte seeds -/

/-- the algorithms whose byte seed of `n` bytes is taken as it is, not processed as a message: siphash_64 (16 bytes), siphash_32
(8), murmur3_32 (at most 4), murmur3_128 (at most 8, or 9 to 16), spooky2_128 (at most 16) -/
def KeySize : AlgName → Nat → Prop
  | .siphash_64, n => n = 16
  | .siphash_32, n => n = 8
  | .murmur3_32, n => n ≤ 4
  | .murmur3_128, n => n ≤ 16
  | .spooky2_128, n => n ≤ 16
  | _, _ => False

/-- **C20.** different keys of the same size initialise the object differently -/
theorem keys_distinct_partial (a : AlgName) (env : Env) (k k' : List Byte) (hs : KeySize a k.length) (hl : k.length = k'.length)
    (h : k ≠ k') : a.impl.EndDifferent env (.bytes (.mem k) k.length) (.bytes (.mem k') k'.length) [] := by
  have hv : (Ctor.bytes (.mem k) k.length).Valid := Nat.le_refl _
  have hv' : (Ctor.bytes (.mem k') k'.length).Valid := Nat.le_refl _
  have ht : (Ptr.mem k).bytes k.length = k := List.take_length ..
  have ht' : (Ptr.mem k').bytes k'.length = k' := List.take_length ..
  cases a with
  | siphash_64 =>
    refine AlgName.endDifferent (a := .siphash_64) (ts := []) hv hv' rfl (.inl trivial) trivial trivial fun s s' r r' => ?_
    refine (Sip64.ok env).ne_of_ne1 r r' ?_
    show Ne1 (SIP.byteSeed SIP.sip64 64 _) (SIP.byteSeed SIP.sip64 64 _)
    rw [ht, ht']
    exact sip_key_ne SIP.sip64 64 rfl hs (hl ▸ hs) h
  | siphash_32 =>
    refine AlgName.endDifferent (a := .siphash_32) (ts := []) hv hv' rfl (.inl trivial) trivial trivial fun s s' r r' => ?_
    refine (Sip32.ok env).ne_of_ne1 r r' ?_
    show Ne1 (SIP.byteSeed SIP.sip32 32 _) (SIP.byteSeed SIP.sip32 32 _)
    rw [ht, ht']
    exact sip_key_ne SIP.sip32 32 rfl hs (hl ▸ hs) h
  | murmur3_32 =>
    refine AlgName.endDifferent (a := .murmur3_32) (ts := []) hv hv' rfl (.inl trivial) trivial trivial fun s s' r r' => ?_
    refine (Mur32.ok env).ne_of_ne1 r r' ?_
    show Ne1 ((MURMUR3.x86_32.machine env.sizeBits).bytes _) ((MURMUR3.x86_32.machine env.sizeBits).bytes _)
    rw [ht, ht']
    exact mur32_key_ne _ hs hl h
  | murmur3_128 =>
    refine AlgName.endDifferent (a := .murmur3_128) (ts := []) hv hv' rfl (.inl trivial) trivial trivial fun s s' r r' => ?_
    refine (Mur128.ok env).ne_of_ne1 r r' ?_
    show Ne1 ((MURMUR3.x64_128.machine env.sizeBits).bytes _) ((MURMUR3.x64_128.machine env.sizeBits).bytes _)
    rw [ht, ht']
    exact mur128_key_ne _ hs hl h
  | spooky2_128 =>
    have hroom : k.length + 192 + 0 < 2 ^ env.sizeBits := by
      have hs : k.length ≤ 16 := hs
      rcases sizeBits_cases env with h | h <;> rw [h] <;> omega
    refine AlgName.endDifferent (a := .spooky2_128) (ts := []) hv hv' rfl (.inl trivial) hroom (hl ▸ hroom) fun s s' r r' => ?_
    refine (Spooky.ok env).ne_of_ne1 r r' ?_
    show Ne1 ((SPOOKY.machine env.sizeBits).bytes _) ((SPOOKY.machine env.sizeBits).bytes _)
    rw [ht, ht']
    exact (spooky_key_ne _ hs hl h).1
  | _ => exact absurd hs id

example : AlgName.siphash_32.impl.EndDifferent le64 (.bytes (.mem [1, 2, 3, 4, 5, 6, 7, 8]) 8) (.bytes (.mem [1, 2, 3, 4, 5, 6, 7, 9]) 8) [] :=
  keys_distinct_partial .siphash_32 _ [1, 2, 3, 4, 5, 6, 7, 8] [1, 2, 3, 4, 5, 6, 7, 9] rfl rfl (by decide)

/-- **C20 fails** for siphash_64: a key of 16 zero bytes makes the same object as no seed at all -/
theorem siphash_64_zero_key (env : Env) (ops : List Op) :
    AlgName.siphash_64.impl.exec env (.bytes (.mem (List.replicate 16 0)) 16) ops = AlgName.siphash_64.impl.exec env (.bytes (.mem []) 0) ops := by
  refine HashAlg.exec_congr ?_ ops
  show Sip64.initBytes env _ 16 = .ok Sip64.init
  unfold Sip64.initBytes
  rw [if_pos rfl, Ptr.add_mem (by decide), Except.bind_ok, read64le_ok _ _ (by decide), Except.bind_ok, Ptr.add_mem (by decide),
    Except.bind_ok, read64le_ok _ _ (by decide)]
  decide +kernel

/-- **C20 fails** for siphash_32, with 8 zero bytes -/
theorem siphash_32_zero_key (env : Env) (ops : List Op) :
    AlgName.siphash_32.impl.exec env (.bytes (.mem (List.replicate 8 0)) 8) ops = AlgName.siphash_32.impl.exec env (.bytes (.mem []) 0) ops := by
  refine HashAlg.exec_congr ?_ ops
  show Sip32.initBytes env _ 8 = .ok Sip32.init
  unfold Sip32.initBytes
  rw [if_pos rfl, Ptr.add_mem (by decide), Except.bind_ok, read32le_ok _ _ (by decide), Except.bind_ok, Ptr.add_mem (by decide),
    Except.bind_ok, read32le_ok _ _ (by decide)]
  decide +kernel

/-- **C20 fails** for every hmac: a key and the same key with a zero byte appended, if that is no longer than a block -/
theorem hmac_keys_collide (H : DigestName) : ∃ k k' : List Byte, k ≠ k' ∧ ∀ env (ops : List Op) ts, stream ops = some ts →
    (H.isSha2 = false ∨ env.loops = true ∨ NoNull ops) →
    (AlgName.digest (.hmac H)).impl.exec env (.bytes (.mem k) k.length) ops
      = (AlgName.digest (.hmac H)).impl.exec env (.bytes (.mem k') k'.length) ops := by
  refine ⟨[1], [1, 0], by decide, fun env ops ts hs hn => ?_⟩
  have hb : ∀ H : DigestName, 64 ≤ H.B := fun H => by
    induction H with
    | hmac H ih => exact ih
    | _ => decide
  have := hb H
  exact (hmac_key_zeros H env [1] 1 (by show 2 ≤ H.B; omega) ops ts hs hn).symm

/-- **C20 fails** for murmur3_32: of a seed of 5, 6 or 7 bytes only the first 4 and the length matter -/
theorem murmur3_32_seed_tail_ignored (env : Env) (k x y : List Byte) (hk : k.length = 4) (hx : x.length < 4) (h : x.length = y.length)
    (ops : List Op) (ts : List Tok) (hs : stream ops = some ts) :
    AlgName.murmur3_32.impl.exec env (.bytes (.mem (k ++ x)) (k ++ x).length) ops
      = AlgName.murmur3_32.impl.exec env (.bytes (.mem (k ++ y)) (k ++ y).length) ops := by
  rw [AlgName.exec_ok (a := .murmur3_32) (Nat.le_refl _) hs (.inl trivial) trivial,
    AlgName.exec_ok (a := .murmur3_32) (Nat.le_refl _) hs (.inl trivial) trivial]
  refine congrArg (fun o => Except.ok ((MURMUR3.x86_32.machine env.sizeBits).run o ts).2) ?_
  show (MURMUR3.x86_32.machine env.sizeBits).bytes ((k ++ x).take (k ++ x).length)
    = (MURMUR3.x86_32.machine env.sizeBits).bytes ((k ++ y).take (k ++ y).length)
  rw [List.take_length, List.take_length]
  exact mur32_tail_ignored _ hk hx h

/-- **C20 fails** for murmur3_128: of a seed of 17 to 31 bytes only the first 16 and the length matter -/
theorem murmur3_128_seed_tail_ignored (env : Env) (k x y : List Byte) (hk : k.length = 16) (hx : x.length < 16)
    (h : x.length = y.length) (ops : List Op) (ts : List Tok) (hs : stream ops = some ts) :
    AlgName.murmur3_128.impl.exec env (.bytes (.mem (k ++ x)) (k ++ x).length) ops
      = AlgName.murmur3_128.impl.exec env (.bytes (.mem (k ++ y)) (k ++ y).length) ops := by
  rw [AlgName.exec_ok (a := .murmur3_128) (Nat.le_refl _) hs (.inl trivial) trivial,
    AlgName.exec_ok (a := .murmur3_128) (Nat.le_refl _) hs (.inl trivial) trivial]
  refine congrArg (fun o => Except.ok ((MURMUR3.x64_128.machine env.sizeBits).run o ts).2) ?_
  show (MURMUR3.x64_128.machine env.sizeBits).bytes ((k ++ x).take (k ++ x).length)
    = (MURMUR3.x64_128.machine env.sizeBits).bytes ((k ++ y).take (k ++ y).length)
  rw [List.take_length, List.take_length]
  exact mur128_tail_ignored _ hk hx h

example : AlgName.murmur3_32.impl.exec le64 (.bytes (.mem [1, 2, 3, 4, 5]) 5) [.result]
    = AlgName.murmur3_32.impl.exec le64 (.bytes (.mem [1, 2, 3, 4, 6]) 5) [.result] :=
  murmur3_32_seed_tail_ignored le64 [1, 2, 3, 4] [5] [6] rfl (by decide) rfl _ _ rfl

/-! ### C38: objects that started differently stay different -/

/-- **C38.** siphash_64, siphash_32: objects made from different integers are in different states after any common program -/
theorem siphash_seeds_stay_different (a : AlgName) (ha : a = .siphash_64 ∨ a = .siphash_32) (env : Env) (k k' : W64) (h : k ≠ k')
    (ops : List Op) (ts : List Tok) (hs : stream ops = some ts) : a.impl.EndDifferent env (.seed k) (.seed k') ops := by
  rcases ha with rfl | rfl
  · refine AlgName.endDifferent (a := .siphash_64) (ts := ts) trivial trivial hs (.inl trivial) trivial trivial fun s s' r r' => ?_
    refine (Sip64.ok env).ne_of_ne1 r r' (ne1_run (SIP.obj SIP.sip64 64) (sip_compress_inj _ _) ts (fun _ => sip_finish_inj _ _) ?_)
    exact ne1_start fun e => h (sip_start_inj _ e).1
  · refine AlgName.endDifferent (a := .siphash_32) (ts := ts) trivial trivial hs (.inl trivial) trivial trivial fun s s' r r' => ?_
    refine (Sip32.ok env).ne_of_ne1 r r' (ne1_run (SIP.obj SIP.sip32 32) (sip_compress_inj _ _) ts (fun _ => sip_finish_inj _ _) ?_)
    exact ne1_start fun e => h (halves_inj (sip_start_inj _ e).1 (sip_start_inj _ e).2)

/-- **C38.** the same for different keys -/
theorem siphash_keys_stay_different (a : AlgName) (ha : a = .siphash_64 ∨ a = .siphash_32) (env : Env) (k k' : List Byte)
    (hk : KeySize a k.length) (hl : k.length = k'.length) (h : k ≠ k') (ops : List Op) (ts : List Tok) (hs : stream ops = some ts) :
    a.impl.EndDifferent env (.bytes (.mem k) k.length) (.bytes (.mem k') k'.length) ops := by
  have hv : (Ctor.bytes (.mem k) k.length).Valid := Nat.le_refl _
  have hv' : (Ctor.bytes (.mem k') k'.length).Valid := Nat.le_refl _
  have ht : (Ptr.mem k).bytes k.length = k := List.take_length ..
  have ht' : (Ptr.mem k').bytes k'.length = k' := List.take_length ..
  rcases ha with rfl | rfl
  · refine AlgName.endDifferent (a := .siphash_64) (ts := ts) hv hv' hs (.inl trivial) trivial trivial fun s s' r r' => ?_
    refine (Sip64.ok env).ne_of_ne1 r r' (ne1_run (SIP.obj SIP.sip64 64) (sip_compress_inj _ _) ts (fun _ => sip_finish_inj _ _) ?_)
    show Ne1 (SIP.byteSeed SIP.sip64 64 _) (SIP.byteSeed SIP.sip64 64 _)
    rw [ht, ht']
    exact sip_key_ne SIP.sip64 64 rfl hk (hl ▸ hk) h
  · refine AlgName.endDifferent (a := .siphash_32) (ts := ts) hv hv' hs (.inl trivial) trivial trivial fun s s' r r' => ?_
    refine (Sip32.ok env).ne_of_ne1 r r' (ne1_run (SIP.obj SIP.sip32 32) (sip_compress_inj _ _) ts (fun _ => sip_finish_inj _ _) ?_)
    show Ne1 (SIP.byteSeed SIP.sip32 32 _) (SIP.byteSeed SIP.sip32 32 _)
    rw [ht, ht']
    exact sip_key_ne SIP.sip32 32 rfl hk (hl ▸ hk) h

/-- **C38.** spooky2_128: the same for integers, as long as the byte counter does not wrap -/
theorem spooky2_seeds_stay_different (env : Env) (k k' : W64) (h : k ≠ k') (ops : List Op) (ts : List Tok) (hs : stream ops = some ts)
    (hr : cost ts < 2 ^ env.sizeBits) : AlgName.spooky2_128.impl.EndDifferent env (.seed k) (.seed k') ops := by
  have hroom : 0 + cost ts < 2 ^ env.sizeBits := by omega
  refine AlgName.endDifferent (a := .spooky2_128) (ts := ts) trivial trivial hs (.inl trivial) hroom hroom fun s s' r r' => ?_
  refine (Spooky.ok env).ne_of_ne1 r r' (SpookyL.ne2_run _ ts (SpookyL.ne2_start fun e => h (congrArg Prod.fst e)) ?_ hroom)
  exact Nat.zero_lt_succ _

/-- **C38.** xxhash_64 and xxhash_32 (integers with the same upper half): objects made from different integers are in different
states after any common sequence of updates -/
theorem xxhash_seeds_stay_different (a : AlgName) (env : Env) (k k' : W64)
    (ha : a = .xxhash_64 ∨ a = .xxhash_32 ∧ k.toNat / 2 ^ 32 = k'.toNat / 2 ^ 32) (h : k ≠ k')
    (ops : List Op) (msg : List Byte) (hs : stream ops = some (msg.map .data)) : a.impl.EndDifferent env (.seed k) (.seed k') ops := by
  have hf : Tok.fin ∉ msg.map .data := by simp
  rcases ha with rfl | ⟨rfl, hh⟩
  · refine AlgName.endDifferent (a := .xxhash_64) trivial trivial hs (.inl trivial) trivial trivial fun s s' r r' => ?_
    refine (XX64.ok env).ne_of_ne1 r r' (ne1_run (XXH64.obj 64) (fun b s t => XX64L.stripe_inj b) _ (fun h => absurd h hf) ?_)
    exact ne1_start fun e => h (congrArg Acc4.a3 e)
  · have hh : hi32 k = hi32 k' := congrArg (BitVec.ofNat 32) hh
    refine AlgName.endDifferent (a := .xxhash_32) trivial trivial hs (.inl trivial) trivial trivial fun s s' r r' => ?_
    refine (XX32.ok env).ne_of_ne1 r r' (ne1_run (XXH32.obj env.sizeBits) (fun b s t => XX32L.stripe_inj b) _ (fun h => absurd h hf) ?_)
    exact ne1_start (xx32_seeded_ne hh h)

/-- **C38.** xxhash_64: for a message of less than 32 bytes, different integers give different results -/
theorem xxhash64_short_results_differ (env : Env) (k k' : W64) (h : k ≠ k') (ops : List Op) (msg : List Byte)
    (hs : stream ops = some (msg.map .data)) (hl : msg.length < 32) :
    AlgName.xxhash_64.impl.ResultsDiffer env (.seed k) (.seed k') (ops ++ [.result]) :=
  ⟨_, _, xxhash64_spec env k ops msg hs (by omega), xxhash64_spec env k' ops msg hs (by omega),
    .cons (fun e => h (XX64L.short_inj hl e)) .nil⟩

/-- **C38.** xxhash_32: for a message of less than 16 bytes, different integers below 2^32 give different results -/
theorem xxhash32_short_results_differ (env : Env) (k k' : W64) (hk : k.toNat < 2 ^ 32) (hk' : k'.toNat < 2 ^ 32) (h : k ≠ k')
    (ops : List Op) (msg : List Byte) (hs : stream ops = some (msg.map .data)) (hl : msg.length < 16) :
    AlgName.xxhash_32.impl.ResultsDiffer env (.seed k) (.seed k') (ops ++ [.result]) := by
  have hl' : msg.length < 2 ^ env.sizeBits := by rcases sizeBits_cases env with h | h <;> rw [h] <;> omega
  refine ⟨_, _, xxhash32_spec env k hk ops msg hs hl', xxhash32_spec env k' hk' ops msg hs hl',
    .cons (fun e => h (halves_inj (XX32L.short_inj hl e) ?_)) .nil⟩
  rw [Nat.div_eq_of_lt hk, Nat.div_eq_of_lt hk']

/-- **C38.** murmur3_128, murmur3_32 (integers with the same upper half): different integers give different results everywhere in any
common program -/
theorem murmur3_results_differ (a : AlgName) (env : Env) (k k' : W64)
    (ha : a = .murmur3_128 ∨ a = .murmur3_32 ∧ k.toNat / 2 ^ 32 = k'.toNat / 2 ^ 32) (h : k ≠ k')
    (ops : List Op) (ts : List Tok) (hs : stream ops = some ts) : a.impl.ResultsDiffer env (.seed k) (.seed k') ops := by
  rcases ha with rfl | ⟨rfl, hh⟩
  · refine AlgName.resultsDiffer (a := .murmur3_128) trivial trivial hs (.inl trivial) trivial trivial ?_
    refine ne1_results (MURMUR3.x64_128.obj env.sizeBits) (fun b s t => MurL.body128_inj b) ts (fun _ _ _ _ h => h)
      (fun tail n s t h => MurL.finish128_inj tail n h) ?_
    exact ne1_start fun e => h (congrArg MURMUR3.x64_128.St.h1 e)
  · have hh : hi32 k = hi32 k' := congrArg (BitVec.ofNat 32) hh
    refine AlgName.resultsDiffer (a := .murmur3_32) trivial trivial hs (.inl trivial) trivial trivial ?_
    refine ne1_results (MURMUR3.x86_32.obj env.sizeBits) (fun b s t => MurL.body32_inj _) ts (fun _ _ _ _ h => h)
      (fun tail n s t h => MurL.finish32_inj tail n h) ?_
    exact ne1_start (mur32_seeded_ne hh h)

/-- **C38, C20.** fnv1a: byte seeds of which one byte differs give different results everywhere in any common program; likewise
messages, the seed being a prefix of the message (C18) -/
theorem fnv1a_results_differ (a : AlgName) (ha : a = .fnv1a_32 ∨ a = .fnv1a_64) (env : Env) (pre post : List Byte) (x y : Byte) (h : x ≠ y)
    (ops : List Op) (ts : List Tok) (hs : stream ops = some ts) :
    a.impl.ResultsDiffer env (.bytes (.mem (pre ++ x :: post)) (pre ++ x :: post).length)
      (.bytes (.mem (pre ++ y :: post)) (pre ++ y :: post).length) ops := by
  rcases ha with rfl | rfl
  · refine AlgName.resultsDiffer (a := .fnv1a_32) (Nat.le_refl _) (Nat.le_refl _) hs (.inl trivial) trivial trivial ?_
    show List.Forall₂ (· ≠ ·) ((FNV.machine FNV.prime32).run (FNV.feed FNV.prime32 _ (List.take _ _)) ts).2
      ((FNV.machine FNV.prime32).run (FNV.feed FNV.prime32 _ (List.take _ _)) ts).2
    rw [List.take_length, List.take_length]
    exact fnv_run_ne FNV.prime32 FNV.invprime32 (by decide) ts (fnv_byte_ne FNV.prime32 FNV.invprime32 (by decide) (by decide) _ pre post h)
  · refine AlgName.resultsDiffer (a := .fnv1a_64) (Nat.le_refl _) (Nat.le_refl _) hs (.inl trivial) trivial trivial ?_
    show List.Forall₂ (· ≠ ·) ((FNV.machine FNV.prime64).run (FNV.feed FNV.prime64 _ (List.take _ _)) ts).2
      ((FNV.machine FNV.prime64).run (FNV.feed FNV.prime64 _ (List.take _ _)) ts).2
    rw [List.take_length, List.take_length]
    exact fnv_run_ne FNV.prime64 FNV.invprime64 (by decide) ts (fnv_byte_ne FNV.prime64 FNV.invprime64 (by decide) (by decide) _ pre post h)

example : AlgName.siphash_64.impl.EndDifferent le64 (.seed 1) (.seed 2) [.update (.mem abc) 3, .result, .update (.mem abc) 2, .result] :=
  siphash_seeds_stay_different _ (.inl rfl) _ _ _ (by decide) _ _ rfl
example : AlgName.spooky2_128.impl.EndDifferent le64 (.seed 1) (.seed 2) [.update (.mem abc) 3, .result, .update (.mem abc) 2, .result] :=
  spooky2_seeds_stay_different _ _ _ (by decide) _ _ rfl (by decide)
example : AlgName.murmur3_32.impl.ResultsDiffer be32 (.seed 1) (.seed 2) [.update (.mem abc) 3, .result, .update (.mem abc) 2, .result] :=
  murmur3_results_differ _ _ _ _ (.inr ⟨rfl, by decide⟩) (by decide) _ _ rfl
example : AlgName.fnv1a_64.impl.ResultsDiffer le64 (.bytes (.mem [1, 2, 3]) 3) (.bytes (.mem [1, 5, 3]) 3) [.result, .result] :=
  fnv1a_results_differ _ (.inr rfl) _ [1] [3] 2 5 (by decide) _ _ rfl

end Hash2

import Verif.Lemmas.Pigeon
import Verif.Props.Distinct
/-
C20: no algorithm keeps all byte seeds apart; C19: no 32-bit algorithm keeps the results for all integer seeds apart.
-/
namespace Hash2
open Spec

private theorem bytes_start {R : Type} (M : Machine R) (k : List Byte) : (Ctor.bytes (.mem k) k.length).start M = M.bytes k := by
  show M.bytes (k.take k.length) = _
  rw [List.take_length]

/-- **C20 fails for every algorithm**, as it must: there are two different byte seeds, of at most 97 bytes, that make objects which no
program can tell apart. (The condition on the length concerns spooky2_128 only: its byte counter must not wrap.) -/
theorem byte_seeds_collide (a : AlgName) (env : Env) : ∃ k k' : List Byte, k ≠ k' ∧ k.length ≤ 97 ∧ k'.length ≤ 97 ∧
    ∀ (ops : List Op) (ts : List Tok), stream ops = some ts → (a.NullOk env ∨ NoNull ops) → 289 + cost ts < 2 ^ env.sizeBits →
      ∃ rs, a.impl.exec env (.bytes (.mem k) k.length) ops = .ok rs ∧ a.impl.exec env (.bytes (.mem k') k'.length) ops = .ok rs := by
  -- it suffices that the abstract objects go on alike
  have red : ∀ (a : AlgName) (k k' : List Byte), k ≠ k' → k.length ≤ 97 → k'.length ≤ 97 →
      (∀ ts, ((a.machine env.sizeBits).run ((a.machine env.sizeBits).bytes k) ts).2 =
        ((a.machine env.sizeBits).run ((a.machine env.sizeBits).bytes k') ts).2) →
      ∃ k k' : List Byte, k ≠ k' ∧ k.length ≤ 97 ∧ k'.length ≤ 97 ∧
        ∀ (ops : List Op) (ts : List Tok), stream ops = some ts → (a.NullOk env ∨ NoNull ops) → 289 + cost ts < 2 ^ env.sizeBits →
          ∃ rs, a.impl.exec env (.bytes (.mem k) k.length) ops = .ok rs ∧ a.impl.exec env (.bytes (.mem k') k'.length) ops = .ok rs := by
    intro a k k' hne hk hk' h
    refine ⟨k, k', hne, hk, hk', fun ops ts hs hn hr => ?_⟩
    have room : ∀ k : List Byte, k.length ≤ 97 → a.Room env (.bytes (.mem k) k.length) ts := by
      intro k hk
      cases a with
      | spooky2_128 => show k.length + 192 + cost ts < _; omega
      | _ => trivial
    have e := AlgName.exec_ok (a := a) (c := .bytes (.mem k) k.length) (Nat.le_refl _) hs hn (room k hk)
    have e' := AlgName.exec_ok (a := a) (c := .bytes (.mem k') k'.length) (Nat.le_refl _) hs hn (room k' hk')
    rw [bytes_start] at e e'
    exact ⟨_, e, e'.trans (congrArg Except.ok (h ts).symm)⟩
  cases a with
  | digest d =>
    cases hd : d.md with
    | none =>
      cases d with
      | hmac H =>
        have hb : ∀ H : DigestName, 64 ≤ H.B := fun H => by
          induction H with
          | hmac H ih => exact ih
          | _ => decide
        refine ⟨[1], [1, 0], by decide, by decide, by decide, fun ops ts hs hn hr => ?_⟩
        refine ⟨_, AlgName.exec_ok (a := .digest (.hmac H)) (c := .bytes (.mem [1]) 1) (Nat.le_refl _) hs hn trivial, ?_⟩
        have hn' : H.isSha2 = false ∨ env.loops = true ∨ NoNull ops := by
          rcases hn with (h | h) | h
          exacts [.inl h, .inr (.inl h), .inr (.inr h)]
        refine (hmac_key_zeros H env [1] 1 (by show 2 ≤ H.B; have := hb H; omega) ops ts hs hn').trans ?_
        exact AlgName.exec_ok (a := .digest (.hmac H)) (c := .bytes (.mem [1]) 1) (Nat.le_refl _) hs hn trivial
      | _ => simp [DigestName.md] at hd
    | some x =>
      obtain ⟨σ, D⟩ := x
      obtain ⟨m, hm, enc, hl, inj⟩ := DigestName.chain_enc hd
      obtain ⟨hN, hp⟩ := DigestName.regular hd
      obtain ⟨k, k', hne, h1, h2, e⟩ := bytes_pigeon m (fun k => D.chain (k ++ D.pad k.length)) enc hl inj
      refine red (.digest d) k k' hne (by omega) (by omega) fun ts => ?_
      have key : ∀ M : Machine (List Byte), M = D.machine → (M.run (M.bytes k) ts).2 = (M.run (M.bytes k') ts).2 := by
        rintro _ rfl
        exact Md.same_keys hN hp (fun e => by rw [e] at h1; simp at h1) (h1.trans h2.symm) e ts
      exact key d.machine (DigestName.machine_of_md hd)
  | siphash_64 =>
    refine red .siphash_64 [] (List.replicate 16 0) (by decide) (by decide) (by decide) fun ts => ?_
    exact congrArg (fun s => (SIP.machine64.run s ts).2) (show SIP.machine64.bytes [] = SIP.machine64.bytes (List.replicate 16 0) from rfl)
  | siphash_32 =>
    refine red .siphash_32 [] (List.replicate 8 0) (by decide) (by decide) (by decide) fun ts => ?_
    exact congrArg (fun s => (SIP.machine32.run s ts).2) (show SIP.machine32.bytes [] = SIP.machine32.bytes (List.replicate 8 0) from rfl)
  | xxhash_64 =>
    obtain ⟨enc, hl, inj⟩ := acc4_enc (w := 64) 8 (by decide)
    let o := fun k => (XXH64.obj 64).absorb (Obj.start (XXH64.start 0)) k
    obtain ⟨k, k', hne, h1, h2, e⟩ := bytes_pigeon (4 * 8) (fun k => ((XXH64.obj 64).finish (o k).st (o k).tail (o k).n).1) enc hl inj
    refine red .xxhash_64 k k' hne (by omega) (by omega) fun ts => ?_
    refine congrArg (fun s => (XXH64.machine.run s ts).2) (show XXH64.machine.bytes k = XXH64.machine.bytes k' from ?_)
    have q : ∀ k : List Byte, k.length = 33 → XXH64.machine.bytes k = ((XXH64.obj 64).res (o k)).1 :=
      fun k h => if_neg fun e => by rw [e] at h; simp at h
    rw [q k h1, q k' h2]
    have z := (XXH64.obj 64).absorb_sizes (XXH64.start 0) (XXH64.start 0) (h1.trans h2.symm)
    exact (XXH64.obj 64).same_after _ _ e z.1 z.2
  | xxhash_32 =>
    obtain ⟨enc, hl, inj⟩ := acc4_enc (w := 32) 4 (by decide)
    let o := fun k => (XXH32.obj env.sizeBits).absorb (Obj.start (XXH32.start 0)) k
    obtain ⟨k, k', hne, h1, h2, e⟩ := bytes_pigeon (4 * 4) (fun k => ((XXH32.obj env.sizeBits).finish (o k).st (o k).tail (o k).n).1) enc hl inj
    refine red .xxhash_32 k k' hne (by omega) (by omega) fun ts => ?_
    refine congrArg (fun s => ((XXH32.machine env.sizeBits).run s ts).2)
      (show (XXH32.machine env.sizeBits).bytes k = (XXH32.machine env.sizeBits).bytes k' from ?_)
    have q : ∀ k : List Byte, k.length = 17 → (XXH32.machine env.sizeBits).bytes k = ((XXH32.obj env.sizeBits).res (o k)).1 :=
      fun k h => if_neg fun e => by rw [e] at h; simp at h
    rw [q k h1, q k' h2]
    have z := (XXH32.obj env.sizeBits).absorb_sizes (XXH32.start 0) (XXH32.start 0) (h1.trans h2.symm)
    exact (XXH32.obj env.sizeBits).same_after _ _ e z.1 z.2
  | fnv1a_32 =>
    obtain ⟨k, k', hne, h1, h2, e⟩ := bytes_pigeon 4 (fun k => FNV.feed FNV.prime32 (FNV.basis FNV.prime32) k)
      (fun x : BitVec 32 => natLE 4 x.toNat) (fun _ => natLE_length _ _) (fun _ _ => natLE_word_inj (by decide))
    refine red .fnv1a_32 k k' hne (by omega) (by omega) fun ts => ?_
    exact congrArg (fun s => ((FNV.machine FNV.prime32).run s ts).2) e
  | fnv1a_64 =>
    obtain ⟨k, k', hne, h1, h2, e⟩ := bytes_pigeon 8 (fun k => FNV.feed FNV.prime64 (FNV.basis FNV.prime64) k)
      (fun x : BitVec 64 => natLE 8 x.toNat) (fun _ => natLE_length _ _) (fun _ _ => natLE_word_inj (by decide))
    refine red .fnv1a_64 k k' hne (by omega) (by omega) fun ts => ?_
    exact congrArg (fun s => ((FNV.machine FNV.prime64).run s ts).2) e
  | murmur3_32 =>
    refine red .murmur3_32 ([1, 2, 3, 4] ++ [5]) ([1, 2, 3, 4] ++ [6]) (by decide) (by decide) (by decide) fun ts => ?_
    exact congrArg (fun s => ((MURMUR3.x86_32.machine env.sizeBits).run s ts).2) (mur32_tail_ignored _ rfl (by decide) rfl)
  | murmur3_128 =>
    refine red .murmur3_128 (List.replicate 16 1 ++ [5]) (List.replicate 16 1 ++ [6]) (by decide) (by decide) (by decide) fun ts => ?_
    exact congrArg (fun s => ((MURMUR3.x64_128.machine env.sizeBits).run s ts).2) (mur128_tail_ignored _ rfl (by decide) rfl)
  | spooky2_128 =>
    obtain ⟨enc, hl, inj⟩ := words_enc 12
    let T := SPOOKY.obj env.sizeBits
    let o := fun k : List Byte => T.absorb
        (Obj.start (SPOOKY.start (leWord 64 (k.take 8)) (leWord 64 ((k.drop 8).take 8)))) (k.drop 16)
    obtain ⟨k, k', hne, h1, h2, e⟩ := bytes_pigeon (12 * 8) (fun k => (T.finish (o k).st (o k).tail (o k).n).1) enc hl inj
    refine red .spooky2_128 k k' hne (by omega) (by omega) fun ts => ?_
    refine congrArg (fun s => ((SPOOKY.machine env.sizeBits).run s ts).2)
      (show (SPOOKY.machine env.sizeBits).bytes k = (SPOOKY.machine env.sizeBits).bytes k' from ?_)
    have q : ∀ k : List Byte, k.length = 97 → (SPOOKY.machine env.sizeBits).bytes k = (T.res (o k)).1 :=
      fun k h => if_neg (by omega)
    rw [q k h1, q k' h2]
    have z := T.absorb_sizes (SPOOKY.start (leWord 64 (k.take 8)) (leWord 64 ((k.drop 8).take 8)))
      (SPOOKY.start (leWord 64 (k'.take 8)) (leWord 64 ((k'.drop 8).take 8))) (k := k.drop 16) (k' := k'.drop 16) (by simp [h1, h2])
    exact T.same_after _ _ e z.1 z.2

/-- two different seeds of at most 97 bytes, with which xxhash_64 returns the same for "abc" -/
example (env : Env) : ∃ k k' : List Byte, k ≠ k' ∧ ∃ rs,
    AlgName.xxhash_64.impl.exec env (.bytes (.mem k) k.length) [.update (.mem abc) 3, .result, .result] = .ok rs ∧
    AlgName.xxhash_64.impl.exec env (.bytes (.mem k') k'.length) [.update (.mem abc) 3, .result, .result] = .ok rs := by
  obtain ⟨k, k', hne, _, _, h⟩ := byte_seeds_collide .xxhash_64 env
  refine ⟨k, k', hne, h _ [.data 0x61, .data 0x62, .data 0x63, .fin, .fin] rfl (.inl trivial) ?_⟩
  rcases sizeBits_cases env with h | h <;> rw [h] <;> decide

/-- **C19, for results.** "instances of the hash algorithm initialized by different seeds produce different hash values when passed the
same message" (doc/hash2/hashing_bytes.adoc:90) is false of every 32-bit algorithm, for every message: there are two different integers
with which the results are equal. -/
theorem integer_seeds_results_collide (a : AlgName) (ha : a = .siphash_32 ∨ a = .xxhash_32 ∨ a = .fnv1a_32 ∨ a = .murmur3_32) (env : Env)
    (ops : List Op) (msg : List Byte) (hs : stream ops = some (msg.map .data)) :
    ∃ k k' : W64, k ≠ k' ∧ ∃ r, a.impl.exec env (.seed k) (ops ++ [.result]) = .ok [r] ∧ a.impl.exec env (.seed k') (ops ++ [.result]) = .ok [r] := by
  have gen : ∀ f : W64 → BitVec 32, ∃ k k' : W64, k ≠ k' ∧ f k = f k' := by
    intro f
    obtain ⟨i, j, hne, e⟩ := Fintype.exists_ne_map_eq_of_card_lt
      (fun i : Fin (2 ^ 33) => (f (BitVec.ofNat 64 i.val)).toFin) (by rw [Fintype.card_fin, Fintype.card_fin]; decide)
    refine ⟨BitVec.ofNat 64 i.val, BitVec.ofNat 64 j.val, fun h => hne (Fin.ext ?_), BitVec.eq_of_toFin_eq e⟩
    have h := congrArg BitVec.toNat h
    rw [BitVec.toNat_ofNat, BitVec.toNat_ofNat, Nat.mod_eq_of_lt (Nat.lt_trans i.isLt (by decide)),
      Nat.mod_eq_of_lt (Nat.lt_trans j.isLt (by decide))] at h
    exact h
  have one : ∀ (M : Machine (BitVec 32)) (s : M.S), (M.run s (msg.map Tok.data ++ [Tok.fin])).2 = [(M.res (M.run s (msg.map .data)).1).2] := by
    intro M s
    have : ∀ (m : List Byte) (s : M.S), (M.run s (m.map .data)).2 = [] := by
      intro m
      induction m with
      | nil => intro s; rfl
      | cons b m ih => intro s; exact ih _
    rw [Machine.run_append, this]
    rfl
  have fin : ∀ (M : Machine (BitVec 32)) (E : W64 → M.S → Hash2.M (List (BitVec 32))), (∀ k, E k (M.seed k) = .ok (M.run (M.seed k) (msg.map Tok.data ++ [Tok.fin])).2) →
      ∃ k k' : W64, k ≠ k' ∧ ∃ r, E k (M.seed k) = .ok [r] ∧ E k' (M.seed k') = .ok [r] := by
    intro M E h
    obtain ⟨k, k', hne, e⟩ := gen fun k => (M.res (M.run (M.seed k) (msg.map .data)).1).2
    refine ⟨k, k', hne, _, (h k).trans (congrArg Except.ok (one M _)), ((h k').trans (congrArg Except.ok (one M _))).trans ?_⟩
    rw [e]
  have S := stream_result ops _ hs
  rcases ha with rfl | rfl | rfl | rfl
  · exact fin SIP.machine32 (fun k _ => AlgName.siphash_32.impl.exec env (.seed k) (ops ++ [.result]))
      fun k => AlgName.exec_ok (a := .siphash_32) (c := .seed k) trivial S (.inl trivial) trivial
  · exact fin (XXH32.machine env.sizeBits) (fun k _ => AlgName.xxhash_32.impl.exec env (.seed k) (ops ++ [.result]))
      fun k => AlgName.exec_ok (a := .xxhash_32) (c := .seed k) trivial S (.inl trivial) trivial
  · exact fin (FNV.machine FNV.prime32) (fun k _ => AlgName.fnv1a_32.impl.exec env (.seed k) (ops ++ [.result]))
      fun k => AlgName.exec_ok (a := .fnv1a_32) (c := .seed k) trivial S (.inl trivial) trivial
  · exact fin (MURMUR3.x86_32.machine env.sizeBits) (fun k _ => AlgName.murmur3_32.impl.exec env (.seed k) (ops ++ [.result]))
      fun k => AlgName.exec_ok (a := .murmur3_32) (c := .seed k) trivial S (.inl trivial) trivial

/-- for "abc" -/
example (env : Env) : ∃ k k' : W64, k ≠ k' ∧ ∃ r, AlgName.siphash_32.impl.exec env (.seed k) [.update (.mem abc) 3, .result] = .ok [r] ∧
    AlgName.siphash_32.impl.exec env (.seed k') [.update (.mem abc) 3, .result] = .ok [r] :=
  integer_seeds_results_collide .siphash_32 (.inl rfl) env [.update (.mem abc) 3] abc rfl

end Hash2

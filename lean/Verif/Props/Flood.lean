import Verif.Spec.Flood
import Verif.Lemmas.Flood
/-
C57: collisions that no seed removes.
-/
namespace Hash2
open Spec

private theorem flood_of {a : AlgName} {n : Nat} {x y : List Byte} (hne : x ≠ y) (hx : x.length = n) (hy : y.length = n) (k : Nat)
    (Q : List Tok → Prop) (hn : ∀ env, a.NullOk env) (hr : ∀ env c ts, a.Room env c ts) (P : ∀ env : Env, (a.machine env.sizeBits).S → Prop)
    (hP : ∀ (env : Env) (c : Ctor) ts, Q ts → P env ((a.machine env.sizeBits).run (c.start (a.machine env.sizeBits)) ts).1)
    (hs : ∀ env s, P env s → (a.machine env.sizeBits).absorb s x = (a.machine env.sizeBits).absorb s y)
    (hp : ∀ env s, P env s → P env ((a.machine env.sizeBits).absorb s x)) :
    ∃ ms : List (List Byte), ms.length = 2 ^ k ∧ ms.Nodup ∧ (∀ z ∈ ms, z.length = n * k) ∧
      ∀ (env : Env) (c : Ctor), c.Valid → ∀ (before more : List Op) (ts tm : List Tok), stream before = some ts → stream more = some tm → Q ts →
        ∃ rs : List a.impl.R, ∀ z ∈ ms, a.impl.exec env c (before ++ [.update (.mem z) z.length] ++ more) = .ok rs := by
  refine ⟨choices x y k, choices_length x y k, choices_nodup (hx.trans hy.symm) hne k, choices_lengths hx hy k, ?_⟩
  intro env c hc before more ts tm hb hm hq
  obtain ⟨t, ht⟩ := choices_absorb (a.impls env).absorb_append (hs env) (hp env) k _ (hP env c ts hq)
  refine ⟨((a.machine env.sizeBits).run (c.start (a.machine env.sizeBits)) ts).2 ++ ((a.machine env.sizeBits).run t tm).2, fun z hz => ?_⟩
  rw [AlgName.exec_insert (z := z) hc hb (by simp [stream, Op.toks]) hm (hn env) (hr env c), ht z hz]

theorem mur32_aligned (sz : Nat) (c : Ctor) (ts : List Tok) :
    (((MURMUR3.x86_32.machine sz).run (c.start (MURMUR3.x86_32.machine sz)) ts).1 : Obj _).tail.length % 4 = sinceResult ts % 4 := by
  have := BlockHash.run_tail (MURMUR3.x86_32.obj sz) (init := Obj.start 0) (seed := (MURMUR3.x86_32.machine sz).seed) (bytes := (MURMUR3.x86_32.machine sz).bytes)
    ts (c.start (MURMUR3.x86_32.machine sz))
  rw [mur32_start] at this
  exact this

theorem mur128_aligned (sz : Nat) (c : Ctor) (ts : List Tok) :
    (((MURMUR3.x64_128.machine sz).run (c.start (MURMUR3.x64_128.machine sz)) ts).1 : Obj _).tail.length % 16 = sinceResult ts % 16 := by
  have := BlockHash.run_tail (MURMUR3.x64_128.obj sz) (init := Obj.start ⟨0, 0⟩) (seed := (MURMUR3.x64_128.machine sz).seed)
    (bytes := (MURMUR3.x64_128.machine sz).bytes) ts (c.start (MURMUR3.x64_128.machine sz))
  rw [mur128_start] at this
  exact this

theorem xx64_aligned (c : Ctor) (ts : List Tok) :
    ((XXH64.machine.run (c.start XXH64.machine) ts).1 : Obj _).tail.length % 32 = sinceResult ts % 32 := by
  have := BlockHash.run_tail (XXH64.obj 64) (init := Obj.start (XXH64.start 0)) (seed := XXH64.machine.seed)
    (bytes := XXH64.machine.bytes) ts (c.start XXH64.machine)
  rw [show (c.start XXH64.machine : Obj _).tail = [] by
    cases c with
    | default => rfl
    | seed k => rfl
    | bytes p n =>
      show (if _ then _ else _ : Obj _).tail = []
      split <;> rfl] at this
  exact this

/-- **C57.** For fnv1a_32, fnv1a_64, murmur3_32 and murmur3_128 there are, for every k, 2^k different messages, all of length n * k
(n = 8 for murmur3_32), that no choice of the seed, and nothing that is done to the object before or after, tells apart: whichever of them
is passed, all results are the same, on all platforms. (For MurmurHash3, if it begins at a block boundary, for instance at the beginning.)
The messages do not depend on the seed: they are chosen first. So, for these algorithms, seeding does not prevent hash flooding. -/
theorem seed_independent_collisions (a : AlgName) (n N : Nat)
    (ha : a = .fnv1a_32 ∧ n = 1025 ∧ N = 1 ∨ a = .fnv1a_64 ∧ n = 2049 ∧ N = 1 ∨ a = .murmur3_32 ∧ n = 8 ∧ N = 4 ∨ a = .murmur3_128 ∧ n = 32 ∧ N = 16)
    (k : Nat) :
    ∃ ms : List (List Byte), ms.length = 2 ^ k ∧ ms.Nodup ∧ (∀ z ∈ ms, z.length = n * k) ∧
      ∀ (env : Env) (c : Ctor), c.Valid → ∀ (before more : List Op) (ts tm : List Tok), stream before = some ts → stream more = some tm →
        sinceResult ts % N = 0 →
        ∃ rs : List a.impl.R, ∀ z ∈ ms, a.impl.exec env c (before ++ [.update (.mem z) z.length] ++ more) = .ok rs := by
  rcases ha with ⟨rfl, rfl, rfl⟩ | ⟨rfl, rfl, rfl⟩ | ⟨rfl, rfl, rfl⟩ | ⟨rfl, rfl, rfl⟩
  · obtain ⟨x, y, hne, hx, hy, h⟩ := fnv_swap (v := 24) (k := 4) (by decide) FNV.prime32
    exact flood_of (a := .fnv1a_32) hne hx hy k _ (fun _ => trivial) (fun _ _ _ => trivial) (fun _ _ => True) (fun _ _ _ _ => trivial)
      (fun _ s _ => h s) (fun _ _ _ => trivial)
  · obtain ⟨x, y, hne, hx, hy, h⟩ := fnv_swap (v := 56) (k := 8) (by decide) FNV.prime64
    exact flood_of (a := .fnv1a_64) hne hx hy k _ (fun _ => trivial) (fun _ _ _ => trivial) (fun _ _ => True) (fun _ _ _ _ => trivial)
      (fun _ s _ => h s) (fun _ _ _ => trivial)
  · obtain ⟨y, hne, hy, h⟩ := mur32_swap (List.replicate 8 0) (List.length_replicate ..)
    refine flood_of (a := .murmur3_32) hne.symm (List.length_replicate ..) hy k _ (fun _ => trivial) (fun _ _ _ => trivial)
      (fun _ (o : Obj (BitVec 32)) => o.tail.length % 4 = 0) (fun env c ts hq => (mur32_aligned env.sizeBits c ts).trans hq)
      (fun env o ho => h env.sizeBits o ho) (fun env o ho => ?_)
    have := BlockHash.absorb_aligned (MURMUR3.x86_32.obj env.sizeBits) (show 0 < 4 by decide) o ho (List.replicate 8 0)
      (show (List.replicate 8 (0 : Byte)).length % 4 = 0 by rw [List.length_replicate])
    show ((MURMUR3.x86_32.obj env.sizeBits).absorb o (List.replicate 8 0)).tail.length % 4 = 0
    rw [this]
    rfl
  · obtain ⟨y, hne, hy, h⟩ := mur128_swap (List.replicate 32 0) (List.length_replicate ..)
    refine flood_of (a := .murmur3_128) hne.symm (List.length_replicate ..) hy k _ (fun _ => trivial) (fun _ _ _ => trivial)
      (fun _ (o : Obj MURMUR3.x64_128.St) => o.tail.length % 16 = 0) (fun env c ts hq => (mur128_aligned env.sizeBits c ts).trans hq)
      (fun env o ho => h env.sizeBits o ho) (fun env o ho => ?_)
    have := BlockHash.absorb_aligned (MURMUR3.x64_128.obj env.sizeBits) (show 0 < 16 by decide) o ho (List.replicate 32 0)
      (show (List.replicate 32 (0 : Byte)).length % 16 = 0 by rw [List.length_replicate])
    show ((MURMUR3.x64_128.obj env.sizeBits).absorb o (List.replicate 32 0)).tail.length % 16 = 0
    rw [this]
    rfl

/-- a thousand messages of 80 bytes with the same murmur3_32, whatever the seed -/
example : ∃ ms : List (List Byte), ms.length = 1024 ∧ ms.Nodup ∧ (∀ z ∈ ms, z.length = 80) ∧ ∀ (env : Env) (seed : W64), ∃ r : W32, ∀ z ∈ ms,
    AlgName.murmur3_32.impl.exec env (.seed seed) [.update (.mem z) z.length, .result] = .ok [r] := by
  obtain ⟨ms, h1, h2, h3, h⟩ := seed_independent_collisions .murmur3_32 8 4 (.inr (.inr (.inl ⟨rfl, rfl, rfl⟩))) 10
  refine ⟨ms, h1, h2, h3, fun env seed => ?_⟩
  obtain ⟨rs, e⟩ := h env (.seed seed) trivial [] [.result] [] [.fin] rfl rfl rfl
  have hne : ms ≠ [] := fun he => by rw [he] at h1; exact absurd h1 (by decide)
  obtain ⟨z, hz⟩ := List.exists_mem_of_ne_nil _ hne
  have o := AlgName.exec_message (a := .murmur3_32) (env := env) (c := .seed seed) trivial (stream_once z) (.inl trivial) trivial
  have hr := Except.ok.inj ((e z hz).symm.trans o)
  subst hr
  exact ⟨_, e⟩

/-- **C57, second preimages.** For every message of at least 8 bytes (32 bytes) there is another one of the same length that
murmur3_32 (murmur3_128) does not tell from it, whatever the seed, whatever calls follow. -/
theorem murmur3_second_preimages (a : AlgName) (n : Nat) (ha : a = .murmur3_32 ∧ n = 8 ∨ a = .murmur3_128 ∧ n = 32) (msg : List Byte)
    (hl : n ≤ msg.length) :
    ∃ msg' : List Byte, msg' ≠ msg ∧ msg'.length = msg.length ∧
      ∀ (env : Env) (c : Ctor), c.Valid → ∀ (more : List Op) (tm : List Tok), stream more = some tm →
        ∃ rs : List a.impl.R, a.impl.exec env c (.update (.mem msg) msg.length :: more) = .ok rs ∧
          a.impl.exec env c (.update (.mem msg') msg'.length :: more) = .ok rs := by
  have hs : ∀ z : List Byte, stream [.update (.mem z) z.length] = some (z.map .data) := fun z => by simp [stream, Op.toks]
  have lt : (msg.take n).length = n := by rw [List.length_take]; omega
  have ne : ∀ y : List Byte, y.length = n → y ≠ msg.take n → y ++ msg.drop n ≠ msg := by
    intro y hy hne e
    exact hne (by rw [← e, List.take_left' hy])
  rcases ha with ⟨rfl, rfl⟩ | ⟨rfl, rfl⟩
  · obtain ⟨y, hne, hy, h⟩ := mur32_swap _ lt
    refine ⟨y ++ msg.drop 8, ne y hy hne, by rw [List.length_append, List.length_drop]; omega, fun env c hc more tm hm => ?_⟩
    have e : (AlgName.murmur3_32.machine env.sizeBits).absorb (c.start (AlgName.murmur3_32.machine env.sizeBits)) msg =
        (AlgName.murmur3_32.machine env.sizeBits).absorb (c.start (AlgName.murmur3_32.machine env.sizeBits)) (y ++ msg.drop 8) := by
      conv => lhs; rw [← List.take_append_drop 8 msg]
      rw [(AlgName.murmur3_32.impls env).absorb_append, (AlgName.murmur3_32.impls env).absorb_append]
      congr 1
      exact h env.sizeBits _ (congrArg (fun l : List Byte => l.length % 4) (mur32_start env.sizeBits c))
    refine ⟨_, AlgName.exec_insert (a := .murmur3_32) (before := []) (ts := []) hc rfl (hs msg) hm trivial (fun _ => trivial), ?_⟩
    refine (AlgName.exec_insert (a := .murmur3_32) (before := []) (ts := []) hc rfl (hs _) hm trivial (fun _ => trivial)).trans ?_
    exact congrArg (fun s => Except.ok ([] ++ ((AlgName.murmur3_32.machine env.sizeBits).run s tm).2)) e.symm
  · obtain ⟨y, hne, hy, h⟩ := mur128_swap _ lt
    refine ⟨y ++ msg.drop 32, ne y hy hne, by rw [List.length_append, List.length_drop]; omega, fun env c hc more tm hm => ?_⟩
    have e : (AlgName.murmur3_128.machine env.sizeBits).absorb (c.start (AlgName.murmur3_128.machine env.sizeBits)) msg =
        (AlgName.murmur3_128.machine env.sizeBits).absorb (c.start (AlgName.murmur3_128.machine env.sizeBits)) (y ++ msg.drop 32) := by
      conv => lhs; rw [← List.take_append_drop 32 msg]
      rw [(AlgName.murmur3_128.impls env).absorb_append, (AlgName.murmur3_128.impls env).absorb_append]
      congr 1
      exact h env.sizeBits _ (congrArg (fun l : List Byte => l.length % 16) (mur128_start env.sizeBits c))
    refine ⟨_, AlgName.exec_insert (a := .murmur3_128) (before := []) (ts := []) hc rfl (hs msg) hm trivial (fun _ => trivial), ?_⟩
    refine (AlgName.exec_insert (a := .murmur3_128) (before := []) (ts := []) hc rfl (hs _) hm trivial (fun _ => trivial)).trans ?_
    exact congrArg (fun s => Except.ok ([] ++ ((AlgName.murmur3_128.machine env.sizeBits).run s tm).2)) e.symm

/-- **C57 for xxhash_64.** For every 16 bytes there are 16 others that cannot be told from them, whatever the seed, if they lie in the last,
incomplete block of the message, at a multiple of 8. -/
theorem xxhash_64_second_preimages (x : List Byte) (hx : x.length = 16) :
    ∃ y : List Byte, y ≠ x ∧ y.length = 16 ∧
      ∀ (env : Env) (c : Ctor), c.Valid → ∀ (before more : List Op) (ts tm : List Tok) (q : List Byte), stream before = some ts → stream more = some tm →
        sinceResult ts % 8 = 0 → sinceResult ts % 32 + 16 + q.length < 32 →
        ∃ rs : List W64,
          AlgName.xxhash_64.impl.exec env c (before ++ [.update (.mem x) x.length, .update (.mem q) q.length] ++ .result :: more) = .ok rs ∧
          AlgName.xxhash_64.impl.exec env c (before ++ [.update (.mem y) y.length, .update (.mem q) q.length] ++ .result :: more) = .ok rs := by
  obtain ⟨y, hne, hy, h⟩ := xx64_swap x hx
  refine ⟨y, hne, hy, fun env c hc before more ts tm q hb hm h8 h32 => ?_⟩
  have hs : ∀ z : List Byte, stream [.update (.mem z) z.length, .update (.mem q) q.length] = some ((z ++ q).map .data) := fun z => by
    simp [stream, Op.toks]
  have hf : stream (.result :: more) = some (.fin :: tm) := by simp [stream, Op.toks, hm]
  have hlt : ((XXH64.machine.run (c.start XXH64.machine) ts).1 : Obj _).tail.length < 32 := by
    obtain ⟨s, _, r⟩ := AlgName.construct_ok (a := .xxhash_64) (env := env) (ts := ts) hc trivial
    obtain ⟨s', _, r'⟩ := (AlgName.xxhash_64.impls env).run_ok r before ts hb (.inl (AlgName.nullSafe (a := .xxhash_64) trivial)) (AlgName.fits (a := .xxhash_64) trivial)
    exact r'.wf.tail_lt
  have al := xx64_aligned c ts
  rw [Nat.mod_eq_of_lt hlt] at al
  have e := xx64_res hx hy h (XXH64.machine.run (c.start XXH64.machine) ts).1 q (by rw [al]; omega) (by rw [al]; exact h32)
  refine ⟨_, AlgName.exec_insert (a := .xxhash_64) hc hb (hs x) hf trivial (fun _ => trivial), ?_⟩
  refine (AlgName.exec_insert (a := .xxhash_64) hc hb (hs y) hf trivial (fun _ => trivial)).trans ?_
  have key : ∀ s s' : Obj (Acc4 64), (XXH64.obj 64).res s = (XXH64.obj 64).res s' → (XXH64.machine.run s (.fin :: tm)).2 = (XXH64.machine.run s' (.fin :: tm)).2 := by
    intro s s' h
    show ((XXH64.obj 64).res s).2 :: (XXH64.machine.run ((XXH64.obj 64).res s).1 tm).2 = ((XXH64.obj 64).res s').2 :: (XXH64.machine.run ((XXH64.obj 64).res s').1 tm).2
    rw [h]
  exact congrArg (fun l => Except.ok ((XXH64.machine.run (c.start XXH64.machine) ts).2 ++ l)) (key _ _ e.symm)

/-- two messages of 24 bytes with the same xxhash_64, whatever the seed -/
example : ∃ y : List Byte, y ≠ List.replicate 16 0 ∧ ∀ (env : Env) (seed : W64), ∃ rs : List W64,
    AlgName.xxhash_64.impl.exec env (.seed seed) [.update (.mem (List.replicate 16 0)) 16, .update (.mem [1, 2, 3, 4, 5, 6, 7, 8]) 8, .result] = .ok rs ∧
    AlgName.xxhash_64.impl.exec env (.seed seed) [.update (.mem y) y.length, .update (.mem [1, 2, 3, 4, 5, 6, 7, 8]) 8, .result] = .ok rs := by
  obtain ⟨y, h1, _, h⟩ := xxhash_64_second_preimages (List.replicate 16 0) rfl
  exact ⟨y, h1, fun env seed => h env (.seed seed) trivial [] [] [] [] [1, 2, 3, 4, 5, 6, 7, 8] rfl rfl rfl (by decide)⟩

end Hash2

import Verif.Props.Local
import Verif.Props.Standards
import Verif.Props.Digests
import Verif.Props.Integral
import Verif.Lemmas.Examples
/-
C44, C46, C47: the programs in /repo/example.
-/
namespace Hash2
open Spec

/-! ### C44: hash function objects for unordered containers -/

theorem mapM_ok {α β : Type} {f : α → M β} {g : α → β} (l : List α) (h : ∀ x ∈ l, f x = .ok (g x)) : l.mapM f = .ok (l.map g) := by
  induction l with
  | nil => rfl
  | cons x l ih =>
    rw [List.mapM_cons, h x (List.mem_cons_self ..), Except.bind_ok, ih fun y hy => h y (List.mem_cons_of_mem _ hy)]
    rfl

/-- what a key can be: it can be appended to a new object -/
def Hasher.Key (a : AlgName) (env : Env) (c : Ctor) (t : Ty) (v : t.Val) : Prop :=
  a.Runs env c [.append default_flavor t v, .call .result]

/-- **C44.** A hash function object can be called any number of times, without undefined behaviour. The value for a key is the integral
result of the hash of the message of this key, with the seed of the function object; it depends neither on the earlier calls nor on
whether the seeded hash object is kept or made anew in every call. -/
theorem hash_function_object (a : AlgName) (env : Env) (c : Ctor) (t : Ty) :
    ∃ H : t.Val → BitVec (8 * env.ptrSz.n),
      (∀ v, Hasher.Key a env c t v →
        ∃ r, a.impl.exec env c [.update (.mem (a.impl.messageOf env c [] default_flavor t v)) (a.impl.messageOf env c [] default_flavor t v).length, .result]
            = .ok [r] ∧ a.integralAs env env.ptrSz.n r = .ok (H v)) ∧
      (∀ v v', Hasher.Key a env c t v → Hasher.Key a env c t v' → Equal t v v' → H v = H v') ∧
      ∀ vs, c.Valid → a.RoomFor env c 0 → (∀ v ∈ vs, Hasher.Key a env c t v) →
        Hasher.use a env c t vs = .ok (vs.map H) ∧ Hasher.useFresh a env c t vs = .ok (vs.map H) := by
  have key : ∀ v, ∃ x, Hasher.Key a env c t v → ∃ r, a.impl.execStmts env c [.append default_flavor t v, .call .result] = .ok [r] ∧
      a.impl.exec env c [.update (.mem (a.impl.messageOf env c [] default_flavor t v)) (a.impl.messageOf env c [] default_flavor t v).length, .result]
            = .ok [r] ∧ a.integralAs env env.ptrSz.n r = .ok x := fun v => by
    by_cases h : Hasher.Key a env c t v
    · obtain ⟨s, e1, e2⟩ := Hasher.one_result h
      obtain ⟨x, hx⟩ := a.integralAs_ok env _ s
      exact ⟨x, fun _ => ⟨_, e1, e2, hx⟩⟩
    · exact ⟨0, fun h' => absurd h' h⟩
  choose H hH using key
  refine ⟨H, ?_, ?_, ?_⟩
  · intro v h
    obtain ⟨r, _, h2, h3⟩ := hH v h
    exact ⟨r, h2, h3⟩
  · intro v v' h h' he
    obtain ⟨r, e1, _, e3⟩ := hH v h
    obtain ⟨r', e1', _, e3'⟩ := hH v' h'
    obtain ⟨rs, q, q'⟩ := equal_objects_hash_equally a env c [] [.call .result] default_flavor t v v' he h h'
    simp only [List.nil_append] at q q'
    rw [e1] at q
    rw [e1', ← Except.ok.inj q] at q'
    rw [(List.cons.inj (Except.ok.inj q')).1, e3] at e3'
    exact Except.ok.inj e3'
  · intro vs hc hr h
    obtain ⟨h_, e, _⟩ := AlgName.construct_ok (ts := []) hc (AlgName.room_of hr (Nat.le_refl _))
    have hcall : ∀ v ∈ vs, Hasher.call a env h_ t v = .ok (H v) := fun v hv => by
      obtain ⟨r, e1, _, e3⟩ := hH v (h v hv)
      rw [Hasher.call_eq a env c t v e e1, e3]
    refine ⟨?_, ?_⟩
    · unfold Hasher.use
      rw [e, Except.bind_ok]
      exact mapM_ok vs hcall
    · unfold Hasher.useFresh
      refine mapM_ok vs fun v hv => ?_
      rw [e, Except.bind_ok]
      exact hcall v hv

/-- **C44.** hash< T, H1, H2 > of example/hash_32_64.cpp, with fnv1a, siphash or xxhash: the value is the result of H1 or H2, bit by bit -/
theorem hash_32_64_returns_result (env : Env) (h1 h2 : AlgName)
    (hh : (h1, h2) ∈ [(AlgName.fnv1a_32, AlgName.fnv1a_64), (.siphash_32, .siphash_64), (.xxhash_32, .xxhash_64)]) :
    ∃ (w : 8 * env.ptrSz.n = 64 ∨ 8 * env.ptrSz.n = 32) (e : (Hasher.hashType env h1 h2).impl.R = BitVec (8 * env.ptrSz.n)),
      ∀ r, (Hasher.hashType env h1 h2).integralAs env env.ptrSz.n r = .ok (e ▸ r) := by
  have s8 : ∀ r, Integral.get 8 8 r = .ok r := fun r => integral_result_same .s8 r
  have s4 : ∀ r, Integral.get 4 4 r = .ok r := fun r => integral_result_same .s4 r
  simp only [List.mem_cons, Prod.mk.injEq, List.not_mem_nil, or_false] at hh
  unfold Hasher.hashType
  rcases ptrSz_cases env with e | e <;> rw [e] <;> rcases hh with ⟨rfl, rfl⟩ | ⟨rfl, rfl⟩ | ⟨rfl, rfl⟩
  · exact ⟨.inl rfl, rfl, s8⟩
  · exact ⟨.inl rfl, rfl, s8⟩
  · exact ⟨.inl rfl, rfl, s8⟩
  · exact ⟨.inr rfl, rfl, s4⟩
  · exact ⟨.inr rfl, rfl, s4⟩
  · exact ⟨.inr rfl, rfl, s4⟩

/-- **C44.** Converted to std::size_t, a result never gets lost or mixed up unless it is wider: if it is at most as wide, different
results have different values. -/
theorem size_t_of_result_injective (a : AlgName) (env : Env) (ha : ∀ d, a ≠ .digest d) (h : a.resultSize ≤ env.ptrSz.n) (r r' : a.impl.R)
    (e : a.integralAs env env.ptrSz.n r = a.integralAs env env.ptrSz.n r') : r = r' := by
  have w4 : ∀ r r' : BitVec 32, Integral.get 4 env.ptrSz.n r = Integral.get 4 env.ptrSz.n r' → r = r' := fun r r' =>
    (integral_result_injective .s4 env.ptrSz (by rcases ptrSz_cases env with e | e <;> rw [e] <;> decide)).2 r r'
  have w8 : 8 ≤ env.ptrSz.n → ∀ r r' : BitVec 64, Integral.get 8 env.ptrSz.n r = Integral.get 8 env.ptrSz.n r' → r = r' := fun h r r' =>
    (integral_result_injective .s8 env.ptrSz h).2 r r'
  have h16 : env.ptrSz.n ≤ 8 := by rcases ptrSz_cases env with e | e <;> rw [e] <;> decide
  cases a with
  | digest d => exact absurd rfl (ha d)
  | murmur3_128 => simp only [AlgName.resultSize] at h; omega
  | spooky2_128 => simp only [AlgName.resultSize] at h; omega
  | siphash_64 => exact w8 h _ _ e
  | xxhash_64 => exact w8 h _ _ e
  | fnv1a_64 => exact w8 h _ _ e
  | siphash_32 => exact w4 _ _ e
  | xxhash_32 => exact w4 _ _ e
  | fnv1a_32 => exact w4 _ _ e
  | murmur3_32 => exact w4 _ _ e

example : Hasher.hashType le64 .siphash_32 .siphash_64 = .siphash_64 ∧ Hasher.hashType be32 .siphash_32 .siphash_64 = .siphash_32 :=
  ⟨rfl, rfl⟩

-- std::unordered_map with keys like aDict, the function object seeded
example : Hasher.Key .siphash_64 le64 (.seed 5) dict aDict where
  ctor := trivial
  valid p hp := by
    simp only [List.mem_cons, List.not_mem_nil, or_false] at hp
    rcases hp with rfl | rfl
    · refine ⟨by simp [dict, wellFormed, wellFormedAll], ?_, fun _ => by simp [dict, pointerFree, pointerFreeAll]⟩
      simp [dict, aDict, Spec.Valid, ValidAll]
    · rfl
  null := .inl trivial
  round := rfl
  room := trivial

/-! ### C46: sums of files -/

/-- the size of a digest -/
theorem result_has_size (d : DigestName) (env : Env) (ops : List Op) (msg r : List Byte) (h : stream ops = some (msg.map .data))
    (hn : (AlgName.digest d).NullOk env ∨ NoNull ops) (e : (AlgName.digest d).impl.exec env .default (ops ++ [.result]) = .ok [r]) :
    r.length = d.resultSize := by
  have := AlgName.exec_message (a := .digest d) (c := .default) trivial h hn trivial
  rw [this] at e
  have e : (d.machine.value (Ctor.default.start d.machine) msg) = r := (List.cons.inj (Except.ok.inj e)).1
  rw [← e]
  exact d.res_size _

theorem DigestName.resultSize_le : ∀ d : DigestName, d.resultSize ≤ 64
  | .hmac H => H.resultSize_le
  | .md5_128 | .sha1_160 | .sha2_256 | .sha2_224 | .sha2_512 | .sha2_384 | .sha2_512_224 | .sha2_512_256 | .ripemd_128 | .ripemd_160 => by decide

/-- the class and the function that belong to a name -/
theorem sum_of_name (env : Env) : ∀ x ∈ sumFunctions, ∃ d i, Sum.hashes[i]? = some d ∧ i < Sum.hashes.length ∧
    ((List.range Sum.hashes.length).filter fun i => Sum.names[i]? == some x.1) = [i] ∧
    ∀ ops msg, stream ops = some (msg.map .data) → NoNull ops → msg.length < 2 ^ 61 →
      (AlgName.digest d).impl.exec env .default (ops ++ [.result]) = .ok [x.2 msg] := by
  intro x hx
  simp only [sumFunctions, List.mem_cons, List.not_mem_nil, or_false] at hx
  rcases hx with rfl | rfl | rfl | rfl | rfl | rfl | rfl | rfl | rfl | rfl
  · exact ⟨.md5_128, 0, rfl, by decide, by decide, fun ops msg h hn hl => md5_rfc1321 env ops msg h⟩
  · exact ⟨.sha1_160, 1, rfl, by decide, by decide, fun ops msg h hn hl => sha1_fips180 env ops msg h⟩
  · exact ⟨.sha2_256, 2, rfl, by decide, by decide, fun ops msg h hn hl => sha256_fips180 env ops msg h (.inr hn)⟩
  · exact ⟨.sha2_224, 3, rfl, by decide, by decide, fun ops msg h hn hl => sha224_fips180 env ops msg h (.inr hn)⟩
  · exact ⟨.sha2_512, 4, rfl, by decide, by decide, fun ops msg h hn hl => sha512_fips180 env ops msg h hl (.inr hn)⟩
  · exact ⟨.sha2_384, 5, rfl, by decide, by decide, fun ops msg h hn hl => sha384_fips180 env ops msg h hl (.inr hn)⟩
  · exact ⟨.sha2_512_224, 7, rfl, by decide, by decide, fun ops msg h hn hl => sha512_224_fips180 env ops msg h hl (.inr hn)⟩
  · exact ⟨.sha2_512_256, 6, rfl, by decide, by decide, fun ops msg h hn hl => sha512_256_fips180 env ops msg h hl (.inr hn)⟩
  · exact ⟨.ripemd_128, 9, rfl, by decide, by decide, fun ops msg h hn hl => ripemd128_paper env ops msg h⟩
  · exact ⟨.ripemd_160, 8, rfl, by decide, by decide, fun ops msg h hn hl => ripemd160_paper env ops msg h⟩

/-- **C46.** hash2sum, called with the name of a hash function, prints for every file the hexadecimal hash of its contents, however
std::fread cuts these into pieces. -/
theorem hash2sum_prints_hash (env : Env) (name : String) (H : List Byte → List Byte) (h : (name, H) ∈ sumFunctions) (files : List Sum.Reads)
    (hf : ∀ f ∈ files, (∀ bs ∈ f, bs.length ≤ 4096) ∧ (fileContents f).length < 2 ^ 61) :
    Sum.main env name files = .ok (some (files.map fun f => hex (H (fileContents f)))) := by
  obtain ⟨d, i, hd, hi, hfil, hH⟩ := sum_of_name env _ h
  have hsum : ∀ f ∈ files, Sum.hash2sum d env f = .ok (hex (H (fileContents f))) := fun f hm => by
    obtain ⟨h1, h2⟩ := hf f hm
    have e := hH _ _ (Sum.calls_stream f ((List.range 4096).map env.garbage)) (Sum.calls_noNull f _) h2
    have hlen := result_has_size d env _ _ _ (Sum.calls_stream f ((List.range 4096).map env.garbage)) (.inr (Sum.calls_noNull f _)) e
    rw [Sum.hash2sum_eq d env f h1 e]
    refine (to_string_is_hex env d.resultSize _ hlen ?_ []).1
    have := d.resultSize_le
    rcases sizeBits_cases env with h | h <;> rw [h] <;> omega
  have e : (files.mapM (Sum.hash2sum d env)) = .ok (files.map fun f => hex (H (fileContents f))) := mapM_ok files hsum
  unfold Sum.main
  simp only at hfil
  rw [hfil, List.mapM_cons]
  simp only [hd, e, Except.bind_ok, List.mapM_nil]
  show Except.ok (if (List.isEmpty [_]) = true then _ else _) = _
  simp

/-- **C46.** Called with another name, it prints no hash. -/
theorem hash2sum_unknown_name (env : Env) (name : String) (h : ∀ H, (name, H) ∉ sumFunctions) (files : List Sum.Reads) :
    Sum.main env name files = .ok none := by
  have hn : name ∉ Sum.names := fun hm => by
    simp only [Sum.names, List.mem_cons, List.not_mem_nil, or_false] at hm
    rcases hm with rfl | rfl | rfl | rfl | rfl | rfl | rfl | rfl | rfl | rfl <;>
    exact h _ (by
      simp only [sumFunctions, List.mem_cons, Prod.mk.injEq, List.not_mem_nil, or_false]
      simp; rfl)
  unfold Sum.main
  have : ((List.range Sum.hashes.length).filter fun i => Sum.names[i]? == some name) = [] := by
    refine List.filter_eq_nil_iff.2 fun i hi => ?_
    intro he
    exact hn (List.mem_of_getElem? (beq_iff_eq.1 he))
  rw [this]
  rfl

example : Sum.main le64 "sha2_256" [[[0x61, 0x62], [0x63]], [[]]] = .ok (some [hex (SHA2.sha256.hash abc), hex (SHA2.sha256.hash [])]) :=
  hash2sum_prints_hash le64 _ _ (by simp [sumFunctions]) _ (by simp [fileContents])

/-! ### C47: 128 bits from xxhash_64 -/

theorem no_result {ops : List Op} {msg : List Byte} (h : stream ops = some (msg.map .data)) : Op.result ∉ ops := by
  induction ops generalizing msg with
  | nil => simp
  | cons op ops ih =>
    unfold stream at h
    cases ht : op.toks with
    | none => rw [ht] at h; cases h
    | some t =>
      cases hs : stream ops with
      | none => rw [ht, hs] at h; cases h
      | some ts =>
        rw [ht, hs] at h
        have h : t ++ ts = msg.map .data := Option.some.inj h
        obtain ⟨m1, m2, -, e1, e2⟩ := List.append_eq_map_iff.1 h
        intro hm
        rcases List.mem_cons.1 hm with rfl | hm
        · cases ht
          have : Tok.fin ∈ m1.map Tok.data := by rw [e1]; exact List.mem_singleton_self _
          simp at this
        · exact ih (hs.trans (congrArg some e2.symm)) hm

theorem xxhash_128_run (env : Env) (ops : List Op) (h : Op.result ∉ ops) : ∀ s, XXH128.xxhash_128.run env s (ops ++ [.result]) = (do
    let (s, _) ← xxhash_64.run env s ops
    let (s, r) ← XXH128.result env s
    return (s, [r])) := by
  induction ops with
  | nil => intro s; rfl
  | cons op ops ih =>
    intro s
    cases op with
    | result => simp at h
    | update p n =>
      have h' : Op.result ∉ ops := fun hm => h (List.mem_cons_of_mem _ hm)
      simp only [List.cons_append, HashAlg.run, bind_assoc]
      show xxhash_64.update env s p n >>= _ = _
      congr 1
      funext s'
      exact ih h' s'

theorem xxhash_64_run2 (env : Env) (ops : List Op) (h : Op.result ∉ ops) : ∀ s, xxhash_64.run env s (ops ++ [.result, .result]) = (do
    let (s, _) ← xxhash_64.run env s ops
    let (s, r1) ← xxhash_64.result env s
    let (s, r2) ← xxhash_64.result env s
    return (s, [r1, r2])) := by
  induction ops with
  | nil =>
    intro s
    simp only [List.nil_append, HashAlg.run, bind_assoc, Except.bind_ok]
    rfl
  | cons op ops ih =>
    intro s
    cases op with
    | result => simp at h
    | update p n =>
      have h' : Op.result ∉ ops := fun hm => h (List.mem_cons_of_mem _ hm)
      simp only [List.cons_append, HashAlg.run, bind_assoc]
      congr 1
      funext s'
      exact ih h' s'

/-- whatever xxhash_64 returns for result() twice, xxhash_128 returns together -/
theorem xxhash_128_of_64 (env : Env) (c : Ctor) (ops : List Op) (hn : Op.result ∉ ops) (r1 r2 : W64)
    (h : xxhash_64.exec env c (ops ++ [.result, .result]) = .ok [r1, r2]) :
    XXH128.xxhash_128.exec env c (ops ++ [.result]) = .ok [natLE 8 r1.toNat ++ natLE 8 r2.toNat] := by
  unfold HashAlg.exec at h ⊢
  have ec : XXH128.xxhash_128.construct env c = xxhash_64.construct env c := by cases c <;> rfl
  rw [ec]
  cases hc : xxhash_64.construct env c with
  | error e => rw [hc] at h; cases h
  | ok s =>
    rw [hc] at h
    simp only [Except.bind_ok] at h
    rw [xxhash_64_run2 env ops hn] at h
    refine (congrArg (fun m : M (xxhash_64.State × List (List Byte)) => m >>= fun p => Except.ok p.2) (xxhash_128_run env ops hn s)).trans ?_
    beta_reduce
    cases hr : xxhash_64.run env s ops with
    | error e => rw [hr] at h; cases h
    | ok q =>
      rw [hr] at h
      simp only [Except.bind_ok] at h ⊢
      unfold XXH128.result
      cases h1 : xxhash_64.result env q.1 with
      | error e => rw [h1] at h; cases h
      | ok q1 =>
        rw [h1] at h
        simp only [Except.bind_ok] at h ⊢
        cases h2 : xxhash_64.result env q1.1 with
        | error e => rw [h2] at h; cases h
        | ok q2 =>
          rw [h2] at h
          simp only [Except.bind_ok] at h ⊢
          have h : ([q1.2, q2.2] : List W64) = [r1, r2] := Except.ok.inj h
          have e1 : q1.2 = r1 := (List.cons.inj h).1
          have e2 : q2.2 = r2 := (List.cons.inj (List.cons.inj h).2).1
          rw [e1, e2]
          show Except.ok [_] = Except.ok [_]
          congr 2

/-- **C47.** xxhash_128( k ) of example/xxh128_from_xxh64.cpp: the first half of the digest is XXH64 of the message with seed k, the
second what the second call of result() returns, both least significant byte first, on every platform. -/
theorem xxhash_128_halves (env : Env) (k : W64) (ops : List Op) (msg : List Byte) (h : stream ops = some (msg.map .data))
    (hl : msg.length < 2 ^ 64) :
    ∃ r2 : W64, AlgName.xxhash_64.impl.exec env (.seed k) (ops ++ [.result, .result]) = .ok [XXH64.hash k msg, r2] ∧
      XXH128.xxhash_128.exec env (.seed k) (ops ++ [.result]) = .ok [natLE 8 (XXH64.hash k msg).toNat ++ natLE 8 r2.toNat] := by
  have hs : stream (ops ++ [.result, .result]) = some (msg.map .data ++ [.fin, .fin]) := by
    have := stream_result _ _ (stream_result _ _ h)
    rw [List.append_assoc, List.append_assoc] at this
    exact this
  have e := AlgName.exec_ok (a := .xxhash_64) (env := env) (c := .seed k) trivial hs (.inl trivial) trivial
  have e1 := AlgName.exec_ok (a := .xxhash_64) (env := env) (c := .seed k) trivial (stream_result _ _ h) (.inl trivial) trivial
  rw [xxhash64_spec env k ops msg h hl] at e1
  have e1 := Except.ok.inj e1
  obtain ⟨s, _, r⟩ := AlgName.construct_ok (env := env) (a := .xxhash_64) (c := .seed k) (ts := []) trivial trivial
  rw [Machine.run_append, (((AlgName.xxhash_64).impls env).run_data r msg).1] at e e1
  have key : ∀ (S : Machine W64) (q : S.S) (x : W64), [x] = [] ++ (S.run q [Tok.fin]).2 → ∃ y, [] ++ (S.run q [Tok.fin, Tok.fin]).2 = [x, y] := by
    intro S q x h
    refine ⟨(S.res (S.res q).1).2, ?_⟩
    have : [x] = [(S.res q).2] := h
    rw [(List.cons.inj this).1]
    rfl
  obtain ⟨r2, h2⟩ := key _ _ _ e1
  have e : xxhash_64.exec env (.seed k) (ops ++ [.result, .result]) = .ok [XXH64.hash k msg, r2] := e.trans (congrArg Except.ok h2)
  exact ⟨r2, e, xxhash_128_of_64 env _ ops (no_result h) _ _ e⟩

example : ∃ r2 : W64, AlgName.xxhash_64.impl.exec be32 (.seed 9) ([.update (.mem abc) 3] ++ [.result, .result]) = .ok [XXH64.hash 9 abc, r2] ∧
    XXH128.xxhash_128.exec be32 (.seed 9) ([.update (.mem abc) 3] ++ [.result]) = .ok [natLE 8 (XXH64.hash 9 abc).toNat ++ natLE 8 r2.toNat] :=
  xxhash_128_halves _ _ _ _ rfl (by decide)

end Hash2

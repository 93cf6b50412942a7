import Verif.Lemmas.All
import Verif.Spec.Platforms
/-
Lemmas for the statements about histories: streams, the fault of SHA-2, independence of the width of std::size_t.
-/
namespace Hash2
open Spec

/-- the class counts the bytes in a std::size_t -/
def AlgName.countsInSizeT : AlgName → Bool
  | .xxhash_32 | .murmur3_32 | .murmur3_128 | .spooky2_128 => true
  | _ => false

theorem stream_append (xs ys : List Op) :
    stream (xs ++ ys) = (do let a ← stream xs; let b ← stream ys; return a ++ b) := by
  induction xs with
  | nil => simp [stream]
  | cons x xs ih =>
    simp only [List.cons_append, stream, ih]
    cases x.toks <;> cases stream xs <;> cases stream ys <;> simp

theorem stream_result (ops : List Op) (ts : List Tok) (h : stream ops = some ts) : stream (ops ++ [.result]) = some (ts ++ [.fin]) := by
  rw [stream_append, h]; simp [stream, Op.toks]

/-! ### two objects that differ in the width of the counter only -/

theorem Machine.run_fin {R : Type} (M : Machine R) (s : M.S) (ts : List Tok) :
    M.run s (.fin :: ts) = ((M.run (M.res s).1 ts).1, (M.res s).2 :: (M.run (M.res s).1 ts).2) := rfl

theorem run_ctr {τ R : Type} (T : BlockHash τ R) (hN : T.N ≤ 192) (hr : ∀ n, T.renum n ≤ n) (c₁ c₂ : Nat)
    (i₁ i₂ : Obj τ) (s₁ s₂ : BitVec 64 → Obj τ) (b₁ b₂ : List Byte → Obj τ) (ts : List Tok) (o : Obj τ)
    (h₁ : o.n + cost ts < 2 ^ c₁) (h₂ : o.n + cost ts < 2 ^ c₂) :
    (({ T with ctr := c₁ } : BlockHash τ R).machine i₁ s₁ b₁).run o ts = (({ T with ctr := c₂ } : BlockHash τ R).machine i₂ s₂ b₂).run o ts := by
  induction ts generalizing o with
  | nil => rfl
  | cons t ts ih =>
    rw [cost_cons] at h₁ h₂
    cases t with
    | data b =>
      simp only [Tok.cost] at h₁ h₂
      have e : ({ T with ctr := c₁ } : BlockHash τ R).absorb o [b] = ({ T with ctr := c₂ } : BlockHash τ R).absorb o [b] := by
        simp only [BlockHash.absorb, List.length_singleton]
        rw [Nat.mod_eq_of_lt (by omega), Nat.mod_eq_of_lt (by omega)]
      have hn := ({ T with ctr := c₁ } : BlockHash τ R).absorb_n o [b]
      simp only [List.length_singleton] at hn
      show (({ T with ctr := c₁ } : BlockHash τ R).machine i₁ s₁ b₁).run (({ T with ctr := c₁ } : BlockHash τ R).absorb o [b]) ts
        = (({ T with ctr := c₂ } : BlockHash τ R).machine i₂ s₂ b₂).run (({ T with ctr := c₂ } : BlockHash τ R).absorb o [b]) ts
      rw [← e]
      exact ih _ (by omega) (by omega)
    | fin =>
      simp only [Tok.cost] at h₁ h₂
      have e : ({ T with ctr := c₁ } : BlockHash τ R).res o = ({ T with ctr := c₂ } : BlockHash τ R).res o := by
        simp only [BlockHash.res]
        rw [Nat.mod_eq_of_lt (by omega), Nat.mod_eq_of_lt (by omega)]
      have hn : _ ≤ o.n + T.N := ({ T with ctr := c₁ } : BlockHash τ R).res_n hr o
      have := ih (({ T with ctr := c₁ } : BlockHash τ R).res o).1 (by omega) (by omega)
      let M₂ : Machine R := ({ T with ctr := c₂ } : BlockHash τ R).machine i₂ s₂ b₂
      exact Prod.ext
        ((congrArg Prod.fst this).trans (congrArg (fun x : Obj τ × R => (M₂.run x.1 ts).1) e))
        (congrArg₂ List.cons (congrArg (fun x : Obj τ × R => x.2) e)
          ((congrArg Prod.snd this).trans (congrArg (fun x : Obj τ × R => (M₂.run x.1 ts).2) e)))

/-- the objects produced by a seed that is processed as a message do not depend on the width either -/
theorem seed_ctr {τ R : Type} (T : BlockHash τ R) (hN : T.N ≤ 192) (c₁ c₂ : Nat) (o : Obj τ) (bs : List Byte)
    (h₁ : o.n + bs.length + 192 < 2 ^ c₁) (h₂ : o.n + bs.length + 192 < 2 ^ c₂) :
    (({ T with ctr := c₁ } : BlockHash τ R).res (({ T with ctr := c₁ } : BlockHash τ R).absorb o bs)).1
      = (({ T with ctr := c₂ } : BlockHash τ R).res (({ T with ctr := c₂ } : BlockHash τ R).absorb o bs)).1 := by
  simp only [BlockHash.absorb, BlockHash.res]
  rw [Nat.mod_eq_of_lt (by omega : o.n + bs.length < 2 ^ c₁), Nat.mod_eq_of_lt (by omega : o.n + bs.length < 2 ^ c₂),
    Nat.mod_eq_of_lt (by omega), Nat.mod_eq_of_lt (by omega)]

theorem sizeBits_le (env : Env) : 2 ^ 32 ≤ 2 ^ env.sizeBits := by
  rcases sizeBits_cases env with h | h <;> rw [h] <;> decide

/-- the start of an object whose byte seed may be processed as a message -/
theorem start_n_le {τ R : Type} (T : BlockHash τ R) (hN : T.N ≤ 192) (hr : ∀ n, T.renum n ≤ n) (st : τ) (p : Ptr) (n k : Nat) :
    (T.res (T.absorb (Obj.start st) ((p.bytes n).drop k))).1.n ≤ n + 192 := by
  refine Nat.le_trans (T.res_n hr _) ?_
  have h1 := T.absorb_n (Obj.start st) ((p.bytes n).drop k)
  have h2 := Ptr.bytes_length p n
  rw [List.length_drop] at h1
  have h3 : (Obj.start st).n = 0 := rfl
  omega

/-- The width of the counter does not matter for objects of the shape used here. `P` is a bound below both 2^c₁ and 2^c₂. -/
theorem width_gen {τ R : Type} (T : Nat → BlockHash τ R) (hT : ∀ c, T c = { T 0 with ctr := c }) (hN : (T 0).N ≤ 192)
    (hr : ∀ n, (T 0).renum n ≤ n) (i : τ) (s : BitVec 64 → τ) (b : Nat → List Byte → Obj τ)
    (hb : ∀ c bs, (∃ st, b c bs = Obj.start st ∧ ∀ c', b c' bs = Obj.start st) ∨
      ∃ st k, ∀ c', b c' bs = ((T c').res ((T c').absorb (Obj.start st) (bs.drop k))).1)
    (P c₁ c₂ : Nat) (l₁ : P ≤ 2 ^ c₁) (l₂ : P ≤ 2 ^ c₂) (c : Ctor) (ts : List Tok) (hs : c.cost + cost ts < P) :
    (((T c₁).machine (Obj.start i) (fun k => Obj.start (s k)) (b c₁)).run
      (c.start ((T c₁).machine (Obj.start i) (fun k => Obj.start (s k)) (b c₁))) ts).2
    = (((T c₂).machine (Obj.start i) (fun k => Obj.start (s k)) (b c₂)).run
      (c.start ((T c₂).machine (Obj.start i) (fun k => Obj.start (s k)) (b c₂))) ts).2 := by
  have hn : ∃ o : Obj τ, o.n ≤ c.cost ∧ c.start ((T c₁).machine (Obj.start i) (fun k => Obj.start (s k)) (b c₁)) = o ∧
      c.start ((T c₂).machine (Obj.start i) (fun k => Obj.start (s k)) (b c₂)) = o := by
    cases c with
    | default => exact ⟨_, Nat.le_refl _, rfl, rfl⟩
    | seed k => exact ⟨_, Nat.le_refl _, rfl, rfl⟩
    | bytes p n =>
      rcases hb c₁ (p.bytes n) with ⟨st, h1, h2⟩ | ⟨st, k, h⟩
      · exact ⟨Obj.start st, Nat.zero_le _, h1, h2 c₂⟩
      · have hp := Ptr.bytes_length p n
        have h0 : n + 192 + cost ts < P := hs
        have hd : ((p.bytes n).drop k).length ≤ n := by rw [List.length_drop]; omega
        refine ⟨_, start_n_le (T c₁) (by rw [hT c₁]; exact hN) (by rw [hT c₁]; exact hr) st p n k, h c₁, (h c₂).trans ?_⟩
        rw [hT c₁, hT c₂]
        exact (seed_ctr (T 0) hN c₁ c₂ (Obj.start st) ((p.bytes n).drop k)
          (by show 0 + _ + 192 < _; omega) (by show 0 + _ + 192 < _; omega)).symm
  obtain ⟨o, hn, h1, h2⟩ := hn
  rw [h1, h2, hT c₁, hT c₂]
  exact congrArg Prod.snd (run_ctr (T 0) hN hr c₁ c₂ _ _ _ _ _ _ ts o (by omega) (by omega))

theorem AlgName.run_width (a : AlgName) (env₁ env₂ : Env) (c : Ctor) (ts : List Tok)
    (hs : env₁.size64 = env₂.size64 ∨ a.countsInSizeT = false ∨ c.cost + cost ts < 2 ^ 32) :
    ((a.machine env₁.sizeBits).run (c.start (a.machine env₁.sizeBits)) ts).2
      = ((a.machine env₂.sizeBits).run (c.start (a.machine env₂.sizeBits)) ts).2 := by
  rcases hs with hs | hs | hs
  · have : env₁.sizeBits = env₂.sizeBits := by unfold Env.sizeBits; rw [hs]
    rw [this]
  · cases a <;> first | rfl | cases hs
  have l₁ := sizeBits_le env₁
  have l₂ := sizeBits_le env₂
  generalize 2 ^ 32 = P at hs l₁ l₂
  generalize env₁.sizeBits = c₁ at l₁ ⊢
  generalize env₂.sizeBits = c₂ at l₂ ⊢
  cases a with
  | xxhash_32 =>
    exact width_gen XXH32.obj (fun _ => rfl) (by decide) (fun _ => Nat.le_refl _) (XXH32.start 0) XXH32.seeded (fun c => (XXH32.machine c).bytes) (by
      intro c bs
      by_cases h : bs = []
      · exact .inl ⟨XXH32.start 0, if_pos h, fun _ => if_pos h⟩
      · exact .inr ⟨XXH32.start 0, 0, fun _ => if_neg h⟩) P c₁ c₂ l₁ l₂ c ts hs
  | murmur3_32 =>
    exact width_gen MURMUR3.x86_32.obj (fun _ => rfl) (by decide) (fun _ => Nat.le_refl _) 0
      (fun k =>
        let lo := BitVec.ofNat 32 k.toNat
        let hi := BitVec.ofNat 32 (k.toNat / 2 ^ 32)
        if hi = 0 then lo else MURMUR3.x86_32.body lo hi) (fun c => (MURMUR3.x86_32.machine c).bytes) (by
      intro c bs
      by_cases h : bs.length ≤ 4
      · exact .inl ⟨_, if_pos h, fun _ => if_pos h⟩
      · exact .inr ⟨_, 4, fun _ => if_neg h⟩) P c₁ c₂ l₁ l₂ c ts hs
  | murmur3_128 =>
    exact width_gen MURMUR3.x64_128.obj (fun _ => rfl) (by decide) (fun _ => Nat.le_refl _) ⟨0, 0⟩ (fun k => ⟨k, k⟩) (fun c => (MURMUR3.x64_128.machine c).bytes) (by
      intro c bs
      by_cases h : bs.length ≤ 8
      · exact .inl ⟨_, if_pos h, fun _ => if_pos h⟩
      · by_cases h' : bs.length ≤ 16
        · exact .inl ⟨_, (if_neg h).trans (if_pos h'), fun _ => (if_neg h).trans (if_pos h')⟩
        · exact .inr ⟨_, 16, fun _ => (if_neg h).trans (if_neg h')⟩) P c₁ c₂ l₁ l₂ c ts hs
  | spooky2_128 =>
    exact width_gen SPOOKY.obj (fun _ => rfl) (by decide) (spooky_renum 0) (SPOOKY.start 0 0) (fun k => SPOOKY.start k 0) (fun c => (SPOOKY.machine c).bytes) (by
      intro c bs
      by_cases h : bs.length ≤ 16
      · exact .inl ⟨_, if_pos h, fun _ => if_pos h⟩
      · exact .inr ⟨_, 16, fun _ => if_neg h⟩) P c₁ c₂ l₁ l₂ c ts hs
  | _ => rfl

/-! ### update( nullptr, 0 ) of the SHA-2 classes -/

/-- what `sha2_null_fault` is proved from, at each class -/
theorem md_null_fault {σ τ : Type} {D : MdCfg σ} {T : Md τ} {env : Env} (K : MdOk D T env) (hearly : (D.cfg env).early = false)
    (he : env.loops = false) {s : BlockState σ} {log : List Byte} (h : Hash2.Rel (D.cfg env) s (K.abs log))
    (hm : log.length % T.N ≠ 0) : D.update env s .null 0 = .error .nullMemcpy :=
  update_null_fault env h hearly he (by
    rw [h.m]
    show 0 < (rest T.N log).length
    rw [rest_length]; omega)

theorem hmacImpls_rel {H : DigestAlg} {env : Env} {S : Machine (List Byte)} (I : Implements H.toHash env S) (G : Hmac.Good I) {B : Nat}
    (hB : H.blockSize = B) {p : Prop} (hn : p → I.nullSafe) (s : Hmac.State H) (a : S.S × S.S) :
    (hmacImpls I G hB hn).1.Rel s a ↔ I.Rel s.outer a.1 ∧ I.Rel s.inner a.2 := by
  subst hB; exact Iff.rfl

/-- number of bytes in the incomplete block of the abstract object -/
def DigestName.pending : (d : DigestName) → d.machine.S → Nat
  | .md5_128, log => List.length (α := Byte) log % 64
  | .sha1_160, log => List.length (α := Byte) log % 64
  | .sha2_256, log => List.length (α := Byte) log % 64
  | .sha2_224, log => List.length (α := Byte) log % 64
  | .ripemd_128, log => List.length (α := Byte) log % 64
  | .ripemd_160, log => List.length (α := Byte) log % 64
  | .sha2_512, log => List.length (α := Byte) log % 128
  | .sha2_384, log => List.length (α := Byte) log % 128
  | .sha2_512_224, log => List.length (α := Byte) log % 128
  | .sha2_512_256, log => List.length (α := Byte) log % 128
  | .hmac H, a => DigestName.pending H a.2

theorem append_mod (a bs : List Byte) (B : Nat) : (a ++ bs).length % B = (a.length % B + bs.length) % B := by
  rw [Nat.mod_add_mod, List.length_append]

theorem DigestName.pending_absorb (d : DigestName) (a : d.machine.S) (bs : List Byte) :
    d.pending (d.machine.absorb a bs) = (d.pending a + bs.length) % d.B := by
  induction d with
  | hmac H ih => exact ih a.2
  | _ => exact append_mod a bs _

theorem DigestName.B_pos (d : DigestName) : 0 < d.B := by induction d <;> simp_all [DigestName.B]

theorem DigestName.resLen (d : DigestName) (key : List Byte) : (d.machine.value d.machine.init key).length ≤ d.B := by
  have P := d.impls le64
  obtain ⟨s, e, r⟩ := P.1.init_ok
  have r2 := P.1.update_ok s _ key [] r (P.2.1.fits _ _)
  obtain ⟨s', _, r'⟩ := r2
  have := P.2.1.resLen s' _ r'
  rw [P.2.2.1] at this
  exact this

theorem DigestName.pending_init (d : DigestName) : d.pending d.machine.init = 0 := by
  induction d with
  | hmac H ih =>
    show H.pending (H.machine.absorb H.machine.init _) = 0
    rw [DigestName.pending_absorb, ih, List.length_map, Hmac.hmacKey_length _ _ _ (.inl (Nat.zero_le _)), Nat.zero_add, Nat.mod_self]
  | _ => rfl

theorem DigestName.null_fault (d : DigestName) (hd : d.isSha2 = true) (env : Env) (he : env.loops = false)
    (s : d.impl.State) (a : d.machine.S) (h : (d.impls env).1.Rel s a) (hp : d.pending a ≠ 0) :
    d.impl.update env s .null 0 = .error .nullMemcpy := by
  induction d with
  | hmac H ih =>
    have h' := (hmacImpls_rel (H.impls env).1 (H.impls env).2.1 (H.impls env).2.2.1 (H.impls env).2.2.2.1 s a).1 h
    show Hmac.update H.impl env s .null 0 = _
    unfold Hmac.update
    rw [ih hd s.inner a.2 h'.2 hp]
    rfl
  | sha2_256 => exact md_null_fault (Sha2.sha256_ok env) rfl he h hp
  | sha2_224 => exact md_null_fault (Sha2.sha224_ok env) rfl he h hp
  | sha2_512 => exact md_null_fault (Sha2.sha512_ok env) rfl he h hp
  | sha2_384 => exact md_null_fault (Sha2.sha384_ok env) rfl he h hp
  | sha2_512_224 => exact md_null_fault (Sha2.sha512_224_ok env) rfl he h hp
  | sha2_512_256 => exact md_null_fault (Sha2.sha512_256_ok env) rfl he h hp
  | _ => cases hd

theorem sha2_null_fault (d : DigestName) (hd : d.isSha2 = true) (env : Env) (he : env.loops = false) (msg : List Byte)
    (hm : msg.length % d.B ≠ 0) :
    d.impl.toHash.exec env .default [.update (.mem msg) msg.length, .update .null 0] = .error .nullMemcpy := by
  obtain ⟨s, e, r⟩ := (d.impls env).1.init_ok
  obtain ⟨s1, e1, r1⟩ := (d.impls env).1.update_ok s _ msg [] r ((d.impls env).2.1.fits _ _)
  rw [List.append_nil] at e1
  have hp : d.pending (d.machine.absorb d.machine.init msg) ≠ 0 := by
    rw [DigestName.pending_absorb, DigestName.pending_init, Nat.zero_add]; exact hm
  have e2 : d.impl.toHash.update env s1 .null 0 = .error .nullMemcpy := d.null_fault hd env he s1 _ r1 hp
  have e : d.impl.toHash.construct env .default = .ok s := e
  simp only [HashAlg.exec, e, Except.bind_ok, HashAlg.run, e1, e2]
  rfl

end Hash2

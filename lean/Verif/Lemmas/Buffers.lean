import Verif.Spec.Buffers
import Verif.Lemmas.Distinct
import Verif.Lemmas.Seeds
/-
Lemmas for Props/Buffers.lean.
-/
namespace Hash2
open Spec

theorem allZero_replicate (n : Nat) : AllZero (List.replicate n 0) := fun _ h => List.eq_of_mem_replicate h

/-- no incomplete block -/
def DigestName.aligned : (d : DigestName) → d.machine.S → Prop
  | .md5_128, s => List.length (α := Byte) s % 64 = 0
  | .sha1_160, s => List.length (α := Byte) s % 64 = 0
  | .sha2_256, s => List.length (α := Byte) s % 64 = 0
  | .sha2_224, s => List.length (α := Byte) s % 64 = 0
  | .sha2_512, s => List.length (α := Byte) s % 128 = 0
  | .sha2_384, s => List.length (α := Byte) s % 128 = 0
  | .sha2_512_224, s => List.length (α := Byte) s % 128 = 0
  | .sha2_512_256, s => List.length (α := Byte) s % 128 = 0
  | .ripemd_128, s => List.length (α := Byte) s % 64 = 0
  | .ripemd_160, s => List.length (α := Byte) s % 64 = 0
  | .hmac H, s => H.aligned s.1 ∧ H.aligned s.2

theorem MdOk.buf_eq {σ τ : Type} {D : MdCfg σ} {T : Md τ} {env : Env} (K : MdOk D T env) {s : BlockState σ} {log : List Byte}
    (h : Hash2.Rel (D.cfg env) s (K.abs log)) : s.buf = rest T.N log ++ List.replicate (T.N - (rest T.N log).length) 0 := by
  have := h.clear K.clear
  rwa [K.hN] at this

theorem MdOk.zero {σ τ : Type} {D : MdCfg σ} {T : Md τ} {env : Env} (K : MdOk D T env) {s : BlockState σ} {log : List Byte}
    (h : Hash2.Rel (D.cfg env) s (K.abs log)) (ha : log.length % T.N = 0) : ∀ b ∈ [s.buf], AllZero b := by
  intro b hb
  rw [List.mem_singleton] at hb
  subst hb
  have hr : rest T.N log = [] := List.length_eq_zero_iff.1 (by rw [rest_length]; exact ha)
  rw [K.buf_eq h, hr]
  exact allZero_replicate _

theorem DigestName.zero (env : Env) (d : DigestName) : ∀ (s : d.impl.State) (a : d.machine.S), (d.impls env).1.Rel s a → d.aligned a →
    ∀ b ∈ d.buffers s, AllZero b := by
  induction d with
  | hmac H ih =>
    intro s a h ha b hb
    have h := (hmacImpls_rel _ _ _ (H.impls env).2.2.2.1 _ _).1 h
    rcases List.mem_append.1 hb with hb | hb
    · exact ih _ _ h.1 ha.1 b hb
    · exact ih _ _ h.2 ha.2 b hb
  | md5_128 => exact fun s a h ha => (Md5.ok env).zero h ha
  | sha1_160 => exact fun s a h ha => (Sha1.ok env).zero h ha
  | sha2_256 => exact fun s a h ha => (Sha2.sha256_ok env).zero h ha
  | sha2_224 => exact fun s a h ha => (Sha2.sha224_ok env).zero h ha
  | sha2_512 => exact fun s a h ha => (Sha2.sha512_ok env).zero h ha
  | sha2_384 => exact fun s a h ha => (Sha2.sha384_ok env).zero h ha
  | sha2_512_224 => exact fun s a h ha => (Sha2.sha512_224_ok env).zero h ha
  | sha2_512_256 => exact fun s a h ha => (Sha2.sha512_256_ok env).zero h ha
  | ripemd_128 => exact fun s a h ha => (Rip128.ok env).zero h ha
  | ripemd_160 => exact fun s a h ha => (Rip160.ok env).zero h ha

theorem MdOk.pad_aligned {σ τ : Type} {D : MdCfg σ} {T : Md τ} {env : Env} (K : MdOk D T env) (log : List Byte) :
    (log ++ T.pad log.length).length % T.N = 0 := by
  rw [List.length_append]; exact K.pad_length _

theorem DigestName.res_aligned (env : Env) (d : DigestName) : ∀ (a : d.machine.S), d.aligned (d.machine.res a).1 := by
  induction d with
  | hmac H ih => exact fun a => ⟨ih _, ih _⟩
  | md5_128 => exact fun a => (Md5.ok env).pad_aligned a
  | sha1_160 => exact fun a => (Sha1.ok env).pad_aligned a
  | sha2_256 => exact fun a => (Sha2.sha256_ok env).pad_aligned a
  | sha2_224 => exact fun a => (Sha2.sha224_ok env).pad_aligned a
  | sha2_512 => exact fun a => (Sha2.sha512_ok env).pad_aligned a
  | sha2_384 => exact fun a => (Sha2.sha384_ok env).pad_aligned a
  | sha2_512_224 => exact fun a => (Sha2.sha512_224_ok env).pad_aligned a
  | sha2_512_256 => exact fun a => (Sha2.sha512_256_ok env).pad_aligned a
  | ripemd_128 => exact fun a => (Rip128.ok env).pad_aligned a
  | ripemd_160 => exact fun a => (Rip160.ok env).pad_aligned a

theorem len_add {N : Nat} {xs ys : List Byte} (h : xs.length % N = 0) (hy : ys.length = N) : (xs ++ ys).length % N = 0 := by
  rw [List.length_append, hy, Nat.add_mod_right]; exact h

theorem DigestName.absorb_aligned (d : DigestName) : ∀ (a : d.machine.S) (bs : List Byte), d.aligned a → bs.length = d.B →
    d.aligned (d.machine.absorb a bs) := by
  induction d with
  | hmac H ih => exact fun a bs h hl => ⟨h.1, ih _ _ h.2 hl⟩
  | _ => exact fun a bs h hl => len_add h hl

theorem hmacKey_length (H : List Byte → List Byte) (B : Nat) (key : List Byte) (hH : (H key).length ≤ B) : (hmacKey H B key).length = B := by
  unfold hmacKey
  simp only
  rw [List.length_append, List.length_replicate]
  split <;> omega

theorem DigestName.value_length (env : Env) (d : DigestName) (msg : List Byte) :
    (d.machine.value d.machine.init msg).length ≤ d.B := by
  have G := (d.impls env).2.1
  have hB := (d.impls env).2.2.1
  obtain ⟨s, _, r⟩ := (d.impls env).1.init_ok
  obtain ⟨s', _, r'⟩ := (d.impls env).1.update_ok s _ msg [] r (G.fits _ _)
  rw [← hB]
  exact G.resLen _ _ r'

theorem DigestName.init_aligned (env : Env) (d : DigestName) : d.aligned d.machine.init ∧ ∀ key, d.aligned (d.machine.bytes key) := by
  have hb : ∀ {σ τ : Type} {D : MdCfg σ} {T : Md τ} (K : MdOk D T env) (key : List Byte), List.length (α := Byte) (T.machine.bytes key) % T.N = 0 := by
    intro σ τ D T K key
    show List.length (if key = [] then [] else key ++ T.pad key.length) % T.N = 0
    split
    · simp
    · exact K.pad_aligned key
  induction d with
  | hmac H ih =>
    have key : ∀ key, (DigestName.hmac H).aligned (Machine.hmac.keyed H.machine H.B key) := fun key => by
      have hl := hmacKey_length (H.machine.value H.machine.init) H.B key (H.value_length env key)
      exact ⟨H.absorb_aligned _ _ ih.1 (by simpa using hl), H.absorb_aligned _ _ ih.1 (by simpa using hl)⟩
    exact ⟨key [], key⟩
  | md5_128 => exact ⟨rfl, hb (Md5.ok env)⟩
  | sha1_160 => exact ⟨rfl, hb (Sha1.ok env)⟩
  | sha2_256 => exact ⟨rfl, hb (Sha2.sha256_ok env)⟩
  | sha2_224 => exact ⟨rfl, hb (Sha2.sha224_ok env)⟩
  | sha2_512 => exact ⟨rfl, hb (Sha2.sha512_ok env)⟩
  | sha2_384 => exact ⟨rfl, hb (Sha2.sha384_ok env)⟩
  | sha2_512_224 => exact ⟨rfl, hb (Sha2.sha512_224_ok env)⟩
  | sha2_512_256 => exact ⟨rfl, hb (Sha2.sha512_256_ok env)⟩
  | ripemd_128 => exact ⟨rfl, hb (Rip128.ok env)⟩
  | ripemd_160 => exact ⟨rfl, hb (Rip160.ok env)⟩

theorem StreamOk.zero {σ τ R : Type} {c : BlockCfg σ} {res : BlockState σ → M (BlockState σ × R)} {T : BlockHash τ R}
    (K : StreamOk c res T) {s s' : BlockState σ} {o : Obj τ} (h : K.RelO s o) {r : R} (e : res s = .ok (s', r)) : ∀ b ∈ [s'.buf], AllZero b := by
  obtain ⟨buf, e', hb, _⟩ := K.res_ok s o h
  have := e.symm.trans e'
  simp only [Except.ok.injEq, Prod.mk.injEq] at this
  intro b hm
  rw [List.mem_singleton] at hm
  rw [hm, this.1, hb]
  exact allZero_replicate _

/-- after result() -/
theorem AlgName.result_zero (env : Env) (a : AlgName) (s s' : a.impl.State) (x : (a.machine env.sizeBits).S) (r : a.impl.R)
    (h : (a.impls env).Rel s x) (e : a.impl.result env s = .ok (s', r)) : ∀ b ∈ a.buffers s', AllZero b := by
  cases a with
  | digest d =>
    obtain ⟨s1, e1, r1⟩ := (d.impls env).1.result_ok s x h
    have hs : s' = s1 := congrArg Prod.fst (Except.ok.inj (e.symm.trans e1))
    subst hs
    exact d.zero env _ _ r1 (d.res_aligned env x)
  | siphash_64 => exact (Sip64.ok env).zero h e
  | siphash_32 => exact (Sip32.ok env).zero h e
  | xxhash_64 => exact (XX64.ok env).zero h e
  | xxhash_32 => exact (XX32.ok env).zero h e
  | fnv1a_32 => intro b hb; cases hb
  | fnv1a_64 => intro b hb; cases hb
  | murmur3_32 => exact (Mur32.ok env).zero h e
  | murmur3_128 => exact (Mur128.ok env).zero h e
  | spooky2_128 => exact (Spooky.ok env).zero h e

theorem HashAlg.run_append (A : HashAlg) (env : Env) (s : A.State) (xs ys : List Op) :
    A.run env s (xs ++ ys) = (do
      let (s, rs) ← A.run env s xs
      let (s, rs') ← A.run env s ys
      return (s, rs ++ rs')) := by
  induction xs generalizing s with
  | nil =>
    show A.run env s ys = (A.run env s ys >>= fun x => pure (x.1, [] ++ x.2))
    cases A.run env s ys with
    | error e => rfl
    | ok x => rfl
  | cons op ops ih =>
    cases op with
    | update p n =>
      simp only [List.cons_append, HashAlg.run]
      cases A.update env s p n with
      | error e => rfl
      | ok s1 => exact ih s1
    | result =>
      simp only [List.cons_append, HashAlg.run]
      cases A.result env s with
      | error e => rfl
      | ok s1 =>
        simp only [Except.bind_ok, ih]
        cases A.run env s1.1 ops with
        | error e => rfl
        | ok s2 =>
          simp only [Except.bind_ok, Except.pure_eq]
          cases A.run env s2.1 ys with
          | error e => rfl
          | ok s3 => rfl

/-- a constructor that processes its seed like a message leaves a zero buffer -/
theorem StreamOk.ctor_zero {σ τ R : Type} {c : BlockCfg σ} {res : BlockState σ → M (BlockState σ × R)} {T : BlockHash τ R}
    (K : StreamOk c res T) (env : Env) {s0 s : BlockState σ} {o : Obj τ} (h : K.RelO s0 o) {bs : List Byte} {n : Nat} (hn : n ≤ bs.length)
    (hf : K.fits o (bs.take n))
    (e : (do
      let s ← update env c s0 (.mem bs) n
      let (s, _) ← res s
      return s) = Except.ok s) : ∀ b ∈ [s.buf], AllZero b := by
  have := K.upd env h (bs.take n) (bs.drop n) hf
  rw [List.take_append_drop, List.length_take, Nat.min_eq_left hn] at this
  obtain ⟨s1, e1, r1⟩ := this
  obtain ⟨s2, e2, r2⟩ := K.res' r1
  rw [e1, Except.bind_ok, e2, Except.bind_ok] at e
  have : s2 = s := Except.ok.inj e
  rw [← this]
  exact K.zero r1 e2

theorem readable_ne {p : Ptr} {n : Nat} (h : p.Readable n) (hn : n ≠ 0) : ∃ bs, p = .mem bs ∧ n ≤ bs.length := by
  cases p with
  | null => exact absurd h hn
  | mem bs => exact ⟨bs, rfl, h⟩

theorem singleton_zero {b x : List Byte} (hb : b ∈ [x]) (h : AllZero x) : AllZero b := by
  rw [List.mem_singleton] at hb; rw [hb]; exact h

theorem fits_sz {σ τ R : Type} {c : BlockCfg σ} {res : BlockState σ → M (BlockState σ × R)} {T : BlockHash τ R}
    (K : StreamOk c res T) (h : T.N ∣ 2 ^ T.ctr) (o : Obj τ) (bs : List Byte) : K.fits o bs := .inl h

namespace Sip64
theorem initBytes_zero (env : Env) (p : Ptr) (n : Nat) (hv : p.Readable n) (s : BlockState (Q4 W64)) (e : initBytes env p n = .ok s) :
    ∀ b ∈ [s.buf], AllZero b := by
  unfold initBytes at e
  by_cases h16 : n = 16
  · subst h16
    rw [if_pos rfl] at e
    obtain ⟨bs, rfl, hl⟩ := readable_ne hv (by decide)
    rw [Ptr.add_mem (by omega), Except.bind_ok, read64le_ok _ _ (by simp; omega), Except.bind_ok, Ptr.add_mem (by omega), Except.bind_ok,
      read64le_ok _ _ (by simp; omega), Except.bind_ok] at e
    rw [← Except.ok.inj e]
    exact fun b hb => singleton_zero hb (allZero_replicate _)
  · rw [if_neg h16] at e
    by_cases h0 : n = 0
    · subst h0
      rw [if_neg (by simp)] at e
      rw [← Except.ok.inj e]
      exact fun b hb => singleton_zero hb (allZero_replicate _)
    · rw [if_pos h0] at e
      obtain ⟨bs, rfl, hl⟩ := readable_ne hv h0
      obtain ⟨s0, e0, r0⟩ := (implements env).init_ok
      have : init = s0 := Except.ok.inj e0
      subst this
      exact (ok env).ctor_zero env r0 hl (fits_sz _ ⟨2 ^ 61, rfl⟩ _ _) e
end Sip64

namespace Sip32
theorem initBytes_zero (env : Env) (p : Ptr) (n : Nat) (hv : p.Readable n) (s : BlockState (Q4 W32)) (e : initBytes env p n = .ok s) :
    ∀ b ∈ [s.buf], AllZero b := by
  unfold initBytes at e
  by_cases h8 : n = 8
  · subst h8
    rw [if_pos rfl] at e
    obtain ⟨bs, rfl, hl⟩ := readable_ne hv (by decide)
    rw [Ptr.add_mem (by omega), Except.bind_ok, read32le_ok _ _ (by simp; omega), Except.bind_ok, Ptr.add_mem (by omega), Except.bind_ok,
      read32le_ok _ _ (by simp; omega), Except.bind_ok] at e
    rw [← Except.ok.inj e]
    exact fun b hb => singleton_zero hb (allZero_replicate _)
  · rw [if_neg h8] at e
    by_cases h0 : n = 0
    · subst h0
      rw [if_neg (by simp)] at e
      rw [← Except.ok.inj e]
      exact fun b hb => singleton_zero hb (allZero_replicate _)
    · rw [if_pos h0] at e
      obtain ⟨bs, rfl, hl⟩ := readable_ne hv h0
      obtain ⟨s0, e0, r0⟩ := (implements env).init_ok
      have : init = s0 := Except.ok.inj e0
      subst this
      exact (ok env).ctor_zero env r0 hl (fits_sz _ ⟨2 ^ 30, rfl⟩ _ _) e
end Sip32

namespace XX64
theorem initBytes_zero (env : Env) (p : Ptr) (n : Nat) (hv : p.Readable n) (s : BlockState (Q4 W64)) (e : initBytes env p n = .ok s) :
    ∀ b ∈ [s.buf], AllZero b := by
  unfold initBytes ctorBytes at e
  by_cases h0 : n = 0
  · subst h0
    rw [if_neg (by simp)] at e
    rw [← Except.ok.inj e]
    exact fun b hb => singleton_zero hb (allZero_replicate _)
  · rw [if_pos h0] at e
    obtain ⟨bs, rfl, hl⟩ := readable_ne hv h0
    obtain ⟨s0, e0, r0⟩ := (implements env).init_ok
    have : init = s0 := Except.ok.inj e0
    subst this
    exact (ok env).ctor_zero env r0 hl (fits_sz _ ⟨2 ^ 59, rfl⟩ _ _) e
end XX64

namespace XX32
theorem initBytes_zero (env : Env) (p : Ptr) (n : Nat) (hv : p.Readable n) (s : BlockState (Q4 W32)) (e : initBytes env p n = .ok s) :
    ∀ b ∈ [s.buf], AllZero b := by
  unfold initBytes ctorBytes at e
  by_cases h0 : n = 0
  · subst h0
    rw [if_neg (by simp)] at e
    rw [← Except.ok.inj e]
    exact fun b hb => singleton_zero hb (allZero_replicate _)
  · rw [if_pos h0] at e
    obtain ⟨bs, rfl, hl⟩ := readable_ne hv h0
    obtain ⟨s0, e0, r0⟩ := (implements env).init_ok
    have : init = s0 := Except.ok.inj e0
    subst this
    refine (ok env).ctor_zero env r0 hl (fits_sz _ ?_ _ _) e
    show 16 ∣ 2 ^ env.sizeBits
    rcases sizeBits_cases env with h | h <;> rw [h] <;> decide
end XX32

theorem _root_.Except.bind_eq_ok {α β ε : Type} {x : Except ε α} {f : α → Except ε β} {y : β} (h : (x >>= f) = .ok y) :
    ∃ a, x = .ok a ∧ f a = .ok y := by
  cases x with
  | error e => cases h
  | ok a => exact ⟨a, rfl, h⟩

theorem uninit_self (env : Env) (k : Nat) : uninit env k = uninit env (uninit env k).length := by simp [uninit]

theorem singleton_uninit {env : Env} {b : List Byte} {k : Nat} (hb : b ∈ [uninit env k]) : b = uninit env b.length := by
  rw [List.mem_singleton] at hb; rw [hb]; exact uninit_self env k

namespace Mur32
theorem initBytes_zero (env : Env) (p : Ptr) (n : Nat) (hv : p.Readable n) (s : BlockState W32) (e : initBytes env p n = .ok s) :
    ∀ b ∈ [s.buf], AllZero b ∨ b = uninit env b.length := by
  unfold initBytes at e
  simp only at e
  by_cases h0 : n = 0
  · rw [if_pos h0] at e
    rw [← Except.ok.inj e]
    exact fun b hb => .inr (singleton_uninit hb)
  · rw [if_neg h0] at e
    obtain ⟨bs, rfl, hl⟩ := readable_ne hv h0
    by_cases h4 : n ≤ 4
    · rw [if_pos h4] at e
      obtain ⟨q, e1, e⟩ := Except.bind_eq_ok e
      obtain ⟨h, e2, e⟩ := Except.bind_eq_ok e
      rw [← Except.ok.inj e]
      exact fun b hb => .inr (singleton_uninit hb)
    · rw [if_neg h4] at e
      obtain ⟨h, e1, e⟩ := Except.bind_eq_ok e
      rw [Ptr.add_mem (by omega), Except.bind_ok, csub_ok (by omega), Except.bind_ok] at e
      refine fun b hb => .inl ((ok env).ctor_zero env ((ok env).start h (by simp [uninit]; rfl) ?_) (by simp; omega) (fits_sz _ ?_ _ _) e b hb)
      · intro h; cases h
      · show 4 ∣ 2 ^ env.sizeBits
        rcases sizeBits_cases env with h | h <;> rw [h] <;> decide
end Mur32

namespace Mur128
theorem initBytes_zero (env : Env) (p : Ptr) (n : Nat) (hv : p.Readable n) (s : BlockState St) (e : initBytes env p n = .ok s) :
    ∀ b ∈ [s.buf], AllZero b ∨ b = uninit env b.length := by
  unfold initBytes at e
  simp only at e
  by_cases h0 : n = 0
  · rw [if_pos h0] at e
    rw [← Except.ok.inj e]
    exact fun b hb => .inr (singleton_uninit hb)
  · rw [if_neg h0] at e
    obtain ⟨bs, rfl, hl⟩ := readable_ne hv h0
    by_cases h8 : n ≤ 8
    · rw [if_pos h8] at e
      obtain ⟨q, e1, e⟩ := Except.bind_eq_ok e
      obtain ⟨h, e2, e⟩ := Except.bind_eq_ok e
      rw [← Except.ok.inj e]
      exact fun b hb => .inr (singleton_uninit hb)
    · rw [if_neg h8] at e
      by_cases h16 : n ≤ 16
      · rw [if_pos h16] at e
        obtain ⟨q, e1, e⟩ := Except.bind_eq_ok e
        obtain ⟨q1, e2, e⟩ := Except.bind_eq_ok e
        obtain ⟨k1, e3, e⟩ := Except.bind_eq_ok e
        obtain ⟨q2, e4, e⟩ := Except.bind_eq_ok e
        obtain ⟨k2, e5, e⟩ := Except.bind_eq_ok e
        rw [← Except.ok.inj e]
        exact fun b hb => .inr (singleton_uninit hb)
      · rw [if_neg h16] at e
        obtain ⟨q1, e2, e⟩ := Except.bind_eq_ok e
        obtain ⟨k1, e3, e⟩ := Except.bind_eq_ok e
        obtain ⟨q2, e4, e⟩ := Except.bind_eq_ok e
        obtain ⟨k2, e5, e⟩ := Except.bind_eq_ok e
        rw [Ptr.add_mem (by omega), Except.bind_ok, csub_ok (by omega), Except.bind_ok] at e
        refine fun b hb => .inl ((ok env).ctor_zero env ((ok env).start ⟨k1, k2⟩ (by simp [uninit]; rfl) ?_) (by simp; omega) (fits_sz _ ?_ _ _) e b hb)
        · intro h; cases h
        · show 16 ∣ 2 ^ env.sizeBits
          rcases sizeBits_cases env with h | h <;> rw [h] <;> decide
end Mur128

namespace Spooky
theorem initBytes_zero (env : Env) (p : Ptr) (n : Nat) (hv : p.Readable n) (hr : n + 192 + 0 < 2 ^ env.sizeBits) (s : BlockState V)
    (e : initBytes env p n = .ok s) : ∀ b ∈ [s.buf], AllZero b ∨ b = uninit env b.length := by
  unfold initBytes at e
  by_cases h0 : n = 0
  · rw [if_pos h0] at e
    rw [← Except.ok.inj e]
    exact fun b hb => .inr (singleton_uninit hb)
  · rw [if_neg h0] at e
    obtain ⟨bs, rfl, hl⟩ := readable_ne hv h0
    by_cases h16 : n ≤ 16
    · rw [if_pos h16] at e
      obtain ⟨q, e1, e⟩ := Except.bind_eq_ok e
      obtain ⟨q1, e2, e⟩ := Except.bind_eq_ok e
      obtain ⟨k1, e3, e⟩ := Except.bind_eq_ok e
      obtain ⟨q2, e4, e⟩ := Except.bind_eq_ok e
      obtain ⟨k2, e5, e⟩ := Except.bind_eq_ok e
      rw [← Except.ok.inj e]
      exact fun b hb => .inr (singleton_uninit hb)
    · rw [if_neg h16] at e
      obtain ⟨q1, e2, e⟩ := Except.bind_eq_ok e
      obtain ⟨k1, e3, e⟩ := Except.bind_eq_ok e
      obtain ⟨q2, e4, e⟩ := Except.bind_eq_ok e
      obtain ⟨k2, e5, e⟩ := Except.bind_eq_ok e
      rw [Ptr.add_mem (by omega), Except.bind_ok, csub_ok (by omega), Except.bind_ok] at e
      refine fun b hb => .inl ((ok env).ctor_zero env (start_ok env k1 k2) (by simp; omega) ?_ e b hb)
      refine .inr ?_
      show 0 + (List.take (n - 16) (List.drop 16 bs)).length < 2 ^ env.sizeBits
      rw [List.length_take]
      omega
end Spooky

end Hash2

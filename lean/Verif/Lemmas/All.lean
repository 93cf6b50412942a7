import Verif.Spec.Algorithms
import Verif.Lemmas.Md5
import Verif.Lemmas.Sha1
import Verif.Lemmas.Sha2
import Verif.Lemmas.Rip128
import Verif.Lemmas.Rip160
import Verif.Lemmas.Sip64
import Verif.Lemmas.Sip32
import Verif.Lemmas.XX64
import Verif.Lemmas.XX32
import Verif.Lemmas.Fnv
import Verif.Lemmas.Hmac
import Verif.Lemmas.Murmur
import Verif.Lemmas.Spooky
/-
Every class implements its abstract hash object; executions of whole programs.
-/
namespace Hash2
open Spec

theorem Spec.Md.hash_length_le {σ : Type} (D : Md σ) (B : Nat) (h : ∀ s, (D.out s).length ≤ B) (msg : List Byte) :
    (D.hash msg).length ≤ B := h _

/-- the step from H to hmac<H> -/
def hmacImpls {H : DigestAlg} {env : Env} {S : Machine (List Byte)} (I : Implements H.toHash env S) (G : Hmac.Good I) {B : Nat}
    (hB : H.blockSize = B) {p : Prop} (hn : p → I.nullSafe) :
    { J : Implements (Hmac.hmac H).toHash env (S.hmac B) // Hmac.Good J ∧ (Hmac.hmac H).blockSize = B ∧ (p → J.nullSafe) ∧
      ∀ bs, J.bytesFit bs } := by
  subst hB
  exact ⟨Hmac.implements I G, Hmac.good I G, rfl, hn, fun _ => trivial⟩

/-- every class with a block size implements its abstract hash object -/
def DigestName.impls (env : Env) : (d : DigestName) → { I : Implements d.impl.toHash env d.machine // Hmac.Good I ∧
    d.impl.blockSize = d.B ∧ (d.isSha2 = false ∨ env.loops = true → I.nullSafe) ∧ ∀ bs, I.bytesFit bs }
  | .md5_128 => ⟨Md5.implements env, ⟨fun _ _ => trivial, fun _ _ _ => by
      show (MD5.md5.hash _).length ≤ 64; simp [Md.hash, MD5.md5, natLE_length]⟩, rfl, fun _ => .inl rfl, fun _ => trivial⟩
  | .sha1_160 => ⟨Sha1.implements env, ⟨fun _ _ => trivial, fun _ _ _ => by
      show (SHA1.sha1.hash _).length ≤ 64; simp [Md.hash, SHA1.sha1, natBE_length]⟩, rfl, fun _ => .inl rfl, fun _ => trivial⟩
  | .ripemd_128 => ⟨Rip128.implements env, ⟨fun _ _ => trivial, fun _ _ _ => by
      show (RIPEMD.ripemd128.hash _).length ≤ 64; simp [Md.hash, RIPEMD.ripemd128, natLE_length]⟩, rfl, fun _ => .inl rfl, fun _ => trivial⟩
  | .ripemd_160 => ⟨Rip160.implements env, ⟨fun _ _ => trivial, fun _ _ _ => by
      show (RIPEMD.ripemd160.hash _).length ≤ 64; simp [Md.hash, RIPEMD.ripemd160, natLE_length]⟩, rfl, fun _ => .inl rfl, fun _ => trivial⟩
  | .sha2_256 => ⟨Sha2.sha256_implements env, ⟨fun _ _ => trivial, fun _ _ _ => by
      show (SHA2.sha256.hash _).length ≤ 64; simp [Md.hash, SHA2.sha256, SHA2.md32]⟩, rfl, fun h => .inr (by simpa [isSha2] using h), fun _ => trivial⟩
  | .sha2_224 => ⟨Sha2.sha224_implements env, ⟨fun _ _ => trivial, fun _ _ _ => by
      show (SHA2.sha224.hash _).length ≤ 64; simp [Md.hash, SHA2.sha224, SHA2.md32]⟩, rfl, fun h => .inr (by simpa [isSha2] using h), fun _ => trivial⟩
  | .sha2_512 => ⟨Sha2.sha512_implements env, ⟨fun _ _ => trivial, fun _ _ _ => by
      show (SHA2.sha512.mod64.hash _).length ≤ 128; simp [Md.hash, Md.mod64, SHA2.sha512, SHA2.md64]⟩, rfl,
      fun h => .inr (by simpa [isSha2] using h), fun _ => trivial⟩
  | .sha2_384 => ⟨Sha2.sha384_implements env, ⟨fun _ _ => trivial, fun _ _ _ => by
      show (SHA2.sha384.mod64.hash _).length ≤ 128; simp [Md.hash, Md.mod64, SHA2.sha384, SHA2.md64]⟩, rfl,
      fun h => .inr (by simpa [isSha2] using h), fun _ => trivial⟩
  | .sha2_512_224 => ⟨Sha2.sha512_224_implements env, ⟨fun _ _ => trivial, fun _ _ _ => by
      show (SHA2.sha512_224.mod64.hash _).length ≤ 128; simp [Md.hash, Md.mod64, SHA2.sha512_224, SHA2.md64]⟩, rfl,
      fun h => .inr (by simpa [isSha2] using h), fun _ => trivial⟩
  | .sha2_512_256 => ⟨Sha2.sha512_256_implements env, ⟨fun _ _ => trivial, fun _ _ _ => by
      show (SHA2.sha512_256.mod64.hash _).length ≤ 128; simp [Md.hash, Md.mod64, SHA2.sha512_256, SHA2.md64]⟩, rfl,
      fun h => .inr (by simpa [isSha2] using h), fun _ => trivial⟩
  | .hmac H =>
    let P := DigestName.impls env H
    hmacImpls P.1 P.2.1 P.2.2.1 P.2.2.2.1

theorem Implements.fitsAll_of {A : HashAlg} {env : Env} {S : Machine A.R} (I : Implements A env S) (h : ∀ a bs, I.fits a bs) (a : S.S)
    (ts : List Tok) : I.FitsAll a ts := by
  induction ts generalizing a with
  | nil => trivial
  | cons t ts ih =>
    cases t with
    | data b => exact ⟨h _ _, ih _⟩
    | fin => exact ih _

theorem cost_cons (t : Tok) (ts : List Tok) : cost (t :: ts) = t.cost + cost ts := by simp [cost]
theorem cost_append (xs ys : List Tok) : cost (xs ++ ys) = cost xs + cost ys := by simp [cost]
theorem cost_data (bs : List Byte) : cost (bs.map .data) = bs.length := by
  induction bs with
  | nil => rfl
  | cons b bs ih => rw [List.map_cons, cost_cons, ih]; simp [Tok.cost]; omega

/-- a counter that counts the bytes stays below the cost -/
theorem Spec.BlockHash.absorb_n {τ R : Type} (T : BlockHash τ R) (o : Obj τ) (bs : List Byte) : (T.absorb o bs).n ≤ o.n + bs.length :=
  Nat.mod_le _ _

theorem Spec.BlockHash.res_n {τ R : Type} (T : BlockHash τ R) (hr : ∀ n, T.renum n ≤ n) (o : Obj τ) : (T.res o).1.n ≤ o.n + T.N :=
  Nat.le_trans (hr _) (Nat.le_trans (Nat.mod_le _ _) (by omega))

theorem Ptr.bytes_length (p : Ptr) (n : Nat) : (p.bytes n).length ≤ n := by
  cases p <;> simp [Ptr.bytes]

theorem spooky_renum (ctr n : Nat) : (SPOOKY.obj ctr).renum n ≤ n := by
  show (if n < 192 then 0 else n) ≤ n
  split <;> omega

theorem spooky_fits (env : Env) (o : Obj (SPOOKY.Words 12)) (ts : List Tok) (h : o.n + cost ts < 2 ^ env.sizeBits) :
    (Spooky.implements env).FitsAll o ts := by
  induction ts generalizing o with
  | nil => trivial
  | cons t ts ih =>
    rw [cost_cons] at h
    cases t with
    | data b =>
      simp only [Tok.cost] at h
      refine ⟨.inr ?_, ih _ ?_⟩
      · show o.n + 1 < 2 ^ env.sizeBits
        omega
      · have := (SPOOKY.obj env.sizeBits).absorb_n o [b]
        simp only [List.length_singleton] at this
        show ((SPOOKY.obj env.sizeBits).absorb o [b]).n + _ < _
        omega
    | fin =>
      simp only [Tok.cost] at h
      refine ih _ ?_
      have : _ ≤ o.n + 192 := (SPOOKY.obj env.sizeBits).res_n (spooky_renum _) o
      show ((SPOOKY.obj env.sizeBits).res o).1.n + _ < _
      omega

theorem spooky_start (env : Env) (c : Ctor) : (c.start (SPOOKY.machine env.sizeBits)).n ≤ c.cost := by
  cases c with
  | default => exact Nat.le_refl _
  | seed s => exact Nat.le_refl _
  | bytes p n =>
    show Obj.n (if (p.bytes n).length ≤ 16 then _ else _) ≤ n + 192
    split
    · exact Nat.zero_le _
    · generalize ho : Obj.start (SPOOKY.start (leWord 64 ((p.bytes n).take 8)) (leWord 64 (((p.bytes n).drop 8).take 8))) = o
      refine Nat.le_trans ((SPOOKY.obj env.sizeBits).res_n (spooky_renum _) _) ?_
      have h1 := (SPOOKY.obj env.sizeBits).absorb_n o ((p.bytes n).drop 16)
      have h2 := Ptr.bytes_length p n
      rw [List.length_drop] at h1
      show _ + 192 ≤ n + 192
      have h3 : o.n = 0 := by rw [← ho]; rfl
      omega

/-- every class implements its abstract hash object -/
def AlgName.impls (env : Env) : (a : AlgName) → Implements a.impl env (a.machine env.sizeBits)
  | .digest d => (d.impls env).1
  | .siphash_64 => Sip64.implements env
  | .siphash_32 => Sip32.implements env
  | .xxhash_64 => XX64.implements env
  | .xxhash_32 => XX32.implements env
  | .fnv1a_32 => Fnv.implements32 env
  | .fnv1a_64 => Fnv.implements64 env
  | .murmur3_32 => Mur32.implements env
  | .murmur3_128 => Mur128.implements env
  | .spooky2_128 => Spooky.implements env

theorem AlgName.fits {env : Env} {c : Ctor} {ts : List Tok} {a : AlgName} (h : a.Room env c ts) :
    (a.impls env).FitsAll (c.start (a.machine env.sizeBits)) ts := by
  cases a with
  | digest d => exact Implements.fitsAll_of _ (d.impls env).2.1.fits _ _
  | siphash_64 => exact Implements.fitsAll_of (Sip64.implements env) (fun _ _ => .inl ⟨2 ^ 61, rfl⟩) _ _
  | siphash_32 => exact Implements.fitsAll_of (Sip32.implements env) (fun _ _ => .inl ⟨2 ^ 30, rfl⟩) _ _
  | xxhash_64 => exact Implements.fitsAll_of (XX64.implements env) (fun _ _ => .inl ⟨2 ^ 59, rfl⟩) _ _
  | xxhash_32 =>
    refine Implements.fitsAll_of (XX32.implements env) (fun _ _ => .inl ?_) _ _
    show 16 ∣ 2 ^ env.sizeBits
    rcases sizeBits_cases env with h | h <;> rw [h] <;> decide
  | fnv1a_32 => exact Implements.fitsAll_of _ (fun _ _ => trivial) _ _
  | fnv1a_64 => exact Implements.fitsAll_of _ (fun _ _ => trivial) _ _
  | murmur3_32 =>
    refine Implements.fitsAll_of (Mur32.implements env) (fun _ _ => .inl ?_) _ _
    show 4 ∣ 2 ^ env.sizeBits
    rcases sizeBits_cases env with h | h <;> rw [h] <;> decide
  | murmur3_128 =>
    refine Implements.fitsAll_of (Mur128.implements env) (fun _ _ => .inl ?_) _ _
    show 16 ∣ 2 ^ env.sizeBits
    rcases sizeBits_cases env with h | h <;> rw [h] <;> decide
  | spooky2_128 =>
    refine spooky_fits env _ _ ?_
    have := spooky_start env c
    have h : c.cost + cost ts < 2 ^ env.sizeBits := h
    show (c.start (SPOOKY.machine env.sizeBits)).n + _ < _
    omega

theorem AlgName.nullSafe {env : Env} {a : AlgName} (h : a.NullOk env) : (a.impls env).nullSafe := by
  cases a with
  | digest d => exact (d.impls env).2.2.2.1 h
  | _ => trivial

theorem AlgName.bytesFit {env : Env} {c : Ctor} {ts : List Tok} {a : AlgName} (h : a.Room env c ts) {p : Ptr} {n : Nat}
    (hc : c = .bytes p n) (hv : c.Valid) : (a.impls env).bytesFit (p.bytes n) := by
  cases a with
  | digest d => exact (d.impls env).2.2.2.2 _
  | spooky2_128 =>
    subst hc
    show (p.bytes n).length < 2 ^ env.sizeBits
    have h : n + 192 + cost ts < 2 ^ env.sizeBits := h
    have := Ptr.bytes_length p n
    omega
  | _ => trivial

/-- **Construction gives an object in the state the specification says.** -/
theorem AlgName.construct_ok {env : Env} {c : Ctor} {ts : List Tok} {a : AlgName} (hv : c.Valid) (h : a.Room env c ts) :
    ∃ s, a.impl.construct env c = .ok s ∧ (a.impls env).Rel s (c.start (a.machine env.sizeBits)) := by
  cases c with
  | default => exact (a.impls env).init_ok
  | seed k => exact (a.impls env).seed_ok k
  | bytes p n =>
    cases p with
    | null =>
      have : n = 0 := hv
      subst this
      exact (a.impls env).bytes_null_ok
    | mem bs =>
      have hle : n ≤ bs.length := hv
      have := (a.impls env).bytes_ok (bs.take n) (bs.drop n) (bytesFit h rfl hv)
      rw [List.take_append_drop, List.length_take, Nat.min_eq_left hle] at this
      exact this

/-- **A program of valid calls returns what the abstract object returns.** -/
theorem AlgName.exec_ok {env : Env} {c : Ctor} {ops : List Op} {ts : List Tok} {a : AlgName} (hv : c.Valid)
    (hs : stream ops = some ts) (hn : a.NullOk env ∨ NoNull ops) (h : a.Room env c ts) :
    a.impl.exec env c ops = .ok ((a.machine env.sizeBits).run (c.start (a.machine env.sizeBits)) ts).2 := by
  obtain ⟨s, e, r⟩ := construct_ok hv h
  obtain ⟨s', e', _⟩ := (a.impls env).run_ok r ops ts hs (hn.imp nullSafe id) (fits h)
  simp only [HashAlg.exec, e, Except.bind_ok, e', Except.pure_eq]

/-- spooky2_128: after three quarters of the range of the counter the buffer is empty; the fourth makes it wrap -/
theorem spooky_wrap (env : Env) (bs : List Byte) (hb : 4 * bs.length = 2 ^ env.sizeBits) :
    AlgName.spooky2_128.impl.exec env .default (List.replicate 4 (.update (.mem bs) bs.length)) = .error .assertFailed := by
  have hlen : bs.length = 2 ^ (env.sizeBits - 2) := by
    have : 2 ^ env.sizeBits = 4 * 2 ^ (env.sizeBits - 2) := by rcases sizeBits_cases env with h | h <;> rw [h] <;> rfl
    omega
  have hmod : bs.length % 192 = 64 := by rw [hlen]; rcases sizeBits_cases env with h | h <;> rw [h]
  have hpos : 0 < bs.length := by omega
  have U : ∀ s o, (Spooky.ok env).RelO s o → o.n + bs.length < 2 ^ env.sizeBits →
      ∃ s', Spooky.upd env s (.mem bs) bs.length = .ok s' ∧ (Spooky.ok env).RelO s' ((SPOOKY.obj env.sizeBits).absorb o bs) := by
    intro s o h hf
    have := (Spooky.ok env).upd env h bs [] (.inr hf)
    rwa [List.append_nil] at this
  have N : ∀ o : Obj (SPOOKY.Words 12), o.n + bs.length < 2 ^ env.sizeBits → ((SPOOKY.obj env.sizeBits).absorb o bs).n = o.n + bs.length :=
    fun o h => Nat.mod_eq_of_lt h
  have T : ∀ o : Obj (SPOOKY.Words 12), ((SPOOKY.obj env.sizeBits).absorb o bs).tail.length = (o.tail.length + bs.length) % 192 := fun o => by
    show (rest 192 (o.tail ++ bs)).length = _
    rw [rest_length, List.length_append]
  have r0 := Spooky.start_ok env 0 0
  have n0 : (Obj.start (SPOOKY.start 0 0)).n = 0 := rfl
  have t0 : (Obj.start (SPOOKY.start 0 0)).tail.length = 0 := rfl
  revert r0 n0 t0
  generalize Obj.start (SPOOKY.start 0 0) = o0
  intro r0 n0 t0
  obtain ⟨s1, e1, r1⟩ := U _ o0 r0 (by omega)
  have n1 := N o0 (by omega)
  have t1 := T o0
  revert r1 n1 t1
  generalize (SPOOKY.obj env.sizeBits).absorb o0 bs = o1
  intro r1 n1 t1
  obtain ⟨s2, e2, r2⟩ := U _ o1 r1 (by omega)
  have n2 := N o1 (by omega)
  have t2 := T o1
  revert r2 n2 t2
  generalize (SPOOKY.obj env.sizeBits).absorb o1 bs = o2
  intro r2 n2 t2
  obtain ⟨s3, e3, r3⟩ := U _ o2 r2 (by omega)
  have n3 := N o2 (by omega)
  have t3 := T o2
  revert r3 n3 t3
  generalize (SPOOKY.obj env.sizeBits).absorb o2 bs = o3
  intro r3 n3 t3
  have e4 : Spooky.upd env s3 (.mem bs) bs.length = .error .assertFailed := by
    have := Hash2.update_unsync env (Spooky.ok env).engine r3 (List.length_eq_zero_iff.1 (by show o3.tail.length = 0; omega)) bs [] hpos (by
      show (o3.n + bs.length) % 2 ^ env.sizeBits % 192 ≠ _ % 192
      rw [show o3.n + bs.length = 2 ^ env.sizeBits by omega, Nat.mod_self]
      omega)
    rwa [List.append_nil] at this
  show (do
    let s1 ← Spooky.upd env (Spooky.initSeed2 env 0 0) (.mem bs) bs.length
    let s2 ← Spooky.upd env s1 (.mem bs) bs.length
    let s3 ← Spooky.upd env s2 (.mem bs) bs.length
    let s4 ← Spooky.upd env s3 (.mem bs) bs.length
    (Except.ok (s4, []) : M _)) >>= _ = _
  rw [e1]
  simp only [Except.bind_ok, e2, e3, e4]
  rfl

end Hash2

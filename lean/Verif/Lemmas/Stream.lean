import Verif.Lemmas.Rounds
import Verif.Spec.Stream
/-
The classes with a finishing step implement the abstract hash object of Spec/Stream.lean, given that the processing of blocks
and the finishing step are those of the specification.
-/
namespace Hash2
open Spec

/-- what has to be shown for each class -/
structure StreamOk {σ τ R : Type} (c : BlockCfg σ) (res : BlockState σ → M (BlockState σ × R)) (T : BlockHash τ R) where
  /-- the representation of a chaining value -/
  u : τ → σ
  v : σ → τ
  uv : ∀ x, u (v x) = x
  vu : ∀ x, v (u x) = x
  hN : c.N = T.N
  ctr : c.ctrBits = T.ctr
  early : c.early = true
  pos : 0 < T.N
  tr : ∀ st b more, b.length = T.N → c.transform (.mem (b ++ more)) (u st) = .ok (u (T.compress st b))
  res_ok : ∀ s (o : Obj τ), Hash2.Rel c s ⟨u o.st, o.tail, o.n⟩ →
    ∃ buf, res s = .ok (⟨u (T.res o).1.st, buf, 0, (T.res o).1.n⟩, (T.res o).2) ∧
      buf = List.replicate T.N 0 ∧ (T.res o).1.n % T.N = 0 ∧ (T.res o).1.n < 2 ^ T.ctr

namespace StreamOk
variable {σ τ R : Type} {c : BlockCfg σ} {res : BlockState σ → M (BlockState σ × R)} {T : BlockHash τ R}
  (K : StreamOk c res T)
include K

def abs (o : Obj τ) : AState σ := ⟨K.u o.st, o.tail, o.n⟩

/-- the object is in this abstract state -/
def RelO (s : BlockState σ) (o : Obj τ) : Prop := Hash2.Rel c s (K.abs o)

def f (st : σ) (b : List Byte) : σ := K.u (T.compress (K.v st) b)

theorem engine : EngineOk c K.f where
  pos := by rw [K.hN]; exact K.pos
  tr st b more h := by
    have := K.tr (K.v st) b more (by rw [← K.hN]; exact h)
    rwa [K.uv] at this

theorem foldl_f (bl : List (List Byte)) (t : τ) : bl.foldl K.f (K.u t) = K.u (bl.foldl T.compress t) := by
  induction bl generalizing t with
  | nil => rfl
  | cons b bl ih => simp only [List.foldl_cons, f, K.vu]; exact ih _

theorem abs_absorb (o : Obj τ) (bs : List Byte) :
    (K.abs o).absorb K.f c.N c.ctrBits bs = K.abs (T.absorb o bs) := by
  simp only [AState.absorb, abs, K.hN, K.ctr, K.foldl_f, BlockHash.absorb]

/-- there is room in the counter, or it may wrap -/
def fits (_ : StreamOk c res T) (o : Obj τ) (bs : List Byte) : Prop := T.N ∣ 2 ^ T.ctr ∨ o.n + bs.length < 2 ^ T.ctr

theorem upd (env : Env) {s : BlockState σ} {o : Obj τ} (h : K.RelO s o) (bs more : List Byte) (hf : K.fits o bs) :
    ∃ s', update env c s (.mem (bs ++ more)) bs.length = .ok s' ∧ K.RelO s' (T.absorb o bs) := by
  have := Hash2.update_ok env K.engine h bs more (by
    rw [K.ctr, K.hN]
    rcases hf with hf | hf
    · exact Nat.mod_mod_of_dvd _ hf
    · show (o.n + bs.length) % 2 ^ T.ctr % T.N = (o.n + bs.length) % T.N
      rw [Nat.mod_eq_of_lt hf])
  rw [K.abs_absorb] at this
  exact this

theorem res' {s : BlockState σ} {o : Obj τ} (h : K.RelO s o) :
    ∃ s', res s = .ok (s', (T.res o).2) ∧ K.RelO s' (T.res o).1 := by
  obtain ⟨buf, e, hb, h0, hlt⟩ := K.res_ok s o h
  refine ⟨_, e, ?_⟩
  refine ⟨rfl, by simp [hb, K.hN], rfl, by simp [abs, BlockHash.res], rfl, ⟨?_, ?_⟩, ?_, ?_⟩
  · rw [K.hN]; exact K.pos
  · rw [K.ctr]; exact hlt
  · rw [K.hN]; exact h0.symm
  · intro _; simp [abs, BlockHash.res, hb, K.hN]

/-- a freshly constructed object -/
theorem start (st : τ) {buf : List Byte} (hb : buf.length = T.N) (hc : c.clear = true → buf = List.replicate T.N 0) :
    K.RelO ⟨K.u st, buf, 0, 0⟩ (Obj.start st) := by
  refine ⟨rfl, by rw [K.hN]; exact hb, rfl, rfl, rfl, ⟨?_, ?_⟩, ?_, ?_⟩
  · rw [K.hN]; exact K.pos
  · exact Nat.two_pow_pos _
  · simp
  · intro h; simp [abs, Obj.start, K.hN, hc h]

theorem absorb_append (o : Obj τ) (xs ys : List Byte) : T.absorb o (xs ++ ys) = T.absorb (T.absorb o xs) ys := by
  have h := blocks_split K.pos (o.tail ++ xs) ys
  rw [List.append_assoc] at h
  simp only [BlockHash.absorb, h.1, h.2, List.foldl_append, List.length_append, ← Nat.add_assoc, Nat.mod_add_mod]

theorem absorb_nil {s : BlockState σ} {o : Obj τ} (h : K.RelO s o) : T.absorb o [] = o := by
  cases o with
  | mk st tail n =>
    have h1 := h.wf.tail_lt; have h2 := h.wf.n_lt
    rw [K.hN] at h1; rw [K.ctr] at h2
    simp only [abs] at h1 h2
    simp [BlockHash.absorb, blocks_short h1, rest_short h1, Nat.mod_eq_of_lt h2]

theorem fits_append (o : Obj τ) (xs ys : List Byte) : K.fits o (xs ++ ys) ↔ K.fits o xs ∧ K.fits (T.absorb o xs) ys := by
  unfold fits
  simp only [BlockHash.absorb, List.length_append]
  constructor
  · rintro (h | h)
    · exact ⟨.inl h, .inl h⟩
    · refine ⟨.inr (by omega), .inr ?_⟩
      rw [Nat.mod_eq_of_lt (by omega)]; omega
  · rintro ⟨h1 | h1, h2 | h2⟩
    · exact .inl h1
    · exact .inl h1
    · exact .inl h2
    · rw [Nat.mod_eq_of_lt h1] at h2; exact .inr (by omega)

end StreamOk

/-- the class implements the abstract hash object, given its constructors -/
def StreamOk.implements {σ τ R : Type} {T : BlockHash τ R} (env : Env) (cfg : Env → BlockCfg σ)
    (result : Env → BlockState σ → M (BlockState σ × R)) (K : StreamOk (cfg env) (result env) T)
    (init : Env → M (BlockState σ)) (initSeed : Env → W64 → M (BlockState σ))
    (initBytes : Env → Ptr → Nat → M (BlockState σ)) (integral : Env → R → M W64)
    (oInit : Obj τ) (oSeed : W64 → Obj τ) (oBytes : List Byte → Obj τ) (bytesFit : List Byte → Prop)
    (init_ok : ∃ s, init env = .ok s ∧ K.RelO s oInit)
    (seed_ok : ∀ k, ∃ s, initSeed env k = .ok s ∧ K.RelO s (oSeed k))
    (bytes_ok : ∀ bs more, bytesFit bs →
      ∃ s, initBytes env (.mem (bs ++ more)) bs.length = .ok s ∧ K.RelO s (oBytes bs))
    (bytes_null_ok : ∃ s, initBytes env .null 0 = .ok s ∧ K.RelO s (oBytes [])) :
    Implements ⟨BlockState σ, R, init, initSeed, initBytes, fun env s p n => update env (cfg env) s p n, result, integral⟩
      env (T.machine oInit oSeed oBytes) where
  Rel := K.RelO
  nullSafe := True
  fits := K.fits
  fits_nil s o h := by
    have := h.wf.n_lt
    rw [K.ctr] at this
    exact .inr this
  fits_append := K.fits_append
  absorb_nil s o h := K.absorb_nil h
  absorb_append := K.absorb_append
  update_ok s o bs more h hf := K.upd env h bs more hf
  null_ok _ s o h := update_zero_early env h K.early _
  result_ok s o h := K.res' h
  init_ok := init_ok
  seed_ok := seed_ok
  bytesFit := bytesFit
  bytes_ok := bytes_ok
  bytes_null_ok := bytes_null_ok

end Hash2

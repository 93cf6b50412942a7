import Verif.Lemmas.Rounds
import Verif.Spec.Sha1
/-
sha1_160 implements SHA-1.
-/
namespace Hash2.Sha1
open Spec

/-- the registers in the order of the specification before step i -/
def view (i : Nat) (q : Q5 W32) : SHA1.St :=
  match i % 5 with
  | 0 => ⟨q.a, q.b, q.c, q.d, q.e⟩
  | 1 => ⟨q.e, q.a, q.b, q.c, q.d⟩
  | 2 => ⟨q.d, q.e, q.a, q.b, q.c⟩
  | 3 => ⟨q.c, q.d, q.e, q.a, q.b⟩
  | _ => ⟨q.b, q.c, q.d, q.e, q.a⟩

def fnOf (i : Nat) : Fn :=
  if i < 16 then .R1 else
  match i / 20 with
  | 0 => .R2 | 1 => .R3 | 2 => .R4 | _ => .R5

def regOf : Nat → Reg
  | 0 => .a | 1 => .b | 2 => .c | 3 => .d | _ => .e

/-- the i-th call, in closed form -/
def rowOf (i : Nat) : Row :=
  ⟨fnOf i, regOf ((5 - i % 5) % 5), regOf ((6 - i % 5) % 5), regOf ((7 - i % 5) % 5), regOf ((8 - i % 5) % 5),
    regOf ((9 - i % 5) % 5), i⟩

theorem rows_eq : rows = (List.range 80).map rowOf := by decide +kernel

theorem fn_const : ∀ i, i < 80 → (fnOf i).const = SHA1.K i := by decide +kernel

theorem ch_or (x y z : W32) : (x &&& y) ||| (~~~x &&& z) = (x &&& y) ^^^ (~~~x &&& z) := by
  ext i hi
  simp
  cases x[i] <;> simp

theorem maj_or (x y z : W32) : (x &&& y) ||| (x &&& z) ||| (y &&& z) = (x &&& y) ^^^ (x &&& z) ^^^ (y &&& z) := by
  ext i hi
  simp
  cases x[i] <;> cases y[i] <;> cases z[i] <;> rfl

theorem fn_f (i : Nat) (hi : i < 80) (x y z : W32) : (fnOf i).f x y z = SHA1.f i x y z := by
  unfold fnOf SHA1.f
  have : i / 20 = 0 ∨ i / 20 = 1 ∨ i / 20 = 2 ∨ i / 20 = 3 := by omega
  by_cases h16 : i < 16
  · rw [if_pos h16]
    have h0 : i / 20 = 0 := by omega
    simp only [h0, Fn.f, ch_or]
  · rw [if_neg h16]
    rcases this with h | h | h | h <;> simp only [h, Fn.f, ch_or, maj_or]

/-- the array w[] before step i -/
def wArr (blk : List Byte) (i : Nat) : List W32 := (List.range i).map (SHA1.W blk) ++ List.replicate (80 - i) 0

theorem wArr_get (blk : List Byte) (i j : Nat) (h : j < i) : aget (wArr blk i) j = .ok (SHA1.W blk j) := by
  rw [wArr, aget_append_left (by simpa using h)]; simp

theorem wArr_set (blk : List Byte) (i : Nat) (h : i < 80) :
    aset (wArr blk i) i (SHA1.W blk i) = .ok (wArr blk (i + 1)) := by
  have := aset_append ((List.range i).map (SHA1.W blk)) (SHA1.W blk i) 0 (80 - (i + 1))
  rw [show 80 - (i + 1) + 1 = 80 - i by omega] at this
  simp only [List.length_map, List.length_range] at this
  rw [wArr, this, wArr, List.range_succ, List.map_append]; rfl

/-- the part of a step that produces the schedule word -/
theorem sched (blk more : List Byte) (hb : blk.length = 64) (i : Nat) (hi : i < 80) :
    fetch (.mem (blk ++ more)) (fnOf i) (wArr blk i) i = .ok (wArr blk (i + 1), SHA1.W blk i) := by
  by_cases h16 : i < 16
  · have hf : fnOf i = .R1 := by simp [fnOf, h16]
    have hW : SHA1.W blk i = beWord 32 ((blk.drop (4 * i)).take 4) := by rw [SHA1.W, if_pos h16]; rfl
    simp only [hf, fetch]
    rw [Nat.mul_comm i 4, Ptr.add_mem (by simp; omega)]
    simp only [Except.bind_ok]
    rw [read32be_ok _ (by simp; omega)]
    simp only [Except.bind_ok]
    rw [List.drop_append_of_le_length (by omega), List.take_append_of_le_length (by simp; omega), ← hW, wArr_set _ _ hi]
    rfl
  · have hf : fnOf i ≠ .R1 := by
      unfold fnOf
      rw [if_neg h16]
      split <;> simp
    have hW : W (wArr blk i) i = .ok (wArr blk (i + 1), SHA1.W blk i) := by
      unfold W
      rw [csub_ok (by omega), csub_ok (by omega), csub_ok (by omega), csub_ok (by omega)]
      simp only [Except.bind_ok]
      rw [wArr_get _ _ _ (by omega), wArr_get _ _ _ (by omega), wArr_get _ _ _ (by omega), wArr_get _ _ _ (by omega)]
      simp only [Except.bind_ok]
      rw [rotl_eq _ (by decide)]
      have := wArr_set blk i hi
      rw [SHA1.W, if_neg h16] at this
      rw [this]
      simp only [Except.bind_ok, Except.pure_eq]
      rw [SHA1.W.eq_1 blk i, if_neg h16]
    unfold fetch
    split
    · rename_i h; exact absurd h hf
    · exact hW

theorem exec_ok (blk more : List Byte) (hb : blk.length = 64) (i : Nat) (hi : i < 80) (q : Q5 W32) :
    ∃ q', exec (.mem (blk ++ more)) (rowOf i) (q, wArr blk i) = .ok (q', wArr blk (i + 1)) ∧
      view (i + 1) q' = SHA1.step blk i (view i q) := by
  have hs := sched blk more hb i hi
  unfold exec
  simp only [rowOf]
  rw [hs]
  simp only [Except.bind_ok, Except.pure_eq, fn_f i hi, fn_const i hi, rotl_eq _ (by decide : 5 < 32),
    rotl_eq _ (by decide : 30 < 32)]
  refine ⟨_, rfl, ?_⟩
  have h5 : i % 5 = 0 ∨ i % 5 = 1 ∨ i % 5 = 2 ∨ i % 5 = 3 ∨ i % 5 = 4 := by omega
  rcases h5 with h | h | h | h | h <;>
    (have h' : (i + 1) % 5 = (i % 5 + 1) % 5 := by omega
     simp only [h, Nat.reduceAdd, Nat.reduceMod] at h'
     simp only [view, h, h', SHA1.step, regOf, get, set, Nat.reduceSub, Nat.reduceMod]
     simp only [SHA1.St.mk.injEq, and_true, true_and]
     ac_rfl)

theorem transform_ok (st : SHA1.St) (b more : List Byte) (hb : b.length = 64) :
    transform (.mem (b ++ more)) ⟨st.a, st.b, st.c, st.d, st.e⟩
      = .ok (let t := SHA1.compress st b; ⟨t.a, t.b, t.c, t.d, t.e⟩) := by
  unfold transform
  obtain ⟨q, e, h⟩ := foldlM_rows (exec (.mem (b ++ more))) rowOf (SHA1.step b)
    (fun i q t => view i q.1 = t ∧ q.2 = wArr b i) 80 (fun i hi q t hv => by
      obtain ⟨q, w⟩ := q
      obtain ⟨hv, hw⟩ := hv
      simp only at hv hw
      subst hv hw
      obtain ⟨q', e, h⟩ := exec_ok b more hb i hi q
      exact ⟨_, e, h, rfl⟩)
    (⟨st.a, st.b, st.c, st.d, st.e⟩, List.replicate 80 0) st ⟨rfl, by simp [wArr]⟩
  rw [← rows_eq] at e
  rw [e]
  simp only [Except.bind_ok, Except.pure_eq, SHA1.compress, ← h.1]
  simp only [BitVec.add_comm]
  rfl

theorem out_ok (env : Env) (st : SHA1.St) : out env ⟨st.a, st.b, st.c, st.d, st.e⟩ = .ok (SHA1.sha1.out st) := by
  unfold out
  have := forLoop_write 4 (Q5.get (⟨st.a, st.b, st.c, st.d, st.e⟩ : Q5 W32)) write32be (fun v => natBE 4 v.toNat)
    (by simp) (fun d off v h => write32be_ok d off v h) [st.a, st.b, st.c, st.d, st.e]
    (by
      intro i hi
      match i, hi with
      | 0, _ => rfl
      | 1, _ => rfl
      | 2, _ => rfl
      | 3, _ => rfl
      | 4, _ => rfl) (List.replicate 20 0) (by simp)
  simpa [SHA1.sha1] using this

theorem natBE_mod (k v : Nat) : natBE k (v % 256 ^ k) = natBE k v := by
  rw [natBE, natLE_mod]; rfl

def ok (env : Env) : MdOk md SHA1.sha1 env where
  u t := ⟨t.a, t.b, t.c, t.d, t.e⟩
  v q := ⟨q.a, q.b, q.c, q.d, q.e⟩
  uv _ := rfl
  vu _ := rfl
  hN := rfl
  ctr := rfl
  clear := rfl
  pos := by decide
  dvd := by decide
  hL := by decide
  thr := rfl
  over := rfl
  padLen := rfl
  bitsLen := rfl
  tr := transform_ok
  iv := rfl
  enc len := by
    show write64be (List.replicate 8 0) 0 _ = _
    rw [write64be_ok _ _ _ (by simp)]
    have : (BitVec.ofNat 64 (len % 2 ^ 64 * 8)).toNat = 8 * len % 256 ^ 8 := by
      rw [BitVec.toNat_ofNat]; omega
    rw [this, natBE_mod]
    simp [SHA1.sha1]
  encLen _ := by simp [SHA1.sha1]
  out := out_ok env

/-- sha1_160 implements SHA-1 -/
def implements (env : Env) : Implements sha1_160.toHash env SHA1.sha1.machine := (ok env).implements 64

end Hash2.Sha1

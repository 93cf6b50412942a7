import Verif.Lemmas.Rounds
import Verif.Spec.Md5
/-
md5_128 implements MD5.
-/
namespace Hash2.Md5
open Spec

/-- the registers in the order of the specification before step i -/
def view (i : Nat) (q : Q4 W32) : MD5.St :=
  match i % 4 with
  | 0 => ⟨q.a, q.b, q.c, q.d⟩
  | 1 => ⟨q.d, q.a, q.b, q.c⟩
  | 2 => ⟨q.c, q.d, q.a, q.b⟩
  | _ => ⟨q.b, q.c, q.d, q.a⟩

def fnOf : Nat → Fn
  | 0 => .FF | 1 => .GG | 2 => .HH | _ => .II

def regOf : Nat → Reg
  | 0 => .a | 1 => .b | 2 => .c | _ => .d

/-- the i-th call, in closed form -/
def rowOf (i : Nat) : Row :=
  ⟨fnOf (i / 16), regOf ((4 - i % 4) % 4), regOf ((5 - i % 4) % 4), regOf ((6 - i % 4) % 4), regOf ((7 - i % 4) % 4),
    MD5.idx i, MD5.shift i, MD5.T.getD i 0⟩

theorem rows_eq : rows = (List.range 64).map rowOf := by decide +kernel

theorem shift_ok : ∀ i, i < 64 → 0 < MD5.shift i ∧ MD5.shift i < 32 := by decide +kernel
theorem idx_ok : ∀ i, i < 64 → MD5.idx i < 16 := by decide +kernel

theorem fn_eval (r : Nat) (x y z : W32) : (fnOf r).eval x y z = MD5.aux r x y z := by
  match r with
  | 0 => rfl
  | 1 => rfl
  | 2 => rfl
  | n + 3 => rfl

theorem exec_ok (blk : List Byte) (i : Nat) (hi : i < 64) (q : Q4 W32) :
    ∃ q', exec ((List.range 16).map (MD5.word blk)) (rowOf i) q = .ok q' ∧ view (i + 1) q' = MD5.step blk i (view i q) := by
  have hs := shift_ok i hi
  have hx := idx_ok i hi
  have hget : aget ((List.range 16).map (MD5.word blk)) (MD5.idx i) = .ok (MD5.word blk (MD5.idx i)) := by
    rw [aget_ok (by simpa using hx)]; simp
  unfold exec
  simp only [rowOf, hget, Except.bind_ok, rotlM_eq _ hs.1 hs.2, fn_eval, Except.pure_eq]
  refine ⟨_, rfl, ?_⟩
  have h4 : i % 4 = 0 ∨ i % 4 = 1 ∨ i % 4 = 2 ∨ i % 4 = 3 := by omega
  rcases h4 with h | h | h | h <;>
    (have h' : (i + 1) % 4 = (i % 4 + 1) % 4 := by omega
     simp only [h, Nat.reduceAdd, Nat.reduceMod] at h'
     simp only [view, h, h', MD5.step, regOf, get, set, Nat.reduceSub, Nat.reduceMod]
     simp only [MD5.St.mk.injEq, and_true, true_and]
     rw [BitVec.add_comm]
     congr 2
     simp only [BitVec.add_assoc])

theorem transform_ok (env : Env) (st : MD5.St) (b more : List Byte) (hb : b.length = 64) :
    transform env (.mem (b ++ more)) ⟨st.A, st.B, st.C, st.D⟩
      = .ok (let t := MD5.compress st b; ⟨t.A, t.B, t.C, t.D⟩) := by
  unfold transform
  have hl := forLoop_load (read32le env) (leWord 32) 4 (read32le_ok env) b more 16 0 (by omega)
  simp only [List.replicate_zero, List.append_nil, Nat.add_zero] at hl
  rw [hl]
  simp only [Except.bind_ok]
  obtain ⟨q, e, h⟩ := foldlM_rows (exec ((List.range 16).map (MD5.word b))) rowOf (MD5.step b)
    (fun i q t => view i q = t) 64 (fun i hi q t hv => by subst hv; exact exec_ok b i hi q)
    ⟨st.A, st.B, st.C, st.D⟩ st rfl
  rw [← rows_eq] at e
  unfold MD5.word at e
  rw [e]
  simp only [Except.bind_ok, Except.pure_eq, MD5.compress, ← h]
  rfl

theorem out_ok (env : Env) (st : MD5.St) : out env ⟨st.A, st.B, st.C, st.D⟩ = .ok (MD5.md5.out st) := by
  unfold out
  have := forLoop_write 4 (Q4.get (⟨st.A, st.B, st.C, st.D⟩ : Q4 W32)) (write32le env) (fun v => natLE 4 v.toNat)
    (by simp) (fun d off v h => write32le_ok env d off v h) [st.A, st.B, st.C, st.D]
    (by
      intro i hi
      match i, hi with
      | 0, _ => rfl
      | 1, _ => rfl
      | 2, _ => rfl
      | 3, _ => rfl) (List.replicate 16 0) (by simp)
  simpa [MD5.md5] using this

def ok (env : Env) : MdOk md MD5.md5 env where
  u t := ⟨t.A, t.B, t.C, t.D⟩
  v q := ⟨q.a, q.b, q.c, q.d⟩
  uv _ := rfl
  vu _ := rfl
  hN := rfl
  ctr := rfl
  clear := rfl
  pos := by decide
  dvd := by decide
  hL := by decide
  thr := rfl
  over := rfl
  padLen := rfl
  bitsLen := rfl
  tr := transform_ok env
  iv := rfl
  enc len := by
    show write64le env (List.replicate 8 0) 0 _ = _
    rw [write64le_ok _ _ _ _ (by simp)]
    have : (BitVec.ofNat 64 (len % 2 ^ 64 * 8)).toNat = 8 * len % 256 ^ 8 := by
      rw [BitVec.toNat_ofNat]; omega
    rw [this, natLE_mod]
    simp [MD5.md5]
  encLen _ := by simp [MD5.md5]
  out := out_ok env

/-- md5_128 implements MD5 -/
def implements (env : Env) : Implements md5_128.toHash env MD5.md5.machine := (ok env).implements 64

end Hash2.Md5

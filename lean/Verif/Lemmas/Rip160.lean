import Verif.Lemmas.Rounds
import Verif.Spec.Ripemd
/-
ripemd_160 implements RIPEMD-160.
-/
namespace Hash2.Rip160
open Spec

/-- the registers of one line in the order of the specification before step i of the line -/
def view (i : Nat) (q : Q5 W32) : RIPEMD.St5 :=
  match i % 5 with
  | 0 => ⟨q.a, q.b, q.c, q.d, q.e⟩
  | 1 => ⟨q.e, q.a, q.b, q.c, q.d⟩
  | 2 => ⟨q.d, q.e, q.a, q.b, q.c⟩
  | 3 => ⟨q.c, q.d, q.e, q.a, q.b⟩
  | _ => ⟨q.b, q.c, q.d, q.e, q.a⟩

def regL : Nat → Reg
  | 0 => .aa
  | 1 => .bb
  | 2 => .cc
  | 3 => .dd
  | _ => .ee
def regR : Nat → Reg
  | 0 => .aaa
  | 1 => .bbb
  | 2 => .ccc
  | 3 => .ddd
  | _ => .eee
def fnL : Nat → Fn
  | 0 => .R1
  | 1 => .R2
  | 2 => .R3
  | 3 => .R4
  | _ => .R5
def fnR : Nat → Fn
  | 0 => .RR1
  | 1 => .RR2
  | 2 => .RR3
  | 3 => .RR4
  | _ => .RR5

/-- step i of the left line, in closed form -/
def rowL (i : Nat) : Row := ⟨fnL (i / 16), regL ((5 - i % 5) % 5), regL ((6 - i % 5) % 5), regL ((7 - i % 5) % 5), regL ((8 - i % 5) % 5), regL ((9 - i % 5) % 5), RIPEMD.r.getD i 0, RIPEMD.s.getD i 0⟩
/-- step i of the right line, in closed form -/
def rowR (i : Nat) : Row := ⟨fnR (i / 16), regR ((5 - i % 5) % 5), regR ((6 - i % 5) % 5), regR ((7 - i % 5) % 5), regR ((8 - i % 5) % 5), regR ((9 - i % 5) % 5), RIPEMD.r'.getD i 0, RIPEMD.s'.getD i 0⟩

/-- number of steps of the left line done before the j-th call -/
def nl (j : Nat) : Nat := j / 16 / 2 * 16 + (if j / 16 % 2 = 0 then j % 16 else 16)
/-- number of steps of the right line done before the j-th call -/
def nr (j : Nat) : Nat := j / 16 / 2 * 16 + (if j / 16 % 2 = 0 then 0 else j % 16)

/-- the j-th call -/
def rowOf (j : Nat) : Row := if j / 16 % 2 = 0 then rowL (nl j) else rowR (nr j)

theorem rows_eq : rows = (List.range 160).map rowOf := by decide +kernel

theorem s_ok : ∀ i, i < 80 → 0 < RIPEMD.s.getD i 0 ∧ RIPEMD.s.getD i 0 < 32 := by decide +kernel
theorem s'_ok : ∀ i, i < 80 → 0 < RIPEMD.s'.getD i 0 ∧ RIPEMD.s'.getD i 0 < 32 := by decide +kernel
theorem r_ok : ∀ i, i < 80 → RIPEMD.r.getD i 0 < 16 := by decide +kernel
theorem r'_ok : ∀ i, i < 80 → RIPEMD.r'.getD i 0 < 16 := by decide +kernel
theorem constL : ∀ i, i < 80 → (fnL (i / 16)).const = RIPEMD.K (i / 16) := by decide +kernel
theorem constR : ∀ i, i < 80 → (fnR (i / 16)).const = RIPEMD.K' 4 (i / 16) := by decide +kernel

theorem evalL (i : Nat) (hi : i < 80) (x y z : W32) : (fnL (i / 16)).eval x y z = RIPEMD.f (i / 16) x y z := by
  have : i / 16 = 0 ∨ i / 16 = 1 ∨ i / 16 = 2 ∨ i / 16 = 3 ∨ i / 16 = 4 := by omega
  rcases this with h | h | h | h | h <;> rw [h] <;> rfl
theorem evalR (i : Nat) (hi : i < 80) (x y z : W32) :
    (fnR (i / 16)).eval x y z = RIPEMD.f ((80 - 1 - i) / 16) x y z := by
  have : (i / 16 = 0 ∧ (80 - 1 - i) / 16 = 4) ∨ (i / 16 = 1 ∧ (80 - 1 - i) / 16 = 3) ∨ (i / 16 = 2 ∧ (80 - 1 - i) / 16 = 2) ∨ (i / 16 = 3 ∧ (80 - 1 - i) / 16 = 1) ∨ (i / 16 = 4 ∧ (80 - 1 - i) / 16 = 0) := by omega
  rcases this with ⟨h, h'⟩ | ⟨h, h'⟩ | ⟨h, h'⟩ | ⟨h, h'⟩ | ⟨h, h'⟩ <;> rw [h, h'] <;> rfl

theorem execL (blk : List Byte) (i : Nat) (hi : i < 80) (q : Regs) :
    ∃ q', exec ((List.range 16).map (RIPEMD.word blk)) (rowL i) q = .ok q' ∧ q'.R = q.R ∧
      view (i + 1) q'.L = RIPEMD.left160 blk i (view i q.L) := by
  have hs := s_ok i hi
  have hx := r_ok i hi
  have hget : aget ((List.range 16).map (RIPEMD.word blk)) (RIPEMD.r.getD i 0) = .ok (RIPEMD.word blk (RIPEMD.r.getD i 0)) := by
    rw [aget_ok (by simpa using hx)]; simp
  unfold exec
  simp only [rowL, hget, Except.bind_ok, rotlM_eq _ hs.1 hs.2, evalL i hi, constL i hi, Except.pure_eq, rotl_eq _ (by decide : 10 < 32)]
  refine ⟨_, rfl, ?_⟩
  have h4 : i % 5 = 0 ∨ i % 5 = 1 ∨ i % 5 = 2 ∨ i % 5 = 3 ∨ i % 5 = 4 := by omega
  rcases h4 with h | h | h | h | h <;>
    (have h' : (i + 1) % 5 = (i % 5 + 1) % 5 := by omega
     simp only [h, Nat.reduceAdd, Nat.reduceMod] at h'
     simp only [view, h, h', RIPEMD.left160, RIPEMD.step5, regL, get, set, Nat.reduceSub, Nat.reduceMod]
     simp only [RIPEMD.St5.mk.injEq, and_true, true_and, BitVec.add_assoc])

theorem execR (blk : List Byte) (i : Nat) (hi : i < 80) (q : Regs) :
    ∃ q', exec ((List.range 16).map (RIPEMD.word blk)) (rowR i) q = .ok q' ∧ q'.L = q.L ∧
      view (i + 1) q'.R = RIPEMD.right160 blk i (view i q.R) := by
  have hs := s'_ok i hi
  have hx := r'_ok i hi
  have hget : aget ((List.range 16).map (RIPEMD.word blk)) (RIPEMD.r'.getD i 0) = .ok (RIPEMD.word blk (RIPEMD.r'.getD i 0)) := by
    rw [aget_ok (by simpa using hx)]; simp
  unfold exec
  simp only [rowR, hget, Except.bind_ok, rotlM_eq _ hs.1 hs.2, evalR i hi, constR i hi, Except.pure_eq, rotl_eq _ (by decide : 10 < 32)]
  refine ⟨_, rfl, ?_⟩
  have h4 : i % 5 = 0 ∨ i % 5 = 1 ∨ i % 5 = 2 ∨ i % 5 = 3 ∨ i % 5 = 4 := by omega
  rcases h4 with h | h | h | h | h <;>
    (have h' : (i + 1) % 5 = (i % 5 + 1) % 5 := by omega
     simp only [h, Nat.reduceAdd, Nat.reduceMod] at h'
     simp only [view, h, h', RIPEMD.right160, RIPEMD.step5, regR, get, set, Nat.reduceSub, Nat.reduceMod]
     simp only [RIPEMD.St5.mk.injEq, and_true, true_and, BitVec.add_assoc])

theorem rounds_ok (blk : List Byte) (h : Q5 W32) :
    ∃ q, rows.foldlM (fun q r => exec ((List.range 16).map (RIPEMD.word blk)) r q) ⟨h, h⟩ = .ok q ∧
      view 80 q.L = (List.range 80).foldl (fun q j => RIPEMD.left160 blk j q) (view 0 h) ∧
      view 80 q.R = (List.range 80).foldl (fun q j => RIPEMD.right160 blk j q) (view 0 h) := by
  obtain ⟨q, e, hv⟩ := foldlM_rows (exec ((List.range 16).map (RIPEMD.word blk))) rowOf (fun _ (t : Unit) => t)
    (fun j q _ =>
      view (nl j) q.L = (List.range (nl j)).foldl (fun q j => RIPEMD.left160 blk j q) (view 0 h) ∧
      view (nr j) q.R = (List.range (nr j)).foldl (fun q j => RIPEMD.right160 blk j q) (view 0 h)) 160
    (by
      intro j hj q _ hq
      by_cases hs : j / 16 % 2 = 0
      · have hlt : nl j < 80 := by unfold nl; rw [if_pos hs]; omega
        have h1 : nl (j + 1) = nl j + 1 := by unfold nl; rw [if_pos hs]; split <;> omega
        have h2 : nr (j + 1) = nr j := by unfold nr; rw [if_pos hs]; split <;> omega
        obtain ⟨q', e', hO, hS⟩ := execL blk (nl j) hlt q
        refine ⟨q', by rw [rowOf, if_pos hs]; exact e', ?_, ?_⟩
        · rw [h1, hS, List.range_succ, List.foldl_append, hq.1]; rfl
        · rw [h2, hO]; exact hq.2
      · have hlt : nr j < 80 := by unfold nr; rw [if_neg hs]; omega
        have h1 : nl (j + 1) = nl j := by unfold nl; rw [if_neg hs]; split <;> omega
        have h2 : nr (j + 1) = nr j + 1 := by unfold nr; rw [if_neg hs]; split <;> omega
        obtain ⟨q', e', hO, hS⟩ := execR blk (nr j) hlt q
        refine ⟨q', by rw [rowOf, if_neg hs]; exact e', ?_, ?_⟩
        · rw [h1, hO]; exact hq.1
        · rw [h2, hS, List.range_succ, List.foldl_append, hq.2]; rfl) ⟨h, h⟩ () ⟨rfl, rfl⟩
  rw [← rows_eq] at e
  exact ⟨q, e, hv⟩

theorem transform_ok (env : Env) (st : RIPEMD.St5) (b more : List Byte) (hb : b.length = 64) :
    transform env (.mem (b ++ more)) ⟨st.A, st.B, st.C, st.D, st.E⟩
      = .ok (let t := RIPEMD.compress160 st b; ⟨t.A, t.B, t.C, t.D, t.E⟩) := by
  unfold transform
  have hl := forLoop_load (read32le env) (leWord 32) 4 (read32le_ok env) b more 16 0 (by omega)
  simp only [List.replicate_zero, List.append_nil, Nat.add_zero] at hl
  rw [hl]
  simp only [Except.bind_ok]
  obtain ⟨q, e, h1, h2⟩ := rounds_ok b ⟨st.A, st.B, st.C, st.D, st.E⟩
  unfold RIPEMD.word at e
  rw [e]
  have h0 : view 0 (⟨st.A, st.B, st.C, st.D, st.E⟩ : Q5 W32) = st := rfl
  rw [h0] at h1 h2
  simp only [Except.bind_ok, Except.pure_eq, RIPEMD.compress160, ← h1, ← h2]
  have h3 : q.R.d + (q.L.c + st.B) = st.B + q.L.c + q.R.d := by ac_rfl
  rw [h3]
  rfl

theorem out_ok (env : Env) (st : RIPEMD.St5) : out env ⟨st.A, st.B, st.C, st.D, st.E⟩ = .ok (RIPEMD.ripemd160.out st) := by
  unfold out
  have := forLoop_write 4 (Q5.get (⟨st.A, st.B, st.C, st.D, st.E⟩ : Q5 W32)) (write32le env) (fun v => natLE 4 v.toNat)
    (by simp) (fun d off v h => write32le_ok env d off v h) [st.A, st.B, st.C, st.D, st.E]
    (by
      intro i hi
      match i, hi with
      | 0, _ => rfl
      | 1, _ => rfl
      | 2, _ => rfl
      | 3, _ => rfl
      | 4, _ => rfl) (List.replicate 20 0) (by simp)
  simpa [RIPEMD.ripemd160] using this

def ok (env : Env) : MdOk md RIPEMD.ripemd160 env where
  u t := ⟨t.A, t.B, t.C, t.D, t.E⟩
  v q := ⟨q.a, q.b, q.c, q.d, q.e⟩
  uv _ := rfl
  vu _ := rfl
  hN := rfl
  ctr := rfl
  clear := rfl
  pos := by decide
  dvd := by decide
  hL := by decide
  thr := rfl
  over := rfl
  padLen := rfl
  bitsLen := rfl
  tr := transform_ok env
  iv := rfl
  enc len := by
    show write64le env (List.replicate 8 0) 0 _ = _
    rw [write64le_ok _ _ _ _ (by simp)]
    have : (BitVec.ofNat 64 (len % 2 ^ 64 * 8)).toNat = 8 * len % 256 ^ 8 := by
      rw [BitVec.toNat_ofNat]; omega
    rw [this, natLE_mod]
    simp [RIPEMD.ripemd160]
  encLen _ := by simp [RIPEMD.ripemd160]
  out := out_ok env

/-- ripemd_160 implements RIPEMD-160 -/
def implements (env : Env) : Implements ripemd_160.toHash env RIPEMD.ripemd160.machine := (ok env).implements 64

end Hash2.Rip160

import Mathlib.Data.Finite.Defs
import Mathlib.Data.Fintype.EquivFin
import Verif.Lemmas.Bits
import Verif.Lemmas.Extended
import Verif.Lemmas.Local
import Verif.Lemmas.Pigeon
/-
Differences that pass through the rounds of MurmurHash3 and XXH64 whatever the state is.
-/
namespace Hash2
open Spec

theorem surj_of_inj {w : Nat} {f : BitVec w → BitVec w} (h : ∀ x y, f x = f y → x = y) (y : BitVec w) : ∃ x, f x = y := by
  have : Finite (BitVec w) := Finite.of_injective BitVec.toFin (fun x y h => by cases x; cases y; simpa using h)
  exact (Finite.injective_iff_surjective.1 (fun x y => h x y)) y

theorem rotl_xor {w : Nat} (x d : BitVec w) (r : Nat) : (x ^^^ d).rotateLeft r = x.rotateLeft r ^^^ d.rotateLeft r := by
  apply BitVec.eq_of_getElem_eq
  intro j hj
  simp only [BitVec.getElem_rotateLeft, BitVec.getElem_xor]
  split <;> rfl

/-- flipping the top bit is adding it -/
theorem top_xor (n : Nat) (x : BitVec (n + 1)) : x ^^^ BitVec.twoPow (n + 1) n = x + BitVec.twoPow (n + 1) n := by
  have hx := x.isLt
  apply BitVec.eq_of_toNat_eq
  rw [BitVec.toNat_xor, BitVec.toNat_add, BitVec.toNat_twoPow, Nat.mod_eq_of_lt (Nat.pow_lt_pow_right (by decide) (by omega))]
  have h2 : 2 ^ (n + 1) = 2 ^ n + 2 ^ n := by rw [Nat.pow_succ]; omega
  have low : ∀ a, a < 2 ^ n → a ^^^ 2 ^ n = a + 2 ^ n := by
    intro a ha
    have h1 := Nat.two_pow_add_eq_or_of_lt ha 1
    rw [Nat.mul_one] at h1
    rw [Nat.add_comm, h1]
    apply Nat.eq_of_testBit_eq
    intro i
    rw [Nat.testBit_xor, Nat.testBit_or, Nat.testBit_two_pow]
    by_cases hi : n = i
    · subst hi; simp [Nat.testBit_lt_two_pow ha]
    · simp [hi]
  by_cases hm : x.toNat < 2 ^ n
  · rw [low _ hm, Nat.mod_eq_of_lt (by omega)]
  · obtain ⟨a, ha⟩ : ∃ a, x.toNat = a + 2 ^ n := ⟨x.toNat - 2 ^ n, by omega⟩
    have hal : a < 2 ^ n := by omega
    rw [ha, ← low a hal, Nat.xor_assoc, Nat.xor_self, Nat.xor_zero, low a hal]
    rw [show a + 2 ^ n + 2 ^ n = a + 2 ^ (n + 1) by omega, Nat.add_mod_right, Nat.mod_eq_of_lt (by omega)]

theorem top32 (x : BitVec 32) : x ^^^ 0x80000000#32 = x + 0x80000000#32 := top_xor 31 x
theorem top64 (x : BitVec 64) : x ^^^ 0x8000000000000000#64 = x + 0x8000000000000000#64 := top_xor 63 x

/-- the word at the beginning of a block -/
theorem leWord_natLE {w k : Nat} (hw : 256 ^ k = 2 ^ w) (x : BitVec w) : leWord w (natLE k x.toNat) = x := by
  unfold leWord
  rw [leNat_natLE, hw, Nat.mod_eq_of_lt x.isLt, BitVec.ofNat_toNat, BitVec.setWidth_eq]

/-! ### MurmurHash3_x86_32 -/

theorem mur32_scramble_surj (y : BitVec 32) : ∃ k, MURMUR3.x86_32.scramble k = y :=
  surj_of_inj (fun _ _ h => MurL.scramble_inj h) y

/-- a difference in one block that the next block takes back, whatever the state -/
theorem mur32_pair (k₁ k₂ : BitVec 32) : ∃ k₁' k₂', k₁' ≠ k₁ ∧ ∀ h,
    MURMUR3.x86_32.body (MURMUR3.x86_32.body h k₁') k₂' = MURMUR3.x86_32.body (MURMUR3.x86_32.body h k₁) k₂ := by
  obtain ⟨k₁', e₁⟩ := mur32_scramble_surj (MURMUR3.x86_32.scramble k₁ ^^^ 0x40000#32)
  obtain ⟨k₂', e₂⟩ := mur32_scramble_surj (MURMUR3.x86_32.scramble k₂ ^^^ 0x80000000#32)
  refine ⟨k₁', k₂', ?_, fun h => ?_⟩
  · rintro rfl
    have := congrArg (MURMUR3.x86_32.scramble k₁' ^^^ ·) e₁
    simp only [BitVec.xor_self, ← BitVec.xor_assoc, BitVec.zero_xor] at this
    exact absurd this (by decide)
  · unfold MURMUR3.x86_32.body
    rw [e₁, e₂, ← BitVec.xor_assoc h (MURMUR3.x86_32.scramble k₁) 0x40000#32, rotl_xor _ 0x40000#32, show (0x40000#32).rotateLeft 13 = 0x80000000#32 from by decide, top32]
    generalize (h ^^^ MURMUR3.x86_32.scramble k₁).rotateLeft 13 = z
    generalize MURMUR3.x86_32.scramble k₂ = s
    have e : (z + 0x80000000#32) * 5 + 0xe6546b64 = (z * 5 + 0xe6546b64) ^^^ 0x80000000#32 := by
      rw [top32, BitVec.add_mul, show (0x80000000#32 * 5) = 0x80000000#32 from by decide, BitVec.add_assoc, BitVec.add_comm 0x80000000#32, BitVec.add_assoc]
    rw [e, BitVec.xor_comm s, BitVec.xor_assoc, ← BitVec.xor_assoc 0x80000000#32, BitVec.xor_self, BitVec.zero_xor]

/-! ### executions with a block of the message replaced -/

theorem AlgName.exec_insert {a : AlgName} {env : Env} {c : Ctor} (hc : c.Valid) {before mid more : List Op} {ts tm : List Tok} {z : List Byte}
    (hb : stream before = some ts) (hz : stream mid = some (z.map .data))
    (hm : stream more = some tm) (hn : a.NullOk env) (hr : ∀ ts, a.Room env c ts) :
    a.impl.exec env c (before ++ mid ++ more) =
      .ok (((a.machine env.sizeBits).run (c.start (a.machine env.sizeBits)) ts).2 ++
        ((a.machine env.sizeBits).run ((a.machine env.sizeBits).absorb ((a.machine env.sizeBits).run (c.start (a.machine env.sizeBits)) ts).1 z) tm).2) := by
  have hs : stream (before ++ mid ++ more) = some (ts ++ (z.map .data ++ tm)) := by
    rw [stream_append, stream_append, hb, hm, hz]
    simp
  rw [AlgName.exec_ok hc hs (.inl hn) (hr _), Machine.run_append, Machine.run_append]
  obtain ⟨s, _, r⟩ := AlgName.construct_ok (a := a) (env := env) (ts := ts) hc (hr _)
  obtain ⟨s', _, r'⟩ := (a.impls env).run_ok r before ts hb (.inl (AlgName.nullSafe hn)) (AlgName.fits (hr _))
  rw [((a.impls env).run_data r' z).1]
  simp

/-- 2^k messages from one pair of blocks -/
def choices (x y : List Byte) : Nat → List (List Byte)
  | 0 => [[]]
  | k + 1 => (choices x y k).map (x ++ ·) ++ (choices x y k).map (y ++ ·)

theorem choices_length (x y : List Byte) (k : Nat) : (choices x y k).length = 2 ^ k := by
  induction k with
  | zero => rfl
  | succ k ih => simp only [choices, List.length_append, List.length_map, ih, Nat.pow_succ]; omega

theorem choices_lengths {x y : List Byte} {n : Nat} (hx : x.length = n) (hy : y.length = n) (k : Nat) : ∀ z ∈ choices x y k, z.length = n * k := by
  induction k with
  | zero => simp [choices]
  | succ k ih =>
    intro z hz
    simp only [choices, List.mem_append, List.mem_map] at hz
    rcases hz with ⟨w, hw, rfl⟩ | ⟨w, hw, rfl⟩ <;> rw [List.length_append, ih w hw, Nat.mul_succ] <;> omega

theorem choices_nodup {x y : List Byte} (hl : x.length = y.length) (hne : x ≠ y) (k : Nat) : (choices x y k).Nodup := by
  induction k with
  | zero => simp [choices]
  | succ k ih =>
    rw [choices, List.nodup_append]
    refine ⟨ih.map (fun _ _ h => List.append_cancel_left h), ih.map (fun _ _ h => List.append_cancel_left h), ?_⟩
    intro a ha b hb e
    simp only [List.mem_map] at ha hb
    obtain ⟨u, -, rfl⟩ := ha
    obtain ⟨v, -, rfl⟩ := hb
    exact hne (List.append_inj_left e hl)

/-- they all lead to the same state -/
theorem choices_absorb {R : Type} {M : Machine R} (happ : ∀ s xs ys, M.absorb s (xs ++ ys) = M.absorb (M.absorb s xs) ys) {P : M.S → Prop}
    {x y : List Byte} (h : ∀ s, P s → M.absorb s x = M.absorb s y) (hp : ∀ s, P s → P (M.absorb s x)) (k : Nat) :
    ∀ s, P s → ∃ t, ∀ z ∈ choices x y k, M.absorb s z = t := by
  induction k with
  | zero => intro s _; exact ⟨_, fun z hz => by rw [List.mem_singleton.1 hz]⟩
  | succ k ih =>
    intro s hs
    obtain ⟨t, ht⟩ := ih _ (hp s hs)
    refine ⟨t, fun z hz => ?_⟩
    simp only [choices, List.mem_append, List.mem_map] at hz
    rcases hz with ⟨w, hw, rfl⟩ | ⟨w, hw, rfl⟩
    · rw [happ, ht w hw]
    · rw [happ, ← h s hs, ht w hw]

/-! ### blocks that can be replaced -/

section
variable {τ R : Type} (T : BlockHash τ R)

/-- whole blocks after whole blocks -/
theorem Spec.BlockHash.absorb_aligned (hN : 0 < T.N) (o : Obj τ) (ho : o.tail.length % T.N = 0) (x : List Byte) (hx : x.length % T.N = 0) :
    T.absorb o x = ⟨(blocks T.N x).foldl T.compress ((blocks T.N o.tail).foldl T.compress o.st), [], (o.n + x.length) % 2 ^ T.ctr⟩ := by
  have e : rest T.N o.tail = [] := List.eq_nil_of_length_eq_zero (by rw [rest_length, ho])
  simp only [BlockHash.absorb]
  rw [(blocks_split hN o.tail x).1, (blocks_split hN o.tail x).2, e, List.nil_append, List.foldl_append,
    List.eq_nil_of_length_eq_zero (l := rest T.N x) (by rw [rest_length, hx])]

theorem Spec.BlockHash.run_tail {init : Obj τ} {seed : BitVec 64 → Obj τ} {bytes : List Byte → Obj τ} (ts : List Tok) :
    ∀ (o : Obj τ), (((T.machine init seed bytes).run o ts).1 : Obj τ).tail.length % T.N =
      ts.foldl (fun n t => match t with | .data _ => n + 1 | .fin => 0) o.tail.length % T.N := by
  have key : ∀ (ts : List Tok) (n n' : Nat), n % T.N = n' % T.N → ts.foldl (fun n t => match t with | .data _ => n + 1 | .fin => 0) n % T.N =
      ts.foldl (fun n t => match t with | .data _ => n + 1 | .fin => 0) n' % T.N := by
    intro ts
    induction ts with
    | nil => intro n n' h; exact h
    | cons t ts ih =>
      intro n n' h
      cases t with
      | data b => exact ih _ _ (by rw [Nat.add_mod, h, ← Nat.add_mod])
      | fin => exact ih _ _ rfl
  induction ts with
  | nil => intro o; rfl
  | cons t ts ih =>
    intro o
    cases t with
    | data b =>
      refine (ih (T.absorb o [b])).trans (key ts _ _ ?_)
      show (rest T.N (o.tail ++ [b])).length % T.N = _
      rw [rest_length, Nat.mod_mod, List.length_append]
      rfl
    | fin => exact ih (T.res o).1

end

theorem blocks_two {N : Nat} (hN : 0 < N) {b b' : List Byte} (hb : b.length = N) (hb' : b'.length = N) : blocks N (b ++ b') = [b, b'] := by
  have e := blocks_append hN (b := b') (l := []) hb'
  rw [List.append_nil, blocks_short (l := []) (by simpa using hN)] at e
  rw [blocks_append hN hb, e]

theorem Spec.BlockHash.swap_two {τ R : Type} (T : BlockHash τ R) {N : Nat} (hN : T.N = N) (h0 : 0 < N) {b₁ b₂ c₁ c₂ : List Byte} (l₁ : b₁.length = N)
    (l₂ : b₂.length = N) (l₃ : c₁.length = N) (l₄ : c₂.length = N) (h : ∀ s, T.compress (T.compress s b₁) b₂ = T.compress (T.compress s c₁) c₂)
    (o : Obj τ) (ho : o.tail.length % N = 0) : T.absorb o (b₁ ++ b₂) = T.absorb o (c₁ ++ c₂) := by
  subst hN
  have l : ∀ b c : List Byte, b.length = T.N → c.length = T.N → (b ++ c).length % T.N = 0 := fun b c hb hc => by
    rw [List.length_append, hb, hc, Nat.add_mod_right, Nat.mod_self]
  rw [T.absorb_aligned h0 o ho _ (l _ _ l₁ l₂), T.absorb_aligned h0 o ho _ (l _ _ l₃ l₄), blocks_two h0 l₁ l₂, blocks_two h0 l₃ l₄]
  simp only [List.foldl_cons, List.foldl_nil, h, List.length_append, l₁, l₂, l₃, l₄]

/-- eight bytes in place of the eight bytes x -/
theorem mur32_swap (x : List Byte) (hx : x.length = 8) : ∃ y : List Byte, y ≠ x ∧ y.length = 8 ∧ ∀ (ctr : Nat) (o : Obj (BitVec 32)),
    o.tail.length % 4 = 0 → (MURMUR3.x86_32.obj ctr).absorb o x = (MURMUR3.x86_32.obj ctr).absorb o y := by
  obtain ⟨k₁, k₂, hne, h⟩ := mur32_pair (leWord 32 (x.take 4)) (leWord 32 (x.drop 4))
  refine ⟨natLE 4 k₁.toNat ++ natLE 4 k₂.toNat, ?_, by simp [natLE_length], fun ctr o ho => ?_⟩
  · rintro rfl
    rw [List.take_left' (natLE_length _ _), leWord_natLE (by decide)] at hne
    exact hne rfl
  · have key := BlockHash.swap_two (MURMUR3.x86_32.obj ctr) (N := 4) rfl (by decide) (b₁ := x.take 4) (b₂ := x.drop 4) (c₁ := natLE 4 k₁.toNat)
      (c₂ := natLE 4 k₂.toNat) (by simp [hx]) (by simp [hx]) (natLE_length _ _) (natLE_length _ _) (fun s => by
        show MURMUR3.x86_32.body (MURMUR3.x86_32.body _ (leWord 32 _)) (leWord 32 _) = MURMUR3.x86_32.body (MURMUR3.x86_32.body _ (leWord 32 _)) (leWord 32 _)
        rw [leWord_natLE (by decide), leWord_natLE (by decide), h]) o ho
    rwa [List.take_append_drop] at key

/-! ### MurmurHash3_x64_128 -/

theorem mur128_pair (k₁ k₂ k₃ : BitVec 64) : ∃ k₁' k₂' k₃', k₁' ≠ k₁ ∧
    MURMUR3.x64_128.scramble1 k₁' = MURMUR3.x64_128.scramble1 k₁ ^^^ 0x1000000000#64 ∧
    MURMUR3.x64_128.scramble2 k₂' = MURMUR3.x64_128.scramble2 k₂ ^^^ 0x100000000#64 ∧
    MURMUR3.x64_128.scramble1 k₃' = MURMUR3.x64_128.scramble1 k₃ ^^^ 0x8000000000000000#64 := by
  obtain ⟨k₁', e₁⟩ := surj_of_inj (fun _ _ h => MurL.scramble1_inj h) (MURMUR3.x64_128.scramble1 k₁ ^^^ 0x1000000000#64)
  obtain ⟨k₂', e₂⟩ := surj_of_inj (fun _ _ h => MurL.scramble2_inj h) (MURMUR3.x64_128.scramble2 k₂ ^^^ 0x100000000#64)
  obtain ⟨k₃', e₃⟩ := surj_of_inj (fun _ _ h => MurL.scramble1_inj h) (MURMUR3.x64_128.scramble1 k₃ ^^^ 0x8000000000000000#64)
  refine ⟨k₁', k₂', k₃', ?_, e₁, e₂, e₃⟩
  rintro rfl
  have := congrArg (MURMUR3.x64_128.scramble1 k₁' ^^^ ·) e₁
  simp only [BitVec.xor_self, ← BitVec.xor_assoc, BitVec.zero_xor] at this
  exact absurd this (by decide)

theorem five64 (z c : BitVec 64) : (z + 0x8000000000000000#64) * 5 + c = (z * 5 + c) + 0x8000000000000000#64 := by
  rw [BitVec.add_mul, show (0x8000000000000000#64 * 5) = 0x8000000000000000#64 from by decide, BitVec.add_assoc, BitVec.add_comm 0x8000000000000000#64, BitVec.add_assoc]

theorem twice64 (z : BitVec 64) : z + 0x8000000000000000#64 + 0x8000000000000000#64 = z := by
  rw [BitVec.add_assoc, show 0x8000000000000000#64 + 0x8000000000000000#64 = 0#64 from by decide, BitVec.add_zero]

/-- the block with the first two words changed: the first half of the state is off by 2^63 -/
theorem mur128_first {b b' : List Byte}
    (h1 : MURMUR3.x64_128.scramble1 (leWord 64 (b'.take 8)) = MURMUR3.x64_128.scramble1 (leWord 64 (b.take 8)) ^^^ 0x1000000000#64)
    (h2 : MURMUR3.x64_128.scramble2 (leWord 64 (b'.drop 8)) = MURMUR3.x64_128.scramble2 (leWord 64 (b.drop 8)) ^^^ 0x100000000#64) (s : MURMUR3.x64_128.St) :
    MURMUR3.x64_128.body s b' = ⟨(MURMUR3.x64_128.body s b).h1 + 0x8000000000000000#64, (MURMUR3.x64_128.body s b).h2⟩ := by
  simp only [MURMUR3.x64_128.body]
  rw [h1, h2]
  generalize MURMUR3.x64_128.scramble1 (leWord 64 (b.take 8)) = u
  generalize MURMUR3.x64_128.scramble2 (leWord 64 (b.drop 8)) = v
  rw [← BitVec.xor_assoc s.h1, ← BitVec.xor_assoc s.h2, rotl_xor _ 0x1000000000#64, rotl_xor _ 0x100000000#64,
    show (0x1000000000#64).rotateLeft 27 = 0x8000000000000000#64 from by decide, show (0x100000000#64).rotateLeft 31 = 0x8000000000000000#64 from by decide,
    top64, top64]
  generalize (s.h1 ^^^ u).rotateLeft 27 = p
  generalize (s.h2 ^^^ v).rotateLeft 31 = q
  have e1 : (p + 0x8000000000000000#64 + s.h2) * 5 + 0x52dce729 = ((p + s.h2) * 5 + 0x52dce729) + 0x8000000000000000#64 := by
    rw [BitVec.add_assoc, BitVec.add_comm _ s.h2, ← BitVec.add_assoc, five64]
  rw [e1]
  generalize (p + s.h2) * 5 + 0x52dce729 = r
  rw [BitVec.add_assoc q, BitVec.add_comm 0x8000000000000000#64, twice64]

theorem mur128_second {b b' : List Byte}
    (h1 : MURMUR3.x64_128.scramble1 (leWord 64 (b'.take 8)) = MURMUR3.x64_128.scramble1 (leWord 64 (b.take 8)) ^^^ 0x8000000000000000#64)
    (h2 : leWord 64 (b'.drop 8) = leWord 64 (b.drop 8)) (s : MURMUR3.x64_128.St) :
    MURMUR3.x64_128.body ⟨s.h1 + 0x8000000000000000#64, s.h2⟩ b' = MURMUR3.x64_128.body s b := by
  simp only [MURMUR3.x64_128.body]
  rw [h1, h2, ← top64, BitVec.xor_comm _ 0x8000000000000000#64, ← BitVec.xor_assoc, BitVec.xor_comm _ s.h1, BitVec.xor_assoc s.h1, BitVec.xor_comm 0x8000000000000000#64,
    BitVec.xor_assoc, BitVec.xor_assoc, BitVec.xor_self, BitVec.xor_zero]

theorem mur128_swap (x : List Byte) (hx : x.length = 32) : ∃ y : List Byte, y ≠ x ∧ y.length = 32 ∧ ∀ (ctr : Nat) (o : Obj MURMUR3.x64_128.St),
    o.tail.length % 16 = 0 → (MURMUR3.x64_128.obj ctr).absorb o x = (MURMUR3.x64_128.obj ctr).absorb o y := by
  obtain ⟨k₁, k₂, k₃, hne, h1, h2, h3⟩ := mur128_pair (leWord 64 ((x.take 16).take 8)) (leWord 64 ((x.take 16).drop 8)) (leWord 64 ((x.drop 16).take 8))
  have l1 : (natLE 8 k₁.toNat ++ natLE 8 k₂.toNat).length = 16 := by simp [natLE_length]
  have l2 : (natLE 8 k₃.toNat ++ (x.drop 16).drop 8).length = 16 := by simp [natLE_length, hx]
  refine ⟨(natLE 8 k₁.toNat ++ natLE 8 k₂.toNat) ++ (natLE 8 k₃.toNat ++ (x.drop 16).drop 8), ?_, by rw [List.length_append, l1, l2], fun ctr o ho => ?_⟩
  · intro e
    have e := congrArg (List.take 8 ∘ List.take 16) e
    simp only [Function.comp] at e
    rw [List.take_left' l1, List.take_left' (natLE_length _ _)] at e
    rw [← e, leWord_natLE (by decide)] at hne
    exact hne rfl
  · have key := BlockHash.swap_two (MURMUR3.x64_128.obj ctr) (N := 16) rfl (by decide) (b₁ := x.take 16) (b₂ := x.drop 16)
      (c₁ := natLE 8 k₁.toNat ++ natLE 8 k₂.toNat) (c₂ := natLE 8 k₃.toNat ++ (x.drop 16).drop 8) (by simp [hx]) (by simp [hx]) l1 l2 (fun s => by
        show MURMUR3.x64_128.body (MURMUR3.x64_128.body _ _) _ = MURMUR3.x64_128.body (MURMUR3.x64_128.body _ _) _
        rw [mur128_first (b := x.take 16) (b' := natLE 8 k₁.toNat ++ natLE 8 k₂.toNat)
          (by rw [List.take_left' (natLE_length _ _), leWord_natLE (by decide), h1])
          (by rw [List.drop_left' (natLE_length _ _), leWord_natLE (by decide), h2]),
          mur128_second (b := x.drop 16) (b' := natLE 8 k₃.toNat ++ (x.drop 16).drop 8)
          (by rw [List.take_left' (natLE_length _ _), leWord_natLE (by decide), h3])
          (by rw [List.drop_left' (natLE_length _ _)])]) o ho
    rwa [List.take_append_drop] at key

/-! ### FNV-1a -/

theorem nat_xor_byte (n b : Nat) (hb : b < 256) : n ^^^ b = 256 * (n / 256) + (n % 256 ^^^ b) ∧ (n % 256 ^^^ b) < 256 := by
  have h1 : (n ^^^ b) / 2 ^ 8 = n / 2 ^ 8 := by
    rw [Nat.xor_div_two_pow, Nat.div_eq_of_lt (a := b) (by simpa using hb), Nat.xor_zero]
  have h2 : (n ^^^ b) % 2 ^ 8 = n % 2 ^ 8 ^^^ b := by
    rw [Nat.xor_mod_two_pow, Nat.mod_eq_of_lt (a := b) (by simpa using hb)]
  have h3 := Nat.div_add_mod (n ^^^ b) (2 ^ 8)
  rw [h1, h2] at h3
  exact ⟨h3.symm, by rw [show (256 : Nat) = 2 ^ 8 from rfl, ← h2]; exact Nat.mod_lt _ (by decide)⟩

theorem mod_mul_low {q r m : Nat} (hr : r < 256) : (256 * q + r) % (256 * m) = 256 * (q % m) + r := by
  rw [Nat.mod_mul, Nat.mul_add_mod, Nat.mod_eq_of_lt hr, Nat.mul_add_div (by decide), Nat.div_eq_of_lt hr, Nat.add_zero, Nat.add_comm]

/-- a byte does not see what is above it -/
theorem xor_byte_add {v : Nat} (h u : BitVec (8 + v)) (b : Byte) :
    (h + 256#(8 + v) * u) ^^^ BitVec.ofNat (8 + v) b.toNat = (h ^^^ BitVec.ofNat (8 + v) b.toNat) + 256#(8 + v) * u := by
  have hb : b.toNat < 256 := b.isLt
  have hp : 2 ^ (8 + v) = 256 * 2 ^ v := by rw [Nat.pow_add]
  have hlt : b.toNat < 2 ^ (8 + v) := by rw [hp]; have := Nat.two_pow_pos v; omega
  apply BitVec.eq_of_toNat_eq
  have e : ∀ x : BitVec (8 + v), (x + 256#(8 + v) * u).toNat = (x.toNat + 256 * u.toNat) % (256 * 2 ^ v) := by
    intro x
    rw [BitVec.toNat_add, BitVec.toNat_mul, BitVec.toNat_ofNat, hp, Nat.add_mod_mod]
    rw [Nat.add_mod, Nat.mul_mod (256 % (256 * 2 ^ v)), Nat.mod_mod, ← Nat.mul_mod, ← Nat.add_mod]
  rw [BitVec.toNat_xor, e, e, BitVec.toNat_xor, BitVec.toNat_ofNat, Nat.mod_eq_of_lt hlt]
  obtain ⟨h1, h2⟩ := nat_xor_byte h.toNat b.toNat hb
  have hd := Nat.div_add_mod h.toNat 256
  have hm : h.toNat % 256 < 256 := Nat.mod_lt _ (by decide)
  have e1 : (h.toNat + 256 * u.toNat) % (256 * 2 ^ v) = 256 * ((h.toNat / 256 + u.toNat) % 2 ^ v) + h.toNat % 256 := by
    rw [← mod_mul_low hm]; congr 1; omega
  have e2 : ((h.toNat ^^^ b.toNat) + 256 * u.toNat) % (256 * 2 ^ v) = 256 * ((h.toNat / 256 + u.toNat) % 2 ^ v) + (h.toNat % 256 ^^^ b.toNat) := by
    rw [← mod_mul_low h2]; congr 1; omega
  rw [e1, e2, (nat_xor_byte _ _ hb).1, Nat.mul_add_div (by decide), Nat.div_eq_of_lt hm, Nat.add_zero, Nat.mul_add_mod, Nat.mod_eq_of_lt hm]

/-- 256 u added to the state comes out multiplied by a power of the prime -/
theorem fnv_linear {v : Nat} (p : BitVec (8 + v)) (msg : List Byte) (h u : BitVec (8 + v)) :
    FNV.feed p (h + 256#(8 + v) * u) msg = FNV.feed p h msg + 256#(8 + v) * (u * p ^ msg.length) := by
  induction msg generalizing h u with
  | nil => simp [FNV.feed]
  | cons b msg ih =>
    show FNV.feed p (((h + 256#(8 + v) * u) ^^^ BitVec.ofNat (8 + v) b.toNat) * p) msg = FNV.feed p ((h ^^^ BitVec.ofNat (8 + v) b.toNat) * p) msg + _
    rw [xor_byte_add, BitVec.add_mul, BitVec.mul_assoc, ih, List.length_cons, BitVec.pow_succ, BitVec.mul_assoc u, BitVec.mul_comm p]

/-- what 256 states become, determines what all become -/
theorem fnv_determined {v : Nat} (p : BitVec (8 + v)) {x y : List Byte} (hl : x.length = y.length)
    (h : ∀ i < 256, FNV.feed p (BitVec.ofNat (8 + v) i) x = FNV.feed p (BitVec.ofNat (8 + v) i) y) (s : BitVec (8 + v)) : FNV.feed p s x = FNV.feed p s y := by
  have e : s = BitVec.ofNat (8 + v) (s.toNat % 256) + 256#(8 + v) * BitVec.ofNat (8 + v) (s.toNat / 256) := by
    rw [show 256#(8 + v) * BitVec.ofNat (8 + v) (s.toNat / 256) = BitVec.ofNat (8 + v) (256 * (s.toNat / 256)) from (BitVec.ofNat_mul ..).symm, ← BitVec.ofNat_add,
      Nat.add_comm (s.toNat % 256), Nat.div_add_mod, BitVec.ofNat_toNat, BitVec.setWidth_eq]
  rw [e, fnv_linear, fnv_linear, hl, h _ (Nat.mod_lt _ (by decide))]

theorem flatMap_inj_same {α β : Type} {k : Nat} {f g : α → List β} : ∀ {l : List α}, (∀ a, (f a).length = k) → (∀ a, (g a).length = k) →
    l.flatMap f = l.flatMap g → ∀ a ∈ l, f a = g a
  | [], _, _, _, _, h => absurd h List.not_mem_nil
  | a :: l, hf, hg, e, b, hb => by
    rw [List.flatMap_cons, List.flatMap_cons] at e
    obtain ⟨e1, e2⟩ := List.append_inj e (by rw [hf, hg])
    rcases List.mem_cons.1 hb with rfl | hb
    · exact e1
    · exact flatMap_inj_same hf hg e2 b hb

theorem fnv_swap {v k : Nat} (hk : 256 ^ k = 2 ^ (8 + v)) (p : BitVec (8 + v)) : ∃ x y : List Byte, x ≠ y ∧ x.length = 256 * k + 1 ∧ y.length = 256 * k + 1 ∧
    ∀ s, FNV.feed p s x = FNV.feed p s y := by
  obtain ⟨x, y, hne, hx, hy, e⟩ := bytes_pigeon (256 * k) (σ := { l : List Byte // l.length = 256 * k })
    (fun z => ⟨(List.range 256).flatMap (fun i => natLE k (FNV.feed p (BitVec.ofNat (8 + v) i) z).toNat), by
      simp only [List.length_flatMap, natLE_length, List.map_const', List.sum_replicate, List.length_range]; rfl⟩)
    (fun l => l.1) (fun l => l.2) (fun _ _ h => Subtype.ext h)
  refine ⟨x, y, hne, hx, hy, fnv_determined p (hx.trans hy.symm) (fun i hi => ?_)⟩
  have := flatMap_inj_same (k := k) (f := fun i => natLE k (FNV.feed p (BitVec.ofNat (8 + v) i) x).toNat) (g := fun i => natLE k (FNV.feed p (BitVec.ofNat (8 + v) i) y).toNat)
    (fun _ => natLE_length _ _) (fun _ => natLE_length _ _) (congrArg Subtype.val e) i (List.mem_range.2 hi)
  exact BitVec.eq_of_toNat_eq (natLE_inj (by rw [hk]; exact BitVec.isLt _) (by rw [hk]; exact BitVec.isLt _) this)

/-! ### XXH64 -/

theorem xx64_round_surj (y : BitVec 64) : ∃ l, XXH64.round 0 l = y :=
  surj_of_inj (f := XXH64.round 0) (fun _ _ h => mul_inj 0xba79078168d4baf#64 (by decide) ((BitVec.add_right_inj _).1
    (rotl_inj 31 (mul_inj 0x887493432badb37#64 (by decide) h)))) y

theorem xx64_swap (x : List Byte) (hx : x.length = 16) : ∃ y : List Byte, y ≠ x ∧ y.length = 16 ∧ ∀ (acc : BitVec 64) (p q : List Byte), p.length % 8 = 0 →
    XXH64.consume acc (p ++ (x ++ q)) = XXH64.consume acc (p ++ (y ++ q)) := by
  obtain ⟨l₁, e₁⟩ := xx64_round_surj (XXH64.round 0 (leWord 64 (x.take 8)) ^^^ 0x1000000000#64)
  obtain ⟨l₂, e₂⟩ := xx64_round_surj (XXH64.round 0 (leWord 64 (x.drop 8)) ^^^ 0x8000000000000000#64)
  refine ⟨natLE 8 l₁.toNat ++ natLE 8 l₂.toNat, ?_, by simp [natLE_length], fun acc p q hp => ?_⟩
  · rintro rfl
    rw [List.take_left' (natLE_length _ _), leWord_natLE (by decide)] at e₁
    have := congrArg (XXH64.round 0 l₁ ^^^ ·) e₁
    simp only [BitVec.xor_self, ← BitVec.xor_assoc, BitVec.zero_xor] at this
    exact absurd this (by decide)
  · have r : rest 8 p = [] := List.eq_nil_of_length_eq_zero (by rw [rest_length, hp])
    have sp : ∀ a b : List Byte, a.length = 8 → b.length = 8 → blocks 8 (p ++ (a ++ b ++ q)) = blocks 8 p ++ a :: b :: blocks 8 q ∧
        rest 8 (p ++ (a ++ b ++ q)) = rest 8 q := by
      intro a b ha hb
      rw [(blocks_split (by decide) p _).1, (blocks_split (by decide) p _).2, r, List.nil_append, List.append_assoc, blocks_append (by decide) ha,
        blocks_append (by decide) hb, rest_append (by decide) ha, rest_append (by decide) hb]
      exact ⟨rfl, rfl⟩
    obtain ⟨b1, r1⟩ := sp (x.take 8) (x.drop 8) (by simp [hx]) (by simp [hx])
    obtain ⟨b2, r2⟩ := sp (natLE 8 l₁.toNat) (natLE 8 l₂.toNat) (natLE_length _ _) (natLE_length _ _)
    rw [List.take_append_drop] at b1 r1
    unfold XXH64.consume
    rw [b1, r1, b2, r2, List.foldl_append, List.foldl_append]
    generalize (blocks 8 p).foldl _ acc = a
    simp only [List.foldl_cons]
    rw [leWord_natLE (by decide), leWord_natLE (by decide), e₁, e₂, ← BitVec.xor_assoc a, rotl_xor _ 0x1000000000#64,
      show (0x1000000000#64).rotateLeft 27 = 0x8000000000000000#64 from by decide, top64]
    generalize (a ^^^ XXH64.round 0 (leWord 64 (x.take 8))).rotateLeft 27 = z
    generalize XXH64.round 0 (leWord 64 (x.drop 8)) = s
    have e : (z + 0x8000000000000000#64) * XXH64.prime1 + XXH64.prime4 = (z * XXH64.prime1 + XXH64.prime4) ^^^ 0x8000000000000000#64 := by
      rw [top64, BitVec.add_mul, show 0x8000000000000000#64 * XXH64.prime1 = 0x8000000000000000#64 from by decide, BitVec.add_assoc,
        BitVec.add_comm 0x8000000000000000#64, BitVec.add_assoc]
    rw [e, BitVec.xor_comm s, BitVec.xor_assoc, ← BitVec.xor_assoc 0x8000000000000000#64, BitVec.xor_self, BitVec.zero_xor]

/-- the tail of a message, with 16 bytes replaced -/
theorem xx64_res {x y : List Byte} (hx : x.length = 16) (hy : y.length = 16)
    (h : ∀ (acc : BitVec 64) (p q : List Byte), p.length % 8 = 0 → XXH64.consume acc (p ++ (x ++ q)) = XXH64.consume acc (p ++ (y ++ q)))
    (o : Obj (Acc4 64)) (q : List Byte) (h8 : o.tail.length % 8 = 0) (hq : o.tail.length + 16 + q.length < 32) :
    (XXH64.obj 64).res ((XXH64.obj 64).absorb o (x ++ q)) = (XXH64.obj 64).res ((XXH64.obj 64).absorb o (y ++ q)) := by
  have ab : ∀ x : List Byte, x.length = 16 → (XXH64.obj 64).absorb o (x ++ q) = ⟨o.st, o.tail ++ (x ++ q), (o.n + (16 + q.length)) % 2 ^ 64⟩ := by
    intro x hx
    have l : (o.tail ++ (x ++ q)).length < 32 := by simp only [List.length_append, hx]; omega
    have b : blocks (XXH64.obj 64).N (o.tail ++ (x ++ q)) = [] := blocks_short (N := 32) l
    have r : rest (XXH64.obj 64).N (o.tail ++ (x ++ q)) = o.tail ++ (x ++ q) := rest_short (N := 32) l
    simp only [BlockHash.absorb, b, r, List.foldl_nil, List.length_append, hx]
    rfl
  have fin : ∀ (t t' : List Byte) (n : Nat), t.length = t'.length → (∀ acc, XXH64.consume acc t = XXH64.consume acc t') →
      (XXH64.obj 64).res ⟨o.st, t, n⟩ = (XXH64.obj 64).res ⟨o.st, t', n⟩ := by
    intro t t' n hl hc
    have : (XXH64.obj 64).finish o.st t n = (XXH64.obj 64).finish o.st t' n := by
      simp only [XXH64.obj, hc]
    simp only [BlockHash.res, this, hl]
  rw [ab x hx, ab y hy]
  exact fin _ _ _ (by simp [hx, hy]) (fun acc => h acc _ _ h8)

end Hash2

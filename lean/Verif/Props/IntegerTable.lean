import Verif.Lemmas.XxBytes
import Verif.Props.Local
import Verif.Props.FnvWindow
/-
C78: which integer types never collide, under which hash function: an exact table.
-/
namespace Hash2
open Spec

/-- **C78.** xxhash_32: two messages that differ only in two consecutive bytes of the last, incomplete, word of 4 bytes -/
theorem xxhash_32_notices_two_bytes (env : Env) (c : Ctor) (hc : c.Valid) (ops ops' : List Op)
    (m m' : List Byte) (h : stream ops = some (m.map .data)) (h' : stream ops' = some (m'.map .data)) (i : Nat)
    (hd : DifferOnlyIn (fun j => 4 * (m.length / 4) ≤ j ∧ i ≤ j ∧ j < i + 2) m m') : AlgName.xxhash_32.TellsApart env c ops ops' := by
  refine AlgName.tellsApart hc h h' trivial trivial trivial (xx32_change env.sizeBits _ (xx32_start_tail env.sizeBits c)
    (hd.inRest (by decide) fun j hj => by omega).1 hd.length fun a => ?_)
  refine XX32L.consume_two (i := i - 16 * (m.length / 16)) ((hd.inRest (N := 16) (by decide) fun j hj => by omega).2.mono fun j _ hj => ?_) a
  rw [rest_length]
  omega

/-- with the hash function `a`, different integers of type k have different hash values: whatever the constructor and its seed, the flavor and
the platform -/
def AlgName.NoIntegersCollide (a : AlgName) (k : IntTy) : Prop :=
  ∀ (env : Env) (c : Ctor) (f : Flavor), c.Valid → env.fp.roundDown = false → ∀ x y : k.Val, x ≠ y →
    ∃ r s : a.impl.R, a.impl.execStmts env c [.append f (.int k) x, .call .result] = .ok [r] ∧
      a.impl.execStmts env c [.append f (.int k) y, .call .result] = .ok [s] ∧ r ≠ s

/-- FNV-1a, MurmurHash3 and xxHash, and for each the sizes of integers -/
def integerTable : List (AlgName × List Sz) :=
  [(.fnv1a_32, [.s1, .s2]),
   (.fnv1a_64, [.s1, .s2, .s4]),
   (.murmur3_32, [.s1, .s2, .s4]),
   (.murmur3_128, [.s1, .s2, .s4, .s8]),
   (.xxhash_32, [.s1, .s2, .s4]),
   (.xxhash_64, [.s1, .s4, .s8])]

theorem xxhash_32_two_byte_integers (k : IntTy) (hk : k.size = .s2) : AlgName.xxhash_32.NoIntegersCollide k := by
  intro env c f hc hf x y hxy
  have hruns : ∀ z : k.Val, AlgName.xxhash_32.Runs env c [.append f (.int k) z, .call .result] := fun z => by
    refine ⟨hc, ?_, .inl trivial, hf, trivial⟩
    intro p hp
    simp only [List.mem_cons, List.not_mem_nil, or_false] at hp
    rcases hp with rfl | rfl
    · exact ⟨rfl, by simp [Spec.Valid], fun _ => rfl⟩
    · rfl
  obtain ⟨rs, e1, e2⟩ := append_is_update_with_message _ env c _ (hruns x)
  obtain ⟨rs', e1', e2'⟩ := append_is_update_with_message _ env c _ (hruns y)
  have hd := int_message_differ (layout env f) (AlgName.xxhash_32.impl.number env c []) hxy
  have hlen : (message (layout env f) (AlgName.xxhash_32.impl.number env c []) (.int k) x []).length = k.size.n := by
    simp only [message]
    exact word_length _ _ _
  rw [hk] at hlen hd
  simp only [HashAlg.expand, HashAlg.messageOf] at e2 e2'
  revert hd hlen e2 e2'
  generalize message (layout env f) (AlgName.xxhash_32.impl.number env c []) (.int k) x [] = m
  generalize message (layout env f) (AlgName.xxhash_32.impl.number env c []) (.int k) y [] = m'
  intro e2 e2' hd hlen
  obtain ⟨r, s, h1, h2, h3⟩ := xxhash_32_notices_two_bytes env c hc _ _ m m' (stream_once m) (stream_once m') 0 (hd.mono fun j _ hj => by
    rw [hlen]
    simp only [Sz.n] at hj ⊢
    omega)
  exact ⟨r, s, e1.trans (e2.symm.trans h1), e1'.trans (e2'.symm.trans h2), h3⟩

/-- two integers with the same hash value -/
theorem AlgName.collide {a : AlgName} {k : IntTy} (env : Env) (c : Ctor) (f : Flavor) (hc : c.Valid) (hf : env.fp.roundDown = false) (x y : k.Val)
    (hxy : x ≠ y) (r : a.impl.R) (hx : a.impl.execStmts env c [.append f (.int k) x, .call .result] = .ok [r])
    (hy : a.impl.execStmts env c [.append f (.int k) y, .call .result] = .ok [r]) : ¬ a.NoIntegersCollide k := by
  intro h
  obtain ⟨s, t, h1, h2, h3⟩ := h env c f hc hf x y hxy
  rw [hx] at h1
  rw [hy] at h2
  cases h1
  cases h2
  exact h3 rfl

/-- **C78.** The table is exact: with these hash functions, different integers of a given size never collide if, and only if, the size is in the
table. -/
theorem integer_table (a : AlgName) (l : List Sz) (hl : (a, l) ∈ integerTable) (sz : Sz) : a.NoIntegersCollide (.int sz) ↔ sz ∈ l := by
  constructor
  · intro h
    by_contra hs
    revert h
    simp only [integerTable, List.mem_cons, Prod.mk.injEq, List.not_mem_nil, or_false] at hl
    rcases hl with ⟨rfl, rfl⟩ | ⟨rfl, rfl⟩ | ⟨rfl, rfl⟩ | ⟨rfl, rfl⟩ | ⟨rfl, rfl⟩ | ⟨rfl, rfl⟩ <;> cases sz <;> simp only [List.mem_cons, List.not_mem_nil, or_false, or_true, reduceCtorEq, not_true_eq_false, or_self, not_false_eq_true] at hs
    · exact AlgName.collide le64 .default default_flavor trivial rfl (0x0364f719#32 : BitVec 32) (0x04000005#32 : BitVec 32) (show (0x0364f719#32 : BitVec 32) ≠ _ by decide) (0xbeb8c00c#32 : BitVec 32) rfl rfl
    · exact AlgName.collide le64 .default default_flavor trivial rfl (0x0364f719#64 : BitVec 64) (0x04000005#64 : BitVec 64) (show (0x0364f719#64 : BitVec 64) ≠ _ by decide) (0xe397b4cc#32 : BitVec 32) rfl rfl
    · exact AlgName.collide le64 .default default_flavor trivial rfl (0x8a3d86167bcf24#64 : BitVec 64) (0x602b22dd0da3cb#64 : BitVec 64) (show (0x8a3d86167bcf24#64 : BitVec 64) ≠ _ by decide) (0xadb2c99e98f50f42#64 : BitVec 64) rfl rfl
    · exact AlgName.collide le64 .default default_flavor trivial rfl (0x0000000300000001#64 : BitVec 64) (0x53ffa38200000002#64 : BitVec 64) (show (0x0000000300000001#64 : BitVec 64) ≠ _ by decide) (0xbe3eff1b#32 : BitVec 32) rfl rfl
    · exact AlgName.collide le64 .default default_flavor trivial rfl (0x0000000300000001#64 : BitVec 64) (0xcc34dd9c00000002#64 : BitVec 64) (show (0x0000000300000001#64 : BitVec 64) ≠ _ by decide) (0xb343924b#32 : BitVec 32) rfl rfl
    · exact AlgName.collide le64 (.seed 0xceaad95a93294aef#64) default_flavor trivial rfl (0x2fec#16 : BitVec 16) (0x9a76#16 : BitVec 16) (show (0x2fec#16 : BitVec 16) ≠ _ by decide) (0x7619126b338b141d#64 : BitVec 64) rfl rfl
  · intro hs env c f hc hf x y hxy
    simp only [integerTable, List.mem_cons, Prod.mk.injEq, List.not_mem_nil, or_false] at hl
    rcases hl with ⟨rfl, rfl⟩ | ⟨rfl, rfl⟩ | ⟨rfl, rfl⟩ | ⟨rfl, rfl⟩ | ⟨rfl, rfl⟩ | ⟨rfl, rfl⟩
    · exact fnv1a_integers_never_collide .fnv1a_32 (.int sz) (.inr ⟨rfl, by cases sz <;> first | decide | simp at hs⟩) env c hc f hf x y hxy
    · exact fnv1a_integers_never_collide .fnv1a_64 (.int sz) (.inl ⟨rfl, by cases sz <;> first | decide | simp at hs⟩) env c hc f hf x y hxy
    · exact integers_never_collide .murmur3_32 (.int sz) (by cases sz <;> first | rfl | simp at hs) env c hc f hf x y hxy
    · exact integers_never_collide .murmur3_128 (.int sz) rfl env c hc f hf x y hxy
    · by_cases h : sz = .s2
      · exact xxhash_32_two_byte_integers (.int sz) h env c f hc hf x y hxy
      · exact integers_never_collide .xxhash_32 (.int sz) (by cases sz <;> first | rfl | exact absurd rfl h | simp at hs) env c hc f hf x y hxy
    · exact integers_never_collide .xxhash_64 (.int sz) (by cases sz <;> first | rfl | simp at hs) env c hc f hf x y hxy

/-- how long messages may be that a hash function never confuses, for any seed -/
def neverConfused : AlgName → Nat → Bool
  | .fnv1a_32, n => n ≤ 3
  | .fnv1a_64, n => n ≤ 6
  | .murmur3_32, n => n ≤ 4
  | .murmur3_128, n => n ≤ 16
  | .xxhash_32, n => n == 1 || n == 2 || n == 4
  | .xxhash_64, n => n == 1 || n == 4 || n == 8
  | _, _ => false

theorem short_messages_tell_apart (a : AlgName) (n : Nat) (ha : neverConfused a n = true) (env : Env) (c : Ctor) (hc : c.Valid) (ops ops' : List Op)
    (m m' : List Byte) (h : stream ops = some (m.map .data)) (h' : stream ops' = some (m'.map .data)) (hl : m.length = n) (hl' : m'.length = n)
    (hne : m ≠ m') : a.TellsApart env c ops ops' := by
  have hd : DifferOnlyIn (fun j => j < n) m m' := ⟨hl.trans hl'.symm, hne, fun j hj => by
    rw [List.getElem?_eq_none (by omega), List.getElem?_eq_none (by omega)]⟩
  cases a <;> simp only [neverConfused, decide_eq_true_eq, Bool.or_eq_true, beq_iff_eq, Bool.false_eq_true] at ha
  case fnv1a_32 => exact fnv1a_32_notices_three_bytes env c hc _ _ m m' h h' 0 (hd.mono fun j _ hj => by omega)
  case fnv1a_64 => exact fnv1a_64_notices_six_bytes env c hc _ _ m m' h h' 0 (hd.mono fun j _ hj => by omega)
  case murmur3_32 => exact murmur3_32_notices_block env c hc _ _ m m' h h' 0 (hd.mono fun j _ hj => by omega)
  case murmur3_128 => exact murmur3_128_notices_block env c hc _ _ m m' h h' 0 (hd.mono fun j _ hj => by omega)
  case xxhash_32 =>
    rcases ha with (rfl | rfl) | rfl
    · exact xxhash_32_notices_two_bytes env c hc _ _ m m' h h' 0 (hd.mono fun j _ hj => by omega)
    · exact xxhash_32_notices_two_bytes env c hc _ _ m m' h h' 0 (hd.mono fun j _ hj => by omega)
    · refine xxhash_32_notices_word env c hc _ _ m m' h h' (4, 0) (hd.mono fun j _ hj => ?_)
      rw [hl]
      exact ⟨by simp, by unfold unit4; rw [if_pos (by omega), show j / 4 = 0 by omega]⟩
  case xxhash_64 =>
    refine xxhash_64_notices_word env c hc _ _ m m' h h' (n, 0) (hd.mono fun j _ hj => ?_)
    rw [hl]
    rcases ha with (rfl | rfl) | rfl
    · refine ⟨by simp, ?_⟩
      unfold unit8
      rw [if_neg (by omega), if_neg (by omega), show j = 0 by omega]
    · exact ⟨by simp, by unfold unit8; rw [if_neg (by omega), if_pos (by omega), show j / 4 = 0 by omega]⟩
    · exact ⟨by simp, by unfold unit8; rw [if_pos (by omega), show j / 8 = 0 by omega]⟩

/-- **C78, objects.** The same for objects of any type without unordered containers, for instance float and double, pairs of short and classes with a
few members: if their messages have the same, small, length n, then objects that are not equal have different hash values. (For a NaN, which
is not equal to itself, nothing is claimed.) -/
theorem small_objects_never_collide (a : AlgName) (n : Nat) (ha : neverConfused a n = true) (env : Env) (c : Ctor) (hc : c.Valid) (f : Flavor)
    (hf : env.fp.roundDown = false) (t : Ty) (x y : t.Val) (hd : delimited t = true) (ho : ordered t = true) (hn : NoNaN t x)
    (hx : (Stmt.append f t x).Valid env) (hy : (Stmt.append f t y).Valid env) (hsx : SizesFit f.sizeType.n t x) (hsy : SizesFit f.sizeType.n t y)
    (hlx : (message (layout env f) (a.impl.number env c []) t x []).length = n)
    (hly : (message (layout env f) (a.impl.number env c []) t y []).length = n) (hne : ¬ Equal t x y) :
    ∃ r s : a.impl.R, a.impl.execStmts env c [.append f t x, .call .result] = .ok [r] ∧
      a.impl.execStmts env c [.append f t y, .call .result] = .ok [s] ∧ r ≠ s := by
  have hruns : ∀ z : t.Val, (Stmt.append f t z).Valid env → a.Runs env c [.append f t z, .call .result] := fun z hz => by
    refine ⟨hc, ?_, .inl ?_, hf, ?_⟩
    · intro p hp
      simp only [List.mem_cons, List.not_mem_nil, or_false] at hp
      rcases hp with rfl | rfl
      · exact hz
      · rfl
    · cases a <;> trivial
    · cases a <;> trivial
  obtain ⟨rs, e1, e2⟩ := append_is_update_with_message a env c _ (hruns x hx)
  obtain ⟨rs', e1', e2'⟩ := append_is_update_with_message a env c _ (hruns y hy)
  have hmne : message (layout env f) (a.impl.number env c []) t x [] ≠ message (layout env f) (a.impl.number env c []) t y [] := fun e =>
    hne (alike_equal t x y ho hn (message_decode (L := layout env f) (a.impl.number env c []) t x y hd hx.2.1 hy.2.1 hsx hsy [] [] (by rw [e])).2)
  simp only [HashAlg.expand, HashAlg.messageOf] at e2 e2'
  obtain ⟨r, s, h1, h2, h3⟩ := short_messages_tell_apart a n ha env c hc _ _ _ _ (stream_once _) (stream_once _) hlx hly hmne
  exact ⟨r, s, e1.trans (e2.symm.trans h1), e1'.trans (e2'.symm.trans h2), h3⟩

/-! ### the hypotheses are met -/

-- doubles with xxhash_64, with a seed
example (x y : BitVec 64) (hn : NoNaN .f64 x) (hne : ¬ Equal .f64 x y) :
    ∃ r s : W64, AlgName.xxhash_64.impl.execStmts le64 (.seed 7) [.append default_flavor .f64 x, .call .result] = .ok [r] ∧
      AlgName.xxhash_64.impl.execStmts le64 (.seed 7) [.append default_flavor .f64 y, .call .result] = .ok [s] ∧ r ≠ s := by
  refine small_objects_never_collide .xxhash_64 8 rfl le64 (.seed 7) trivial default_flavor rfl .f64 x y (by simp [delimited]) (by simp [ordered]) hn
    ⟨rfl, by simp [Spec.Valid], fun _ => by simp [pointerFree]⟩ ⟨rfl, by simp [Spec.Valid], fun _ => by simp [pointerFree]⟩ (by simp [SizesFit]) (by simp [SizesFit]) ?_ ?_ hne
  all_goals
    simp only [message]
    exact word_length _ _ _

-- 1.5 and 2.5
example : NoNaN .f64 (0x3ff8000000000000#64 : BitVec 64) ∧ ¬ Equal .f64 (0x3ff8000000000000#64 : BitVec 64) (0x4004000000000000#64 : BitVec 64) := by
  simp only [NoNaN, Equal]
  decide +kernel

-- std::pair<short, char>, fnv1a_32
example : ∃ r s : W32,
    AlgName.fnv1a_32.impl.execStmts le64 (.bytes (.mem abc) 3) [.append default_flavor (.tuple (.cons (.int (.int .s2)) (.cons (.int (.int .s1)) .nil))) (1#16, (2#8, ())), .call .result] = .ok [r] ∧
    AlgName.fnv1a_32.impl.execStmts le64 (.bytes (.mem abc) 3) [.append default_flavor (.tuple (.cons (.int (.int .s2)) (.cons (.int (.int .s1)) .nil))) (2#16, (1#8, ())), .call .result] = .ok [s] ∧ r ≠ s := by
  have hv : ∀ v, (Stmt.append default_flavor (.tuple (.cons (.int (.int .s2)) (.cons (.int (.int .s1)) .nil))) v).Valid le64 := fun v =>
    ⟨by simp [wellFormed, wellFormedAll], by simp [Spec.Valid, ValidAll], by simp [le64]⟩
  refine small_objects_never_collide .fnv1a_32 3 rfl le64 (.bytes (.mem abc) 3) (Nat.le_refl 3) default_flavor rfl
    (.tuple (.cons (.int (.int .s2)) (.cons (.int (.int .s1)) .nil))) (1#16, (2#8, ())) (2#16, (1#8, ())) (by simp [delimited, delimitedAll]) (by simp [ordered, orderedAll])
    (by simp [NoNaN, NoNaNAll]) (hv _) (hv _) (by simp [SizesFit, SizesFitAll]) (by simp [SizesFit, SizesFitAll]) rfl rfl ?_
  simp only [Equal, EqualAll]
  rintro ⟨h, -⟩
  exact absurd h (show (1#16 : BitVec 16) ≠ 2#16 by decide)

-- ten bytes, the last two are different
example : AlgName.xxhash_32.TellsApart be32 (.seed 7) [.update (.mem [1, 2, 3]) 3, .update (.mem [4, 5, 6, 7, 8, 9, 10]) 7]
    [.update (.mem [1, 2, 3, 4, 5, 6, 7, 8, 19, 20]) 10] :=
  xxhash_32_notices_two_bytes be32 (.seed 7) trivial _ _ [1, 2, 3, 4, 5, 6, 7, 8, 9, 10] [1, 2, 3, 4, 5, 6, 7, 8, 19, 20] rfl rfl 8
    ⟨rfl, by decide, fun j hj => by
      rcases j with _ | _ | _ | _ | _ | _ | _ | _ | _ | _ | j <;> first | rfl | exact absurd ⟨by decide, by decide, by decide⟩ hj⟩

-- unsigned short with xxhash_32: never; with xxhash_64: for some seed
example : AlgName.xxhash_32.NoIntegersCollide (.int .s2) ∧ ¬ AlgName.xxhash_64.NoIntegersCollide (.int .s2) :=
  ⟨(integer_table _ [.s1, .s2, .s4] (by simp [integerTable]) .s2).2 (by simp), fun h =>
    absurd ((integer_table _ [.s1, .s4, .s8] (by simp [integerTable]) .s2).1 h) (by simp)⟩

end Hash2

import Verif.Lemmas.FnvWindow
import Verif.Props.Local
/-
C77: what FNV-1a never confuses, and where that ends: a few consecutive bytes.
-/
namespace Hash2
open Spec

theorem fnv_window {w : Nat} (hw : 8 ≤ w) (p q : BitVec w) (hp : p * q = 1#w) (N : Nat) (hN : FnvWindow.NoRelation w p N) {m m' : List Byte} {i : Nat}
    (hd : DifferOnlyIn (fun j => i ≤ j ∧ j < i + N) m m') (s : BitVec w) : FNV.feed p s m ≠ FNV.feed p s m' := by
  intro e
  have cut : ∀ m : List Byte, m = m.take i ++ ((m.drop i).take N ++ (m.drop i).drop N) := fun m => by rw [List.take_append_drop, List.take_append_drop]
  have h1 : m.take i = m'.take i := by
    apply List.ext_getElem?
    intro j
    rw [List.getElem?_take, List.getElem?_take]
    split
    · exact hd.same j (by omega)
    · rfl
  have h3 : (m.drop i).drop N = (m'.drop i).drop N := by
    apply List.ext_getElem?
    intro j
    rw [List.getElem?_drop, List.getElem?_drop, List.getElem?_drop, List.getElem?_drop]
    exact hd.same _ (by omega)
  have app : ∀ (s : BitVec w) (x y : List Byte), FNV.feed p s (x ++ y) = FNV.feed p (FNV.feed p s x) y := fun s x y => List.foldl_append
  have e' := e
  rw [cut m, cut m', app, app, app, app, h1, h3] at e'
  have e2 := fnv_feed_inj p q hp _ e'
  have h2 := FnvWindow.feed_inj hw p q hp N hN _ _ _ (by simp only [List.length_take, List.length_drop, hd.length]) (by simp only [List.length_take]; omega) e2
  exact hd.ne (by rw [cut m, cut m', h1, h2, h3])

/-- **C77.** fnv1a_64: two messages that differ only within six consecutive bytes, wherever, whatever the seed and the splits: the results are
different. -/
theorem fnv1a_64_notices_six_bytes (env : Env) (c : Ctor) (hc : c.Valid) (ops ops' : List Op)
    (m m' : List Byte) (h : stream ops = some (m.map .data)) (h' : stream ops' = some (m'.map .data)) (i : Nat)
    (hd : DifferOnlyIn (fun j => i ≤ j ∧ j < i + 6) m m') : AlgName.fnv1a_64.TellsApart env c ops ops' :=
  AlgName.tellsApart hc h h' trivial trivial trivial
    (fnv_window (by decide) FNV.prime64 FNV.invprime64 (by decide) 6 FnvWindow.noRelation64 hd _)

/-- **C77.** fnv1a_32: three consecutive bytes. -/
theorem fnv1a_32_notices_three_bytes (env : Env) (c : Ctor) (hc : c.Valid) (ops ops' : List Op)
    (m m' : List Byte) (h : stream ops = some (m.map .data)) (h' : stream ops' = some (m'.map .data)) (i : Nat)
    (hd : DifferOnlyIn (fun j => i ≤ j ∧ j < i + 3) m m') : AlgName.fnv1a_32.TellsApart env c ops ops' :=
  AlgName.tellsApart hc h h' trivial trivial trivial
    (fnv_window (by decide) FNV.prime32 FNV.invprime32 (by decide) 3 FnvWindow.noRelation32 hd _)

/-- **C77, integers.** Different integers of up to 4 bytes (char, short, int, char32_t, ...) have different hash values by fnv1a_64, those of up to 2 bytes also
by fnv1a_32, whatever the seed and the flavor. -/
theorem fnv1a_integers_never_collide (a : AlgName) (k : IntTy) (ha : a = .fnv1a_64 ∧ k.size.n ≤ 4 ∨ a = .fnv1a_32 ∧ k.size.n ≤ 2) (env : Env) (c : Ctor)
    (hc : c.Valid) (f : Flavor) (hf : env.fp.roundDown = false) (x y : k.Val) (hxy : x ≠ y) :
    ∃ r s : a.impl.R, a.impl.execStmts env c [.append f (.int k) x, .call .result] = .ok [r] ∧
      a.impl.execStmts env c [.append f (.int k) y, .call .result] = .ok [s] ∧ r ≠ s := by
  have hruns : ∀ z : k.Val, a.Runs env c [.append f (.int k) z, .call .result] := fun z => by
    refine ⟨hc, ?_, .inl ?_, hf, ?_⟩
    · intro p hp
      simp only [List.mem_cons, List.not_mem_nil, or_false] at hp
      rcases hp with rfl | rfl
      · exact ⟨rfl, by simp [Spec.Valid], fun _ => rfl⟩
      · rfl
    · rcases ha with ⟨rfl, _⟩ | ⟨rfl, _⟩ <;> trivial
    · rcases ha with ⟨rfl, _⟩ | ⟨rfl, _⟩ <;> trivial
  obtain ⟨rs, e1, e2⟩ := append_is_update_with_message a env c _ (hruns x)
  obtain ⟨rs', e1', e2'⟩ := append_is_update_with_message a env c _ (hruns y)
  have hd := int_message_differ (layout env f) (a.impl.number env c []) hxy
  simp only [HashAlg.expand, HashAlg.messageOf] at e2 e2'
  revert hd e2 e2'
  generalize message (layout env f) (a.impl.number env c []) (.int k) x [] = m
  generalize message (layout env f) (a.impl.number env c []) (.int k) y [] = m'
  intro e2 e2' hd
  have key : a.TellsApart env c [.update (.mem m) m.length] [.update (.mem m') m'.length] := by
    rcases ha with ⟨rfl, hk⟩ | ⟨rfl, hk⟩
    · exact fnv1a_64_notices_six_bytes env c hc _ _ m m' (stream_once m) (stream_once m') 0 (hd.mono fun j _ hj => by omega)
    · exact fnv1a_32_notices_three_bytes env c hc _ _ m m' (stream_once m) (stream_once m') 0 (hd.mono fun j _ hj => by omega)
  obtain ⟨r, s, h1, h2, h3⟩ := key
  exact ⟨r, s, e1.trans (e2.symm.trans h1), e1'.trans (e2'.symm.trans h2), h3⟩

/-- **C77, where it ends.** Seven bytes are too many for fnv1a_64, four for fnv1a_32: messages that have the same hash value, without a seed. -/
theorem fnv1a_window_exact :
    (∃ m m' : List Byte, m.length = 7 ∧ m'.length = 7 ∧ m ≠ m' ∧ ∃ r,
      AlgName.fnv1a_64.impl.exec le64 .default [.update (.mem m) 7, .result] = .ok [r] ∧
      AlgName.fnv1a_64.impl.exec le64 .default [.update (.mem m') 7, .result] = .ok [r]) ∧
    (∃ m m' : List Byte, m.length = 4 ∧ m'.length = 4 ∧ m ≠ m' ∧ ∃ r,
      AlgName.fnv1a_32.impl.exec le64 .default [.update (.mem m) 4, .result] = .ok [r] ∧
      AlgName.fnv1a_32.impl.exec le64 .default [.update (.mem m') 4, .result] = .ok [r]) :=
  ⟨⟨[0x24, 0xcf, 0x7b, 0x16, 0x86, 0x3d, 0x8a], [0xcb, 0xa3, 0x0d, 0xdd, 0x22, 0x2b, 0x60], rfl, rfl, by decide, 0x49ef7e92e70bbeb6#64, rfl, rfl⟩,
   ⟨[0x19, 0xf7, 0x64, 0x03], [0x05, 0x00, 0x00, 0x04], rfl, rfl, by decide, 0xbeb8c00c#32, rfl, rfl⟩⟩

/-- **C77, where it ends, for integers** (the keys of an unordered container): 8 bytes with fnv1a_64, 4 bytes with fnv1a_32. -/
theorem fnv1a_integers_collide :
    (∃ x y : BitVec 64, x ≠ y ∧ ∃ r, AlgName.fnv1a_64.impl.execStmts le64 .default [.append default_flavor (.int (.int .s8)) x, .call .result] = .ok [r] ∧
      AlgName.fnv1a_64.impl.execStmts le64 .default [.append default_flavor (.int (.int .s8)) y, .call .result] = .ok [r]) ∧
    (∃ x y : BitVec 32, x ≠ y ∧ ∃ r, AlgName.fnv1a_32.impl.execStmts le64 .default [.append default_flavor (.int (.int .s4)) x, .call .result] = .ok [r] ∧
      AlgName.fnv1a_32.impl.execStmts le64 .default [.append default_flavor (.int (.int .s4)) y, .call .result] = .ok [r]) := by
  refine ⟨⟨0x8a3d86167bcf24#64, 0x602b22dd0da3cb#64, by decide, 0xadb2c99e98f50f42#64, ?_, ?_⟩, ⟨0x0364f719#32, 0x04000005#32, by decide, 0xbeb8c00c#32, ?_, ?_⟩⟩
  all_goals rfl

-- six bytes in another order, after a common prefix and before a common byte, with a seed
example (pre : List Byte) : AlgName.fnv1a_64.TellsApart be32 (.seed 7) [.update (.mem pre) pre.length, .update (.mem [1, 2, 3, 4, 5, 6, 7]) 7]
    [.update (.mem (pre ++ [6, 5, 4, 3, 2, 1, 7])) (pre.length + 7)] := by
  refine fnv1a_64_notices_six_bytes be32 (.seed 7) trivial _ _ (pre ++ [1, 2, 3, 4, 5, 6, 7]) (pre ++ [6, 5, 4, 3, 2, 1, 7]) (by simp [stream, Op.toks])
    (by
      simp only [stream, Op.toks, List.length_append, List.length_cons, List.length_nil, Nat.le_refl, if_true]; rw [List.take_of_length_le (by simp)]; simp) pre.length ⟨by simp, by simp, fun j hj => ?_⟩
  rcases Nat.lt_or_ge j pre.length with h | h
  · rw [List.getElem?_append_left h, List.getElem?_append_left h]
  · obtain ⟨k, rfl⟩ : ∃ k, j = pre.length + (6 + k) := ⟨j - pre.length - 6, by omega⟩
    rw [List.getElem?_append_right (by omega), List.getElem?_append_right (by omega), Nat.add_sub_cancel_left]
    rcases k with _ | k
    · rfl
    · rw [List.getElem?_eq_none (by simp; omega), List.getElem?_eq_none (by simp; omega)]

-- int keys, fnv1a_64 with a byte seed
example (x y : BitVec 32) (h : x ≠ y) :
    ∃ r s : W64, AlgName.fnv1a_64.impl.execStmts le64 (.bytes (.mem abc) 3) [.append default_flavor (.int (.int .s4)) x, .call .result] = .ok [r] ∧
      AlgName.fnv1a_64.impl.execStmts le64 (.bytes (.mem abc) 3) [.append default_flavor (.int (.int .s4)) y, .call .result] = .ok [s] ∧ r ≠ s :=
  fnv1a_integers_never_collide .fnv1a_64 (.int .s4) (.inl ⟨rfl, by decide⟩) le64 (.bytes (.mem abc) 3) (Nat.le_refl 3) default_flavor rfl x y h

end Hash2

import Verif.Lemmas.AnyWord
import Verif.Props.Local
import Verif.Lemmas.Future
import Mathlib.Data.Fintype.EquivFin
import Mathlib.Data.Int.CardIntervalMod
import Mathlib.SetTheory.Cardinal.Finite
/-
C42 for xxhash_32: a change in any word of the message; and where it ends for xxhash_64.
C70: each value of one word of the message gives another hash value, and all hash values occur.
-/
namespace Hash2
open Spec

theorem xx32_start_n (ctr : Nat) (c : Ctor) : (show Obj (Acc4 32) from c.start (XXH32.machine ctr)).n ≤ c.cost := by
  cases c with
  | default => exact Nat.le_refl 0
  | seed k => exact Nat.le_refl 0
  | bytes p n =>
    show (if p.bytes n = [] then _ else _ : Obj (Acc4 32)).n ≤ n + 192
    split
    · exact Nat.zero_le _
    · show ((0 + (p.bytes n).length) % 2 ^ ctr + (16 - _)) % 2 ^ ctr ≤ n + 192
      have h1 := Nat.mod_le ((0 + (p.bytes n).length) % 2 ^ ctr + (16 - (rest 16 ([] ++ p.bytes n)).length)) (2 ^ ctr)
      have h2 := Nat.mod_le (0 + (p.bytes n).length) (2 ^ ctr)
      have h3 := Ptr.bytes_length p n
      exact Nat.le_trans h1 (by omega)

theorem xx32_any_change (ctr : Nat) (o : Obj (Acc4 32)) (ht : o.tail = []) {m m' : List Byte} {i : Nat}
    (hd : DifferOnlyIn (fun j => j / 4 = i) m m') (hi : i / 4 < m.length / 16) (hn : o.n + m.length < 2 ^ ctr) :
    ((XXH32.obj ctr).res ((XXH32.obj ctr).absorb o m)).2 ≠ ((XXH32.obj ctr).res ((XXH32.obj ctr).absorb o m')).2 := by
  simp only [BlockHash.res, BlockHash.absorb, ht, List.nil_append, ← hd.length]
  intro e
  have e := XX32L.avalanche_inj e
  have hrest : rest 16 m = rest 16 m' := rest_agree hd.length fun k hk => hd.same k (by omega)
  rw [show (XXH32.obj ctr).N = 16 from rfl, hrest] at e
  have e := (BitVec.add_left_inj _).1 (XX32L.consume_inj _ e)
  have hmod : (o.n + m.length) % 2 ^ (XXH32.obj ctr).ctr = o.n + m.length := Nat.mod_eq_of_lt hn
  rw [hmod, if_neg (by omega), if_neg (by omega)] at e
  exact XX32L.converge_ne hd hi _ e

/-- **C42.** xxhash_32: two messages that differ in one word of 4 bytes, anywhere, or in one of the bytes left over. (The bytes counted must fit
into std::size_t: a counter that wraps to less than 16 makes the object forget three of its four lanes.) -/
theorem xxhash_32_notices_any_word (env : Env) (c : Ctor) (hc : c.Valid) (ops ops' : List Op)
    (m m' : List Byte) (h : stream ops = some (m.map .data)) (h' : stream ops' = some (m'.map .data)) (u : Nat × Nat)
    (hd : DifferOnlyIn (fun j => unit4 m.length j = u) m m') (hfit : c.cost + m.length < 2 ^ env.sizeBits) :
    AlgName.xxhash_32.TellsApart env c ops ops' := by
  by_cases hr : ∀ j, j < m.length → unit4 m.length j = u → 16 * (m.length / 16) ≤ j
  · exact xxhash_32_notices_word env c hc ops ops' m m' h h' u (hd.mono fun j hj hu => ⟨hr j hj hu, hu⟩)
  · have hr : ∃ j, j < m.length ∧ unit4 m.length j = u ∧ j < 16 * (m.length / 16) := by
      by_contra hx
      exact hr fun j hj hu => by
        by_contra hlt
        exact hx ⟨j, hj, hu, by omega⟩
    obtain ⟨j, hj, hu, hlt⟩ := hr
    have hd : DifferOnlyIn (fun k => k / 4 = j / 4) m m' := hd.mono fun k hk hku => by
      rw [← hu] at hku
      unfold unit4 at hku
      rw [if_pos (show j < 4 * (m.length / 4) by omega)] at hku
      split at hku <;> simp_all
    refine AlgName.tellsApart hc h h' trivial trivial trivial ?_
    exact xx32_any_change env.sizeBits _ (xx32_start_tail env.sizeBits c) hd (show j / 4 / 4 < m.length / 16 by omega)
      (Nat.lt_of_le_of_lt (Nat.add_le_add_right (xx32_start_n env.sizeBits c) _) hfit)

/-! ### where it ends for xxhash_64 -/

private theorem xx64_run (w : Nat) (h : (match AlgName.xxhash_64.impl.exec le64 .default [.update (.mem (natLE 32 w)) 32, .result] with
      | .ok [x] => decide ((show W64 from x) = 0x6a1538475e5e5453#64)
      | _ => false) = true) :
    AlgName.xxhash_64.impl.exec le64 .default [.update (.mem (natLE 32 w)) 32, .result] = .ok [(0x6a1538475e5e5453#64 : W64)] := by
  generalize AlgName.xxhash_64.impl.exec le64 .default [.update (.mem (natLE 32 w)) 32, .result] = y at h ⊢
  split at h
  · rw [of_decide_eq_true h]
  · exact absurd h (by decide)

/-- **C42, its boundary.** xxhash_64: outside of the last, incomplete stripe a change in one word can go unnoticed: two messages of 32 bytes
that differ in the first word only and have the same hash value -/
theorem xxhash_64_misses_word : ∃ m m' : List Byte, DifferOnlyIn (fun j => j / 8 = 0) m m' ∧ m.length = 32 ∧
    ∃ r, AlgName.xxhash_64.impl.exec le64 .default [.update (.mem m) 32, .result] = .ok [r] ∧
      AlgName.xxhash_64.impl.exec le64 .default [.update (.mem m') 32, .result] = .ok [r] := by
  refine ⟨natLE 32 0x8102ac998c9ff17c, natLE 32 0xd523a8cde09f68ff, ⟨by simp, by decide, fun j hj => ?_⟩, by simp, (0x6a1538475e5e5453#64 : W64),
    xx64_run _ (by decide +kernel), xx64_run _ (by decide +kernel)⟩
  rw [natLE_add 8 24, natLE_add 8 24 0xd523a8cde09f68ff, List.getElem?_append_right (by simp; omega), List.getElem?_append_right (by simp; omega)]
  rfl

/-! ### C70 -/

/-- the hash value of the message m is r, however it is passed -/
def AlgName.Hashes (a : AlgName) (env : Env) (c : Ctor) (m : List Byte) (r : a.impl.R) : Prop :=
  ∀ ops, stream ops = some (m.map .data) → a.impl.exec env c (ops ++ [.result]) = .ok [r]

theorem AlgName.hashes_iff {a : AlgName} {env : Env} {c : Ctor} {m : List Byte} {r : a.impl.R} (hc : c.Valid) (hn : a.NullOk env)
    (hr : a.Room env c (m.map .data ++ [.fin])) :
    a.Hashes env c m r ↔ (a.machine env.sizeBits).value (c.start (a.machine env.sizeBits)) m = r := by
  refine ⟨fun h => ?_, fun h ops hs => ?_⟩
  · have h1 := h _ (stream_once m)
    rw [AlgName.exec_message hc (stream_once m) (.inl hn) hr] at h1
    injection h1 with h1
    injection h1
  · rw [AlgName.exec_message hc hs (.inl hn) hr, h]

theorem AlgName.permutes {a : AlgName} {env : Env} {c : Ctor} {pre post : List Byte} {N : Nat} {r : a.impl.R} (hc : c.Valid) (hn : a.NullOk env)
    (hr : ∀ ts, a.Room env c ts)
    (h : ∃! w : List Byte, w.length = N ∧ (a.machine env.sizeBits).value (c.start (a.machine env.sizeBits)) (pre ++ w ++ post) = r) :
    ∃! w : List Byte, w.length = N ∧ a.Hashes env c (pre ++ w ++ post) r := by
  simpa only [AlgName.hashes_iff hc hn (hr _)] using h

/-- messages that differ in a part of N bytes -/
theorem differ_part {pre w w' post : List Byte} (hl : w.length = w'.length) (h : w ≠ w') :
    DifferOnlyIn (fun j => pre.length ≤ j ∧ j < pre.length + w.length) (pre ++ w ++ post) (pre ++ w' ++ post) := by
  refine ⟨by simp [hl], fun e => h ?_, fun j hj => ?_⟩
  · rw [List.append_assoc, List.append_assoc] at e
    exact (List.append_inj (List.append_cancel_left e) hl).1
  · rw [List.append_assoc, List.append_assoc]
    by_cases h1 : j < pre.length
    · rw [List.getElem?_append_left h1, List.getElem?_append_left h1]
    · rw [List.getElem?_append_right (by omega), List.getElem?_append_right (by omega),
        List.getElem?_append_right (by omega), List.getElem?_append_right (by omega), hl]

/-- one-to-one on words of N bytes is onto -/
theorem onto_of_inj {N : Nat} (g : List Byte → BitVec (8 * N)) (hinj : ∀ w w' : List Byte, w.length = N → w'.length = N → g w = g w' → w = w')
    (r : BitVec (8 * N)) : ∃! w : List Byte, w.length = N ∧ g w = r := by
  have hi : Function.Injective fun x : BitVec (8 * N) => g (natLE N x.toNat) := fun x y h =>
    natLE_word_inj (by rw [Nat.pow_mul]) (hinj _ _ (natLE_length ..) (natLE_length ..) h)
  have : Finite (BitVec (8 * N)) := Finite.of_injective BitVec.toFin fun x y h => BitVec.eq_of_toFin_eq h
  obtain ⟨x, hx⟩ := Finite.injective_iff_surjective.1 hi r
  exact ⟨natLE N x.toNat, ⟨natLE_length .., hx⟩, fun w hw => hinj _ _ hw.1 (natLE_length ..) (hw.2.trans hx.symm)⟩

/-- **C70.** murmur3_32: while one block of 4 bytes takes all its values, each hash value occurs exactly once. -/
theorem murmur3_32_block_permutes (env : Env) (c : Ctor) (hc : c.Valid) (pre post : List Byte) (h : pre.length % 4 = 0) (r : BitVec 32) :
    ∃! w : List Byte, w.length = 4 ∧ AlgName.murmur3_32.Hashes env c (pre ++ w ++ post) r := by
  refine AlgName.permutes (a := .murmur3_32) hc trivial (fun _ => trivial) ?_
  refine onto_of_inj (N := 4) _ (fun w w' hw hw' e => ?_) r
  by_contra hne
  exact mur32_change env.sizeBits _ (mur32_start_tail env.sizeBits c) (i := pre.length / 4)
    ((differ_part (pre := pre) (post := post) (hw.trans hw'.symm) hne).mono fun j _ hj => by omega) e

/-- **C70.** xxhash_32: the same for every word of 4 bytes. -/
theorem xxhash_32_word_permutes (env : Env) (c : Ctor) (hc : c.Valid) (pre post : List Byte) (h : pre.length % 4 = 0)
    (hfit : c.cost + (pre.length + 4 + post.length) < 2 ^ env.sizeBits) (r : BitVec 32) :
    ∃! w : List Byte, w.length = 4 ∧ AlgName.xxhash_32.Hashes env c (pre ++ w ++ post) r := by
  refine AlgName.permutes (a := .xxhash_32) hc trivial (fun _ => trivial) ?_
  refine onto_of_inj (N := 4) _ (fun w w' hw hw' e => ?_) r
  by_contra hne
  obtain ⟨x, y, hx, hy, hxy⟩ := xxhash_32_notices_any_word env c hc _ _ _ _ (stream_once (pre ++ w ++ post)) (stream_once (pre ++ w' ++ post)) (4, pre.length / 4)
    ((differ_part (pre := pre) (post := post) (hw.trans hw'.symm) hne).mono fun j _ hj => by
      unfold unit4
      rw [List.length_append, List.length_append, if_pos (by omega), show j / 4 = pre.length / 4 by omega])
    (by simp only [List.length_append]; omega)
  rw [AlgName.exec_message (a := .xxhash_32) hc (stream_once _) (.inl trivial) trivial] at hx hy
  injection hx with hx; injection hx with hx
  injection hy with hy; injection hy with hy
  exact hxy (hx.symm.trans (Eq.trans e hy))

/-- **C70.** xxhash_64: the same for every word of 8 bytes of the last, incomplete stripe. -/
theorem xxhash_64_word_permutes (env : Env) (c : Ctor) (hc : c.Valid) (pre post : List Byte) (h : pre.length % 8 = 0)
    (hs : 32 * ((pre.length + 8 + post.length) / 32) ≤ pre.length) (r : BitVec 64) :
    ∃! w : List Byte, w.length = 8 ∧ AlgName.xxhash_64.Hashes env c (pre ++ w ++ post) r := by
  refine AlgName.permutes (a := .xxhash_64) hc trivial (fun _ => trivial) ?_
  refine onto_of_inj (N := 8) _ (fun w w' hw hw' e => ?_) r
  by_contra hne
  obtain ⟨x, y, hx, hy, hxy⟩ := xxhash_64_notices_word env c hc _ _ _ _ (stream_once (pre ++ w ++ post)) (stream_once (pre ++ w' ++ post)) (8, pre.length / 8)
    ((differ_part (pre := pre) (post := post) (hw.trans hw'.symm) hne).mono fun j _ hj => by
      unfold unit8
      rw [List.length_append, List.length_append, if_pos (by omega), show j / 8 = pre.length / 8 by omega]
      exact ⟨by rw [hw]; omega, rfl⟩)
  rw [AlgName.exec_message (a := .xxhash_64) hc (stream_once _) (.inl trivial) trivial] at hx hy
  injection hx with hx; injection hx with hx
  injection hy with hy; injection hy with hy
  exact hxy (hx.symm.trans (Eq.trans e hy))

/-- the same for values that are lists of bytes -/
theorem onto_of_inj_bytes {N : Nat} (V : List Byte → List Byte) (hv : ∀ m, (V m).length = N)
    (hinj : ∀ w w' : List Byte, w.length = N → w'.length = N → V w = V w' → w = w') (r : List Byte) (hr : r.length = N) :
    ∃! w : List Byte, w.length = N ∧ V w = r := by
  obtain ⟨w, ⟨h1, h2⟩, h3⟩ := onto_of_inj (N := N) (fun w => leWord (8 * N) (V w))
    (fun w w' hw hw' e => hinj w w' hw hw' (leWord_inj (hv _) (hv _) e)) (leWord (8 * N) r)
  exact ⟨w, ⟨h1, leWord_inj (hv _) hr h2⟩, fun w' hw' => h3 w' ⟨hw'.1, congrArg (leWord (8 * N)) hw'.2⟩⟩

theorem mur128_res_length (ctr : Nat) (o : Obj MURMUR3.x64_128.St) : ((MURMUR3.x64_128.obj ctr).res o).2.length = 16 := by
  show (MURMUR3.x64_128.finish o.st o.tail o.n).length = 16
  unfold MURMUR3.x64_128.finish
  simp only [List.length_append, natLE_length]

/-- **C70.** murmur3_128: while one block of 16 bytes takes all its values, each hash value of 16 bytes occurs exactly once. -/
theorem murmur3_128_block_permutes (env : Env) (c : Ctor) (hc : c.Valid) (pre post : List Byte) (h : pre.length % 16 = 0) (r : List Byte) (hr : r.length = 16) :
    ∃! w : List Byte, w.length = 16 ∧ AlgName.murmur3_128.Hashes env c (pre ++ w ++ post) r := by
  refine AlgName.permutes (a := .murmur3_128) hc trivial (fun _ => trivial) ?_
  refine onto_of_inj_bytes (N := 16) (fun w => ((MURMUR3.x64_128.obj env.sizeBits).res ((MURMUR3.x64_128.obj env.sizeBits).absorb
    (c.start (MURMUR3.x64_128.machine env.sizeBits)) (pre ++ w ++ post))).2) (fun m => mur128_res_length _ _) (fun w w' hw hw' e => ?_) r hr
  by_contra hne
  exact mur128_change env.sizeBits _ (mur128_start_tail env.sizeBits c) (i := pre.length / 16)
    ((differ_part (pre := pre) (post := post) (hw.trans hw'.symm) hne).mono fun j _ hj => by omega) e

/-! ### integers as keys -/

theorem bitvec_finite (w : Nat) : Finite (BitVec w) := Finite.of_injective BitVec.toFin fun _ _ h => BitVec.eq_of_toFin_eq h

/-- what hash_append and result return for the integer x is a function of x that is one-to-one, hence a permutation -/
theorem integers_permute {w : Nat} (E : BitVec w → M (List (BitVec w)))
    (h : ∀ x y, x ≠ y → ∃ r s, E x = .ok [r] ∧ E y = .ok [s] ∧ r ≠ s) (ho : ∀ x, ∃ r, E x = .ok [r]) :
    ∃ g : BitVec w → BitVec w, Function.Bijective g ∧ ∀ x, E x = .ok [g x] := by
  choose g hg using ho
  have hi : Function.Injective g := fun x y e => by
    by_contra hne
    obtain ⟨r, s, h1, h2, h3⟩ := h x y hne
    rw [hg] at h1 h2
    injection h1 with h1; injection h1 with h1
    injection h2 with h2; injection h2 with h2
    exact h3 (h1.symm.trans (e.trans h2))
  have := bitvec_finite w
  exact ⟨g, ⟨hi, Finite.injective_iff_surjective.1 hi⟩, hg⟩

theorem permutation_unique {w : Nat} {E : BitVec w → M (List (BitVec w))} (h : ∃ g : BitVec w → BitVec w, Function.Bijective g ∧ ∀ x, E x = .ok [g x])
    (r : BitVec w) : ∃! x, E x = .ok [r] := by
  obtain ⟨g, hg, he⟩ := h
  obtain ⟨x, hx⟩ := hg.2 r
  refine ⟨x, (he x).trans (by rw [hx]), fun y hy => hg.1 ?_⟩
  have hy : Except.ok [g y] = Except.ok [r] := (he y).symm.trans hy
  injection hy with hy; injection hy with hy
  exact hy.trans hx.symm

/-- a permutation of the w bit numbers spreads them evenly over n buckets -/
theorem permutation_buckets {w : Nat} {E : BitVec w → M (List (BitVec w))} (h : ∃ g : BitVec w → BitVec w, Function.Bijective g ∧ ∀ x, E x = .ok [g x])
    {n b : Nat} (hb : b < n) : Nat.card {x : BitVec w // ∃ r, E x = .ok [r] ∧ r.toNat % n = b} = 2 ^ w / n + if b < 2 ^ w % n then 1 else 0 := by
  obtain ⟨g, hg, he⟩ := h
  have e1 : {x : BitVec w // ∃ r, E x = .ok [r] ∧ r.toNat % n = b} ≃ {r : BitVec w // r.toNat % n = b} :=
    (Equiv.ofBijective g hg).subtypeEquiv fun x => by
      refine ⟨fun ⟨r, h1, h2⟩ => ?_, fun h => ⟨g x, he x, h⟩⟩
      rw [he] at h1
      injection h1 with h1; injection h1 with h1
      rw [← h1] at h2
      exact h2
  have e2 : {r : BitVec w // r.toNat % n = b} ≃ {k : Nat // k < 2 ^ w ∧ k ≡ b [MOD n]} :=
    { toFun := fun r => ⟨r.1.toNat, r.1.isLt, by rw [Nat.ModEq, r.2, Nat.mod_eq_of_lt hb]⟩
      invFun := fun k => ⟨BitVec.ofNat w k.1, by
        have := k.2.2
        rw [Nat.ModEq, Nat.mod_eq_of_lt hb] at this
        rw [BitVec.toNat_ofNat, Nat.mod_eq_of_lt k.2.1, this]⟩
      left_inv := fun r => Subtype.ext (by simp)
      right_inv := fun k => Subtype.ext (show (BitVec.ofNat w k.1).toNat = k.1 by rw [BitVec.toNat_ofNat, Nat.mod_eq_of_lt k.2.1]) }
  have e3 := Nat.count_modEq_card (2 ^ w) (r := n) (by omega) b
  rw [Nat.mod_eq_of_lt hb] at e3
  rw [Nat.card_congr (e1.trans e2), ← e3, Nat.count_eq_card_filter_range]
  exact Nat.subtype_card _ fun k => by rw [Finset.mem_filter, Finset.mem_range]

theorem succ_ne {w : Nat} (hw : 0 < w) (x : BitVec w) : x ≠ x + 1 := by
  intro e
  have h : x + 0 = x + 1 := (BitVec.add_zero x).trans e
  have h := congrArg BitVec.toNat ((BitVec.add_right_inj x).1 h)
  have : 1 < 2 ^ w := Nat.one_lt_two_pow (by omega)
  simp at h
  omega

private theorem xx64_integers (env : Env) (c : Ctor) (hc : c.Valid) (f : Flavor) (hf : env.fp.roundDown = false) :
    ∃ g : BitVec 64 → BitVec 64, Function.Bijective g ∧
      ∀ x : BitVec 64, AlgName.xxhash_64.impl.execStmts env c [.append f (.int (.int .s8)) x, .call .result] = .ok [g x] :=
  integers_permute (w := 64) (fun x => AlgName.xxhash_64.impl.execStmts env c [.append f (.int (.int .s8)) x, .call .result])
    (fun x y hxy => integers_never_collide .xxhash_64 (.int .s8) rfl env c hc f hf x y hxy)
    (fun x => by
      obtain ⟨r, _, h, _⟩ := integers_never_collide .xxhash_64 (.int .s8) rfl env c hc f hf x (x + 1) (succ_ne (by decide) x)
      exact ⟨r, h⟩)

private theorem xx32_integers (env : Env) (c : Ctor) (hc : c.Valid) (f : Flavor) (hf : env.fp.roundDown = false) :
    ∃ g : BitVec 32 → BitVec 32, Function.Bijective g ∧
      ∀ x : BitVec 32, AlgName.xxhash_32.impl.execStmts env c [.append f (.int (.int .s4)) x, .call .result] = .ok [g x] :=
  integers_permute (w := 32) (fun x => AlgName.xxhash_32.impl.execStmts env c [.append f (.int (.int .s4)) x, .call .result])
    (fun x y hxy => integers_never_collide .xxhash_32 (.int .s4) rfl env c hc f hf x y hxy)
    (fun x => by
      obtain ⟨r, _, h, _⟩ := integers_never_collide .xxhash_32 (.int .s4) rfl env c hc f hf x (x + 1) (succ_ne (by decide) x)
      exact ⟨r, h⟩)

private theorem mur32_integers (env : Env) (c : Ctor) (hc : c.Valid) (f : Flavor) (hf : env.fp.roundDown = false) :
    ∃ g : BitVec 32 → BitVec 32, Function.Bijective g ∧
      ∀ x : BitVec 32, AlgName.murmur3_32.impl.execStmts env c [.append f (.int (.int .s4)) x, .call .result] = .ok [g x] :=
  integers_permute (w := 32) (fun x => AlgName.murmur3_32.impl.execStmts env c [.append f (.int (.int .s4)) x, .call .result])
    (fun x y hxy => integers_never_collide .murmur3_32 (.int .s4) rfl env c hc f hf x y hxy)
    (fun x => by
      obtain ⟨r, _, h, _⟩ := integers_never_collide .murmur3_32 (.int .s4) rfl env c hc f hf x (x + 1) (succ_ne (by decide) x)
      exact ⟨r, h⟩)

/-- **C70.** xxhash_64, however constructed: each 64 bit number is the hash value of exactly one integer of 8 bytes. -/
theorem xxhash_64_integers_onto (env : Env) (c : Ctor) (hc : c.Valid) (f : Flavor) (hf : env.fp.roundDown = false) (r : BitVec 64) :
    ∃! x : BitVec 64, AlgName.xxhash_64.impl.execStmts env c [.append f (.int (.int .s8)) x, .call .result] = .ok [r] :=
  permutation_unique (xx64_integers env c hc f hf) r

/-- **C70.** xxhash_32, however constructed: each 32 bit number is the hash value of exactly one integer of 4 bytes. -/
theorem xxhash_32_integers_onto (env : Env) (c : Ctor) (hc : c.Valid) (f : Flavor) (hf : env.fp.roundDown = false) (r : BitVec 32) :
    ∃! x : BitVec 32, AlgName.xxhash_32.impl.execStmts env c [.append f (.int (.int .s4)) x, .call .result] = .ok [r] :=
  permutation_unique (xx32_integers env c hc f hf) r

/-- **C70.** murmur3_32, however constructed: each 32 bit number is the hash value of exactly one integer of 4 bytes. -/
theorem murmur3_32_integers_onto (env : Env) (c : Ctor) (hc : c.Valid) (f : Flavor) (hf : env.fp.roundDown = false) (r : BitVec 32) :
    ∃! x : BitVec 32, AlgName.murmur3_32.impl.execStmts env c [.append f (.int (.int .s4)) x, .call .result] = .ok [r] :=
  permutation_unique (mur32_integers env c hc f hf) r

/-- **C70.** Hash values taken modulo the number n of buckets, over all the integers as keys: the numbers of keys in two buckets differ by one at most.
(2^w / n, and one more in the first 2^w mod n buckets.) -/
theorem integers_fill_buckets_evenly (env : Env) (c : Ctor) (hc : c.Valid) (f : Flavor) (hf : env.fp.roundDown = false) (n b : Nat) (hb : b < n) :
    Nat.card {x : BitVec 64 // ∃ r : BitVec 64, AlgName.xxhash_64.impl.execStmts env c [.append f (.int (.int .s8)) x, .call .result] = .ok [r] ∧
        r.toNat % n = b} = 2 ^ 64 / n + (if b < 2 ^ 64 % n then 1 else 0) ∧
    Nat.card {x : BitVec 32 // ∃ r : BitVec 32, AlgName.xxhash_32.impl.execStmts env c [.append f (.int (.int .s4)) x, .call .result] = .ok [r] ∧
        r.toNat % n = b} = 2 ^ 32 / n + (if b < 2 ^ 32 % n then 1 else 0) ∧
    Nat.card {x : BitVec 32 // ∃ r : BitVec 32, AlgName.murmur3_32.impl.execStmts env c [.append f (.int (.int .s4)) x, .call .result] = .ok [r] ∧
        r.toNat % n = b} = 2 ^ 32 / n + (if b < 2 ^ 32 % n then 1 else 0) :=
  ⟨permutation_buckets (xx64_integers env c hc f hf) hb, permutation_buckets (xx32_integers env c hc f hf) hb,
    permutation_buckets (mur32_integers env c hc f hf) hb⟩

/-! ### the hypotheses are met -/

-- "abcd" and "abce" followed by 20 zeros: the difference is in the first stripe
example : AlgName.xxhash_32.TellsApart be32 (.bytes (.mem abc) 3) [.update (.mem ([0x61, 0x62, 0x63, 0x64] ++ List.replicate 20 0)) 24]
    [.update (.mem ([0x61, 0x62, 0x63, 0x65] ++ List.replicate 20 0)) 24] :=
  xxhash_32_notices_any_word be32 (.bytes (.mem abc) 3) (Nat.le_refl 3) _ _ ([0x61, 0x62, 0x63, 0x64] ++ List.replicate 20 0)
    ([0x61, 0x62, 0x63, 0x65] ++ List.replicate 20 0) rfl rfl (4, 0)
    ⟨rfl, by decide, fun j hj => by
      rcases j with _ | _ | _ | _ | j
      · exact absurd rfl hj
      · exact absurd rfl hj
      · exact absurd rfl hj
      · exact absurd rfl hj
      · rfl⟩ (by decide)

-- there is one word that makes the hash of "abcd", the word, "abc" zero
example : ∃! w : List Byte, w.length = 4 ∧ AlgName.murmur3_32.Hashes le64 (.seed 7) ([0x61, 0x62, 0x63, 0x64] ++ w ++ abc) (0#32 : BitVec 32) :=
  murmur3_32_block_permutes le64 (.seed 7) trivial _ _ rfl _

example : ∃! w : List Byte, w.length = 4 ∧ AlgName.xxhash_32.Hashes be32 .default (List.replicate 20 0 ++ w ++ List.replicate 20 0) (0#32 : BitVec 32) :=
  xxhash_32_word_permutes be32 .default trivial _ _ rfl (by decide) _

-- 32 + 8 bytes and the word, and one byte
example : ∃! w : List Byte, w.length = 8 ∧ AlgName.xxhash_64.Hashes le64 (.bytes (.mem abc) 3) (List.replicate 40 0 ++ w ++ [1]) (0#64 : BitVec 64) :=
  xxhash_64_word_permutes le64 (.bytes (.mem abc) 3) (Nat.le_refl 3) _ _ rfl (by decide) _

example : ∃! w : List Byte, w.length = 16 ∧ AlgName.murmur3_128.Hashes le64 .default ([] ++ w ++ abc) (List.replicate 16 0) :=
  murmur3_128_block_permutes le64 .default trivial _ _ rfl _ rfl

-- a table of 1000 buckets with std::uint64_t keys: 18446744073709551 or one more in each
example : Nat.card {x : BitVec 64 // ∃ r : BitVec 64, AlgName.xxhash_64.impl.execStmts le64 (.seed 5) [.append default_flavor (.int (.int .s8)) x, .call .result] = .ok [r] ∧
    r.toNat % 1000 = 615} = 18446744073709552 :=
  (integers_fill_buckets_evenly le64 (.seed 5) trivial default_flavor rfl 1000 615 (by decide)).1.trans (by decide)

end Hash2

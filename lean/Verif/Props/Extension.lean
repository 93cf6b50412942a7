import Verif.Props.Extended
import Verif.Lemmas.Bits
/-
C56: what calling result() again does not do.
-/
namespace Hash2
open Spec

section
variable {τ R : Type} (T : BlockHash τ R)

private theorem after_tail (hN : 0 < T.N) (hr : T.renum = id)
    (hacc : ∀ s t n t' n', (T.finish s t n).2 = (T.finish s t' n').2 → (T.finish s t n).1 = (T.finish s t' n').1)
    (o : Obj τ) (ho : o.tail = []) (m x y : List Byte) (hx : m.length % T.N + x.length < T.N) (hy : m.length % T.N + y.length < T.N)
    (h : (T.res (T.absorb o (m ++ x))).2 = (T.res (T.absorb o (m ++ y))).2) :
    (T.res (T.absorb o (m ++ x))).1 = (T.res (T.absorb o (m ++ y))).1 := by
  have bl : ∀ x : List Byte, m.length % T.N + x.length < T.N → blocks T.N (m ++ x) = blocks T.N m := by
    intro x hx
    rw [(blocks_split hN m x).1, blocks_short (l := Spec.rest T.N m ++ x) (by rw [List.length_append, rest_length]; exact hx), List.append_nil]
  have ab : ∀ x : List Byte, m.length % T.N + x.length < T.N → T.absorb o (m ++ x) =
      ⟨(blocks T.N m).foldl T.compress o.st, rest T.N (m ++ x), (o.n + (m ++ x).length) % 2 ^ T.ctr⟩ := by
    intro x hx
    simp only [BlockHash.absorb, ho, List.nil_append, bl x hx]
  have len : ∀ x : List Byte, m.length % T.N + x.length < T.N → (rest T.N (m ++ x)).length = m.length % T.N + x.length := by
    intro x hx
    rw [rest_length, List.length_append, Nat.add_mod, Nat.add_mod_mod, Nat.mod_eq_of_lt hx]
  have hn : ∀ x : List Byte, m.length % T.N + x.length < T.N →
      ((o.n + (m ++ x).length) % 2 ^ T.ctr + (T.N - (rest T.N (m ++ x)).length)) % 2 ^ T.ctr =
        (o.n + (m.length - m.length % T.N) + T.N) % 2 ^ T.ctr := by
    intro x hx
    rw [Nat.mod_add_mod, len x hx, List.length_append]
    congr 1
    have := Nat.mod_le m.length T.N
    omega
  rw [ab x hx, ab y hy] at h ⊢
  have h' := hacc _ _ _ _ _ h
  unfold BlockHash.res
  simp only [hr, id, hn x hx, hn y hy, h']

private theorem extend (hN : 0 < T.N) (hr : T.renum = id)
    (hacc : ∀ s t n t' n', (T.finish s t n).2 = (T.finish s t' n').2 → (T.finish s t n).1 = (T.finish s t' n').1)
    {init : Obj τ} {seed : BitVec 64 → Obj τ} {bytes : List Byte → Obj τ} (o : Obj τ) (ho : o.tail = []) (hd : ∀ (m : List Byte),
      ((T.machine init seed bytes).run o (m.map .data)).1 = T.absorb o m)
    (m x y : List Byte) (hx : m.length % T.N + x.length < T.N) (hy : m.length % T.N + y.length < T.N) :
    ∃ (r r' : R) (f f' : List Tok → List R), (∀ tm, ((T.machine init seed bytes).run o ((m ++ x).map .data ++ [.fin] ++ tm)).2 = r :: f tm ∧
        ((T.machine init seed bytes).run o ((m ++ y).map .data ++ [.fin] ++ tm)).2 = r' :: f' tm) ∧ f [] = [] ∧ f' [] = [] ∧
      (r = r' → f = f') := by
  have e : ∀ (z : List Byte) tm, ((T.machine init seed bytes).run o (z.map .data ++ [.fin] ++ tm)).2 =
      (T.res (T.absorb o z)).2 :: ((T.machine init seed bytes).run (T.res (T.absorb o z)).1 tm).2 := by
    intro z tm
    have q := Machine.run_append (T.machine init seed bytes) o (z.map .data) ([.fin] ++ tm)
    rw [List.append_assoc]
    refine (congrArg Prod.snd q).trans ?_
    show ((T.machine init seed bytes).run o (z.map .data)).2 ++ ((T.machine init seed bytes).run ((T.machine init seed bytes).run o (z.map .data)).1 ([.fin] ++ tm)).2 = _
    rw [hd, show ((T.machine init seed bytes).run o (z.map .data)).2 = [] from Machine.run_data' (T.machine init seed bytes) z o]
    rfl
  refine ⟨_, _, _, _, fun tm => ⟨e (m ++ x) tm, e (m ++ y) tm⟩, rfl, rfl, fun h => ?_⟩
  rw [after_tail T hN hr hacc o ho m x y hx hy h]

end

theorem xx32_start (sz : Nat) (c : Ctor) : (c.start (XXH32.machine sz) : Obj _).tail = [] := by
  cases c with
  | default => rfl
  | seed k => rfl
  | bytes p n =>
    show (if _ then _ else _ : Obj _).tail = []
    split <;> rfl

theorem xx64_start (c : Ctor) : (c.start XXH64.machine : Obj _).tail = [] := by
  cases c with
  | default => rfl
  | seed k => rfl
  | bytes p n =>
    show (if _ then _ else _ : Obj _).tail = []
    split <;> rfl

theorem xx32_acc (sz : Nat) (s : Acc4 32) (t : List Byte) (n : Nat) (t' : List Byte) (n' : Nat)
    (h : ((XXH32.obj sz).finish s t n).2 = ((XXH32.obj sz).finish s t' n').2) : ((XXH32.obj sz).finish s t n).1 = ((XXH32.obj sz).finish s t' n').1 := by
  have q : ∀ t n, (XXH32.obj sz).finish s t n = (⟨s.a1 + (XXH32.consume ((if n < 16 then s.a3 + XXH32.prime5 else XXH32.converge s) + BitVec.ofNat 32 n) t), s.a2 + (XXH32.consume ((if n < 16 then s.a3 + XXH32.prime5 else XXH32.converge s) + BitVec.ofNat 32 n) t),
      s.a3 - (XXH32.consume ((if n < 16 then s.a3 + XXH32.prime5 else XXH32.converge s) + BitVec.ofNat 32 n) t), s.a4 - (XXH32.consume ((if n < 16 then s.a3 + XXH32.prime5 else XXH32.converge s) + BitVec.ofNat 32 n) t)⟩,
      XXH32.avalanche (XXH32.consume ((if n < 16 then s.a3 + XXH32.prime5 else XXH32.converge s) + BitVec.ofNat 32 n) t)) := fun _ _ => rfl
  rw [q, q] at h ⊢
  simp only [XX32L.avalanche_inj h]

theorem xx64_acc (sz : Nat) (s : Acc4 64) (t : List Byte) (n : Nat) (t' : List Byte) (n' : Nat)
    (h : ((XXH64.obj sz).finish s t n).2 = ((XXH64.obj sz).finish s t' n').2) : ((XXH64.obj sz).finish s t n).1 = ((XXH64.obj sz).finish s t' n').1 := by
  have q : ∀ t n, (XXH64.obj sz).finish s t n = (⟨s.a1 + (XXH64.consume ((if n < 32 then s.a3 + XXH64.prime5 else XXH64.converge s) + BitVec.ofNat 64 n) t), s.a2 + (XXH64.consume ((if n < 32 then s.a3 + XXH64.prime5 else XXH64.converge s) + BitVec.ofNat 64 n) t),
      s.a3 - (XXH64.consume ((if n < 32 then s.a3 + XXH64.prime5 else XXH64.converge s) + BitVec.ofNat 64 n) t), s.a4 - (XXH64.consume ((if n < 32 then s.a3 + XXH64.prime5 else XXH64.converge s) + BitVec.ofNat 64 n) t)⟩,
      XXH64.avalanche (XXH64.consume ((if n < 32 then s.a3 + XXH64.prime5 else XXH64.converge s) + BitVec.ofNat 64 n) t)) := fun _ _ => rfl
  rw [q, q] at h ⊢
  simp only [XX64L.avalanche_inj h]

/-- **C56.** xxhash_32 and xxhash_64: two messages that differ in the last incomplete block only (of any two lengths) and have the same
first result have the same results ever after, whatever calls follow. So calling result() again does not make collisions of such messages
(all messages shorter than a block, for instance) any less likely than those of the first result. -/
theorem xxhash_collisions_persist (a : AlgName) (N : Nat) (ha : a = .xxhash_32 ∧ N = 16 ∨ a = .xxhash_64 ∧ N = 32) (env : Env)
    (c : Ctor) (hc : c.Valid) (before more : List Op) (m x y : List Byte) (tm : List Tok) (hb : stream before = some (m.map .data))
    (hm : stream more = some tm) (hx : m.length % N + x.length < N) (hy : m.length % N + y.length < N) (r : a.impl.R)
    (he : a.impl.exec env c (before ++ [.update (.mem x) x.length, .result]) = .ok [r])
    (he' : a.impl.exec env c (before ++ [.update (.mem y) y.length, .result]) = .ok [r]) :
    ∃ rs : List a.impl.R,
      a.impl.exec env c (before ++ [.update (.mem x) x.length, .result] ++ more) = .ok (r :: rs) ∧
      a.impl.exec env c (before ++ [.update (.mem y) y.length, .result] ++ more) = .ok (r :: rs) := by
  have D : ∀ z : List Byte, stream [.update (.mem z) z.length, .result] = some (z.map .data ++ [.fin]) := fun z => by simp [stream, Op.toks]
  have S : ∀ (z : List Byte) (more : List Op) (tm : List Tok), stream more = some tm →
      stream (before ++ [.update (.mem z) z.length, .result] ++ more) = some ((m ++ z).map .data ++ [.fin] ++ tm) := by
    intro z more tm hm
    rw [stream_append, stream_append, hb, D, hm]
    simp
  rw [← List.append_nil (before ++ _)] at he he'
  rcases ha with ⟨rfl, rfl⟩ | ⟨rfl, rfl⟩
  · obtain ⟨s, _, rel⟩ := AlgName.construct_ok (a := .xxhash_32) (env := env) (ts := []) hc trivial
    obtain ⟨q, q', f, f', e, n1, n2, h⟩ := extend (XXH32.obj env.sizeBits) (show 0 < 16 by decide) rfl (xx32_acc _)
      (c.start (XXH32.machine env.sizeBits)) (xx32_start _ c)
      (fun m => congrArg Prod.fst ((AlgName.xxhash_32.impls env).run_data rel m).1) m x y hx hy
    have E : ∀ z more tm, stream more = some tm → _ := fun z more tm hm =>
      AlgName.exec_ok (a := .xxhash_32) (env := env) hc (S z more tm hm) (.inl trivial) trivial
    have e1 := (Except.ok.inj (he.symm.trans (E x [] [] rfl))).trans (e []).1
    have e2 := (Except.ok.inj (he'.symm.trans (E y [] [] rfl))).trans (e []).2
    rw [n1] at e1
    rw [n2] at e2
    cases e1
    cases e2
    cases h rfl
    exact ⟨f tm, (E x more tm hm).trans (congrArg Except.ok (e tm).1), (E y more tm hm).trans (congrArg Except.ok (e tm).2)⟩
  · obtain ⟨s, _, rel⟩ := AlgName.construct_ok (a := .xxhash_64) (env := env) (ts := []) hc trivial
    obtain ⟨q, q', f, f', e, n1, n2, h⟩ := extend (XXH64.obj 64) (show 0 < 32 by decide) rfl (xx64_acc _)
      (c.start XXH64.machine) (xx64_start c)
      (fun m => congrArg Prod.fst ((AlgName.xxhash_64.impls env).run_data rel m).1) m x y hx hy
    have E : ∀ z more tm, stream more = some tm → _ := fun z more tm hm =>
      AlgName.exec_ok (a := .xxhash_64) (env := env) hc (S z more tm hm) (.inl trivial) trivial
    have e1 := (Except.ok.inj (he.symm.trans (E x [] [] rfl))).trans (e []).1
    have e2 := (Except.ok.inj (he'.symm.trans (E y [] [] rfl))).trans (e []).2
    rw [n1] at e1
    rw [n2] at e2
    cases e1
    cases e2
    cases h rfl
    exact ⟨f tm, (E x more tm hm).trans (congrArg Except.ok (e tm).1), (E y more tm hm).trans (congrArg Except.ok (e tm).2)⟩

/-- **C56, so there are** two different messages of nine bytes (of five, for xxhash_32) with the same results of all calls of result(),
however many are made: there is no number of results after which the "extended output" tells all short messages apart. -/
theorem xxhash_extended_output_collides (a : AlgName) (ha : a = .xxhash_32 ∨ a = .xxhash_64) (env : Env) (c : Ctor) (hc : c.Valid) :
    ∃ x y : List Byte, x ≠ y ∧ x.length ≤ 9 ∧ y.length ≤ 9 ∧ ∀ (more : List Op) (tm : List Tok), stream more = some tm →
      ∃ rs : List a.impl.R,
        a.impl.exec env c ([.update (.mem x) x.length, .result] ++ more) = .ok rs ∧
        a.impl.exec env c ([.update (.mem y) y.length, .result] ++ more) = .ok rs := by
  rcases ha with rfl | rfl
  · obtain ⟨x, y, hne, hx, hy, e⟩ := bytes_pigeon 4 (fun z => (XXH32.machine env.sizeBits).value (c.start (XXH32.machine env.sizeBits)) z)
      (fun r => natLE 4 r.toNat) (fun _ => natLE_length _ _) (fun _ _ h => natLE_word_inj (by decide) h)
    refine ⟨x, y, hne, by omega, by omega, fun more tm hm => ?_⟩
    obtain ⟨rs, e1, e2⟩ := xxhash_collisions_persist .xxhash_32 16 (.inl ⟨rfl, rfl⟩) env c hc [] more [] x y tm rfl hm
      (by rw [hx]; decide) (by rw [hy]; decide) _ (AlgName.exec_message (a := .xxhash_32) hc (stream_once x) (.inl trivial) trivial)
      ((AlgName.exec_message (a := .xxhash_32) hc (stream_once y) (.inl trivial) trivial).trans (congrArg (fun r => Except.ok [r]) e.symm))
    exact ⟨_, e1, e2⟩
  · obtain ⟨x, y, hne, hx, hy, e⟩ := bytes_pigeon 8 (fun z => XXH64.machine.value (c.start XXH64.machine) z)
      (fun r => natLE 8 r.toNat) (fun _ => natLE_length _ _) (fun _ _ h => natLE_word_inj (by decide) h)
    refine ⟨x, y, hne, by omega, by omega, fun more tm hm => ?_⟩
    obtain ⟨rs, e1, e2⟩ := xxhash_collisions_persist .xxhash_64 32 (.inr ⟨rfl, rfl⟩) env c hc [] more [] x y tm rfl hm
      (by rw [hx]; decide) (by rw [hy]; decide) _ (AlgName.exec_message (a := .xxhash_64) hc (stream_once x) (.inl trivial) trivial)
      ((AlgName.exec_message (a := .xxhash_64) hc (stream_once y) (.inl trivial) trivial).trans (congrArg (fun r => Except.ok [r]) e.symm))
    exact ⟨_, e1, e2⟩

/-- 256 bits from xxhash_64 -/
example (env : Env) : ∃ (x y : List Byte) (rs : List W64), x ≠ y ∧
    AlgName.xxhash_64.impl.exec env .default ([.update (.mem x) x.length, .result] ++ [.result, .result, .result]) = .ok rs ∧
    AlgName.xxhash_64.impl.exec env .default ([.update (.mem y) y.length, .result] ++ [.result, .result, .result]) = .ok rs := by
  obtain ⟨x, y, hne, -, -, h⟩ := xxhash_extended_output_collides .xxhash_64 (.inr rfl) env .default trivial
  obtain ⟨rs, h1, h2⟩ := h [.result, .result, .result] [.fin, .fin, .fin] rfl
  exact ⟨x, y, rs, hne, h1, h2⟩

end Hash2

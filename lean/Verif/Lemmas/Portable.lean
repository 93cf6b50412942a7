import Verif.Lemmas.Programs
import Verif.Lemmas.MessagePort
import Verif.Lemmas.MessageSame
/-
Programs with hash_append on two platforms; programs with objects that hold the same; the recording algorithm.
-/
namespace Hash2
open Spec

mutual
theorem alike_equal : ∀ (t : Ty) (a b : t.Val), ordered t = true → NoNaN t a → Alike t a b → Equal t a b
  | .int _, a, b, _, _, h => by simp only [Alike] at h; simp only [Equal]; exact h
  | .enum _, a, b, _, _, h => by simp only [Alike] at h; simp only [Equal]; exact h
  | .ptr, a, b, _, _, h => by simp only [Alike] at h; simp only [Equal]; exact h
  | .nullptr, a, b, _, _, _ => by simp only [Equal]
  | .f32, a, b, _, hn, h => by simp only [Alike] at h; simp only [NoNaN] at hn; simp only [Equal]; exact ⟨hn, h⟩
  | .f64, a, b, _, hn, h => by simp only [Alike] at h; simp only [NoNaN] at hn; simp only [Equal]; exact ⟨hn, h⟩
  | .carray _ t, as, bs, ho, hn, h => by
    simp only [Alike] at h; simp only [NoNaN] at hn; simp only [ordered] at ho; simp only [Equal]
    exact alike_list t as bs (fun a b hm h => alike_equal t a b ho (hn a hm) h) h
  | .seq _ t, as, bs, ho, hn, h => by
    simp only [Alike] at h; simp only [NoNaN] at hn; simp only [ordered] at ho; simp only [Equal]
    exact alike_list t as bs (fun a b hm h => alike_equal t a b ho (hn a hm) h) h
  | .arr _ _ t, as, bs, ho, hn, h => by
    simp only [Alike] at h; simp only [NoNaN] at hn; simp only [ordered] at ho; simp only [Equal]
    exact alike_list t as bs (fun a b hm h => alike_equal t a b ho (hn a hm) h) h
  | .unord t, as, bs, ho, _, _ => by simp [ordered] at ho
  | .tuple ts, a, b, ho, hn, h => by
    simp only [Alike] at h; simp only [NoNaN] at hn; simp only [ordered] at ho; simp only [Equal]
    exact alikeAll_equal ts a b ho hn h
  | .described _ _ bs ms, a, b, ho, hn, h => by
    simp only [Alike] at h; simp only [NoNaN] at hn; simp only [ordered, Bool.and_eq_true] at ho; simp only [Equal]
    exact ⟨alikeAll_equal bs _ _ ho.1 hn.1 h.1, alikeAll_equal ms _ _ ho.2 hn.2 h.2⟩
  | .user cs, a, b, ho, hn, h => by
    simp only [Alike] at h; simp only [NoNaN] at hn; simp only [ordered] at ho; simp only [Equal]
    exact alikeAll_equal cs a b ho hn h
  | .range _ t, as, bs, ho, hn, h => by
    simp only [Alike] at h; simp only [NoNaN] at hn; simp only [ordered] at ho; simp only [Equal]
    exact alike_list t as bs (fun a b hm h => alike_equal t a b ho (hn a hm) h) h
  | .size, a, b, _, _, h => by simp only [Alike] at h; simp only [Equal]; exact h
theorem alikeAll_equal : ∀ (ts : Tys) (a b : ts.Val), orderedAll ts = true → NoNaNAll ts a → AlikeAll ts a b → EqualAll ts a b
  | .nil, _, _, _, _, _ => by simp only [EqualAll]
  | .cons t ts, a, b, ho, hn, h => by
    simp only [AlikeAll] at h; simp only [NoNaNAll] at hn; simp only [orderedAll, Bool.and_eq_true] at ho; simp only [EqualAll]
    exact ⟨alike_equal t _ _ ho.1 hn.1 h.1, alikeAll_equal ts _ _ ho.2 hn.2 h.2⟩
theorem alike_list (t : Ty) (as bs : List t.Val) (hi : ∀ a b, a ∈ as → Alike t a b → Equal t a b) (h : List.Forall₂ (Alike t) as bs) :
    List.Forall₂ (Equal t) as bs := by
  induction h with
  | nil => exact .nil
  | cons h _ ih => exact .cons (hi _ _ (List.mem_cons_self ..) h) (ih fun a b hm => hi a b (List.mem_cons_of_mem _ hm))
end

/-! ### the recording algorithm -/

/-- feeding a recorder -/
def recordMachine : Machine (List Byte) where
  S := List Byte
  absorb s bs := s ++ bs
  res s := (s, s)
  init := []
  seed _ := []
  bytes _ := []

def recorder_implements (num : List Byte → W64) (env : Env) : Implements (recorder num) env recordMachine where
  Rel s a := s = a
  nullSafe := True
  fits _ _ := True
  fits_nil _ _ _ := trivial
  fits_append _ _ _ := by simp
  absorb_nil _ _ _ := List.append_nil _
  absorb_append a xs ys := (List.append_assoc a xs ys).symm
  update_ok s a bs more h _ := by
    subst h
    refine ⟨_, if_pos ?_, ?_⟩
    · show bs.length ≤ (bs ++ more).length
      simp
    · have : ∀ l : List Byte, l ++ (bs ++ more).take bs.length = l ++ bs := by simp
      exact this s
  null_ok _ s a _ := by
    have : ∀ l : List Byte, (if Ptr.Readable .null 0 then (.ok (l ++ []) : M (List Byte)) else .error .oob) = .ok l := by
      intro l; rw [if_pos (show Ptr.Readable .null 0 from rfl), List.append_nil]
    exact this s
  result_ok s a h := ⟨s, by subst h; rfl, h⟩
  init_ok := ⟨_, rfl, rfl⟩
  seed_ok _ := ⟨_, rfl, rfl⟩
  bytesFit _ := True
  bytes_ok _ _ _ := ⟨_, rfl, rfl⟩
  bytes_null_ok := ⟨_, rfl, rfl⟩

/-- the recorder shows the message -/
theorem record (num : List Byte → W64) (env : Env) (f : Flavor) (hround : env.fp.roundDown = false) (t : Ty) (v : t.Val)
    (h : (Stmt.append f t v).Valid env) (s : List Byte) :
    hashAppend (recorder num) env f t v s = .ok (s ++ message (layout env f) num t v s) := by
  obtain ⟨s', e, r⟩ := append_feeds (I := recorder_implements num env) (a₀ := ([] : List Byte)) (f := f) num (int := num)
    (fun _ _ _ => rfl) hround (fun bs _ => by show num bs = num ([] ++ bs); rw [List.nil_append]) t v
    ⟨h.1, h.2.1, h.2.2, .inl trivial⟩ s (weight t v) (fun _ _ => trivial) (Nat.le_refl _) s (List.nil_append s).symm
  rw [hashAppend, e]
  exact congrArg Except.ok (r.trans (List.nil_append _))

/-! ### programs with objects that hold the same -/

theorem expand_same {A : HashAlg} {env : Env} {c : Ctor} {ps ps' : List Stmt} (h : List.Forall₂ Stmt.Same ps ps') :
    ∀ done, A.expand env c done ps = A.expand env c done ps' := by
  induction h with
  | nil => exact fun _ => rfl
  | @cons p p' ps ps' h _ ih =>
    intro done
    cases p with
    | call op =>
      cases p' with
      | call op' => have h : op = op' := h; subst h; simp only [HashAlg.expand, ih]
      | append f t v => exact h.elim
    | append f t v =>
      cases p' with
      | call op => exact h.elim
      | append f' t' v' =>
        obtain ⟨rfl, h⟩ : f = f' ∧ Spec.Same t t' v v' := h
        have : A.messageOf env c done f t v = A.messageOf env c done f t' v' := message_same _ t t' v v' [] h
        simp only [HashAlg.expand, this, ih]

theorem AlgName.same_ok {a : AlgName} {env : Env} {c : Ctor} {ps ps' : List Stmt} (h : a.Runs env c ps) (h' : a.Runs env c ps')
    (hs : List.Forall₂ Stmt.Same ps ps') : ∃ rs, a.impl.execStmts env c ps = .ok rs ∧ a.impl.execStmts env c ps' = .ok rs := by
  obtain ⟨rs, e1, e2⟩ := runs_expand h
  obtain ⟨rs', e1', e2'⟩ := runs_expand h'
  rw [← expand_same hs, e2] at e2'
  rw [← Except.ok.inj e2'] at e1'
  exact ⟨rs, e1, e1'⟩

theorem expand_append {A : HashAlg} {env : Env} {c : Ctor} (xs ys : List Stmt) (done : List Op) :
    A.expand env c done (xs ++ ys) = A.expand env c done xs ++ A.expand env c (done ++ A.expand env c done xs) ys := by
  induction xs generalizing done with
  | nil => simp [HashAlg.expand]
  | cons x xs ih =>
    cases x <;> simp only [List.cons_append, HashAlg.expand, ih, List.append_assoc, List.nil_append]

/-! ### two platforms -/

section
variable {a : AlgName} {env₁ env₂ : Env} {c : Ctor}

theorem AlgName.start_ok {env : Env} {N : Nat} (hc : c.Valid) (h : a.RoomFor env c N) :
    ∃ s, a.impl.construct env c = .ok s ∧ (a.impls env).Rel s (c.start (a.machine env.sizeBits)) :=
  construct_ok (ts := []) hc (room_of h (Nat.zero_le _))

theorem run_last {A : HashAlg} {env : Env} {S : Machine A.R} (I : Implements A env S) {s : A.State} {start : S.S} {td : List Tok}
    (h : I.Rel s (S.run start td).1) (bs : List Byte) :
    (S.run start (td ++ (bs.map .data ++ [.fin]))).2 = (S.run start td).2 ++ [(S.res (S.absorb (S.run start td).1 bs)).2] := by
  rw [Machine.run_append, Machine.run_append, (I.run_data h bs).1]
  rfl

theorem AlgName.number_env {N : Nat} (hc : c.Valid) (r₁ : a.RoomFor env₁ c N) (r₂ : a.RoomFor env₂ c N)
    (hs : env₁.size64 = env₂.size64 ∨ a.countsInSizeT = false ∨ c.cost + N + 192 < 2 ^ 32) {done : List Op} {td : List Tok}
    (hd : stream done = some td) (n₁ : a.NullOk env₁ ∨ NoNull done) (n₂ : a.NullOk env₂ ∨ NoNull done) {bs : List Byte}
    (hb : cost td + bs.length ≤ N) : a.impl.number env₁ c done bs = a.impl.number env₂ c done bs := by
  have hcost : cost (td ++ bs.map .data) ≤ N := by rw [cost_append, cost_data]; exact hb
  obtain ⟨s₁, e₁, q₁⟩ := start_ok hc r₁
  obtain ⟨s₂, e₂, q₂⟩ := start_ok hc r₂
  have f₁ := fits (room_of r₁ hcost)
  have f₂ := fits (room_of r₂ hcost)
  rw [number_eq (a.impls env₁) e₁ q₁ hd (n₁.imp nullSafe id) bs f₁, number_eq (a.impls env₂) e₂ q₂ hd (n₂.imp nullSafe id) bs f₂]
  obtain ⟨x₁, -, y₁⟩ := (a.impls env₁).run_ok q₁ done td hd (n₁.imp nullSafe id) (((a.impls env₁).fitsAll_append _ _).1 f₁).1
  obtain ⟨x₂, -, y₂⟩ := (a.impls env₂).run_ok q₂ done td hd (n₂.imp nullSafe id) (((a.impls env₂).fitsAll_append _ _).1 f₂).1
  have h := a.run_width env₁ env₂ c (td ++ (bs.map .data ++ [.fin])) (by
    refine hs.imp id (Or.imp id fun h => ?_)
    have : cost [.fin] = 192 := rfl
    rw [cost_append, cost_append, cost_data, this]
    generalize 2 ^ 32 = P at h ⊢
    omega)
  rw [run_last (a.impls env₁) y₁, run_last (a.impls env₂) y₂] at h
  have h2 := List.singleton_inj.1 (List.append_inj' h (by rfl)).2
  rw [a.numberOf_env env₁ env₂, h2]

theorem layout_congr {f : Flavor} (h : f.order ≠ .native ∨ env₁.native = env₂.native) : f.endian env₁ = f.endian env₂ := by
  unfold Flavor.endian
  cases ho : f.order with
  | native => exact h.resolve_left (fun h => h ho)
  | little => rfl
  | big => rfl

theorem toks_cost {op : Op} {t : List Tok} (ht : op.toks = some t) : cost t ≤ (Stmt.call op).cost := by
  cases op with
  | result => simp only [Op.toks, Option.some.injEq] at ht; subst ht; exact Nat.le_refl _
  | update p n =>
    cases p with
    | null =>
      simp only [Op.toks] at ht
      split at ht
      · simp only [Option.some.injEq] at ht; subst ht; exact Nat.zero_le _
      · cases ht
    | mem bs =>
      simp only [Op.toks] at ht
      split at ht
      · simp only [Option.some.injEq] at ht; subst ht
        rw [cost_data, List.length_take]; exact Nat.min_le_left _ _
      · cases ht

theorem AlgName.expand_env {N : Nat} (hc : c.Valid) (r₁ : a.RoomFor env₁ c N) (r₂ : a.RoomFor env₂ c N)
    (hs : env₁.size64 = env₂.size64 ∨ a.countsInSizeT = false ∨ c.cost + N + 192 < 2 ^ 32) (ps : List Stmt) :
    ∀ done td, stream done = some td → (a.NullOk env₁ ∨ NoNull done) → (a.NullOk env₂ ∨ NoNull done) →
    (∀ p ∈ ps, p.Valid env₁) → (a.NullOk env₁ ∨ ∀ p ∈ ps, p.NoNull env₁) → (a.NullOk env₂ ∨ ∀ p ∈ ps, p.NoNull env₂) →
    (∀ p ∈ ps, p.Portable env₁ env₂) → cost td + progCost ps ≤ N →
    a.impl.expand env₁ c done ps = a.impl.expand env₂ c done ps := by
  induction ps with
  | nil => exact fun _ _ _ _ _ _ _ _ _ _ => rfl
  | cons q ps ih =>
    intro done td hd n₁ n₂ hv m₁ m₂ hp hN
    rw [progCost_cons] at hN
    have hv' := fun p hm => hv p (List.mem_cons_of_mem _ hm)
    have hp' := fun p hm => hp p (List.mem_cons_of_mem _ hm)
    have m₁' : a.NullOk env₁ ∨ ∀ p ∈ ps, p.NoNull env₁ := m₁.imp id fun h p hm => h p (List.mem_cons_of_mem _ hm)
    have m₂' : a.NullOk env₂ ∨ ∀ p ∈ ps, p.NoNull env₂ := m₂.imp id fun h p hm => h p (List.mem_cons_of_mem _ hm)
    have hn : ∀ {P : Prop} {op : Op}, (P ∨ NoNull done) → (P ∨ NoNull [op]) → (P ∨ NoNull (done ++ [op])) := by
      intro P op h h'
      rcases h with h | h
      · exact .inl h
      · exact h'.imp id fun h' => noNull_append.2 ⟨h, h'⟩
    cases q with
    | call op =>
      obtain ⟨t, ht⟩ := Option.isSome_iff_exists.1 (show op.toks.isSome = true from hv _ (List.mem_cons_self ..))
      have hct := toks_cost ht
      have k₁ : a.NullOk env₁ ∨ NoNull [op] := m₁.imp id fun h n hm => h _ (List.mem_cons_self ..) n (List.mem_singleton.1 hm).symm
      have k₂ : a.NullOk env₂ ∨ NoNull [op] := m₂.imp id fun h n hm => h _ (List.mem_cons_self ..) n (List.mem_singleton.1 hm).symm
      simp only [HashAlg.expand]
      rw [ih (done ++ [op]) (td ++ t) (by rw [stream_append, hd]; simp [stream, ht]) (hn n₁ k₁) (hn n₂ k₂) hv' m₁' m₂' hp'
        (by rw [cost_append]; omega)]
    | append f t v =>
      obtain ⟨p1, p2, p3⟩ : (Stmt.append f t v).Portable env₁ env₂ := hp _ (List.mem_cons_self ..)
      have hm : a.impl.messageOf env₁ c done f t v = a.impl.messageOf env₂ c done f t v := by
        refine message_port (L := layout env₁ f) (L' := layout env₂ f) (K := weight t v) (layout_congr p1) rfl f.sizeType.n_le env₁.ptrSz.n_le
          (fun bs hb => AlgName.number_env hc r₁ r₂ hs hd n₁ n₂ ?_) t v [] (p2.imp id fun h => ?_) p3 (by simp)
        · have : (Stmt.append f t v).cost = weight t v := rfl
          omega
        · show env₁.ptrSz.n = env₂.ptrSz.n
          unfold Env.ptrSz
          rw [h]
      have hw : (a.impl.messageOf env₂ c done f t v).length ≤ (Stmt.append f t v).cost := message_weight env₂ f _ t v []
      simp only [HashAlg.expand, hm]
      rw [ih _ (td ++ (a.impl.messageOf env₂ c done f t v).map .data) (by rw [stream_append, hd]; simp [stream, Op.toks])
        (hn n₁ (.inr (by intro n; simp))) (hn n₂ (.inr (by intro n; simp))) hv' m₁' m₂' hp' (by rw [cost_append, cost_data]; omega)]

theorem AlgName.portable_ok {ps : List Stmt} (h₁ : a.Runs env₁ c ps) (h₂ : a.Runs env₂ c ps) (hp : ∀ p ∈ ps, p.Portable env₁ env₂)
    (hs : env₁.size64 = env₂.size64 ∨ a.countsInSizeT = false ∨ c.cost + progCost ps + 192 < 2 ^ 32) :
    ∃ rs, a.impl.execStmts env₁ c ps = .ok rs ∧ a.impl.execStmts env₂ c ps = .ok rs := by
  obtain ⟨t₁, a₁, b₁, -, d₁⟩ := runs_ok h₁
  obtain ⟨t₂, a₂, b₂, -, d₂⟩ := runs_ok h₂
  have he := expand_env h₁.ctor h₁.room h₂.room hs ps [] [] rfl (.inr (by intro n; simp)) (.inr (by intro n; simp)) h₁.valid h₁.null h₂.null
    hp (by show 0 + _ ≤ _; omega)
  rw [he, a₂] at a₁
  have ht : t₂ = t₁ := Option.some.inj a₁
  subst ht
  refine ⟨_, d₁, ?_⟩
  rw [d₂, a.run_width env₁ env₂ c t₂ (hs.imp id (Or.imp id fun h => ?_))]
  generalize 2 ^ 32 = P at h ⊢
  omega

end

end Hash2

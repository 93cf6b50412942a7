import Verif.Lemmas.Parts
import Verif.Props.HashAppend
/-
C58: hash_append does what its reference documentation says (Spec/Parts.lean).
-/
namespace Hash2
open Spec

/-- **C58.** Replacing a call of hash_append (hash_append_range, hash_append_size) by the calls it is documented to make does not change any
result, whatever the algorithm, the platform, the flavor, the object, and whatever is done before and after. -/
theorem hash_append_documented (a : AlgName) (env : Env) (c : Ctor) (f : Flavor) (t : Ty) (v : t.Val) (before ps after : List Stmt)
    (h : a.Runs env c (before ++ [.append f t v] ++ after)) (hp : parts env f t v = some ps)
    (hr : a.RoomFor env c (progCost (before ++ ps ++ after))) :
    a.Runs env c (before ++ ps ++ after) ∧
    ∃ rs, a.impl.execStmts env c (before ++ [.append f t v] ++ after) = .ok rs ∧ a.impl.execStmts env c (before ++ ps ++ after) = .ok rs := by
  have h' := AlgName.runs_parts h hp hr
  exact ⟨h', AlgName.replace_ok h h' fun s => (AlgName.toks_parts s f t v hp).symm⟩

/-- a struct with three members: hash_append of each of them -/
example : parts le64 default_flavor point aPoint = some [.append default_flavor (.int (.int .s2)) 0x1234#16,
    .append default_flavor (.seq .contiguous (.int .uchar)) [5#8, 6#8], .append default_flavor .f64 0x3FF0000000000000#64] := rfl

example : ∃ rs, (AlgName.digest .sha1_160).impl.execStmts le64 .default (aProgram default_flavor) = .ok rs ∧
    (AlgName.digest .sha1_160).impl.execStmts le64 .default
      [.call (.update (.mem abc) 3), .append default_flavor (.int (.int .s2)) 0x1234#16,
        .append default_flavor (.seq .contiguous (.int .uchar)) [5#8, 6#8], .append default_flavor .f64 0x3FF0000000000000#64,
        .call .result, .append default_flavor dict aDict, .call .result] = .ok rs :=
  (hash_append_documented (.digest .sha1_160) le64 .default default_flavor point aPoint [.call (.update (.mem abc) 3)] _
    [.call .result, .append default_flavor dict aDict, .call .result] (aProgram_runs _ _ _ (.inl rfl) rfl (by decide)) rfl trivial).2

/-- **C58, any number of times, both ways.** Two programs that make the same calls according to the documentation return the same results. -/
theorem same_calls_same_results (a : AlgName) (env : Env) (c : Ctor) (ps qs : List Stmt) (hp : a.Runs env c ps) (hq : a.Runs env c qs)
    (h : SameCalls env ps qs) : ∃ rs, a.impl.execStmts env c ps = .ok rs ∧ a.impl.execStmts env c qs = .ok rs := by
  refine ⟨_, AlgName.exec_toks hp, ?_⟩
  rw [AlgName.exec_toks hq, h.toks]

/-- **C58, the documentation is complete.** For an object without unordered containers, the documented effects come down to calls of update,
and nothing else. -/
theorem documented_down_to_updates (env : Env) (f : Flavor) (t : Ty) (v : t.Val) (h : ordered t = true) :
    ∃ us : List (List Byte), SameCalls env [.append f t v] (us.map fun u => .call (.update (.mem u) u.length)) :=
  ToUpdates.all t v h

example : ∃ us : List (List Byte), SameCalls le64 [.append default_flavor point aPoint] (us.map fun u => .call (.update (.mem u) u.length)) :=
  documented_down_to_updates le64 _ _ _ (by simp [point, ordered, orderedAll])

/-- **C58, a range may be cut.** hash_append_range of a range makes the same calls as hash_append_range of its two pieces; the kind of the
iterators does not matter. -/
theorem range_may_be_cut (env : Env) (f : Flavor) (t : Ty) (k k₁ k₂ : RangeKind) (xs ys : List t.Val) :
    SameCalls env [.append f (.range k t) (xs ++ ys)] [.append f (.range k₁ t) xs, .append f (.range k₂ t) ys] := by
  have h1 : SameCalls env [.append f (.range k t) (xs ++ ys)] (xs.map (.append f t) ++ ys.map (.append f t)) := by
    rw [← List.map_append]
    exact .one rfl
  exact h1.trans (SameCalls.append (.one rfl) (.one rfl)).symm

example : ∃ rs, (AlgName.digest .md5_128).impl.execStmts le64 .default
      [.append default_flavor (.range .contiguous (.int .uchar)) [1#8, 2#8, 3#8], .call .result] = .ok rs ∧
    (AlgName.digest .md5_128).impl.execStmts le64 .default [.append default_flavor (.range .forward (.int .uchar)) [1#8],
      .append default_flavor (.range .pointers (.int .uchar)) [2#8, 3#8], .call .result] = .ok rs := by
  have valid : ∀ (k : RangeKind) (vs : List (BitVec 8)), (Stmt.append default_flavor (.range k (.int .uchar)) vs).Valid le64 := fun k vs =>
    ⟨by simp [wellFormed], by simp [Spec.Valid], fun _ => by simp [pointerFree]⟩
  refine same_calls_same_results _ _ _ _ _ ⟨trivial, ?_, .inl (.inl rfl), rfl, trivial⟩ ⟨trivial, ?_, .inl (.inl rfl), rfl, trivial⟩
    ((range_may_be_cut le64 default_flavor (.int .uchar) .contiguous .forward .pointers [1#8] [2#8, 3#8]).append (.refl [.call .result]))
  · intro p hp
    rcases List.mem_cons.1 hp with rfl | hp
    · exact valid _ _
    · rw [List.mem_singleton.1 hp]; rfl
  · intro p hp
    rcases List.mem_cons.1 hp with rfl | hp
    · exact valid _ _
    · rcases List.mem_cons.1 hp with rfl | hp
      · exact valid _ _
      · rw [List.mem_singleton.1 hp]; rfl

/-- **C58, grouping is not hashed.** A tuple whose last element is a tuple makes the same calls as the flat tuple: how the elements are grouped
does not enter the message (of two values of different types). -/
theorem grouping_not_hashed (env : Env) (f : Flavor) (t u : Ty) (us : Tys) (x : t.Val) (y : u.Val) (ys : us.Val) :
    SameCalls env [.append f (.tuple (.cons t (.cons (.tuple (.cons u us)) .nil))) (x, ((y, ys), ()))]
      [.append f (.tuple (.cons t (.cons u us))) (x, (y, ys))] := by
  have h1 : SameCalls env [.append f (.tuple (.cons t (.cons (.tuple (.cons u us)) .nil))) (x, ((y, ys), ()))]
      ([.append f t x] ++ [.append f (.tuple (.cons u us)) (y, ys)]) := .one rfl
  have h2 : SameCalls env [.append f (.tuple (.cons t (.cons u us))) (x, (y, ys))] ([.append f t x] ++ eachStmt f (.cons u us) (y, ys)) := .one rfl
  exact h1.trans ((SameCalls.append (.refl _) (.one rfl)).trans h2.symm)

-- ( 1, ( 2, 3 ) ) and ( 1, 2, 3 )
example : SameCalls le64
    [.append default_flavor (.tuple (.cons (.int .uchar) (.cons (.tuple (.cons (.int .uchar) (.cons (.int .uchar) .nil))) .nil))) (1#8, ((2#8, (3#8, ())), ()))]
    [.append default_flavor (.tuple (.cons (.int .uchar) (.cons (.int .uchar) (.cons (.int .uchar) .nil)))) (1#8, (2#8, (3#8, ())))] :=
  grouping_not_hashed le64 default_flavor _ _ _ _ _ _

/-- the elements have hash values: one each -/
theorem element_hashes_exist (a : AlgName) (env : Env) (c : Ctor) (f : Flavor) (t : Ty) (v : t.Val) (before : List Stmt)
    (h : a.Runs env c (before ++ [.append f t v, .call .result])) : ∃! w, a.ElementHash env c before f t v w := by
  have e := AlgName.exec_toks h
  rw [AlgName.toks_append, Machine.run_append] at e
  generalize hx : ((a.machine env.sizeBits).run (c.start (a.machine env.sizeBits)) (a.toks env (c.start (a.machine env.sizeBits)) before)) = x at e
  simp only [AlgName.toks, AlgName.tok, List.append_nil] at e
  rw [Machine.run_append] at e
  generalize hy : (a.machine env.sizeBits).run x.1 ((message (layout env f) (a.numAt env x.1) t v []).map .data) = y at e
  refine ⟨a.impl.numberOf env ((a.machine env.sizeBits).res y.1).2, ⟨x.2 ++ y.2, ((a.machine env.sizeBits).res y.1).2, ?_, a.numberOf_ok env _ _⟩, fun w hw => ?_⟩
  · rw [e, List.append_assoc]; rfl
  · have := AlgName.elementHash h hw
    rw [this, hx, ← hy]
    rfl

example : ∃! w, AlgName.xxhash_64.ElementHash le64 (.seed 7) [.call (.update (.mem abc) 3)] default_flavor point aPoint w := by
  refine element_hashes_exist .xxhash_64 le64 (.seed 7) default_flavor point aPoint [.call (.update (.mem abc) 3)] ⟨trivial, ?_, .inl trivial, rfl, trivial⟩
  intro p hp
  exact (aProgram_runs .xxhash_64 le64 default_flavor trivial rfl (by decide)).valid p (by
    simp only [aProgram, List.cons_append, List.nil_append, List.mem_cons, List.not_mem_nil, or_false] at hp ⊢
    rcases hp with rfl | rfl | rfl <;> simp)

/-- **C58, unordered ranges.** hash_append of an unordered container, hash_append_unordered_range: the hash values of the elements, each got
from a copy of the object, exist; they are added, the sum is appended as a std::uint64_t, then the size. -/
theorem unordered_documented (a : AlgName) (env : Env) (c : Ctor) (f : Flavor) (t : Ty) (vs : List t.Val) (before after : List Stmt)
    (h : a.Runs env c (before ++ [.append f (.unord t) vs] ++ after))
    (hr : a.RoomFor env c (progCost (before ++ [.append f (.unord t) vs] ++ after) + 192)) :
    ∃ ws, List.Forall₂ (a.ElementHash env c before f t) vs ws ∧
    ∃ rs, a.impl.execStmts env c (before ++ [.append f (.unord t) vs] ++ after) = .ok rs ∧
      a.impl.execStmts env c (before ++ [.append f (.int (.int .s8)) ws.sum, .append f .size vs.length] ++ after) = .ok rs := by
  have hel := AlgName.element_runs h hr
  have hw : ∃ ws, List.Forall₂ (a.ElementHash env c before f t) vs ws := by
    clear h hr
    induction vs with
    | nil => exact ⟨[], .nil⟩
    | cons v vs ih =>
      obtain ⟨ws, hw⟩ := ih fun v hv => hel v (List.mem_cons_of_mem _ hv)
      obtain ⟨w, hv, -⟩ := element_hashes_exist a env c f t v before (hel v (List.mem_cons_self ..))
      exact ⟨w :: ws, .cons hv hw⟩
  obtain ⟨ws, hw⟩ := hw
  exact ⟨ws, hw, AlgName.unordered_ok h hr hw⟩

example : ∃ ws, List.Forall₂ ((AlgName.digest .md5_128).ElementHash le64 .default
      [.call (.update (.mem abc) 3), .append default_flavor point aPoint, .call .result] default_flavor
      (.tuple (.cons (.int (.int .s4)) (.cons (.seq .contiguous (.int (.int .s1))) .nil)))) aDict ws ∧
    ∃ rs, (AlgName.digest .md5_128).impl.execStmts le64 .default (aProgram default_flavor) = .ok rs ∧
      (AlgName.digest .md5_128).impl.execStmts le64 .default
        ([.call (.update (.mem abc) 3), .append default_flavor point aPoint, .call .result] ++
          [.append default_flavor (.int (.int .s8)) ws.sum, .append default_flavor .size 2] ++ [.call .result]) = .ok rs :=
  unordered_documented (.digest .md5_128) le64 .default default_flavor _ aDict [.call (.update (.mem abc) 3), .append default_flavor point aPoint, .call .result]
    [.call .result] (aProgram_runs _ _ _ (.inl rfl) rfl (by decide)) trivial

end Hash2

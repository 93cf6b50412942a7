import Verif.Lemmas.Unordered
import Verif.Props.HashAppend
/-
C73: what the hash of an unordered container depends on.
-/
namespace Hash2
open Spec

/-- **C73.** What hash_append feeds for an unordered container, whatever the hash object has been through: the sum modulo 2^64 of the numbers of the
elements, and the number of elements. Nothing else of the elements is fed. -/
theorem unordered_feeds_sum (a : AlgName) (env : Env) (c : Ctor) (before : List Stmt) (f : Flavor) (t : Ty) (vs : List t.Val)
    (h : a.Runs env c (before ++ [.append f (.unord t) vs])) (he : ∀ x ∈ vs, a.Runs env c (before ++ [.append f t x, .call .result])) :
    ∃ calls, a.impl.callsMade env c before f (.unord t) vs = .ok calls ∧
      bytesPassed calls = (layout env f).word 8 ((vs.map (a.impl.elementNumber env c before f t)).sum).toNat ++
        (layout env f).word f.sizeType.n vs.length := by
  obtain ⟨calls, h1, h2⟩ := AlgName.calls_ok h
  exact ⟨calls, h1, h2.bytes.trans (unordered_message he)⟩

/-- **C73.** So two unordered containers are fed alike exactly if they have the same number of elements (modulo 256 to the size of size_type) and the
same sum; and if so, nothing tells them apart: every program returns the same results with either. -/
theorem unordered_collisions_exact (a : AlgName) (env : Env) (c : Ctor) (before after : List Stmt) (f : Flavor) (t : Ty) (vs ws : List t.Val)
    (h : a.Runs env c (before ++ [.append f (.unord t) vs] ++ after)) (h' : a.Runs env c (before ++ [.append f (.unord t) ws] ++ after))
    (he : ∀ x ∈ vs ++ ws, a.Runs env c (before ++ [.append f t x, .call .result])) :
    let alike := vs.length % 256 ^ f.sizeType.n = ws.length % 256 ^ f.sizeType.n ∧
      (vs.map (a.impl.elementNumber env c before f t)).sum = (ws.map (a.impl.elementNumber env c before f t)).sum
    (∃ calls calls', a.impl.callsMade env c before f (.unord t) vs = .ok calls ∧ a.impl.callsMade env c before f (.unord t) ws = .ok calls' ∧
      (bytesPassed calls = bytesPassed calls' ↔ alike)) ∧
    (alike → ∃ rs, a.impl.execStmts env c (before ++ [.append f (.unord t) vs] ++ after) = .ok rs ∧
      a.impl.execStmts env c (before ++ [.append f (.unord t) ws] ++ after) = .ok rs) := by
  intro alike
  have hv := unordered_message (vs := vs) fun x hx => he x (List.mem_append_left _ hx)
  have hw := unordered_message (vs := ws) fun x hx => he x (List.mem_append_right _ hx)
  have key : a.impl.messageOf env c (a.impl.expand env c [] before) f (.unord t) vs =
      a.impl.messageOf env c (a.impl.expand env c [] before) f (.unord t) ws ↔ alike := by
    rw [hv, hw]
    constructor
    · intro e
      obtain ⟨e1, e2⟩ := List.append_inj e (by rw [word_length, word_length])
      refine ⟨?_, BitVec.eq_of_toNat_eq (word_inj _ (BitVec.isLt _) (BitVec.isLt _) e1)⟩
      have hp : 0 < 256 ^ f.sizeType.n := Nat.pow_pos (by decide)
      rw [← word_mod_congr (Nat.mod_mod vs.length _), ← word_mod_congr (Nat.mod_mod ws.length _)] at e2
      exact word_inj _ (Nat.mod_lt _ hp) (Nat.mod_lt _ hp) e2
    · rintro ⟨e1, e2⟩
      rw [e2, word_mod_congr e1]
  refine ⟨?_, fun e => same_message_same_results h h' (key.2 e)⟩
  obtain ⟨calls, h1, h2⟩ := AlgName.calls_ok (runs_prefix h)
  obtain ⟨calls', h1', h2'⟩ := AlgName.calls_ok (runs_prefix h')
  refine ⟨calls, calls', h1, h1', ?_⟩
  rw [h2.bytes, h2'.bytes]
  exact key

/-- **C73.** An element that both containers have may be left out of both: they are fed alike with it exactly if they are without it. -/
theorem unordered_common_element (a : AlgName) (env : Env) (c : Ctor) (before : List Stmt) (f : Flavor) (t : Ty) (x : t.Val) (vs ws : List t.Val)
    (hl : vs.length = ws.length)
    (h : a.Runs env c (before ++ [.append f (.unord t) (x :: vs)])) (h' : a.Runs env c (before ++ [.append f (.unord t) (x :: ws)]))
    (he : ∀ y ∈ x :: (vs ++ ws), a.Runs env c (before ++ [.append f t y, .call .result])) :
    ∃ p p' q q', a.impl.callsMade env c before f (.unord t) vs = .ok p ∧ a.impl.callsMade env c before f (.unord t) ws = .ok p' ∧
      a.impl.callsMade env c before f (.unord t) (x :: vs) = .ok q ∧ a.impl.callsMade env c before f (.unord t) (x :: ws) = .ok q' ∧
      (bytesPassed q = bytesPassed q' ↔ bytesPassed p = bytesPassed p') := by
  have sub : ∀ us : List t.Val, a.Runs env c (before ++ [.append f (.unord t) (x :: us)]) → a.Runs env c (before ++ [.append f (.unord t) us]) := by
    intro us h
    refine h.replace ?_ ?_ ?_
    · obtain ⟨h1, h2, h3⟩ := h.valid (.append f (.unord t) (x :: us)) (by simp)
      simp only [Spec.Valid] at h2
      refine ⟨h1, ?_, h3⟩
      simp only [Spec.Valid]
      exact fun v hv => h2 v (List.mem_cons_of_mem _ hv)
    · refine Or.imp id fun hn => ?_
      simp only [NoEmpty] at hn ⊢
      exact fun v hv => hn v (List.mem_cons_of_mem _ hv)
    · simp only [weight, List.map_cons, List.sum_cons]
      omega
  have app : ∀ us : List t.Val, a.Runs env c (before ++ [.append f (.unord t) us]) → a.Runs env c (before ++ [.append f (.unord t) us] ++ []) := by
    intro us h; rwa [List.append_nil]
  obtain ⟨⟨q, q', h1, h2, h3⟩, -⟩ := unordered_collisions_exact a env c before [] f t _ _ (app _ h) (app _ h') (fun y hy => he y (by simp at hy ⊢; tauto))
  obtain ⟨⟨p, p', g1, g2, g3⟩, -⟩ := unordered_collisions_exact a env c before [] f t _ _ (app _ (sub _ h)) (app _ (sub _ h'))
    (fun y hy => he y (List.mem_cons_of_mem _ hy))
  refine ⟨p, p', q, q', g1, g2, h1, h2, ?_⟩
  rw [h3, g3]
  simp only [List.map_cons, List.sum_cons, List.length_cons, hl, true_and]
  constructor
  · exact fun e => BitVec.add_right_inj _ |>.1 e
  · exact fun e => by rw [e]

/-- **C73.** Collisions cannot be avoided, whatever the algorithm: there are two different sets of twelve bytes (std::unordered_set<unsigned char>) which
nothing tells apart: with either, every program returns the same results. This holds of sha2_512 and of hmac under any key, too: the 64 bits of the
sum are all that is hashed. -/
theorem unordered_sets_collide (a : AlgName) (env : Env) (c : Ctor) (before after : List Stmt) (f : Flavor)
    (h : ∀ vs : List Byte, vs.length = 12 → a.Runs env c (before ++ [.append f (.unord (.int .uchar)) vs] ++ after)) :
    ∃ vs ws : List Byte, vs.Nodup ∧ ws.Nodup ∧ vs.length = 12 ∧ ws.length = 12 ∧ ¬ vs.Perm ws ∧
      ∃ rs, a.impl.execStmts env c (before ++ [.append f (.unord (.int .uchar)) vs] ++ after) = .ok rs ∧
        a.impl.execStmts env c (before ++ [.append f (.unord (.int .uchar)) ws] ++ after) = .ok rs := by
  obtain ⟨vs, ws, h1, h2, h3, h4, h5, h6⟩ := subsets_pigeon 12 (2 ^ 64) choose_256_12
    (fun vs => (vs.map fun x => (a.impl.number env c (a.impl.expand env c [] before)
      ([] ++ message (layout env f) (a.impl.number env c (a.impl.expand env c [] before)) (.int .uchar) x [])).toNat).sum % 2 ^ 64)
    (fun vs _ => Nat.mod_lt _ (by decide))
  refine ⟨vs, ws, h1, h2, h3, h4, h5, same_message_same_results (h vs h3) (h ws h4) ?_⟩
  exact congrArg₂ (· ++ ·) (word_mod_congr h6) (congrArg ((layout env f).word f.sizeType.n) (h3.trans h4.symm))

/-- **C73.** With an algorithm of 32 bits, two different sets of six bytes do: a result of 32 bits makes a number that is a multiple of a constant, so
that the sum does not fill 64 bits. -/
theorem unordered_sets_collide_32 (a : AlgName) (ha : a = .siphash_32 ∨ a = .xxhash_32 ∨ a = .fnv1a_32 ∨ a = .murmur3_32) (env : Env) (c : Ctor)
    (before after : List Stmt) (f : Flavor)
    (h : ∀ vs : List Byte, vs.length = 6 → a.Runs env c (before ++ [.append f (.unord (.int .uchar)) vs] ++ after)) :
    ∃ vs ws : List Byte, vs.Nodup ∧ ws.Nodup ∧ vs.length = 6 ∧ ws.length = 6 ∧ ¬ vs.Perm ws ∧
      ∃ rs, a.impl.execStmts env c (before ++ [.append f (.unord (.int .uchar)) vs] ++ after) = .ok rs ∧
        a.impl.execStmts env c (before ++ [.append f (.unord (.int .uchar)) ws] ++ after) = .ok rs := by
  obtain ⟨g, hg, hnum⟩ := number_32 a ha env c (a.impl.expand env c [] before)
  let m := fun x : Byte => ([] : List Byte) ++ message (layout env f) (a.impl.number env c (a.impl.expand env c [] before)) (.int .uchar) x []
  obtain ⟨vs, ws, h1, h2, h3, h4, h5, h6⟩ := subsets_pigeon 6 (6 * 2 ^ 32 + 1) choose_256_6
    (fun vs => (vs.map fun x => g (m x)).sum) (sum_lt (k := 6) (M := 2 ^ 32) (fun x => g (m x)) fun b => hg _)
  refine ⟨vs, ws, h1, h2, h3, h4, h5, same_message_same_results (h vs h3) (h ws h4) ?_⟩
  have e : (vs.map fun x => (a.impl.number env c (a.impl.expand env c [] before) (m x)).toNat).sum % 2 ^ 64 =
      (ws.map fun x => (a.impl.number env c (a.impl.expand env c [] before) (m x)).toNat).sum % 2 ^ 64 := by
    generalize 0x7FFFFFFF7FFFFFFF = K at hnum
    simp only [hnum]
    have r : ∀ vs : List Byte, (vs.map fun x => (BitVec.ofNat 64 (g (m x) * K)).toNat).sum % 2 ^ 64 = (vs.map fun x => g (m x)).sum * K % 2 ^ 64 := by
      intro vs
      have := sum_multiples K (vs.map fun x => g (m x))
      rw [List.map_map] at this
      exact this
    rw [r vs, r ws, h6]
  exact congrArg₂ (· ++ ·) (word_mod_congr e) (congrArg ((layout env f).word f.sizeType.n) (h3.trans h4.symm))

/-- a std::unordered_set<unsigned char>, and result(): for every algorithm, on every platform that does not round downward -/
theorem byteSet_runs (a : AlgName) (env : Env) (hr : env.fp.roundDown = false) (f : Flavor) (vs : List Byte) (hl : vs.length ≤ 12) :
    a.Runs env .default ([] ++ [.append f (.unord (.int .uchar)) vs] ++ [.call .result]) := by
  refine ⟨trivial, ?_, .inr ?_, hr, ?_⟩
  · intro p hp
    simp only [List.nil_append, List.cons_append, List.mem_cons, List.not_mem_nil, or_false] at hp
    rcases hp with rfl | rfl
    · exact ⟨by simp [wellFormed], by simp [Spec.Valid], fun _ => by simp [pointerFree]⟩
    · rfl
  · intro p hp
    simp only [List.nil_append, List.cons_append, List.mem_cons, List.not_mem_nil, or_false] at hp
    rcases hp with rfl | rfl
    · exact .inr (by simp [NoEmpty])
    · intro n hn; cases hn
  · cases a with
    | spooky2_128 =>
      have : progCost ([] ++ [.append f (.unord (.int .uchar)) vs] ++ [.call .result]) ≤ 400 := by
        have hw : ∀ us : List (Ty.int .uchar).Val, (us.map (weight (.int .uchar))).sum = 8 * us.length := by
          intro us
          induction us with
          | nil => rfl
          | cons u us ih =>
            rw [List.map_cons, List.sum_cons, List.length_cons, Nat.mul_add]
            have : weight (.int .uchar) u = 8 := by simp [weight]
            omega
        have := hw vs
        have e : weight (.unord (.int .uchar)) vs = 8 * vs.length + 16 := by
          show (List.map (weight (.int .uchar)) vs).sum + 16 = _
          exact congrArg (· + 16) this
        simp only [progCost, Stmt.cost, List.nil_append, List.cons_append, List.map_cons, List.map_nil, List.sum_cons, List.sum_nil]
        rw [e]
        omega
      show 0 + progCost _ < 2 ^ env.sizeBits
      rcases sizeBits_cases env with h | h <;> rw [h] <;> omega
    | _ => trivial

/-- sha2_512: two sets of twelve bytes with the same digest -/
example : ∃ vs ws : List Byte, vs.Nodup ∧ ws.Nodup ∧ vs.length = 12 ∧ ws.length = 12 ∧ ¬ vs.Perm ws ∧ ∃ rs,
    (AlgName.digest .sha2_512).impl.execStmts le64 .default ([] ++ [.append default_flavor (.unord (.int .uchar)) vs] ++ [.call .result]) = .ok rs ∧
    (AlgName.digest .sha2_512).impl.execStmts le64 .default ([] ++ [.append default_flavor (.unord (.int .uchar)) ws] ++ [.call .result]) = .ok rs :=
  unordered_sets_collide _ _ _ _ _ _ fun vs h => byteSet_runs _ _ rfl _ vs (Nat.le_of_eq h)

/-- fnv1a_32: of six -/
example : ∃ vs ws : List Byte, vs.Nodup ∧ ws.Nodup ∧ vs.length = 6 ∧ ws.length = 6 ∧ ¬ vs.Perm ws ∧ ∃ rs,
    AlgName.fnv1a_32.impl.execStmts be32 .default ([] ++ [.append big_endian_flavor (.unord (.int .uchar)) vs] ++ [.call .result]) = .ok rs ∧
    AlgName.fnv1a_32.impl.execStmts be32 .default ([] ++ [.append big_endian_flavor (.unord (.int .uchar)) ws] ++ [.call .result]) = .ok rs :=
  unordered_sets_collide_32 _ (.inr (.inr (.inl rfl))) _ _ _ _ _ fun vs h => byteSet_runs _ _ rfl _ vs (by omega)

/-- the hypotheses of the first theorems hold of the map { { 1, "ab" }, { 2, "" } } after other calls, with MD5 -/
example : ∃ calls, (AlgName.digest .md5_128).impl.callsMade le64 .default [.call (.update (.mem abc) 3), .call .result] default_flavor dict aDict = .ok calls ∧
    bytesPassed calls = (layout le64 default_flavor).word 8
        ((aDict.map ((AlgName.digest .md5_128).impl.elementNumber le64 .default [.call (.update (.mem abc) 3), .call .result] default_flavor _)).sum).toNat ++
      [2, 0, 0, 0, 0, 0, 0, 0] := by
  refine unordered_feeds_sum (.digest .md5_128) le64 .default [.call (.update (.mem abc) 3), .call .result] default_flavor _ aDict ?_ ?_
  · exact ⟨trivial, by simp [Stmt.Valid, wellFormed, wellFormedAll, Spec.Valid, ValidAll, pointerFree, pointerFreeAll, Op.toks, abc], .inl (.inl rfl), rfl, trivial⟩
  · exact fun x _ => ⟨trivial, by simp [Stmt.Valid, wellFormed, wellFormedAll, Spec.Valid, ValidAll, pointerFree, pointerFreeAll, Op.toks, abc], .inl (.inl rfl), rfl, trivial⟩

end Hash2

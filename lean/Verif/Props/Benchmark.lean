import Verif.Model.Benchmark
import Verif.Props.Examples
import Verif.Props.Closed
/-
C74: ranges without their sizes: hash_append_range on its own, and the hash function objects of /repo/benchmark, which use it.
-/
namespace Hash2
open Spec

theorem message_range_concat {L : Layout} (H : List Byte → W64) (k : RangeKind) (t : Ty) (vs : List t.Val) (p : List Byte) :
    message L H (.range k t) vs p = concat (message L H t) vs p := by simp only [message]

/-- reading a range backwards, with nothing but the elements: the bytes before and the elements that are fewer come out wrong -/
theorem concat_tells_apart {α : Type} {m : α → List Byte → List Byte} {R : α → α → Prop} {P : α → Prop} (hn : ∀ a, P a → ∀ p, m a p ≠ [])
    (hd : ∀ a b, P a → P b → ∀ p q, p ++ m a p = q ++ m b q → p = q ∧ R a b) :
    ∀ (as bs : List α), (∀ a ∈ as, P a) → (∀ b ∈ bs, P b) → ∀ p, p ++ concat m as p = p ++ concat m bs p → List.Forall₂ R as bs := by
  intro as
  induction as using List.reverseRecOn with
  | nil =>
    intro bs _ hb p e
    cases bs with
    | nil => exact .nil
    | cons b bs =>
      exfalso
      have h := concat_ne_nil (m := m) (vs := b :: bs) (fun v hv p => hn v (hb v hv) p) (List.cons_ne_nil _ _) p
      exact h (List.append_cancel_left e).symm
  | append_singleton as a ih =>
    intro bs ha hb p e
    rcases List.eq_nil_or_concat bs with rfl | ⟨bs, b, rfl⟩
    · exfalso
      have h := concat_ne_nil (m := m) (vs := as ++ [a]) (fun v hv p => hn v (ha v hv) p) (by simp) p
      exact h (List.append_cancel_left e)
    · rw [List.concat_eq_append] at e hb ⊢
      rw [concat_append, concat_append] at e
      simp only [concat, List.append_nil] at e
      rw [← List.append_assoc, ← List.append_assoc] at e
      obtain ⟨e', r⟩ := hd a b (ha a (by simp)) (hb b (by simp)) _ _ e
      exact List.rel_append (ih bs (fun x hx => ha x (by simp [hx])) (fun x hx => hb x (by simp [hx])) p e') (.cons r .nil)

/-- **C74.** hash_append_range, although it does not append the size: after the same bytes, two ranges, of any kinds, feed the same only if they are
of the same length and their elements alike, one by one. (Nothing may be fed after them: `undelimited_ranges_confused`.) -/
theorem range_tells_apart (num : List Byte → W64) (env : Env) (f : Flavor) (hr : env.fp.roundDown = false) (t : Ty) (k k' : RangeKind)
    (xs ys : List t.Val) (hd : delimited t = true) (hc : contributing t = true) (h : (Stmt.append f (.range k t) xs).Valid env)
    (h' : (Stmt.append f (.range k' t) ys).Valid env) (hs : ∀ x ∈ xs, SizesFit f.sizeType.n t x) (hs' : ∀ y ∈ ys, SizesFit f.sizeType.n t y)
    (s : List Byte) (e : hashAppend (recorder num) env f (.range k t) xs s = hashAppend (recorder num) env f (.range k' t) ys s) :
    List.Forall₂ (Alike t) xs ys := by
  have e := ((record num env f hr (.range k t) xs h s).symm.trans e).trans (record num env f hr (.range k' t) ys h' s)
  rw [message_range_concat, message_range_concat] at e
  have hw : wellFormed t = true := by simpa only [wellFormed] using h.1
  have hv : ∀ x ∈ xs, Spec.Valid (8 * (layout env f).ptrBytes) t x := by have := h.2.1; simp only [Spec.Valid] at this; exact this
  have hv' : ∀ x ∈ ys, Spec.Valid (8 * (layout env f).ptrBytes) t x := by have := h'.2.1; simp only [Spec.Valid] at this; exact this
  exact concat_tells_apart (P := fun x => Spec.Valid (8 * (layout env f).ptrBytes) t x ∧ SizesFit f.sizeType.n t x)
    (fun a ha p => message_ne_nil (L := layout env f) _ f.sizeType.n_pos env.ptrSz.n_pos t a p _ hc hw ha.1)
    (fun a b ha hb p q e => message_decode (L := layout env f) num t a b hd ha.1 hb.1 ha.2 hb.2 p q e)
    xs ys (fun x hx => ⟨hv x hx, hs x hx⟩) (fun y hy => ⟨hv' y hy, hs' y hy⟩) s (Except.ok.inj e)

/-- **C74.** So different keys - sequences that are not equal, without NaNs and unordered containers in them - feed different bytes. -/
theorem different_ranges_differ (num : List Byte → W64) (env : Env) (f : Flavor) (hr : env.fp.roundDown = false) (t : Ty) (k k' : RangeKind)
    (xs ys : List t.Val) (hd : delimited t = true) (hc : contributing t = true) (ho : ordered t = true) (hn : ∀ x ∈ xs, NoNaN t x)
    (h : (Stmt.append f (.range k t) xs).Valid env)
    (h' : (Stmt.append f (.range k' t) ys).Valid env) (hs : ∀ x ∈ xs, SizesFit f.sizeType.n t x) (hs' : ∀ y ∈ ys, SizesFit f.sizeType.n t y)
    (hne : ¬ List.Forall₂ (Equal t) xs ys) (s : List Byte) :
    hashAppend (recorder num) env f (.range k t) xs s ≠ hashAppend (recorder num) env f (.range k' t) ys s := fun e => by
  refine hne ?_
  have := range_tells_apart num env f hr t k k' xs ys hd hc h h' hs hs' s e
  clear e hne h h' hs hs'
  induction this with
  | nil => exact .nil
  | cons r _ ih => exact .cons (alike_equal t _ _ ho (hn _ (by simp)) r) (ih fun x hx => hn x (by simp [hx]))

/-- **C74.** The function objects of the benchmarks, for keys that are contiguous ranges (std::string, std::vector; std::array): they can be called any
number of times. The value for a key is the integral result of the hash of the messages of its elements, without the size, with the seed of the
function object; it depends neither on the earlier calls, nor on whether the seeded hash object is kept or made anew, nor on which of the container
types it is; equal keys have equal values. -/
theorem benchmark_function_object (a : AlgName) (env : Env) (c : Ctor) (u : Ty) :
    ∃ H : List u.Val → BitVec (8 * env.ptrSz.n),
      (∀ v, Hasher.Key a env c (.range .pointers u) v →
        ∃ r, a.impl.exec env c [.update (.mem (a.impl.messageOf env c [] default_flavor (.range .pointers u) v))
              (a.impl.messageOf env c [] default_flavor (.range .pointers u) v).length, .result]
            = .ok [r] ∧ a.integralAs env env.ptrSz.n r = .ok (H v)) ∧
      (∀ v v', Hasher.Key a env c (.range .pointers u) v → Hasher.Key a env c (.range .pointers u) v' → List.Forall₂ (Equal u) v v' → H v = H v') ∧
      ∀ (vs : List (List u.Val)) (n : Nat), c.Valid → a.RoomFor env c 0 → (∀ v ∈ vs, Hasher.Key a env c (.range .pointers u) v) →
        (Bench.use a env c (.seq .contiguous u) vs = .ok (vs.map H) ∧ Bench.useFresh a env c (.seq .contiguous u) vs = .ok (vs.map H)) ∧
        (Bench.use a env c (.arr .contiguous n u) vs = .ok (vs.map H) ∧ Bench.useFresh a env c (.arr .contiguous n u) vs = .ok (vs.map H)) := by
  obtain ⟨H, h1, h2, h3⟩ := hash_function_object a env c (.range .pointers u)
  refine ⟨H, h1, fun v v' h h' e => h2 v v' h h' (by simp only [Equal]; exact e), fun vs n hc hr hk => ?_⟩
  have := h3 vs hc hr hk
  exact ⟨this, this⟩

/-- **C74.** String keys: the value is the integral result of the hash of exactly the characters. -/
theorem benchmark_string (a : AlgName) (env : Env) (c : Ctor) :
    ∃ H : List Byte → BitVec (8 * env.ptrSz.n),
      (∀ s, Hasher.Key a env c (.range .pointers (.int (.int .s1))) s →
        ∃ r, a.impl.exec env c [.update (.mem s) s.length, .result] = .ok [r] ∧ a.integralAs env env.ptrSz.n r = .ok (H s)) ∧
      ∀ ss : List (List Byte), c.Valid → a.RoomFor env c 0 → (∀ s ∈ ss, Hasher.Key a env c (.range .pointers (.int (.int .s1))) s) →
        Bench.use a env c (.seq .contiguous (.int (.int .s1))) ss = .ok (ss.map H) ∧
        Bench.useFresh a env c (.seq .contiguous (.int (.int .s1))) ss = .ok (ss.map H) := by
  obtain ⟨H, h1, _, h3⟩ := benchmark_function_object a env c (.int (.int .s1))
  refine ⟨H, fun s hs => ?_, fun ss hc hr hk => (h3 ss 0 hc hr hk).1⟩
  obtain ⟨r, e1, e2⟩ := h1 s hs
  have hm : a.impl.messageOf env c [] default_flavor (.range .pointers (.int (.int .s1))) s = s :=
    (bytes_range env default_flavor .pointers s (a.impl.number env c [])).2.1
  rw [hm] at e1
  exact ⟨r, e1, e2⟩

/-- **C74.** All other keys: what the function objects of the examples (C44) return. -/
theorem benchmark_other_keys (a : AlgName) (env : Env) (c : Ctor) (t : Ty) (h1 : ∀ u, t ≠ .seq .contiguous u) (h2 : ∀ n u, t ≠ .arr .contiguous n u)
    (vs : List t.Val) : Bench.use a env c t vs = Hasher.use a env c t vs ∧ Bench.useFresh a env c t vs = Hasher.useFresh a env c t vs := by
  have e : ∀ h_, Bench.call a env h_ t = Hasher.call a env h_ t := fun h_ => by
    funext v
    unfold Bench.call Hasher.call
    have : Bench.appendImpl a env t v h_ = hashAppend a.impl env default_flavor t v h_ := by
      unfold Bench.appendImpl
      split
      · exact absurd rfl (h1 _)
      · exact absurd rfl (h2 _ _)
      · rfl
    rw [this]
  simp only [Bench.use, Hasher.use, Bench.useFresh, Hasher.useFresh, e, and_self]

/-- a vector of strings -/
def strings : Ty := .seq .contiguous (.int (.int .s1))

-- { "a", "" } and { "a" }, as a vector and as a list: hash_append_range feeds different bytes
example (s : List Byte) :
    hashAppend (recorder fun _ => 0) le64 default_flavor (.range .contiguous strings) [[0x61#8], []] s ≠
    hashAppend (recorder fun _ => 0) le64 default_flavor (.range .forward strings) [[0x61#8]] s := by
  have hv : ∀ k (v : List strings.Val), (Stmt.append default_flavor (.range k strings) v).Valid le64 := fun k v =>
    ⟨by simp [strings, wellFormed], by simp [strings, Spec.Valid], by simp [le64]⟩
  refine different_ranges_differ _ _ _ rfl strings _ _ _ _ (by simp [strings, delimited]) (by simp [strings, contributing]) (by simp [strings, ordered])
    (by simp [strings, NoNaN]) (hv _ _) (hv _ _) ?_ ?_ ?_ s
  · have h1 : SizesFit default_flavor.sizeType.n strings [0x61#8] := by simp only [strings, SizesFit]; exact ⟨by decide, fun _ _ => trivial⟩
    have h2 : SizesFit default_flavor.sizeType.n strings [] := by simp only [strings, SizesFit]; exact ⟨by decide, fun _ _ => trivial⟩
    intro x hx
    rcases List.mem_cons.mp hx with rfl | hx
    · exact h1
    · rw [List.mem_singleton.mp hx]; exact h2
  · have h1 : SizesFit default_flavor.sizeType.n strings [0x61#8] := by simp only [strings, SizesFit]; exact ⟨by decide, fun _ _ => trivial⟩
    intro x hx
    rw [List.mem_singleton.mp hx]; exact h1
  · rintro (_ | ⟨_, h⟩)
    cases h

-- std::string keys, siphash_64 with a byte seed of 16 bytes, and the empty string
example (s : List Byte) : Hasher.Key .siphash_64 le64 (.bytes (.mem (List.replicate 16 1)) 16) (.range .pointers (.int (.int .s1))) s where
  ctor := by simp [Ctor.Valid, Ptr.Readable]
  valid p hp := by
    simp only [List.mem_cons, List.not_mem_nil, or_false] at hp
    rcases hp with rfl | rfl
    · exact ⟨by simp [wellFormed], by simp [Spec.Valid], fun _ => by simp [pointerFree]⟩
    · rfl
  null := .inl trivial
  round := rfl
  room := trivial

end Hash2

import Verif.Props.Permute
import Verif.Props.Integral
/-
C70, with get_integral_result: integer keys over the values of a narrower type.
-/
namespace Hash2

/-- if each r is the one result of exactly one x, then as many x as r have a result with a property -/
theorem unique_card {w : Nat} {E : BitVec w → M (List (BitVec w))} (h : ∀ r, ∃! x, E x = .ok [r]) (P : BitVec w → Prop) :
    Nat.card {x : BitVec w // ∃ r, E x = .ok [r] ∧ P r} = Nat.card {r : BitVec w // P r} := by
  choose g hg hu using h
  refine (Nat.card_congr (Equiv.ofBijective (fun r : {r : BitVec w // P r} => (⟨g r.1, r.1, hg r.1, r.2⟩ : {x : BitVec w // ∃ r, E x = .ok [r] ∧ P r}))
    ⟨fun r r' e => ?_, fun x => ?_⟩)).symm
  · have e : g r.1 = g r'.1 := congrArg Subtype.val e
    have h1 := hg r.1
    rw [e, hg r'.1] at h1
    injection h1 with h1
    injection h1 with h1
    exact Subtype.ext h1.symm
  · obtain ⟨x, r, hx, hp⟩ := x
    exact ⟨⟨r, hp⟩, Subtype.ext (hu r x hx).symm⟩

/-- **C70, narrowed.** The hash values of all the integers, converted by get_integral_result to a narrower type T (std::size_t of 32 bits, or less):
each value of T is that of equally many integers. -/
theorem integers_narrowed_evenly (env : Env) (c : Ctor) (hc : c.Valid) (f : Flavor) (hf : env.fp.roundDown = false) (ts : Sz) :
    (ts.n < 8 → ∀ y : BitVec (8 * ts.n),
      Nat.card {x : BitVec 64 // ∃ r : BitVec 64, AlgName.xxhash_64.impl.execStmts env c [.append f (.int (.int .s8)) x, .call .result] = .ok [r] ∧
        Integral.get 8 ts.n r = .ok y} = 2 ^ (64 - 8 * ts.n)) ∧
    (ts.n < 4 → ∀ y : BitVec (8 * ts.n),
      Nat.card {x : BitVec 32 // ∃ r : BitVec 32, AlgName.xxhash_32.impl.execStmts env c [.append f (.int (.int .s4)) x, .call .result] = .ok [r] ∧
        Integral.get 4 ts.n r = .ok y} = 2 ^ (32 - 8 * ts.n) ∧
      Nat.card {x : BitVec 32 // ∃ r : BitVec 32, AlgName.murmur3_32.impl.execStmts env c [.append f (.int (.int .s4)) x, .call .result] = .ok [r] ∧
        Integral.get 4 ts.n r = .ok y} = 2 ^ (32 - 8 * ts.n)) := by
  have n8 : ts.n < 8 → ∀ y, Nat.card { r : BitVec 64 // Integral.get 8 ts.n r = .ok y } = 2 ^ (64 - 8 * ts.n) := fun h y =>
    ((integral_result_balanced_partial .s8 ts h (by decide)).2 y).trans (congrArg (2 ^ ·) (Nat.mul_sub 8 8 ts.n))
  have n4 : ts.n < 4 → ∀ y, Nat.card { r : BitVec 32 // Integral.get 4 ts.n r = .ok y } = 2 ^ (32 - 8 * ts.n) := fun h y =>
    ((integral_result_balanced_partial .s4 ts h (by decide)).2 y).trans (congrArg (2 ^ ·) (Nat.mul_sub 8 4 ts.n))
  exact ⟨fun h y => (unique_card (xxhash_64_integers_onto env c hc f hf) _).trans (n8 h y), fun h y =>
    ⟨(unique_card (xxhash_32_integers_onto env c hc f hf) _).trans (n4 h y), (unique_card (murmur3_32_integers_onto env c hc f hf) _).trans (n4 h y)⟩⟩

-- std::uint64_t keys on a platform with 32 bit size_t: each hash value is that of 2^32 keys
example (y : BitVec 32) : Nat.card {x : BitVec 64 // ∃ r : BitVec 64, AlgName.xxhash_64.impl.execStmts be32 (.seed 5)
    [.append default_flavor (.int (.int .s8)) x, .call .result] = .ok [r] ∧ Integral.get 8 4 r = .ok y} = 2 ^ 32 :=
  (integers_narrowed_evenly be32 (.seed 5) trivial default_flavor rfl .s4).1 (by decide) y

end Hash2

import Verif.Lemmas.States
import Verif.Props.Pigeon
/-
C52: exactly what a digest object remembers; C19, C20 for the digests, exactly.
-/
namespace Hash2
open Spec

/-- **C52.** What one of the ten Merkle-Damgard objects remembers of its seed and all calls is exactly: the chaining value, the
incomplete block, and the number of bytes modulo 2^64, of the bytes processed (seed and paddings included, `Md.log`). Two objects,
made and used in any two ways, are in the same state - every member the same - if and only if they agree in these three. -/
theorem digest_states_exact (d : DigestName) (σ : Type) (D : Md σ) (hd : d.md = some ⟨σ, D⟩) (env : Env) (c c' : Ctor) (hc : c.Valid)
    (hc' : c'.Valid) (ops ops' : List Op) (ts ts' : List Tok) (h : stream ops = some ts) (h' : stream ops' = some ts')
    (hn : d.isSha2 = false ∨ env.loops = true ∨ NoNull ops ∧ NoNull ops') :
    ∃ s s', d.impl.toHash.reach env c ops = .ok s ∧ d.impl.toHash.reach env c' ops' = .ok s' ∧
      (s = s' ↔ D.chain (D.log (c.history ++ ts)) = D.chain (D.log (c'.history ++ ts')) ∧
        rest D.N (D.log (c.history ++ ts)) = rest D.N (D.log (c'.history ++ ts')) ∧
        (D.log (c.history ++ ts)).length % 2 ^ 64 = (D.log (c'.history ++ ts')).length % 2 ^ 64) := by
  have n1 : (AlgName.digest d).NullOk env ∨ NoNull ops := by
    rcases hn with h | h | h
    exacts [.inl (.inl h), .inl (.inr h), .inr h.1]
  have n2 : (AlgName.digest d).NullOk env ∨ NoNull ops' := by
    rcases hn with h | h | h
    exacts [.inl (.inl h), .inl (.inr h), .inr h.2]
  obtain ⟨s, e, r⟩ := AlgName.reach_ok (a := .digest d) hc h n1 trivial
  obtain ⟨s', e', r'⟩ := AlgName.reach_ok (a := .digest d) hc' h' n2 trivial
  exact ⟨s, s', e, e', DigestName.reached_eq hd r r'⟩

/-- **C19, C20, exactly, for the ten digests.** Two constructor calls make different objects if and only if the chaining values after
the keys and their paddings differ, or the lengths of the padded keys differ (modulo 2^64). An integer is the key of its 8 bytes,
or, if 0, the empty key. -/
theorem digest_seeds_exact (d : DigestName) (σ : Type) (D : Md σ) (hd : d.md = some ⟨σ, D⟩) (env : Env) (c c' : Ctor) (hc : c.Valid)
    (hc' : c'.Valid) : let padded := fun k : List Byte => if k = [] then [] else k ++ D.pad k.length
    d.impl.toHash.EndDifferent env c c' [] ↔
      D.chain (padded c.key) ≠ D.chain (padded c'.key) ∨ (padded c.key).length % 2 ^ 64 ≠ (padded c'.key).length % 2 ^ 64 := by
  intro padded
  obtain ⟨s, s', e, e', q⟩ := digest_states_exact d σ D hd env c c' hc hc' [] [] [] [] rfl rfl (.inr (.inr ⟨by intro n; simp, by intro n; simp⟩))
  have hlog : ∀ c : Ctor, D.log (c.history ++ []) = padded c.key := by
    intro c
    refine (D.start_log c []).symm.trans ?_
    cases c with
    | default => rfl
    | seed k =>
      show (if k = 0 then [] else natLE 8 k.toNat ++ D.pad 8 : List Byte) = padded (if k = 0 then [] else natLE 8 k.toNat)
      by_cases h : k = 0
      · simp [padded, h]
      · simp only [if_neg h, padded, natLE_length]
        rw [if_neg]
        intro e; have := congrArg List.length e; simp at this
    | bytes p n => rfl
  obtain ⟨hN, hp⟩ := DigestName.regular hd
  have hr : ∀ k, rest D.N (padded k) = [] := by
    intro k
    apply List.eq_nil_of_length_eq_zero
    rw [rest_length]
    by_cases h : k = []
    · simp [padded, h]
    · simp only [padded, if_neg h, List.length_append, hp]
  rw [hlog, hlog, hr, hr] at q
  simp only [true_and] at q
  constructor
  · rintro ⟨t, t', f, f', hne⟩
    rw [e] at f; rw [e'] at f'
    cases f; cases f'
    rw [Ne, q] at hne
    by_cases h1 : D.chain (padded c.key) = D.chain (padded c'.key)
    · exact .inr fun h2 => hne ⟨h1, h2⟩
    · exact .inl h1
  · rintro h
    refine ⟨s, s', e, e', ?_⟩
    rw [Ne, q]
    rintro ⟨h1, h2⟩
    rcases h with h | h
    · exact h h1
    · exact h h2

/-- **C19, C20.** For the ten digests: different digests of the keys, different objects. -/
theorem digest_seeds_distinct (d : DigestName) (σ : Type) (D : Md σ) (hd : d.md = some ⟨σ, D⟩) (env : Env) (c c' : Ctor) (hc : c.Valid)
    (hc' : c'.Valid) (hk : c.key ≠ []) (hk' : c'.key ≠ []) (h : D.hash c.key ≠ D.hash c'.key) :
    d.impl.toHash.EndDifferent env c c' [] := by
  refine (digest_seeds_exact d σ D hd env c c' hc hc').2 (.inl ?_)
  intro e
  simp only [if_neg hk, if_neg hk'] at e
  exact h (congrArg D.out e)

/-- the integer 5 and its 8 bytes make the same sha2_384 object; so they are in the same state after any histories that feed the
same bytes -/
example (env : Env) : ∃ s, DigestName.sha2_384.impl.toHash.reach env (.seed 5) [.update (.mem abc) 3, .result] = .ok s ∧
    DigestName.sha2_384.impl.toHash.reach env (.bytes (.mem [5, 0, 0, 0, 0, 0, 0, 0]) 8)
      [.update (.mem abc) 2, .update (.mem [0x63]) 1, .result] = .ok s := by
  obtain ⟨s, s', e, e', q⟩ := digest_states_exact .sha2_384 _ _ rfl env (.seed 5) (.bytes (.mem [5, 0, 0, 0, 0, 0, 0, 0]) 8) trivial
    (show 8 ≤ 8 from Nat.le_refl _) [.update (.mem abc) 3, .result] [.update (.mem abc) 2, .update (.mem [0x63]) 1, .result]
    [.data 0x61, .data 0x62, .data 0x63, .fin] [.data 0x61, .data 0x62, .data 0x63, .fin] rfl rfl
    (.inr (.inr ⟨by intro n; simp, by intro n; simp⟩))
  have : s = s' := q.2 (by
    have : (Ctor.seed 5).history = (Ctor.bytes (.mem [5, 0, 0, 0, 0, 0, 0, 0]) 8).history := by decide +kernel
    rw [this]; exact ⟨rfl, rfl, rfl⟩)
  subst this
  exact ⟨s, e, e'⟩

/-- the keys "abc" and 1 -/
example (env : Env) : DigestName.md5_128.impl.toHash.EndDifferent env (.bytes (.mem abc) 3) (.seed 1) [] :=
  digest_seeds_distinct .md5_128 _ _ rfl env _ _ (show 3 ≤ 3 from Nat.le_refl _) trivial (by decide) (by decide +kernel) (by decide +kernel)

/-- the empty key and a key of a block, for which the number of bytes suffices -/
example (env : Env) : DigestName.sha1_160.impl.toHash.EndDifferent env .default (.bytes (.mem (List.replicate 64 0)) 64) [] :=
  (digest_seeds_exact .sha1_160 _ _ rfl env .default (.bytes (.mem (List.replicate 64 0)) 64) trivial (show 64 ≤ 64 from Nat.le_refl _)).2 (.inr (by decide +kernel))

end Hash2

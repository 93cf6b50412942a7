import Mathlib.Combinatorics.Pigeonhole
import Mathlib.Data.Finset.Powerset
import Mathlib.Data.Nat.Choose.Basic
import Mathlib.Data.Nat.Choose.Factorization
import Verif.Spec.Unordered
import Verif.Lemmas.Exceptions
import Verif.Lemmas.Integral
/-
The message of an unordered container, and sets that collide.
-/
namespace Hash2
open Spec

section
variable {a : AlgName} {env : Env} {c : Ctor} {before after : List Stmt} {f : Flavor} {t : Ty}

/-- the number of an element is the number of its message -/
theorem element_number {x : t.Val} (h : a.Runs env c (before ++ [.append f t x, .call .result])) :
    a.impl.elementNumber env c before f t x =
      a.impl.number env c (a.impl.expand env c [] before) (a.impl.messageOf env c (a.impl.expand env c [] before) f t x) := by
  obtain ⟨rs, e1, e2⟩ := AlgName.runs_expand h
  rw [expand_append] at e2
  simp only [HashAlg.expand, List.nil_append] at e2
  unfold HashAlg.elementNumber HashAlg.number
  rw [e1, e2]
  rfl

/-- numbers alike modulo 256^k have the same k bytes -/
theorem word_mod_congr {L : Layout} {k v w : Nat} (h : v % 256 ^ k = w % 256 ^ k) : L.word k v = L.word k w := by
  unfold Layout.word
  split
  · rw [← natLE_mod k v, h, natLE_mod]
  · rw [← Sha1.natBE_mod k v, h, Sha1.natBE_mod]

/-- the sum of words -/
theorem sum_toNat_mod (l : List W64) : (l.map BitVec.toNat).sum % 2 ^ 64 = l.sum.toNat := by
  induction l with
  | nil => rfl
  | cons x l ih =>
    simp only [List.map_cons, List.sum_cons]
    rw [BitVec.toNat_add, ← ih, Nat.add_mod_mod]

/-- the message of an unordered container -/
theorem unordered_message {vs : List t.Val} (h : ∀ x ∈ vs, a.Runs env c (before ++ [.append f t x, .call .result])) :
    a.impl.messageOf env c (a.impl.expand env c [] before) f (.unord t) vs =
      (layout env f).word 8 ((vs.map (a.impl.elementNumber env c before f t)).sum).toNat ++ (layout env f).word f.sizeType.n vs.length := by
  show (layout env f).word 8 _ ++ _ = _
  congr 1
  refine word_mod_congr ?_
  rw [← sum_toNat_mod, List.map_map]
  show _ % 2 ^ 64 = _ % 2 ^ 64 % 2 ^ 64
  rw [Nat.mod_mod]
  congr 2
  refine List.map_congr_left fun x hx => ?_
  rw [Function.comp, element_number (h x hx)]
  rfl

/-- containers with the same message -/
theorem same_message_same_results {vs ws : List t.Val} (h : a.Runs env c (before ++ [.append f (.unord t) vs] ++ after))
    (h' : a.Runs env c (before ++ [.append f (.unord t) ws] ++ after))
    (e : a.impl.messageOf env c (a.impl.expand env c [] before) f (.unord t) vs =
      a.impl.messageOf env c (a.impl.expand env c [] before) f (.unord t) ws) :
    ∃ rs, a.impl.execStmts env c (before ++ [.append f (.unord t) vs] ++ after) = .ok rs ∧
      a.impl.execStmts env c (before ++ [.append f (.unord t) ws] ++ after) = .ok rs := by
  obtain ⟨rs, e1, e2⟩ := AlgName.runs_expand h
  obtain ⟨rs', e1', e2'⟩ := AlgName.runs_expand h'
  have : a.impl.expand env c [] (before ++ [.append f (.unord t) vs] ++ after) = a.impl.expand env c [] (before ++ [.append f (.unord t) ws] ++ after) := by
    simp only [List.append_assoc, expand_append, HashAlg.expand, List.cons_append, List.nil_append, e]
  rw [← this, e2] at e2'
  rw [← Except.ok.inj e2'] at e1'
  exact ⟨rs, e1, e1'⟩

/-- the beginning of a program that can be run can be run -/
theorem runs_prefix {xs ys : List Stmt} (h : a.Runs env c (xs ++ ys)) : a.Runs env c xs := by
  refine ⟨h.ctor, fun p hp => h.valid p (List.mem_append_left _ hp), h.null.imp id fun h p hp => h p (List.mem_append_left _ hp), h.round, ?_⟩
  have hr := h.room
  rw [progCost_append] at hr
  cases a with
  | spooky2_128 =>
    have hr : c.cost + (progCost xs + progCost ys) < 2 ^ env.sizeBits := hr
    show c.cost + progCost xs < _
    omega
  | _ => trivial
end

/-- more sets of k bytes than values -/
theorem subsets_pigeon (k N : Nat) (h : N < Nat.choose 256 k) (φ : List Byte → Nat) (hφ : ∀ vs, vs.length = k → φ vs < N) :
    ∃ vs ws : List Byte, vs.Nodup ∧ ws.Nodup ∧ vs.length = k ∧ ws.length = k ∧ ¬ vs.Perm ws ∧ φ vs = φ ws := by
  let L : Finset (Fin 256) → List Byte := fun s => s.toList.map fun i => BitVec.ofFin i
  have inj : Function.Injective (fun i : Fin 256 => (BitVec.ofFin i : Byte)) := fun i j h => by
    have := congrArg BitVec.toFin h
    exact this
  have len : ∀ s : Finset (Fin 256), (L s).length = s.card := fun s => by simp [L]
  obtain ⟨s, hs, s', hs', hne, e⟩ := Finset.exists_ne_map_eq_of_card_lt_of_maps_to
    (s := Finset.powersetCard k (Finset.univ : Finset (Fin 256))) (t := Finset.range N) (f := fun s => φ (L s))
    (by rw [Finset.card_range, Finset.card_powersetCard, Finset.card_univ, Fintype.card_fin]; exact h)
    (fun s hs => by
      have := (Finset.mem_powersetCard.1 hs).2
      exact Finset.mem_coe.2 (Finset.mem_range.2 (hφ _ ((len s).trans this))))
  refine ⟨L s, L s', (Finset.nodup_toList s).map inj, (Finset.nodup_toList s').map inj, (len s).trans (Finset.mem_powersetCard.1 hs).2,
    (len s').trans (Finset.mem_powersetCard.1 hs').2, fun hp => hne ?_, e⟩
  ext i
  rw [← Finset.mem_toList, ← Finset.mem_toList (s := s')]
  have := hp.mem_iff (a := (BitVec.ofFin i : Byte))
  simpa only [L, List.mem_map_of_injective inj] using this

/-- there are more than 2^64 sets of twelve bytes -/
theorem choose_256_12 : 2 ^ 64 < Nat.choose 256 12 := by
  rw [Nat.choose_eq_descFactorial_div_factorial]
  decide +kernel

/-- the number of a 32 bit result is a multiple of a constant -/
theorem number_32 (a : AlgName) (ha : a = .siphash_32 ∨ a = .xxhash_32 ∨ a = .fnv1a_32 ∨ a = .murmur3_32) (env : Env) (c : Ctor) (ops : List Op) :
    ∃ g : List Byte → Nat, (∀ bs, g bs < 2 ^ 32) ∧ ∀ bs, a.impl.number env c ops bs = BitVec.ofNat 64 (g bs * 0x7FFFFFFF7FFFFFFF) := by
  have key : ∀ (A : HashAlg) (r : A.R) (x : W64), A.integral env r = .ok x → A.numberOf env r = x := by
    intro A r x h; unfold HashAlg.numberOf; rw [h]
  have h4 : ∀ r : W32, Integral.get 4 8 r = .ok (BitVec.ofNat 64 (r.toNat * 0x7FFFFFFF7FFFFFFF)) := fun r =>
    Integral.get_wide .s4 .s8 (by decide) r
  have num : ∀ r : a.impl.R, ∃ g : Nat, g < 2 ^ 32 ∧ a.impl.numberOf env r = BitVec.ofNat 64 (g * 0x7FFFFFFF7FFFFFFF) := by
    intro r
    rcases ha with rfl | rfl | rfl | rfl
    · exact ⟨BitVec.toNat (w := 32) r, BitVec.isLt (w := 32) r, key _ r _ (h4 r)⟩
    · exact ⟨BitVec.toNat (w := 32) r, BitVec.isLt (w := 32) r, key _ r _ (h4 r)⟩
    · exact ⟨BitVec.toNat (w := 32) r, BitVec.isLt (w := 32) r, key _ r _ (h4 r)⟩
    · exact ⟨BitVec.toNat (w := 32) r, BitVec.isLt (w := 32) r, key _ r _ (h4 r)⟩
  have each : ∀ bs, ∃ g : Nat, g < 2 ^ 32 ∧ a.impl.number env c ops bs = BitVec.ofNat 64 (g * 0x7FFFFFFF7FFFFFFF) := by
    intro bs
    unfold HashAlg.number
    split
    · exact ⟨0, by decide, by rw [Nat.zero_mul]; rfl⟩
    · split
      · exact ⟨0, by decide, by rw [Nat.zero_mul]; rfl⟩
      · exact num _
  choose g h1 h2 using each
  exact ⟨g, h1, h2⟩

/-- sums of k numbers below M -/
theorem sum_lt {k M : Nat} (g : Byte → Nat) (hg : ∀ b, g b < M) : ∀ vs : List Byte, vs.length = k → (vs.map g).sum < k * M + 1 := by
  intro vs hk
  subst hk
  induction vs with
  | nil => simp
  | cons v vs ih =>
    simp only [List.map_cons, List.sum_cons, List.length_cons, Nat.add_mul]
    have := hg v
    omega

/-- there are more than 6 * 2^32 + 1 sets of six bytes -/
theorem choose_256_6 : 6 * 2 ^ 32 + 1 < Nat.choose 256 6 := by
  rw [Nat.choose_eq_descFactorial_div_factorial]
  decide +kernel

/-- sums of multiples -/
theorem sum_multiples (m : Nat) (l : List Nat) : (l.map fun n => (BitVec.ofNat 64 (n * m)).toNat).sum % 2 ^ 64 = l.sum * m % 2 ^ 64 := by
  induction l with
  | nil => simp
  | cons n l ih =>
    simp only [List.map_cons, List.sum_cons, Nat.add_mul]
    rw [Nat.add_mod, ih, BitVec.toNat_ofNat, Nat.mod_mod, ← Nat.add_mod]

end Hash2

import Verif.Lemmas.Work
import Verif.Lemmas.Local
import Verif.Lemmas.Extended
import Verif.Spec.Future
/-
For C51: what a murmur3 object holds besides the chaining value.
-/
namespace Hash2
open Spec

section
variable {τ R : Type} (T : BlockHash τ R) (hN : 0 < T.N) (hr : T.renum = id)
  {init : Obj τ} {seed : BitVec 64 → Obj τ} {bytes : List Byte → Obj τ}
include hN hr

theorem Spec.BlockHash.run_counted (o : Obj τ) (p : Nat) (ho : o.tail = []) (hn : o.n = p % 2 ^ T.ctr) (hp : p % T.N = 0) (ts : List Tok) :
    (((T.machine init seed bytes).run o ts).1 : Obj τ).tail = rest T.N (bytesSince ts) ∧
    (((T.machine init seed bytes).run o ts).1 : Obj τ).n = MURMUR3.counted T.N p ts % 2 ^ T.ctr ∧
    MURMUR3.counted T.N p ts % T.N = (bytesSince ts).length % T.N := by
  induction ts using List.reverseRecOn with
  | nil => exact ⟨ho.trans (rest_short (by simpa using hN)).symm, hn, hp.trans (Nat.zero_mod _).symm⟩
  | append_singleton ts t ih =>
    obtain ⟨h1, h2, h3⟩ := ih
    rw [Machine.run_append (T.machine init seed bytes) o ts [t], Spec.bytesSince_append]
    unfold MURMUR3.counted at *
    rw [List.foldl_append]
    generalize ts.foldl _ p = q at *
    generalize ((T.machine init seed bytes).run o ts).1 = s at *
    cases t with
    | data b =>
      refine ⟨?_, ?_, ?_⟩
      · show rest T.N (_ ++ [b]) = _
        rw [h1, rest_rest hN]
      · show (_ + 1) % 2 ^ T.ctr = (q + 1) % 2 ^ T.ctr
        rw [h2, Nat.mod_add_mod]
      · show (q + 1) % T.N = (bytesSince ts ++ [b]).length % T.N
        rw [List.length_append, List.length_singleton, Nat.add_mod, h3, ← Nat.add_mod]
    | fin =>
      refine ⟨(rest_short (l := []) (by simpa using hN)).symm, ?_, ?_⟩
      · show T.renum ((_ + (T.N - List.length _)) % 2 ^ T.ctr) = (T.N * (q / T.N + 1)) % 2 ^ T.ctr
        rw [hr, h2, h1, rest_length, ← h3]
        show (q % 2 ^ T.ctr + (T.N - q % T.N)) % 2 ^ T.ctr = _
        rw [Nat.mod_add_mod]
        congr 1
        have a := Nat.div_add_mod q T.N
        have b := Nat.mod_lt q hN
        rw [Nat.mul_add, Nat.mul_one]
        omega
      · show (T.N * (q / T.N + 1)) % T.N = 0 % T.N
        rw [Nat.mul_mod_right, Nat.zero_mod]

/-- equal counts, incomplete blocks and results: equal objects -/
theorem Spec.BlockHash.same_object (hi : ∀ s t n s', (T.finish s t n).2 = (T.finish s' t n).2 → s = s') (o o' : Obj τ)
    (ht : o.tail = o'.tail) (hn : o.n = o'.n) (e : (T.res o).2 = (T.res o').2) : o = o' := by
  obtain ⟨a, b, c⟩ := o
  obtain ⟨a', b', c'⟩ := o'
  cases ht
  cases hn
  cases hi _ _ _ _ (show (T.finish a b c).2 = (T.finish a' b c).2 from e)
  rfl

end

theorem mur32_counted (sz : Nat) (c : Ctor) (hc : c.Valid) :
    (c.start (MURMUR3.x86_32.machine sz) : Obj _).n = MURMUR3.countedBy 4 c % 2 ^ sz ∧ MURMUR3.countedBy 4 c % 4 = 0 := by
  cases c with
  | default => exact ⟨(Nat.zero_mod _).symm, rfl⟩
  | seed k => exact ⟨(Nat.zero_mod _).symm, rfl⟩
  | bytes p n =>
    have hl : (p.bytes n).length = n := by
      cases p with
      | null => have : n = 0 := hc; subst this; rfl
      | mem l => have : n ≤ l.length := hc; simpa [Ptr.bytes] using this
    show (if (p.bytes n).length ≤ 4 then _ else _ : Obj _).n = (if n ≤ 4 then 0 else _) % _ ∧ (if n ≤ 4 then 0 else _) % 4 = 0
    rw [hl]
    by_cases h : n ≤ 4
    · rw [if_pos h, if_pos h]; exact ⟨(Nat.zero_mod _).symm, rfl⟩
    · rw [if_neg h, if_neg h]
      refine ⟨?_, Nat.mul_mod_right _ _⟩
      show ((0 + ((p.bytes n).drop 4).length) % 2 ^ sz + (4 - (rest 4 ([] ++ (p.bytes n).drop 4)).length)) % 2 ^ sz = _
      rw [List.nil_append, rest_length, List.length_drop, hl, Nat.mod_add_mod]
      congr 1
      omega

theorem mur128_counted (sz : Nat) (c : Ctor) (hc : c.Valid) :
    (c.start (MURMUR3.x64_128.machine sz) : Obj _).n = MURMUR3.countedBy 16 c % 2 ^ sz ∧ MURMUR3.countedBy 16 c % 16 = 0 := by
  cases c with
  | default => exact ⟨(Nat.zero_mod _).symm, rfl⟩
  | seed k => exact ⟨(Nat.zero_mod _).symm, rfl⟩
  | bytes p n =>
    have hl : (p.bytes n).length = n := by
      cases p with
      | null => have : n = 0 := hc; subst this; rfl
      | mem l => have : n ≤ l.length := hc; simpa [Ptr.bytes] using this
    show (if (p.bytes n).length ≤ 8 then _ else if (p.bytes n).length ≤ 16 then _ else _ : Obj _).n = (if n ≤ 16 then 0 else _) % _ ∧
      (if n ≤ 16 then 0 else _) % 16 = 0
    rw [hl]
    by_cases h8 : n ≤ 8
    · rw [if_pos h8, if_pos (Nat.le_trans h8 (by decide))]; exact ⟨(Nat.zero_mod _).symm, rfl⟩
    by_cases h : n ≤ 16
    · rw [if_neg h8, if_pos h, if_pos h]; exact ⟨(Nat.zero_mod _).symm, rfl⟩
    · rw [if_neg h8, if_neg h, if_neg h]
      refine ⟨?_, Nat.mul_mod_right _ _⟩
      show ((0 + ((p.bytes n).drop 16).length) % 2 ^ sz + (16 - (rest 16 ([] ++ (p.bytes n).drop 16)).length)) % 2 ^ sz = _
      rw [List.nil_append, rest_length, List.length_drop, hl, Nat.mod_add_mod]
      congr 1
      omega

end Hash2

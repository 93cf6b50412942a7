import Mathlib.Data.Fintype.Pigeonhole
import Verif.Lemmas.Future
/-
Pigeonhole arguments: more seeds than states.
-/
namespace Hash2
open Spec

/-- there are more byte strings of length m + 1 than of length m -/
theorem bytes_pigeon {σ : Type} (m : Nat) (f : List Byte → σ) (enc : σ → List Byte) (hl : ∀ s, (enc s).length = m)
    (inj : ∀ s t, enc s = enc t → s = t) : ∃ k k' : List Byte, k ≠ k' ∧ k.length = m + 1 ∧ k'.length = m + 1 ∧ f k = f k' := by
  have lt : ∀ s, leNat (enc s) < 256 ^ m := fun s => by have := leNat_lt (enc s); rwa [hl] at this
  obtain ⟨i, j, hne, e⟩ := Fintype.exists_ne_map_eq_of_card_lt
    (fun i : Fin (256 ^ (m + 1)) => (⟨leNat (enc (f (natLE (m + 1) i.val))), lt _⟩ : Fin (256 ^ m)))
    (by rw [Fintype.card_fin, Fintype.card_fin]; exact Nat.pow_lt_pow_right (by decide) (Nat.lt_succ_self m))
  refine ⟨natLE (m + 1) i.val, natLE (m + 1) j.val, fun h => hne (Fin.ext (natLE_inj i.isLt j.isLt h)), natLE_length _ _, natLE_length _ _, ?_⟩
  refine inj _ _ (leNat_inj (by rw [hl, hl]) ?_)
  exact congrArg Fin.val e

theorem flatMap_words_inj {w k : Nat} (hw : 2 ^ w ≤ 256 ^ k) : ∀ (xs ys : List (BitVec w)), xs.length = ys.length →
    (xs.flatMap fun x => natLE k x.toNat) = (ys.flatMap fun x => natLE k x.toNat) → xs = ys
  | [], [], _, _ => rfl
  | x :: xs, y :: ys, hl, h => by
    simp only [List.flatMap_cons] at h
    obtain ⟨h1, h2⟩ := List.append_inj h (by simp)
    rw [natLE_word_inj hw h1, flatMap_words_inj hw xs ys (Nat.succ.inj hl) h2]

theorem flatMap_words_length {w k : Nat} (xs : List (BitVec w)) : (xs.flatMap fun x => natLE k x.toNat).length = xs.length * k := by
  induction xs with
  | nil => simp
  | cons x xs ih => rw [List.flatMap_cons, List.length_append, ih, natLE_length, List.length_cons, Nat.succ_mul, Nat.add_comm]

/-- the four accumulators, as bytes -/
theorem acc4_enc {w : Nat} (k : Nat) (hw : 2 ^ w ≤ 256 ^ k) : ∃ enc : Acc4 w → List Byte,
    (∀ s, (enc s).length = 4 * k) ∧ ∀ s t, enc s = enc t → s = t := by
  refine ⟨fun s => [s.a1, s.a2, s.a3, s.a4].flatMap fun x => natLE k x.toNat, fun s => flatMap_words_length _, ?_⟩
  rintro ⟨a, b, c, d⟩ ⟨a', b', c', d'⟩ h
  have := flatMap_words_inj hw [a, b, c, d] [a', b', c', d'] rfl h
  simp only [List.cons.injEq, and_true] at this
  obtain ⟨rfl, rfl, rfl, rfl⟩ := this
  rfl

theorem words_enc (n : Nat) : ∃ enc : SPOOKY.Words n → List Byte, (∀ s, (enc s).length = n * 8) ∧ ∀ s t, enc s = enc t → s = t := by
  refine ⟨fun s => (List.ofFn s).flatMap fun x => natLE 8 x.toNat, fun s => by rw [flatMap_words_length, List.length_ofFn], ?_⟩
  intro s t h
  exact List.ofFn_injective (flatMap_words_inj (by decide) _ _ (by rw [List.length_ofFn, List.length_ofFn]) h)

/-- the chaining values of the ten digests, as bytes -/
theorem DigestName.chain_enc {d : DigestName} {σ : Type} {D : Md σ} (hd : d.md = some ⟨σ, D⟩) : ∃ m ≤ 64, ∃ enc : σ → List Byte,
    (∀ s, (enc s).length = m) ∧ ∀ s t, enc s = enc t → s = t := by
  cases d <;> simp only [DigestName.md, Option.some.injEq, Sigma.mk.injEq, reduceCtorEq] at hd <;> obtain ⟨rfl, hd⟩ := hd
  · exact ⟨16, by decide, MD5.md5.out, fun s => by simp [MD5.md5], fun s t => md5_out_inj⟩
  · exact ⟨20, by decide, SHA1.sha1.out, fun s => by simp [SHA1.sha1], fun s t => sha1_out_inj⟩
  · exact ⟨32, by decide, SHA2.encode, fun s => sha2_encode_length s, fun s t => sha2_encode_inj (by decide)⟩
  · exact ⟨32, by decide, SHA2.encode, fun s => sha2_encode_length s, fun s t => sha2_encode_inj (by decide)⟩
  · exact ⟨64, by decide, SHA2.encode, fun s => sha2_encode_length s, fun s t => sha2_encode_inj (by decide)⟩
  · exact ⟨64, by decide, SHA2.encode, fun s => sha2_encode_length s, fun s t => sha2_encode_inj (by decide)⟩
  · exact ⟨64, by decide, SHA2.encode, fun s => sha2_encode_length s, fun s t => sha2_encode_inj (by decide)⟩
  · exact ⟨64, by decide, SHA2.encode, fun s => sha2_encode_length s, fun s t => sha2_encode_inj (by decide)⟩
  · exact ⟨16, by decide, RIPEMD.ripemd128.out, fun s => by simp [RIPEMD.ripemd128], fun s t => ripemd128_out_inj⟩
  · exact ⟨20, by decide, RIPEMD.ripemd160.out, fun s => by simp [RIPEMD.ripemd160], fun s t => ripemd160_out_inj⟩

theorem Spec.Md.bytes_ne_nil {σ : Type} (D : Md σ) {k : List Byte} (h : k ≠ []) : D.machine.bytes k = k ++ D.pad k.length :=
  if_neg h

/-- keys of the same length with the same chaining value after them make the same object -/
theorem Spec.Md.same_keys {σ : Type} {D : Md σ} (hN : 0 < D.N) (hp : ∀ n, (n + (D.pad n).length) % D.N = 0) {k k' : List Byte}
    (hk : k ≠ []) (hl : k.length = k'.length) (h : D.chain (k ++ D.pad k.length) = D.chain (k' ++ D.pad k'.length)) (ts : List Tok) :
    (D.machine.run (D.machine.bytes k) ts).2 = (D.machine.run (D.machine.bytes k') ts).2 := by
  have hk' : k' ≠ [] := fun e => hk (List.eq_nil_of_length_eq_zero (by rw [hl, e]; rfl))
  rw [D.bytes_ne_nil hk, D.bytes_ne_nil hk']
  exact (D.alike_padded hN hp k k' hl h).run hN ts

/-- for objects that process blocks: equal chaining value and length after the seed, nothing left over -/
theorem Spec.BlockHash.same_after {τ R : Type} (T : BlockHash τ R) (o o' : Obj τ) (hs : (T.finish o.st o.tail o.n).1 = (T.finish o'.st o'.tail o'.n).1)
    (hn : o.n = o'.n) (ht : o.tail.length = o'.tail.length) : (T.res o).1 = (T.res o').1 := by
  unfold BlockHash.res
  simp only [Obj.mk.injEq, true_and]
  exact ⟨hs, by rw [hn, ht]⟩

theorem Spec.BlockHash.absorb_sizes {τ R : Type} (T : BlockHash τ R) (s s' : τ) {k k' : List Byte} (h : k.length = k'.length) :
    (T.absorb (Obj.start s) k).n = (T.absorb (Obj.start s') k').n ∧
    (T.absorb (Obj.start s) k).tail.length = (T.absorb (Obj.start s') k').tail.length := by
  simp only [BlockHash.absorb, Obj.start, List.nil_append, rest_length, h, and_self]

end Hash2

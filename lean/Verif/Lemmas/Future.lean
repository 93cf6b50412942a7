import Verif.Lemmas.Standards
import Verif.Lemmas.Distinct
import Verif.Spec.Future
/-
Merkle-Damgard objects with the same chaining value, incomplete block and length cannot be told apart; which digests show the
whole chaining value.
-/
namespace Hash2
open Spec

/-- what a Merkle-Damgard object needs to remember of its log -/
structure Spec.Md.Alike {σ : Type} (D : Md σ) (l l' : List Byte) : Prop where
  length : l.length = l'.length
  chain : D.chain l = D.chain l'
  rest : rest D.N l = rest D.N l'

namespace Spec.Md
variable {σ : Type} {D : Md σ} (hN : 0 < D.N)
include hN

theorem chain_append (l x : List Byte) : D.chain (l ++ x) = (blocks D.N (Spec.rest D.N l ++ x)).foldl D.compress (D.chain l) := by
  rw [chain, (blocks_split hN l x).1, List.foldl_append]
  rfl

theorem Alike.append {l l' : List Byte} (h : D.Alike l l') (x : List Byte) : D.Alike (l ++ x) (l' ++ x) where
  length := by simp [h.length]
  chain := by rw [chain_append hN, chain_append hN, h.chain, h.rest]
  rest := by rw [(blocks_split hN l x).2, (blocks_split hN l' x).2, h.rest]

theorem Alike.hash {l l' : List Byte} (h : D.Alike l l') : D.hash l = D.hash l' := by
  unfold Md.hash
  rw [h.length, (h.append hN _).chain]

theorem Alike.run {l l' : List Byte} (h : D.Alike l l') (ts : List Tok) : (D.machine.run l ts).2 = (D.machine.run l' ts).2 := by
  induction ts generalizing l l' with
  | nil => rfl
  | cons t ts ih =>
    cases t with
    | data b => exact ih (h.append hN [b])
    | fin =>
      show D.hash l :: _ = D.hash l' :: _
      rw [h.hash hN]
      congr 1
      refine ih (l := l ++ D.pad l.length) (l' := l' ++ D.pad l'.length) ?_
      rw [← h.length]
      exact h.append hN _

/-- after the padding, chaining value and length are all there is -/
theorem alike_padded (hp : ∀ n, (n + (D.pad n).length) % D.N = 0) (l l' : List Byte) (hl : l.length = l'.length)
    (h : D.chain (l ++ D.pad l.length) = D.chain (l' ++ D.pad l'.length)) :
    D.Alike (l ++ D.pad l.length) (l' ++ D.pad l'.length) where
  length := by rw [List.length_append, List.length_append, hl]
  chain := h
  rest := by
    have e : ∀ l : List Byte, Spec.rest D.N (l ++ D.pad l.length) = [] := fun l => by
      apply List.eq_nil_of_length_eq_zero
      rw [rest_length, List.length_append, hp]
    rw [e, e]

end Spec.Md

theorem DigestName.regular {d : DigestName} {σ : Type} {D : Md σ} (hd : d.md = some ⟨σ, D⟩) :
    0 < D.N ∧ ∀ n, (n + (D.pad n).length) % D.N = 0 := by
  cases d <;> simp only [DigestName.md, Option.some.injEq, Sigma.mk.injEq, reduceCtorEq] at hd <;>
    (obtain ⟨rfl, hd⟩ := hd; cases hd)
  · exact ⟨(Md5.ok le64).pos, (Md5.ok le64).pad_length⟩
  · exact ⟨(Sha1.ok le64).pos, (Sha1.ok le64).pad_length⟩
  · exact ⟨(Sha2.sha256_ok le64).pos, (Sha2.sha256_ok le64).pad_length⟩
  · exact ⟨(Sha2.sha224_ok le64).pos, (Sha2.sha224_ok le64).pad_length⟩
  · exact ⟨(Sha2.sha512_ok le64).pos, (Sha2.sha512_ok le64).pad_length⟩
  · exact ⟨(Sha2.sha384_ok le64).pos, (Sha2.sha384_ok le64).pad_length⟩
  · exact ⟨(Sha2.sha512_224_ok le64).pos, (Sha2.sha512_224_ok le64).pad_length⟩
  · exact ⟨(Sha2.sha512_256_ok le64).pos, (Sha2.sha512_256_ok le64).pad_length⟩
  · exact ⟨(Rip128.ok le64).pos, (Rip128.ok le64).pad_length⟩
  · exact ⟨(Rip160.ok le64).pos, (Rip160.ok le64).pad_length⟩

theorem natLE_word_inj {w k : Nat} (hw : 2 ^ w ≤ 256 ^ k) {x y : BitVec w} (h : natLE k x.toNat = natLE k y.toNat) : x = y :=
  BitVec.eq_of_toNat_eq (natLE_inj (Nat.lt_of_lt_of_le x.isLt hw) (Nat.lt_of_lt_of_le y.isLt hw) h)

theorem natBE_word_inj {w k : Nat} (hw : 2 ^ w ≤ 256 ^ k) {x y : BitVec w} (h : natBE k x.toNat = natBE k y.toNat) : x = y :=
  natLE_word_inj hw (List.reverse_inj.1 h)

theorem sha2_encode_inj {w : Nat} (hw : 2 ^ w ≤ 256 ^ (w / 8)) {q r : SHA2.St w} (h : SHA2.encode q = SHA2.encode r) : q = r := by
  obtain ⟨a, b, c, d, e, f, g, i⟩ := q
  obtain ⟨a', b', c', d', e', f', g', i'⟩ := r
  simp only [SHA2.encode, List.flatMap_cons, List.flatMap_nil, List.append_nil] at h
  obtain ⟨h1, h⟩ := List.append_inj h (by simp)
  obtain ⟨h2, h⟩ := List.append_inj h (by simp)
  obtain ⟨h3, h⟩ := List.append_inj h (by simp)
  obtain ⟨h4, h⟩ := List.append_inj h (by simp)
  obtain ⟨h5, h⟩ := List.append_inj h (by simp)
  obtain ⟨h6, h⟩ := List.append_inj h (by simp)
  obtain ⟨h7, h8⟩ := List.append_inj h (by simp)
  rw [natBE_word_inj hw h1, natBE_word_inj hw h2, natBE_word_inj hw h3, natBE_word_inj hw h4, natBE_word_inj hw h5,
    natBE_word_inj hw h6, natBE_word_inj hw h7, natBE_word_inj hw h8]

theorem sha2_encode_length {w : Nat} (q : SHA2.St w) : (SHA2.encode q).length = 8 * (w / 8) := by
  simp [SHA2.encode, List.flatMap_cons]; omega

theorem md5_out_inj {q r : MD5.St} (h : MD5.md5.out q = MD5.md5.out r) : q = r := by
  obtain ⟨a, b, c, d⟩ := q
  obtain ⟨a', b', c', d'⟩ := r
  simp only [MD5.md5, List.append_assoc] at h
  obtain ⟨h1, h⟩ := List.append_inj h (by simp)
  obtain ⟨h2, h⟩ := List.append_inj h (by simp)
  obtain ⟨h3, h4⟩ := List.append_inj h (by simp)
  rw [natLE_word_inj (by decide) h1, natLE_word_inj (by decide) h2, natLE_word_inj (by decide) h3, natLE_word_inj (by decide) h4]

theorem ripemd128_out_inj {q r : RIPEMD.St4} (h : RIPEMD.ripemd128.out q = RIPEMD.ripemd128.out r) : q = r := by
  obtain ⟨a, b, c, d⟩ := q
  obtain ⟨a', b', c', d'⟩ := r
  simp only [RIPEMD.ripemd128, List.append_assoc] at h
  obtain ⟨h1, h⟩ := List.append_inj h (by simp)
  obtain ⟨h2, h⟩ := List.append_inj h (by simp)
  obtain ⟨h3, h4⟩ := List.append_inj h (by simp)
  rw [natLE_word_inj (by decide) h1, natLE_word_inj (by decide) h2, natLE_word_inj (by decide) h3, natLE_word_inj (by decide) h4]

theorem ripemd160_out_inj {q r : RIPEMD.St5} (h : RIPEMD.ripemd160.out q = RIPEMD.ripemd160.out r) : q = r := by
  obtain ⟨a, b, c, d, e⟩ := q
  obtain ⟨a', b', c', d', e'⟩ := r
  simp only [RIPEMD.ripemd160, List.append_assoc] at h
  obtain ⟨h1, h⟩ := List.append_inj h (by simp)
  obtain ⟨h2, h⟩ := List.append_inj h (by simp)
  obtain ⟨h3, h⟩ := List.append_inj h (by simp)
  obtain ⟨h4, h5⟩ := List.append_inj h (by simp)
  rw [natLE_word_inj (by decide) h1, natLE_word_inj (by decide) h2, natLE_word_inj (by decide) h3, natLE_word_inj (by decide) h4,
    natLE_word_inj (by decide) h5]

theorem sha1_out_inj {q r : SHA1.St} (h : SHA1.sha1.out q = SHA1.sha1.out r) : q = r := by
  obtain ⟨a, b, c, d, e⟩ := q
  obtain ⟨a', b', c', d', e'⟩ := r
  simp only [SHA1.sha1, List.append_assoc] at h
  obtain ⟨h1, h⟩ := List.append_inj h (by simp)
  obtain ⟨h2, h⟩ := List.append_inj h (by simp)
  obtain ⟨h3, h⟩ := List.append_inj h (by simp)
  obtain ⟨h4, h5⟩ := List.append_inj h (by simp)
  rw [natBE_word_inj (by decide) h1, natBE_word_inj (by decide) h2, natBE_word_inj (by decide) h3, natBE_word_inj (by decide) h4,
    natBE_word_inj (by decide) h5]

theorem DigestName.out_inj {d : DigestName} {σ : Type} {D : Md σ} (hd : d.md = some ⟨σ, D⟩) (hs : d.showsAll = true) {q r : σ}
    (h : D.out q = D.out r) : q = r := by
  cases d <;> simp only [DigestName.md, Option.some.injEq, Sigma.mk.injEq, reduceCtorEq] at hd <;>
    simp only [DigestName.showsAll, Bool.false_eq_true] at hs <;>
    (obtain ⟨rfl, hd⟩ := hd; cases hd)
  · exact md5_out_inj h
  · exact sha1_out_inj h
  · change (SHA2.encode q).take 32 = (SHA2.encode r).take 32 at h
    rw [List.take_of_length_le (by rw [sha2_encode_length]), List.take_of_length_le (by rw [sha2_encode_length])] at h
    exact sha2_encode_inj (by decide) h
  · change (SHA2.encode q).take 64 = (SHA2.encode r).take 64 at h
    rw [List.take_of_length_le (by rw [sha2_encode_length]), List.take_of_length_le (by rw [sha2_encode_length])] at h
    exact sha2_encode_inj (by decide) h
  · exact ripemd128_out_inj h
  · exact ripemd160_out_inj h

theorem Spec.Md.run_length {σ : Type} (D : Md σ) (ts : List Tok) (l : List Byte) :
    ((D.machine.run l ts).1 : List Byte).length = D.processed l.length ts := by
  induction ts generalizing l with
  | nil => rfl
  | cons t ts ih =>
    cases t with
    | data b =>
      refine (ih (l ++ [b])).trans ?_
      rw [List.length_append]; rfl
    | fin =>
      refine (ih (l ++ D.pad l.length)).trans ?_
      rw [List.length_append]; rfl

theorem Spec.Md.start_length {σ : Type} (D : Md σ) (c : Ctor) (hc : c.Valid) : (c.start D.machine : List Byte).length = D.processedBy c := by
  cases c with
  | default => rfl
  | seed k =>
    show (if k = 0 then [] else natLE 8 k.toNat ++ D.pad 8 : List Byte).length = if k = 0 then 0 else _
    split <;> simp
  | bytes p n =>
    have hl : (p.bytes n).length = n := by
      cases p with
      | null => exact (show n = 0 from hc).symm
      | mem bs => exact List.length_take_of_le hc
    show (if p.bytes n = [] then [] else p.bytes n ++ D.pad (p.bytes n).length : List Byte).length = if n = 0 then 0 else _
    by_cases h : n = 0
    · rw [if_pos h, if_pos (List.eq_nil_of_length_eq_zero (hl.trans h))]; rfl
    · rw [if_neg h, if_neg (fun e => h (by rw [← hl, e]; rfl)), List.length_append, hl]

theorem Spec.Md.run_message {σ : Type} (D : Md σ) (z y : List Byte) :
    (D.machine.run z (y.map Tok.data ++ [Tok.fin])).2 = [D.hash (z ++ y)] := by
  induction y generalizing z with
  | nil => show [D.hash z] = _; rw [List.append_nil]
  | cons b y ih =>
    refine (ih (z ++ [b])).trans ?_
    rw [List.append_assoc]; rfl

/-- where the result tells the state after it, the results to come are told -/
theorem Machine.future {R : Type} (M : Machine R) (g : R → M.S) (hg : ∀ s, (M.res s).1 = g (M.res s).2) (s s' : M.S)
    (ts ts' tm : List Tok) (rs rs' : List R) (r : R) (h : rs ++ [r] = (M.run s (ts ++ [Tok.fin])).2)
    (h' : rs' ++ [r] = (M.run s' (ts' ++ [Tok.fin])).2) :
    ∃ qs : List R, (M.run s (ts ++ [Tok.fin] ++ tm)).2 = rs ++ [r] ++ qs ∧ (M.run s' (ts' ++ [Tok.fin] ++ tm)).2 = rs' ++ [r] ++ qs := by
  have q : ∀ (s : M.S) (ts : List Tok) (rs : List R), rs ++ [r] = (M.run s (ts ++ [Tok.fin])).2 →
      (M.run s (ts ++ [Tok.fin])).1 = g r ∧ (M.run s (ts ++ [Tok.fin])).2 = rs ++ [r] := by
    intro s ts rs h
    refine ⟨?_, h.symm⟩
    have e : M.run s (ts ++ [Tok.fin]) = ((M.res (M.run s ts).1).1, (M.run s ts).2 ++ [(M.res (M.run s ts).1).2]) := by
      rw [Machine.run_append]; rfl
    rw [e] at h ⊢
    rw [List.singleton_inj.1 (List.append_inj' h rfl).2]
    exact hg _
  refine ⟨(M.run (g r) tm).2, ?_, ?_⟩
  · rw [Machine.run_append, (q _ _ _ h).1, (q _ _ _ h).2]
  · rw [Machine.run_append, (q _ _ _ h').1, (q _ _ _ h').2]

end Hash2

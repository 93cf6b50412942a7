import Verif.Model.DigestOps
import Verif.Spec.Hex
import Verif.Lemmas.Core
/-
Lemmas about the operations on digests (C34, C35).
-/
namespace Hash2

theorem stdMemcmp_eq (a b : List Byte) (n : Nat) (ha : a.length = n) (hb : b.length = n) :
    ∃ r, stdMemcmp (.mem a) (.mem b) n = .ok r ∧ (r = 0 ↔ a = b) := by
  subst ha
  simp only [stdMemcmp, hb, Nat.le_refl, and_self, if_true, List.take_length]
  refine ⟨_, rfl, ?_⟩
  have hi : a.map BitVec.toNat = b.map BitVec.toNat ↔ a = b := by
    constructor
    · intro h
      exact (List.map_inj_right fun x y h => BitVec.eq_of_toNat_eq h).1 h
    · exact fun h => by rw [h]
  rw [← hb, List.take_length, ← hi]
  cases hc : compare (a.map BitVec.toNat) (b.map BitVec.toNat) with
  | lt =>
    simp only [reduceCtorEq, false_iff, Int.reduceNeg]
    intro e
    rw [e] at hc
    simp at hc
  | eq => simpa using hc
  | gt =>
    simp only [Int.reduceEq, false_iff]
    intro e
    rw [e] at hc
    simp at hc

theorem memcmpLoop_eq (a b : List Byte) : ∀ (k i : Nat), i + k = a.length → a.length = b.length →
    ∃ r, memcmpLoop (.mem a) (.mem b) i k = .ok r ∧ (r = 0 ↔ a.drop i = b.drop i) := by
  intro k
  induction k with
  | zero =>
    intro i hi hl
    refine ⟨0, rfl, ?_⟩
    rw [List.drop_of_length_le (by omega), List.drop_of_length_le (by omega)]
    simp
  | succ k ih =>
    intro i hi hl
    have h1 : i < a.length := by omega
    have h2 : i < b.length := by omega
    simp only [memcmpLoop, Ptr.get_mem h1, Ptr.get_mem h2, Except.bind_ok]
    rw [List.drop_eq_getElem_cons h1, List.drop_eq_getElem_cons h2]
    by_cases he : a[i] = b[i]
    · rw [if_neg (by simpa using he)]
      obtain ⟨r, e, h⟩ := ih (i + 1) (by omega) hl
      exact ⟨r, e, by rw [h, he]; simp only [List.cons.injEq, true_and]⟩
    · rw [if_pos he]
      refine ⟨_, rfl, ?_⟩
      have : a[i].toNat ≠ b[i].toNat := fun h => he (BitVec.eq_of_toNat_eq h)
      constructor
      · intro h; omega
      · intro h; exact absurd (List.cons.inj h).1 he

theorem memcmp_eq (env : Env) (a b : List Byte) (n : Nat) (ha : a.length = n) (hb : b.length = n) :
    ∃ r, memcmp env (.mem a) (.mem b) n = .ok r ∧ (r = 0 ↔ a = b) := by
  unfold memcmp
  split
  · exact stdMemcmp_eq a b n ha hb
  · simpa using memcmpLoop_eq a b n 0 (by omega) (by omega)

namespace Digest
open Spec

theorem digits_high (x : Byte) : aget digits (x >>> 4).toNat = .ok (hexDigit (x.toNat / 16)) := by
  revert x
  have : ∀ i : Fin 256, digits[((BitVec.ofFin i : Byte) >>> 4).toNat]? = some (hexDigit ((BitVec.ofFin i : Byte).toNat / 16)) := by decide +kernel
  intro x
  rw [aget, this x.toFin]

theorem digits_low (x : Byte) : aget digits (x &&& 0x0F#8).toNat = .ok (hexDigit (x.toNat % 16)) := by
  revert x
  have : ∀ i : Fin 256, digits[((BitVec.ofFin i : Byte) &&& 0x0F#8).toNat]? = some (hexDigit ((BitVec.ofFin i : Byte).toNat % 16)) := by decide +kernel
  intro x
  rw [aget, this x.toFin]

theorem hex_length (v : List Byte) : (hex v).length = 2 * v.length := by
  induction v with
  | nil => rfl
  | cons b v ih => simp only [hex, List.length_cons, ih]; omega

theorem hex_append (u v : List Byte) : hex (u ++ v) = hex u ++ hex v := by
  induction u with
  | nil => rfl
  | cons b u ih => simp only [List.cons_append, hex, ih]

/-- an element of a list written twice -/
theorem set2 (u w : List Byte) (a b : Byte) (h : 2 ≤ w.length) :
    ((u ++ w).set (u.length) a).set (u.length + 1) b = u ++ [a, b] ++ w.drop 2 := by
  match w, h with
  | x :: y :: w, _ => simp

/-- the loop of to_chars -/
theorem toChars_loop (N : Nat) (v : List Byte) (hv : v.length = N) (buf : List Byte) (hb : 2 * N ≤ buf.length) :
    forLoop (fun i buf => do
      let x ← get N v i
      let d ← aget digits (x >>> 4).toNat
      let buf ← aset buf (i * 2 + 0) d
      let y ← get N v i
      let e ← aget digits (y &&& 0x0F#8).toNat
      aset buf (i * 2 + 1) e) 0 N buf = .ok (hex v ++ buf.drop (2 * N)) := by
  obtain ⟨b, e, h⟩ := forLoop_inv (fun i buf => do
      let x ← get N v i
      let d ← aget digits (x >>> 4).toNat
      let buf ← aset buf (i * 2 + 0) d
      let y ← get N v i
      let e ← aget digits (y &&& 0x0F#8).toNat
      aset buf (i * 2 + 1) e) 0 (fun i b => b = hex (v.take i) ++ buf.drop (2 * i)) buf (by simp [hex]) N (by
    intro i b hi hib
    have hi' : i < v.length := by omega
    have hg : get N v (0 + i) = .ok v[i] := by
      rw [Nat.zero_add, get, check_ok (by omega), Except.bind_ok, aget_ok hi']
    have hl : (hex (v.take i)).length = i * 2 := by rw [hex_length, List.length_take]; omega
    have hbl : b.length = buf.length := by rw [hib, List.length_append, hl, List.length_drop]; omega
    simp only [hg, Except.bind_ok, digits_high, digits_low]
    rw [aset_ok (by omega), Except.bind_ok, aset_ok (by rw [List.length_set]; omega)]
    refine ⟨_, rfl, ?_⟩
    rw [List.take_succ_eq_append_getElem hi', hex_append, hib]
    have := set2 (hex (v.take i)) (buf.drop (2 * i)) (hexDigit (v[i].toNat / 16)) (hexDigit (v[i].toNat % 16)) (by rw [List.length_drop]; omega)
    rw [hl, List.drop_drop] at this
    rw [Nat.zero_add, Nat.add_zero, this]
    simp [hex]; rfl)
  rw [e, h, List.take_of_length_le (by omega)]

theorem room_eq (env : Env) (N : Nat) (h : 4 * N < 2 ^ env.sizeBits) : room env N = 2 * N := by
  unfold room
  rw [BitVec.toInt_eq_toNat_of_lt (by rw [BitVec.toNat_ofNat, Nat.mod_eq_of_lt (by omega)]; omega), BitVec.toNat_ofNat,
    Nat.mod_eq_of_lt (by omega)]
  omega

theorem toChars_eq (env : Env) (N : Nat) (v : List Byte) (hv : v.length = N) (h : 4 * N < 2 ^ env.sizeBits) (buf : List Byte) (len : Int)
    (hb : len ≤ buf.length) :
    toChars env N v buf len = if len < 2 * N then .ok (none, buf) else .ok (some (2 * N), hex v ++ buf.drop (2 * N)) := by
  unfold toChars
  rw [room_eq env N h]
  by_cases hc : len < 2 * N
  · rw [if_pos hc, if_pos hc]
  · rw [if_neg hc, if_neg hc, toChars_loop N v hv buf (by omega), Except.bind_ok]
    rw [if_pos (by rw [List.length_append, hex_length]; omega), Nat.mul_comm]

theorem toCharsArray_eq (env : Env) (N : Nat) (v : List Byte) (hv : v.length = N) (h : 4 * N < 2 ^ env.sizeBits) (w : List Byte)
    (hw : 2 * N + 1 ≤ w.length) : toCharsArray env N v w = .ok (hex v ++ 0 :: w.drop (2 * N + 1)) := by
  unfold toCharsArray
  rw [toChars_eq env N v hv h w _ (Int.le_refl _), if_neg (by omega), Except.bind_ok]
  have hl : (hex v).length = 2 * N := by rw [hex_length, hv]
  show aset _ (2 * N) 0 = _
  rw [aset_ok (by rw [List.length_append, List.length_drop]; omega), List.set_append_right _ _ (by omega), hl, Nat.sub_self,
    List.drop_eq_getElem_cons (by omega), List.set_cons_zero]

theorem hexDigit_ne_zero : ∀ d : Fin 16, hexDigit d ≠ 0 := by decide

theorem cstring_hex (v w : List Byte) : cstring (hex v ++ 0 :: w) = .ok (hex v) := by
  induction v with
  | nil => simp [hex, cstring]
  | cons b v ih =>
    have h1 := hexDigit_ne_zero ⟨b.toNat / 16, by have := b.isLt; omega⟩
    have h2 := hexDigit_ne_zero ⟨b.toNat % 16, by omega⟩
    simp only [hex, List.cons_append, cstring, if_neg h1, if_neg h2, ih, Except.bind_ok, Except.pure_eq]

theorem hexDigit_inj : ∀ d e : Fin 16, hexDigit d = hexDigit e → d = e := by decide

theorem hex_inj {u v : List Byte} (h : hex u = hex v) : u = v := by
  induction u generalizing v with
  | nil => cases v with
    | nil => rfl
    | cons c v => simp [hex] at h
  | cons b u ih => cases v with
    | nil => simp [hex] at h
    | cons c v =>
      simp only [hex, List.cons.injEq] at h
      have h1 := hexDigit_inj ⟨b.toNat / 16, by have := b.isLt; omega⟩ ⟨c.toNat / 16, by have := c.isLt; omega⟩ h.1
      have h2 := hexDigit_inj ⟨b.toNat % 16, by omega⟩ ⟨c.toNat % 16, by omega⟩ h.2.1
      have : b.toNat = c.toNat := by
        have e1 := congrArg Fin.val h1
        have e2 := congrArg Fin.val h2
        simp only at e1 e2
        omega
      rw [BitVec.eq_of_toNat_eq this, ih h.2.2]

theorem tmp_length (env : Env) (N : Nat) : (tmp env N).length = 2 * N + 1 := by simp [tmp]

end Digest
end Hash2

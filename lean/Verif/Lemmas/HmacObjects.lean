import Verif.Lemmas.Extended
import Verif.Lemmas.Standards
import Verif.Lemmas.Stream
import Verif.Lemmas.Distinct
import Verif.Spec.Future
import Verif.Spec.HmacObjects
import Mathlib.Data.List.Induction
/-
An hmac object is two hash objects.
-/
namespace Hash2
open Spec

namespace HmacObjects

theorem absorb_empty (H : DigestName) : ∀ s : H.machine.S, H.machine.absorb s [] = s := by
  induction H with
  | hmac H ih =>
    intro s
    show (s.1, H.machine.absorb s.2 []) = s
    rw [ih]
    rfl
  | _ => intro s; exact List.append_nil (show List Byte from s)

theorem run_bytes (H : DigestName) (m : List Byte) : ∀ s : H.machine.S, H.machine.run s (m.map .data) = (H.machine.absorb s m, []) := by
  induction m with
  | nil => intro s; rw [absorb_empty]; rfl
  | cons b m ih =>
    intro s
    show H.machine.run (H.machine.absorb s [b]) (m.map .data) = _
    rw [ih, H.absorb_absorb]
    rfl

/-- the tokens of macCalls -/
def macToks (rs : List (List Byte)) : List Tok := rs.flatMap fun r => r.map .data ++ [.fin]

theorem stream_macCalls : ∀ rs : List (List Byte), stream (macCalls rs) = some (macToks rs)
  | [] => rfl
  | r :: rs => by
    have e : macCalls (r :: rs) = [.update (.mem r) r.length, .result] ++ macCalls rs := rfl
    rw [e, stream_append, stream_macCalls rs]
    have : stream [Op.update (.mem r) r.length, .result] = some (r.map .data ++ [.fin]) := by simp [stream, Op.toks]
    rw [this]
    rfl

theorem noNull_macCalls (rs : List (List Byte)) : NoNull (macCalls rs) := by
  intro n hm
  simp [macCalls] at hm

/-- the hmac machine is two machines -/
theorem run (H : DigestName) (ts : List Tok) : ∀ o i : H.machine.S,
    ((H.machine.hmac H.B).run (o, i) ts).2 = (H.machine.run o (macToks (H.machine.run i ts).2)).2 := by
  induction ts with
  | nil => intro o i; rfl
  | cons t ts ih =>
    intro o i
    cases t with
    | data b => exact ih o (H.machine.absorb i [b])
    | fin =>
      have e : macToks (H.machine.run i (.fin :: ts)).2
          = ((H.machine.res i).2.map .data ++ [.fin]) ++ macToks (H.machine.run (H.machine.res i).1 ts).2 := rfl
      rw [e, List.append_assoc, Machine.run_append, run_bytes]
      show (H.machine.res (H.machine.absorb o (H.machine.res i).2)).2 :: ((H.machine.hmac H.B).run _ ts).2
        = [] ++ (H.machine.res (H.machine.absorb o (H.machine.res i).2)).2 :: _
      rw [ih]
      rfl

theorem start_keyed (H : DigestName) (c : Ctor) : c.start (DigestName.hmac H).machine = Machine.hmac.keyed H.machine H.B c.key := by
  cases c <;> rfl

theorem macToks_snoc (rs : List (List Byte)) (r : List Byte) : macToks (rs ++ [r]) = macToks rs ++ r.map .data ++ [.fin] := by
  simp [macToks]

/-- the bytes the outer object has processed when it is asked for the last of these -/
def outer {σ : Type} (D : Md σ) (key : List Byte) (rs : List (List Byte)) : List Byte := D.log (key.map .data ++ (macToks rs).dropLast)

theorem outer_snoc {σ : Type} (D : Md σ) (key : List Byte) (rs : List (List Byte)) (r : List Byte) :
    outer D key (rs ++ [r]) = D.log (key.map .data ++ macToks rs) ++ r := by
  unfold outer
  rw [macToks_snoc, List.dropLast_concat, ← List.append_assoc, D.log_data]

theorem log_snoc {σ : Type} (D : Md σ) (key : List Byte) (rs : List (List Byte)) (r : List Byte) :
    D.log (key.map .data ++ macToks (rs ++ [r])) = D.log (key.map .data ++ macToks rs) ++ r ++ D.pad (D.log (key.map .data ++ macToks rs) ++ r).length := by
  rw [macToks_snoc, ← List.append_assoc, D.log_fin, ← List.append_assoc, D.log_data]

theorem log_inj {σ : Type} (D : Md σ) (key : List Byte) (n : Nat) (rs : List (List Byte)) : ∀ rs' : List (List Byte), rs.length = rs'.length →
    (∀ r ∈ rs, r.length = n) → (∀ r ∈ rs', r.length = n) →
    (D.log (key.map .data ++ macToks rs)).length = (D.log (key.map .data ++ macToks rs')).length ∧
    (D.log (key.map .data ++ macToks rs) = D.log (key.map .data ++ macToks rs') → rs = rs') := by
  induction rs using List.reverseRecOn with
  | nil =>
    intro rs' hl _ _
    obtain rfl := List.length_eq_zero_iff.1 hl.symm
    exact ⟨rfl, fun _ => rfl⟩
  | append_singleton xs x ih =>
    intro rs' hl h h'
    rcases List.eq_nil_or_concat rs' with rfl | ⟨ys, y, rfl⟩
    · simp at hl
    · rw [List.concat_eq_append] at hl h' ⊢
      have hl2 : xs.length = ys.length := by simpa using hl
      obtain ⟨h1, h2⟩ := ih ys hl2 (fun r hr => h r (by simp [hr])) (fun r hr => h' r (by simp [hr]))
      have hx := h x (by simp)
      have hy := h' y (by simp)
      rw [log_snoc, log_snoc]
      have hxy : (D.log (key.map .data ++ macToks xs) ++ x).length = (D.log (key.map .data ++ macToks ys) ++ y).length := by
        rw [List.length_append, List.length_append, h1, hx, hy]
      refine ⟨by rw [List.length_append, hxy, List.length_append, List.length_append, List.length_append], fun e => ?_⟩
      have e1 := (List.append_inj e hxy).1
      have e2 := List.append_inj e1 h1
      rw [h2 e2.1, e2.2]

theorem outer_inj {σ : Type} (D : Md σ) (key : List Byte) (n : Nat) (rs rs' : List (List Byte)) (hl : rs.length = rs'.length)
    (h : ∀ r ∈ rs, r.length = n) (h' : ∀ r ∈ rs', r.length = n) (e : outer D key rs = outer D key rs') : rs = rs' := by
  rcases List.eq_nil_or_concat rs with rfl | ⟨xs, x, rfl⟩
  · exact (List.length_eq_zero_iff.1 hl.symm).symm
  · rcases List.eq_nil_or_concat rs' with rfl | ⟨ys, y, rfl⟩
    · simp at hl
    · rw [List.concat_eq_append] at *
      rw [List.concat_eq_append] at *
      have hl2 : xs.length = ys.length := by simpa using hl
      obtain ⟨h1, h2⟩ := log_inj D key n xs ys hl2 (fun r hr => h r (by simp [hr])) (fun r hr => h' r (by simp [hr]))
      rw [outer_snoc, outer_snoc] at e
      have e2 := List.append_inj e h1
      rw [h2 e2.1, e2.2]

theorem run_macToks {σ : Type} (D : Md σ) (key : List Byte) (rs : List (List Byte)) :
    (D.machine.run D.machine.init (key.map .data ++ macToks rs)).2 = (List.range rs.length).map fun i => D.hash (outer D key (rs.take (i + 1))) := by
  induction rs using List.reverseRecOn with
  | nil => rw [show macToks [] = [] from rfl, List.append_nil, Machine.run_data']; rfl
  | append_singleton xs x ih =>
    have e : (key.map Tok.data ++ macToks (xs ++ [x])) = (key.map Tok.data ++ macToks xs) ++ (x.map Tok.data ++ [Tok.fin]) := by
      rw [macToks_snoc]; simp only [List.append_assoc]
    rw [e, Machine.run_append D.machine, ih, List.length_append, List.length_singleton, List.range_succ, List.map_append]
    show _ ++ _ = _
    congr 1
    · refine List.map_congr_left fun i hi => ?_
      rw [List.take_append_of_le_length (by have := List.mem_range.1 hi; omega)]
    · show _ = [D.hash (outer D key ((xs ++ [x]).take (xs.length + 1)))]
      rw [List.take_of_length_le (by simp), outer_snoc]
      rw [Machine.run_append D.machine]
      have r1 := Md.run_log D (key.map .data ++ macToks xs) []
      have r2 : (D.machine.run ((D.machine.run D.machine.init (key.map .data ++ macToks xs)).1) (x.map .data)).1
          = D.log (key.map .data ++ macToks xs ++ x.map .data) := by
        have q := Md.run_log D (key.map .data ++ macToks xs ++ x.map .data) []
        have q2 := Machine.run_append D.machine D.machine.init (key.map .data ++ macToks xs) (x.map .data)
        exact (congrArg Prod.fst q2).symm.trans q
      rw [D.log_data] at r2
      rw [Machine.run_data', List.nil_append]
      show [D.hash _] = _
      exact congrArg (fun l => [D.hash l]) r2

end HmacObjects

end Hash2

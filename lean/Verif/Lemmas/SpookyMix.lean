import Verif.Lemmas.Murmur
import Verif.Spec.Spooky
/-
The mixing functions of spooky2_128 are those of SpookyHash V2.
-/
set_option linter.unusedSimpArgs false

namespace Hash2.Spooky
open Spec SPOOKY

def ofV (v : V) : Words 12 := ![v.h0, v.h1, v.h2, v.h3, v.h4, v.h5, v.h6, v.h7, v.h8, v.h9, v.h10, v.h11]
def toV (s : Words 12) : V := ⟨s 0, s 1, s 2, s 3, s 4, s 5, s 6, s 7, s 8, s 9, s 10, s 11⟩
def ofQ (q : Q4 W64) : Words 4 := ![q.a, q.b, q.c, q.d]

theorem forall12 {p : Fin 12 → Prop} (h0 : p 0) (h1 : p 1) (h2 : p 2) (h3 : p 3) (h4 : p 4) (h5 : p 5) (h6 : p 6) (h7 : p 7)
    (h8 : p 8) (h9 : p 9) (h10 : p 10) (h11 : p 11) : ∀ j, p j
  | 0 => h0 | 1 => h1 | 2 => h2 | 3 => h3 | 4 => h4 | 5 => h5 | 6 => h6 | 7 => h7 | 8 => h8 | 9 => h9 | 10 => h10 | 11 => h11

theorem forall4 {p : Fin 4 → Prop} (h0 : p 0) (h1 : p 1) (h2 : p 2) (h3 : p 3) : ∀ j, p j
  | 0 => h0 | 1 => h1 | 2 => h2 | 3 => h3

theorem toV_ofV (v : V) : toV (ofV v) = v := rfl

theorem ofV_toV (s : Words 12) : ofV (toV s) = s :=
  funext (forall12 rfl rfl rfl rfl rfl rfl rfl rfl rfl rfl rfl rfl)

theorem mixStep0 (r : Nat) (x : W64) (v : V) : mixStep r x 0 (ofV v) = ofV { v with
    h0 := (v.h0 + x).rotateLeft r, h2 := v.h2 ^^^ v.h10, h11 := (v.h11 ^^^ (v.h0 + x)) + v.h1 } :=
  funext (forall12 rfl rfl rfl rfl rfl rfl rfl rfl rfl rfl rfl rfl)

theorem mixStep1 (r : Nat) (x : W64) (v : V) : mixStep r x 1 (ofV v) = ofV { v with
    h1 := (v.h1 + x).rotateLeft r, h3 := v.h3 ^^^ v.h11, h0 := (v.h0 ^^^ (v.h1 + x)) + v.h2 } :=
  funext (forall12 rfl rfl rfl rfl rfl rfl rfl rfl rfl rfl rfl rfl)

theorem mixStep2 (r : Nat) (x : W64) (v : V) : mixStep r x 2 (ofV v) = ofV { v with
    h2 := (v.h2 + x).rotateLeft r, h4 := v.h4 ^^^ v.h0, h1 := (v.h1 ^^^ (v.h2 + x)) + v.h3 } :=
  funext (forall12 rfl rfl rfl rfl rfl rfl rfl rfl rfl rfl rfl rfl)

theorem mixStep3 (r : Nat) (x : W64) (v : V) : mixStep r x 3 (ofV v) = ofV { v with
    h3 := (v.h3 + x).rotateLeft r, h5 := v.h5 ^^^ v.h1, h2 := (v.h2 ^^^ (v.h3 + x)) + v.h4 } :=
  funext (forall12 rfl rfl rfl rfl rfl rfl rfl rfl rfl rfl rfl rfl)

theorem mixStep4 (r : Nat) (x : W64) (v : V) : mixStep r x 4 (ofV v) = ofV { v with
    h4 := (v.h4 + x).rotateLeft r, h6 := v.h6 ^^^ v.h2, h3 := (v.h3 ^^^ (v.h4 + x)) + v.h5 } :=
  funext (forall12 rfl rfl rfl rfl rfl rfl rfl rfl rfl rfl rfl rfl)

theorem mixStep5 (r : Nat) (x : W64) (v : V) : mixStep r x 5 (ofV v) = ofV { v with
    h5 := (v.h5 + x).rotateLeft r, h7 := v.h7 ^^^ v.h3, h4 := (v.h4 ^^^ (v.h5 + x)) + v.h6 } :=
  funext (forall12 rfl rfl rfl rfl rfl rfl rfl rfl rfl rfl rfl rfl)

theorem mixStep6 (r : Nat) (x : W64) (v : V) : mixStep r x 6 (ofV v) = ofV { v with
    h6 := (v.h6 + x).rotateLeft r, h8 := v.h8 ^^^ v.h4, h5 := (v.h5 ^^^ (v.h6 + x)) + v.h7 } :=
  funext (forall12 rfl rfl rfl rfl rfl rfl rfl rfl rfl rfl rfl rfl)

theorem mixStep7 (r : Nat) (x : W64) (v : V) : mixStep r x 7 (ofV v) = ofV { v with
    h7 := (v.h7 + x).rotateLeft r, h9 := v.h9 ^^^ v.h5, h6 := (v.h6 ^^^ (v.h7 + x)) + v.h8 } :=
  funext (forall12 rfl rfl rfl rfl rfl rfl rfl rfl rfl rfl rfl rfl)

theorem mixStep8 (r : Nat) (x : W64) (v : V) : mixStep r x 8 (ofV v) = ofV { v with
    h8 := (v.h8 + x).rotateLeft r, h10 := v.h10 ^^^ v.h6, h7 := (v.h7 ^^^ (v.h8 + x)) + v.h9 } :=
  funext (forall12 rfl rfl rfl rfl rfl rfl rfl rfl rfl rfl rfl rfl)

theorem mixStep9 (r : Nat) (x : W64) (v : V) : mixStep r x 9 (ofV v) = ofV { v with
    h9 := (v.h9 + x).rotateLeft r, h11 := v.h11 ^^^ v.h7, h8 := (v.h8 ^^^ (v.h9 + x)) + v.h10 } :=
  funext (forall12 rfl rfl rfl rfl rfl rfl rfl rfl rfl rfl rfl rfl)

theorem mixStep10 (r : Nat) (x : W64) (v : V) : mixStep r x 10 (ofV v) = ofV { v with
    h10 := (v.h10 + x).rotateLeft r, h0 := v.h0 ^^^ v.h8, h9 := (v.h9 ^^^ (v.h10 + x)) + v.h11 } :=
  funext (forall12 rfl rfl rfl rfl rfl rfl rfl rfl rfl rfl rfl rfl)

theorem mixStep11 (r : Nat) (x : W64) (v : V) : mixStep r x 11 (ofV v) = ofV { v with
    h11 := (v.h11 + x).rotateLeft r, h1 := v.h1 ^^^ v.h9, h10 := (v.h10 ^^^ (v.h11 + x)) + v.h0 } :=
  funext (forall12 rfl rfl rfl rfl rfl rfl rfl rfl rfl rfl rfl rfl)

theorem endStep0 (r : Nat) (v : V) : endStep r 0 (ofV v) = ofV { v with
    h11 := v.h11 + v.h1, h2 := v.h2 ^^^ (v.h11 + v.h1), h1 := v.h1.rotateLeft r } :=
  funext (forall12 rfl rfl rfl rfl rfl rfl rfl rfl rfl rfl rfl rfl)

theorem endStep1 (r : Nat) (v : V) : endStep r 1 (ofV v) = ofV { v with
    h0 := v.h0 + v.h2, h3 := v.h3 ^^^ (v.h0 + v.h2), h2 := v.h2.rotateLeft r } :=
  funext (forall12 rfl rfl rfl rfl rfl rfl rfl rfl rfl rfl rfl rfl)

theorem endStep2 (r : Nat) (v : V) : endStep r 2 (ofV v) = ofV { v with
    h1 := v.h1 + v.h3, h4 := v.h4 ^^^ (v.h1 + v.h3), h3 := v.h3.rotateLeft r } :=
  funext (forall12 rfl rfl rfl rfl rfl rfl rfl rfl rfl rfl rfl rfl)

theorem endStep3 (r : Nat) (v : V) : endStep r 3 (ofV v) = ofV { v with
    h2 := v.h2 + v.h4, h5 := v.h5 ^^^ (v.h2 + v.h4), h4 := v.h4.rotateLeft r } :=
  funext (forall12 rfl rfl rfl rfl rfl rfl rfl rfl rfl rfl rfl rfl)

theorem endStep4 (r : Nat) (v : V) : endStep r 4 (ofV v) = ofV { v with
    h3 := v.h3 + v.h5, h6 := v.h6 ^^^ (v.h3 + v.h5), h5 := v.h5.rotateLeft r } :=
  funext (forall12 rfl rfl rfl rfl rfl rfl rfl rfl rfl rfl rfl rfl)

theorem endStep5 (r : Nat) (v : V) : endStep r 5 (ofV v) = ofV { v with
    h4 := v.h4 + v.h6, h7 := v.h7 ^^^ (v.h4 + v.h6), h6 := v.h6.rotateLeft r } :=
  funext (forall12 rfl rfl rfl rfl rfl rfl rfl rfl rfl rfl rfl rfl)

theorem endStep6 (r : Nat) (v : V) : endStep r 6 (ofV v) = ofV { v with
    h5 := v.h5 + v.h7, h8 := v.h8 ^^^ (v.h5 + v.h7), h7 := v.h7.rotateLeft r } :=
  funext (forall12 rfl rfl rfl rfl rfl rfl rfl rfl rfl rfl rfl rfl)

theorem endStep7 (r : Nat) (v : V) : endStep r 7 (ofV v) = ofV { v with
    h6 := v.h6 + v.h8, h9 := v.h9 ^^^ (v.h6 + v.h8), h8 := v.h8.rotateLeft r } :=
  funext (forall12 rfl rfl rfl rfl rfl rfl rfl rfl rfl rfl rfl rfl)

theorem endStep8 (r : Nat) (v : V) : endStep r 8 (ofV v) = ofV { v with
    h7 := v.h7 + v.h9, h10 := v.h10 ^^^ (v.h7 + v.h9), h9 := v.h9.rotateLeft r } :=
  funext (forall12 rfl rfl rfl rfl rfl rfl rfl rfl rfl rfl rfl rfl)

theorem endStep9 (r : Nat) (v : V) : endStep r 9 (ofV v) = ofV { v with
    h8 := v.h8 + v.h10, h11 := v.h11 ^^^ (v.h8 + v.h10), h10 := v.h10.rotateLeft r } :=
  funext (forall12 rfl rfl rfl rfl rfl rfl rfl rfl rfl rfl rfl rfl)

theorem endStep10 (r : Nat) (v : V) : endStep r 10 (ofV v) = ofV { v with
    h9 := v.h9 + v.h11, h0 := v.h0 ^^^ (v.h9 + v.h11), h11 := v.h11.rotateLeft r } :=
  funext (forall12 rfl rfl rfl rfl rfl rfl rfl rfl rfl rfl rfl rfl)

theorem endStep11 (r : Nat) (v : V) : endStep r 11 (ofV v) = ofV { v with
    h10 := v.h10 + v.h0, h1 := v.h1 ^^^ (v.h10 + v.h0), h0 := v.h0.rotateLeft r } :=
  funext (forall12 rfl rfl rfl rfl rfl rfl rfl rfl rfl rfl rfl rfl)

theorem shortMixStep0 (r : Nat) (q : Q4 W64) : shortMixStep r 0 (ofQ q) = ofQ { q with
    a := q.a.rotateLeft r + q.b, c := q.c ^^^ (q.a.rotateLeft r + q.b) } :=
  funext (forall4 rfl rfl rfl rfl)

theorem shortEndStep0 (r : Nat) (q : Q4 W64) : shortEndStep r 0 (ofQ q) = ofQ { q with
    a := q.a.rotateLeft r, b := (q.b ^^^ q.a) + q.a.rotateLeft r } :=
  funext (forall4 rfl rfl rfl rfl)

theorem shortMixStep1 (r : Nat) (q : Q4 W64) : shortMixStep r 1 (ofQ q) = ofQ { q with
    b := q.b.rotateLeft r + q.c, d := q.d ^^^ (q.b.rotateLeft r + q.c) } :=
  funext (forall4 rfl rfl rfl rfl)

theorem shortEndStep1 (r : Nat) (q : Q4 W64) : shortEndStep r 1 (ofQ q) = ofQ { q with
    b := q.b.rotateLeft r, c := (q.c ^^^ q.b) + q.b.rotateLeft r } :=
  funext (forall4 rfl rfl rfl rfl)

theorem shortMixStep2 (r : Nat) (q : Q4 W64) : shortMixStep r 2 (ofQ q) = ofQ { q with
    c := q.c.rotateLeft r + q.d, a := q.a ^^^ (q.c.rotateLeft r + q.d) } :=
  funext (forall4 rfl rfl rfl rfl)

theorem shortEndStep2 (r : Nat) (q : Q4 W64) : shortEndStep r 2 (ofQ q) = ofQ { q with
    c := q.c.rotateLeft r, d := (q.d ^^^ q.c) + q.c.rotateLeft r } :=
  funext (forall4 rfl rfl rfl rfl)

theorem shortMixStep3 (r : Nat) (q : Q4 W64) : shortMixStep r 3 (ofQ q) = ofQ { q with
    d := q.d.rotateLeft r + q.a, b := q.b ^^^ (q.d.rotateLeft r + q.a) } :=
  funext (forall4 rfl rfl rfl rfl)

theorem shortEndStep3 (r : Nat) (q : Q4 W64) : shortEndStep r 3 (ofQ q) = ofQ { q with
    d := q.d.rotateLeft r, a := (q.a ^^^ q.d) + q.d.rotateLeft r } :=
  funext (forall4 rfl rfl rfl rfl)

theorem shortMix_ok (q : Q4 W64) : ofQ (short_mix q) = shortMix (ofQ q) := by
  rw [shortMix, show List.range 12 = [0, 1, 2, 3, 4, 5, 6, 7, 8, 9, 10, 11] from rfl]
  simp only [List.foldl_cons, List.foldl_nil, shortMixRot, List.getD_cons_zero, List.getD_cons_succ]
  simp only [show Fin.ofNat 4 (0 + 2) = 2 from rfl, show Fin.ofNat 4 (1 + 2) = 3 from rfl, show Fin.ofNat 4 (2 + 2) = 0 from rfl,
    show Fin.ofNat 4 (3 + 2) = 1 from rfl, show Fin.ofNat 4 (4 + 2) = 2 from rfl, show Fin.ofNat 4 (5 + 2) = 3 from rfl,
    show Fin.ofNat 4 (6 + 2) = 0 from rfl, show Fin.ofNat 4 (7 + 2) = 1 from rfl, show Fin.ofNat 4 (8 + 2) = 2 from rfl,
    show Fin.ofNat 4 (9 + 2) = 3 from rfl, show Fin.ofNat 4 (10 + 2) = 0 from rfl, show Fin.ofNat 4 (11 + 2) = 1 from rfl,
    shortMixStep0, shortMixStep1, shortMixStep2, shortMixStep3]
  simp only [short_mix, rotl_eq _ (by decide : 5 < 64), rotl_eq _ (by decide : 9 < 64), rotl_eq _ (by decide : 10 < 64), rotl_eq _ (by decide : 11 < 64), rotl_eq _ (by decide : 13 < 64), rotl_eq _ (by decide : 15 < 64), rotl_eq _ (by decide : 17 < 64), rotl_eq _ (by decide : 21 < 64), rotl_eq _ (by decide : 22 < 64), rotl_eq _ (by decide : 25 < 64), rotl_eq _ (by decide : 26 < 64), rotl_eq _ (by decide : 28 < 64), rotl_eq _ (by decide : 30 < 64), rotl_eq _ (by decide : 31 < 64), rotl_eq _ (by decide : 32 < 64), rotl_eq _ (by decide : 33 < 64), rotl_eq _ (by decide : 34 < 64), rotl_eq _ (by decide : 36 < 64), rotl_eq _ (by decide : 37 < 64), rotl_eq _ (by decide : 38 < 64), rotl_eq _ (by decide : 39 < 64), rotl_eq _ (by decide : 41 < 64), rotl_eq _ (by decide : 42 < 64), rotl_eq _ (by decide : 43 < 64), rotl_eq _ (by decide : 44 < 64), rotl_eq _ (by decide : 46 < 64), rotl_eq _ (by decide : 47 < 64), rotl_eq _ (by decide : 48 < 64), rotl_eq _ (by decide : 50 < 64), rotl_eq _ (by decide : 51 < 64), rotl_eq _ (by decide : 52 < 64), rotl_eq _ (by decide : 53 < 64), rotl_eq _ (by decide : 54 < 64), rotl_eq _ (by decide : 55 < 64), rotl_eq _ (by decide : 57 < 64), rotl_eq _ (by decide : 62 < 64), rotl_eq _ (by decide : 63 < 64)]

theorem shortEnd_ok (q : Q4 W64) : ofQ (short_end q) = shortEnd (ofQ q) := by
  rw [shortEnd, show List.range 11 = [0, 1, 2, 3, 4, 5, 6, 7, 8, 9, 10] from rfl]
  simp only [List.foldl_cons, List.foldl_nil, shortEndRot, List.getD_cons_zero, List.getD_cons_succ]
  simp only [show Fin.ofNat 4 (0 + 2) = 2 from rfl, show Fin.ofNat 4 (1 + 2) = 3 from rfl, show Fin.ofNat 4 (2 + 2) = 0 from rfl,
    show Fin.ofNat 4 (3 + 2) = 1 from rfl, show Fin.ofNat 4 (4 + 2) = 2 from rfl, show Fin.ofNat 4 (5 + 2) = 3 from rfl,
    show Fin.ofNat 4 (6 + 2) = 0 from rfl, show Fin.ofNat 4 (7 + 2) = 1 from rfl, show Fin.ofNat 4 (8 + 2) = 2 from rfl,
    show Fin.ofNat 4 (9 + 2) = 3 from rfl, show Fin.ofNat 4 (10 + 2) = 0 from rfl,
    shortEndStep0, shortEndStep1, shortEndStep2, shortEndStep3]
  simp only [short_end, rotl_eq _ (by decide : 5 < 64), rotl_eq _ (by decide : 9 < 64), rotl_eq _ (by decide : 10 < 64), rotl_eq _ (by decide : 11 < 64), rotl_eq _ (by decide : 13 < 64), rotl_eq _ (by decide : 15 < 64), rotl_eq _ (by decide : 17 < 64), rotl_eq _ (by decide : 21 < 64), rotl_eq _ (by decide : 22 < 64), rotl_eq _ (by decide : 25 < 64), rotl_eq _ (by decide : 26 < 64), rotl_eq _ (by decide : 28 < 64), rotl_eq _ (by decide : 30 < 64), rotl_eq _ (by decide : 31 < 64), rotl_eq _ (by decide : 32 < 64), rotl_eq _ (by decide : 33 < 64), rotl_eq _ (by decide : 34 < 64), rotl_eq _ (by decide : 36 < 64), rotl_eq _ (by decide : 37 < 64), rotl_eq _ (by decide : 38 < 64), rotl_eq _ (by decide : 39 < 64), rotl_eq _ (by decide : 41 < 64), rotl_eq _ (by decide : 42 < 64), rotl_eq _ (by decide : 43 < 64), rotl_eq _ (by decide : 44 < 64), rotl_eq _ (by decide : 46 < 64), rotl_eq _ (by decide : 47 < 64), rotl_eq _ (by decide : 48 < 64), rotl_eq _ (by decide : 50 < 64), rotl_eq _ (by decide : 51 < 64), rotl_eq _ (by decide : 52 < 64), rotl_eq _ (by decide : 53 < 64), rotl_eq _ (by decide : 54 < 64), rotl_eq _ (by decide : 55 < 64), rotl_eq _ (by decide : 57 < 64), rotl_eq _ (by decide : 62 < 64), rotl_eq _ (by decide : 63 < 64)]

theorem endPartial_ok (v : V) : ofV (end_partial v) = endPartial (ofV v) := by
  rw [endPartial, show List.range 12 = [0, 1, 2, 3, 4, 5, 6, 7, 8, 9, 10, 11] from rfl]
  simp only [List.foldl_cons, List.foldl_nil, endRot, List.getD_cons_zero, List.getD_cons_succ]
  simp only [show Fin.ofNat 12 0 = 0 from rfl, show Fin.ofNat 12 1 = 1 from rfl, show Fin.ofNat 12 2 = 2 from rfl, show Fin.ofNat 12 3 = 3 from rfl, show Fin.ofNat 12 4 = 4 from rfl, show Fin.ofNat 12 5 = 5 from rfl, show Fin.ofNat 12 6 = 6 from rfl, show Fin.ofNat 12 7 = 7 from rfl, show Fin.ofNat 12 8 = 8 from rfl, show Fin.ofNat 12 9 = 9 from rfl, show Fin.ofNat 12 10 = 10 from rfl, show Fin.ofNat 12 11 = 11 from rfl,
    endStep0, endStep1, endStep2, endStep3, endStep4, endStep5, endStep6, endStep7, endStep8, endStep9, endStep10, endStep11]
  simp only [end_partial, rotl_eq _ (by decide : 5 < 64), rotl_eq _ (by decide : 9 < 64), rotl_eq _ (by decide : 10 < 64), rotl_eq _ (by decide : 11 < 64), rotl_eq _ (by decide : 13 < 64), rotl_eq _ (by decide : 15 < 64), rotl_eq _ (by decide : 17 < 64), rotl_eq _ (by decide : 21 < 64), rotl_eq _ (by decide : 22 < 64), rotl_eq _ (by decide : 25 < 64), rotl_eq _ (by decide : 26 < 64), rotl_eq _ (by decide : 28 < 64), rotl_eq _ (by decide : 30 < 64), rotl_eq _ (by decide : 31 < 64), rotl_eq _ (by decide : 32 < 64), rotl_eq _ (by decide : 33 < 64), rotl_eq _ (by decide : 34 < 64), rotl_eq _ (by decide : 36 < 64), rotl_eq _ (by decide : 37 < 64), rotl_eq _ (by decide : 38 < 64), rotl_eq _ (by decide : 39 < 64), rotl_eq _ (by decide : 41 < 64), rotl_eq _ (by decide : 42 < 64), rotl_eq _ (by decide : 43 < 64), rotl_eq _ (by decide : 44 < 64), rotl_eq _ (by decide : 46 < 64), rotl_eq _ (by decide : 47 < 64), rotl_eq _ (by decide : 48 < 64), rotl_eq _ (by decide : 50 < 64), rotl_eq _ (by decide : 51 < 64), rotl_eq _ (by decide : 52 < 64), rotl_eq _ (by decide : 53 < 64), rotl_eq _ (by decide : 54 < 64), rotl_eq _ (by decide : 55 < 64), rotl_eq _ (by decide : 57 < 64), rotl_eq _ (by decide : 62 < 64), rotl_eq _ (by decide : 63 < 64)]

theorem mix_read (env : Env) (b more : List Byte) (hb : b.length = 96) (i : Nat) (hi : i < 12) :
    read64le env (.mem ((b ++ more).drop (8 * i))) = .ok (word b i) := by
  rw [read64le_ok env _ (by simp; omega), List.drop_append_of_le_length (by omega), List.take_append_of_le_length (by simp; omega)]
  rfl

theorem mix_ok (env : Env) (v : V) (b more : List Byte) (hb : b.length = 96) :
    Spooky.mix env (.mem (b ++ more)) v = .ok (toV (SPOOKY.mix (ofV v) b)) := by
  have hr := mix_read env b more hb
  have ha : ∀ i, i < 12 → (Ptr.mem (b ++ more)).add (8 * i) = .ok (.mem ((b ++ more).drop (8 * i))) := by
    intro i hi; exact Ptr.add_mem (by simp; omega)
  have a0 := ha 0 (by omega); have r0 := hr 0 (by omega)
  have a1 := ha 1 (by omega); have r1 := hr 1 (by omega)
  have a2 := ha 2 (by omega); have r2 := hr 2 (by omega)
  have a3 := ha 3 (by omega); have r3 := hr 3 (by omega)
  have a4 := ha 4 (by omega); have r4 := hr 4 (by omega)
  have a5 := ha 5 (by omega); have r5 := hr 5 (by omega)
  have a6 := ha 6 (by omega); have r6 := hr 6 (by omega)
  have a7 := ha 7 (by omega); have r7 := hr 7 (by omega)
  have a8 := ha 8 (by omega); have r8 := hr 8 (by omega)
  have a9 := ha 9 (by omega); have r9 := hr 9 (by omega)
  have a10 := ha 10 (by omega); have r10 := hr 10 (by omega)
  have a11 := ha 11 (by omega); have r11 := hr 11 (by omega)
  simp only [Nat.mul_zero, Nat.reduceMul] at a0 r0 a1 r1 a2 r2 a3 r3 a4 r4 a5 r5 a6 r6 a7 r7 a8 r8 a9 r9 a10 r10 a11 r11
  unfold Spooky.mix
  simp only [a0, r0, a1, r1, a2, r2, a3, r3, a4, r4, a5, r5, a6, r6, a7, r7, a8, r8, a9, r9, a10, r10, a11, r11, Except.bind_ok, Except.pure_eq]
  rw [SPOOKY.mix, show List.range 12 = [0, 1, 2, 3, 4, 5, 6, 7, 8, 9, 10, 11] from rfl]
  simp only [List.foldl_cons, List.foldl_nil, mixRot, List.getD_cons_zero, List.getD_cons_succ]
  simp only [show Fin.ofNat 12 0 = 0 from rfl, show Fin.ofNat 12 1 = 1 from rfl, show Fin.ofNat 12 2 = 2 from rfl, show Fin.ofNat 12 3 = 3 from rfl, show Fin.ofNat 12 4 = 4 from rfl, show Fin.ofNat 12 5 = 5 from rfl, show Fin.ofNat 12 6 = 6 from rfl, show Fin.ofNat 12 7 = 7 from rfl, show Fin.ofNat 12 8 = 8 from rfl, show Fin.ofNat 12 9 = 9 from rfl, show Fin.ofNat 12 10 = 10 from rfl, show Fin.ofNat 12 11 = 11 from rfl,
    mixStep0, mixStep1, mixStep2, mixStep3, mixStep4, mixStep5, mixStep6, mixStep7, mixStep8, mixStep9, mixStep10, mixStep11, toV_ofV]
  simp only [rotl_eq _ (by decide : 5 < 64), rotl_eq _ (by decide : 9 < 64), rotl_eq _ (by decide : 10 < 64), rotl_eq _ (by decide : 11 < 64), rotl_eq _ (by decide : 13 < 64), rotl_eq _ (by decide : 15 < 64), rotl_eq _ (by decide : 17 < 64), rotl_eq _ (by decide : 21 < 64), rotl_eq _ (by decide : 22 < 64), rotl_eq _ (by decide : 25 < 64), rotl_eq _ (by decide : 26 < 64), rotl_eq _ (by decide : 28 < 64), rotl_eq _ (by decide : 30 < 64), rotl_eq _ (by decide : 31 < 64), rotl_eq _ (by decide : 32 < 64), rotl_eq _ (by decide : 33 < 64), rotl_eq _ (by decide : 34 < 64), rotl_eq _ (by decide : 36 < 64), rotl_eq _ (by decide : 37 < 64), rotl_eq _ (by decide : 38 < 64), rotl_eq _ (by decide : 39 < 64), rotl_eq _ (by decide : 41 < 64), rotl_eq _ (by decide : 42 < 64), rotl_eq _ (by decide : 43 < 64), rotl_eq _ (by decide : 44 < 64), rotl_eq _ (by decide : 46 < 64), rotl_eq _ (by decide : 47 < 64), rotl_eq _ (by decide : 48 < 64), rotl_eq _ (by decide : 50 < 64), rotl_eq _ (by decide : 51 < 64), rotl_eq _ (by decide : 52 < 64), rotl_eq _ (by decide : 53 < 64), rotl_eq _ (by decide : 54 < 64), rotl_eq _ (by decide : 55 < 64), rotl_eq _ (by decide : 57 < 64), rotl_eq _ (by decide : 62 < 64), rotl_eq _ (by decide : 63 < 64)]

theorem end_ok (env : Env) (v : V) (b more : List Byte) (hb : b.length = 96) :
    end_ env (.mem (b ++ more)) v = .ok (toV (finalBlock (ofV v) b)) := by
  have hr := mix_read env b more hb
  have ha : ∀ i, i < 12 → (Ptr.mem (b ++ more)).add (8 * i) = .ok (.mem ((b ++ more).drop (8 * i))) := by
    intro i hi; exact Ptr.add_mem (by simp; omega)
  have a0 := ha 0 (by omega); have r0 := hr 0 (by omega)
  have a1 := ha 1 (by omega); have r1 := hr 1 (by omega)
  have a2 := ha 2 (by omega); have r2 := hr 2 (by omega)
  have a3 := ha 3 (by omega); have r3 := hr 3 (by omega)
  have a4 := ha 4 (by omega); have r4 := hr 4 (by omega)
  have a5 := ha 5 (by omega); have r5 := hr 5 (by omega)
  have a6 := ha 6 (by omega); have r6 := hr 6 (by omega)
  have a7 := ha 7 (by omega); have r7 := hr 7 (by omega)
  have a8 := ha 8 (by omega); have r8 := hr 8 (by omega)
  have a9 := ha 9 (by omega); have r9 := hr 9 (by omega)
  have a10 := ha 10 (by omega); have r10 := hr 10 (by omega)
  have a11 := ha 11 (by omega); have r11 := hr 11 (by omega)
  simp only [Nat.mul_zero, Nat.reduceMul] at a0 r0 a1 r1 a2 r2 a3 r3 a4 r4 a5 r5 a6 r6 a7 r7 a8 r8 a9 r9 a10 r10 a11 r11
  unfold end_
  simp only [a0, r0, a1, r1, a2, r2, a3, r3, a4, r4, a5, r5, a6, r6, a7, r7, a8, r8, a9, r9, a10, r10, a11, r11, Except.bind_ok, Except.pure_eq]
  have e : (fun i : Fin 12 => ofV v i + word b i) = ofV ⟨v.h0 + word b 0, v.h1 + word b 1, v.h2 + word b 2, v.h3 + word b 3, v.h4 + word b 4, v.h5 + word b 5, v.h6 + word b 6, v.h7 + word b 7, v.h8 + word b 8, v.h9 + word b 9, v.h10 + word b 10, v.h11 + word b 11⟩ :=
    funext (forall12 rfl rfl rfl rfl rfl rfl rfl rfl rfl rfl rfl rfl)
  rw [finalBlock, e, ← endPartial_ok, ← endPartial_ok, ← endPartial_ok, toV_ofV]

end Hash2.Spooky

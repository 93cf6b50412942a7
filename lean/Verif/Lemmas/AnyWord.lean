import Verif.Lemmas.Local
/-
XXH32: a change in one word of one of the four lanes is never lost.
-/
namespace Hash2
open Spec

namespace XX32L

theorem round_inj_lane (a : BitVec 32) {x y : BitVec 32} (h : XXH32.round a x = XXH32.round a y) : x = y :=
  mul_inj 0xb6c92f47#32 (by decide) ((BitVec.add_right_inj _).1 (rotl_inj 13 (mul_inj 0x0e8b2f51#32 (by decide) h)))

/-- lane k of the message from accumulator x -/
def laneFold (m : List Byte) (k : Nat) (x : BitVec 32) : BitVec 32 :=
  ((List.range (m.length / 16)).map fun q => (m.drop (4 * (4 * q + k))).take 4).foldl (fun x b => XXH32.round x (leWord 32 b)) x

theorem lane_block (m : List Byte) (q k : Nat) (hk : k < 4) :
    XXH32.lane ((m.drop (16 * q)).take 16) k = leWord 32 ((m.drop (4 * (4 * q + k))).take 4) := by
  unfold XXH32.lane
  rw [List.drop_take, List.take_take, List.drop_drop, show min 4 (16 - 4 * k) = 4 by omega,
    show 16 * q + 4 * k = 4 * (4 * q + k) by omega]

theorem stripes (m : List Byte) (a : Acc4 32) :
    (blocks 16 m).foldl XXH32.stripe a = ⟨laneFold m 0 a.a1, laneFold m 1 a.a2, laneFold m 2 a.a3, laneFold m 3 a.a4⟩ := by
  unfold laneFold blocks
  induction m.length / 16 with
  | zero => rfl
  | succ n ih =>
    rw [List.range_succ]
    simp only [List.map_append, List.foldl_append, List.map_cons, List.map_nil, List.foldl_cons, List.foldl_nil]
    rw [ih]
    simp only [XXH32.stripe, lane_block m n _ (show 0 < 4 by decide), lane_block m n _ (show 1 < 4 by decide),
      lane_block m n _ (show 2 < 4 by decide), lane_block m n _ (show 3 < 4 by decide)]

variable {m m' : List Byte} {i : Nat}

theorem laneFold_same (hd : DifferOnlyIn (fun j => j / 4 = i) m m') {k : Nat} (hk : k < 4) (hne : i % 4 ≠ k) (x : BitVec 32) :
    laneFold m k x = laneFold m' k x := by
  unfold laneFold
  rw [← hd.length]
  congr 1
  refine List.map_congr_left fun q _ => block_agree (by decide) fun j hj => hd.same j (by omega)

theorem laneFold_ne (hd : DifferOnlyIn (fun j => j / 4 = i) m m') (hi : i / 4 < m.length / 16) (x : BitVec 32) :
    laneFold m (i % 4) x ≠ laneFold m' (i % 4) x := by
  unfold laneFold
  rw [← hd.length]
  have h1 := (hd.block (by decide) (show i < m.length / 4 by omega)).1
  have hlen : ∀ l : List Byte, l.length = m.length → ((l.drop (4 * i)).take 4).length = 4 := fun l hl => by
    rw [List.length_take, List.length_drop]; omega
  refine foldl_range_ne (f := fun x b => XXH32.round x (leWord 32 b)) (i := i / 4) (fun b x y h => round_inj _ h) _ _ hi (fun s e => ?_) (fun q hq => ?_) x
  · have e := round_inj_lane _ e
    rw [show 4 * (i / 4) + i % 4 = i by omega] at e
    exact h1 (leWord_inj_same ((hlen m rfl).trans (hlen m' hd.length.symm).symm) (by rw [hlen m rfl]) e)
  · exact block_agree (by decide) fun j hj => hd.same j (by omega)

theorem converge_ne (hd : DifferOnlyIn (fun j => j / 4 = i) m m') (hi : i / 4 < m.length / 16) (a : Acc4 32) :
    XXH32.converge ((blocks 16 m).foldl XXH32.stripe a) ≠ XXH32.converge ((blocks 16 m').foldl XXH32.stripe a) := by
  rw [stripes, stripes]
  unfold XXH32.converge
  simp only
  intro e
  have hne := laneFold_ne hd hi
  have hs := fun k hk h => laneFold_same hd (k := k) hk h
  rcases (show i % 4 = 0 ∨ i % 4 = 1 ∨ i % 4 = 2 ∨ i % 4 = 3 by omega) with h | h | h | h <;> rw [h] at hne hs
  · rw [hs 1 (by decide) (by decide), hs 2 (by decide) (by decide), hs 3 (by decide) (by decide)] at e
    exact hne _ (rotl_inj 1 ((BitVec.add_left_inj _).1 ((BitVec.add_left_inj _).1 ((BitVec.add_left_inj _).1 e))))
  · rw [hs 0 (by decide) (by decide), hs 2 (by decide) (by decide), hs 3 (by decide) (by decide)] at e
    exact hne _ (rotl_inj 7 ((BitVec.add_right_inj _).1 ((BitVec.add_left_inj _).1 ((BitVec.add_left_inj _).1 e))))
  · rw [hs 0 (by decide) (by decide), hs 1 (by decide) (by decide), hs 3 (by decide) (by decide)] at e
    exact hne _ (rotl_inj 12 ((BitVec.add_right_inj _).1 ((BitVec.add_left_inj _).1 e)))
  · rw [hs 0 (by decide) (by decide), hs 1 (by decide) (by decide), hs 2 (by decide) (by decide)] at e
    exact hne _ (rotl_inj 18 ((BitVec.add_right_inj _).1 e))

end XX32L
end Hash2

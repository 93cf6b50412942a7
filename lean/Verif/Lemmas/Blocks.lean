import Verif.Spec.Blocks
/-
Lemmas about cutting messages into blocks.
-/
namespace Hash2.Spec

theorem blocks_short {N : Nat} {l : List Byte} (h : l.length < N) : blocks N l = [] := by
  simp [blocks, Nat.div_eq_of_lt h]

theorem rest_short {N : Nat} {l : List Byte} (h : l.length < N) : rest N l = l := by
  simp [rest, Nat.div_eq_of_lt h]

theorem blocks_append {N : Nat} (hN : 0 < N) {b l : List Byte} (h : b.length = N) :
    blocks N (b ++ l) = b :: blocks N l := by
  unfold blocks
  rw [List.length_append, h, Nat.add_comm N, Nat.add_div_right _ hN, List.range_succ_eq_map, List.map_cons,
    List.map_map]
  congr 1
  · simp [h]
  · apply List.map_congr_left
    intro i _
    simp only [Function.comp, Nat.succ_eq_add_one, Nat.mul_add, Nat.mul_one]
    rw [List.drop_append, List.drop_of_length_le (by omega), List.nil_append, h, Nat.add_sub_cancel]

theorem rest_append {N : Nat} (hN : 0 < N) {b l : List Byte} (h : b.length = N) :
    rest N (b ++ l) = rest N l := by
  unfold rest
  rw [List.length_append, h, Nat.add_comm N, Nat.add_div_right _ hN, Nat.mul_add, Nat.mul_one,
    List.drop_append, List.drop_of_length_le (by omega), List.nil_append, h, Nat.add_sub_cancel]

theorem rest_length (N : Nat) (l : List Byte) : (rest N l).length = l.length % N := by
  rw [rest, List.length_drop]
  have := Nat.div_add_mod l.length N
  omega

theorem rest_length_lt {N : Nat} (hN : 0 < N) (l : List Byte) : (rest N l).length < N := by
  rw [rest_length]; exact Nat.mod_lt _ hN

theorem blocks_mem_length {N : Nat} {l b : List Byte} (hb : b ∈ blocks N l) : b.length = N := by
  obtain ⟨i, hi, rfl⟩ := List.mem_map.1 hb
  rw [List.mem_range] at hi
  rw [List.length_take, List.length_drop]
  have h1 := Nat.div_mul_le_self l.length N
  have h2 : (i + 1) * N ≤ l.length / N * N := Nat.mul_le_mul_right N hi
  rw [Nat.add_mul, Nat.mul_comm i N] at h2
  omega

/-- the whole blocks of a message, processed in two steps -/
theorem blocks_split {N : Nat} (hN : 0 < N) (l l' : List Byte) :
    blocks N (l ++ l') = blocks N l ++ blocks N (rest N l ++ l') ∧
      rest N (l ++ l') = rest N (rest N l ++ l') := by
  induction h : l.length using Nat.strongRecOn generalizing l with
  | _ k ih =>
    by_cases hk : l.length < N
    · rw [blocks_short hk, rest_short hk]; simp
    · have hle : N ≤ l.length := by omega
      obtain ⟨b, t, rfl, hb⟩ : ∃ b t, l = b ++ t ∧ b.length = N :=
        ⟨l.take N, l.drop N, (List.take_append_drop N l).symm, by simp; omega⟩
      have hlt : t.length < k := by rw [← h, List.length_append]; omega
      have := ih t.length hlt t rfl
      rw [List.append_assoc, blocks_append hN hb, rest_append hN hb, blocks_append hN hb, rest_append hN hb,
        this.1, this.2]
      simp

end Hash2.Spec

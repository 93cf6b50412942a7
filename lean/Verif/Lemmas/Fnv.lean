import Verif.Lemmas.XX64
import Verif.Spec.Fnv
/-
fnv1a implements FNV-1a.
-/
namespace Hash2.Fnv
open Spec

theorem update_ok {w : Nat} (c : Const w) (h : BitVec w) (bs more : List Byte) :
    update c h (.mem (bs ++ more)) bs.length = .ok (FNV.feed c.prime h bs) := by
  obtain ⟨a, e, ha⟩ := forLoop_inv (fun i h => do
      let b ← (Ptr.mem (bs ++ more)).get i
      let h := h ^^^ b.zeroExtend w
      let h := h * c.prime
      return h) 0 (fun j x => x = FNV.feed c.prime h (bs.take j)) h (by simp [FNV.feed]) bs.length (by
        intro j x hj hx
        subst hx
        rw [Nat.zero_add, Ptr.get_mem (by simp; omega)]
        refine ⟨_, rfl, ?_⟩
        rw [List.take_add_one, List.getElem?_eq_getElem hj, Option.toList_some]
        simp only [FNV.feed, List.foldl_append, List.foldl_cons, List.foldl_nil, List.getElem_append_left hj,
          zeroExtend_ofNat])
  rw [List.take_length] at ha
  rw [update, e, ha]

theorem feed_append {w : Nat} (p h : BitVec w) (xs ys : List Byte) : FNV.feed p h (xs ++ ys) = FNV.feed p (FNV.feed p h xs) ys := by
  simp [FNV.feed]

/-- fnv1a<T> implements FNV-1a of the width of T -/
def implementsGen {w : Nat} (c : Const w) (hb : c.basis = FNV.basis c.prime) (env : Env) (integral : Env → BitVec w → M W64) :
    Implements ⟨BitVec w, BitVec w, fun _ => .ok c.basis, initSeed c, fun _ => initBytes c, fun _ => update c,
      fun _ s => .ok (result c s), integral⟩ env (FNV.machine c.prime) where
  Rel s a := s = a
  nullSafe := True
  fits _ _ := True
  fits_nil _ _ _ := trivial
  fits_append _ _ _ := by simp
  absorb_nil _ _ _ := rfl
  absorb_append := feed_append c.prime
  update_ok s a bs more h _ := ⟨_, update_ok c s bs more, by rw [h]; rfl⟩
  null_ok _ s a _ := rfl
  result_ok s a h := by
    subst h
    refine ⟨_, rfl, ?_⟩
    simp [result, FNV.machine, FNV.feed]
  init_ok := ⟨_, rfl, hb⟩
  seed_ok k := by
    show ∃ s, initSeed c env k = .ok s ∧ s = (if k = 0 then _ else _)
    unfold initSeed
    by_cases hk : k = 0
    · rw [if_neg (by simpa using hk), if_pos hk]; exact ⟨_, rfl, hb⟩
    · rw [if_pos hk, if_neg hk, seedBytes, seedBytes8]
      have := update_ok c c.basis (natLE 8 k.toNat) []
      rw [List.append_nil, natLE_length] at this
      exact ⟨_, this, by rw [hb]⟩
  bytesFit _ := True
  bytes_ok bs more _ := by
    show ∃ s, initBytes c _ _ = .ok s ∧ _
    unfold initBytes
    by_cases hk : bs = []
    · subst hk; exact ⟨_, rfl, hb⟩
    · rw [if_pos (by simpa using hk), update_ok]; exact ⟨_, rfl, by rw [hb]; rfl⟩
  bytes_null_ok := ⟨_, rfl, hb⟩

def implements32 (env : Env) : Implements fnv1a_32 env (FNV.machine FNV.prime32) :=
  implementsGen c32 (by decide +kernel) env _

def implements64 (env : Env) : Implements fnv1a_64 env (FNV.machine FNV.prime64) :=
  implementsGen c64 (by decide +kernel) env _

end Hash2.Fnv

import Verif.Lemmas.Rounds
import Verif.Spec.Hmac
/-
hmac<H> implements HMAC over the hash object that H implements.
-/
namespace Hash2.Hmac
open Spec

/-- the loop that combines the key with a pad -/
theorem xorLoop (m : Nat) (c : Byte) (key : List Byte) (h : key.length = m) :
    forLoop (fun i key => do
      let b ← aget key i
      aset key i (b ^^^ c)) 0 m key = .ok (key.map (· ^^^ c)) := by
  obtain ⟨a, e, ha⟩ := forLoop_inv (fun i key => do
      let b ← aget key i
      aset key i (b ^^^ c)) 0 (fun j x => x = (key.take j).map (· ^^^ c) ++ key.drop j) key (by simp) m (by
        intro j x hj hx
        subst hx
        have hjl : j < key.length := by omega
        have hl : ((key.take j).map (· ^^^ c)).length = j := by simp; omega
        have hg : ((key.take j).map (· ^^^ c) ++ key.drop j)[j]? = some key[j] := by
          rw [List.getElem?_append_right (by omega), hl, Nat.sub_self, List.getElem?_drop, Nat.add_zero,
            List.getElem?_eq_getElem hjl]
        refine ⟨_, ?_, rfl⟩
        simp only [Nat.zero_add, aget, hg, Except.bind_ok]
        rw [aset_ok (by simp; omega), List.set_append_right _ _ (by omega), hl, Nat.sub_self,
          List.drop_eq_getElem_cons hjl, List.set_cons_zero, List.take_add_one (l := key), List.getElem?_eq_getElem hjl,
          List.map_append, List.append_assoc]
        rfl)
  rw [e, ha, List.drop_of_length_le (by omega), List.take_of_length_le (by omega), List.append_nil]

theorem hmacKey_length (H : List Byte → List Byte) (B : Nat) (key : List Byte) (h : key.length ≤ B ∨ (H key).length ≤ B) :
    (hmacKey H B key).length = B := by
  unfold hmacKey
  by_cases hk : key.length ≤ B
  · simp [hk]
  · have := h.resolve_left hk
    simp [hk]; omega

section
variable {H : DigestAlg} {env : Env} {S : Machine (List Byte)} (I : Implements H.toHash env S)

/-- what is needed of the underlying hash: messages of any length, results not longer than a block -/
structure Good (I : Implements H.toHash env S) : Prop where
  fits : ∀ a bs, I.fits a bs
  resLen : ∀ s a, I.Rel s a → (S.res a).2.length ≤ H.blockSize
include I

theorem initH : ∃ s : H.State, H.init env = .ok s ∧ I.Rel s S.init := I.init_ok

theorem updH (G : Good I) (s : H.State) (a : S.S) (h : I.Rel s a) (bs more : List Byte) :
    ∃ s' : H.State, H.update env s (.mem (bs ++ more)) bs.length = .ok s' ∧ I.Rel s' (S.absorb a bs) :=
  I.update_ok s a bs more h (G.fits _ _)

theorem resH (s : H.State) (a : S.S) (h : I.Rel s a) :
    ∃ s' : H.State, H.result env s = .ok (s', (S.res a).2) ∧ I.Rel s' (S.res a).1 := I.result_ok s a h

/-- void init( p, n ) -/
theorem init_ok (G : Good I) (key : List Byte) (p : Ptr) (hp : key = [] ∨ ∃ more, p = .mem (key ++ more)) :
    ∃ s, init H env p key.length = .ok s ∧ I.Rel s.outer ((Machine.hmac.keyed S H.blockSize) key).1 ∧
      I.Rel s.inner ((Machine.hmac.keyed S H.blockSize) key).2 := by
  obtain ⟨s0, e0, r0⟩ := initH I
  -- the key block
  have hkey : (if key.length = 0 then (.ok (List.replicate H.blockSize 0) : M (List Byte))
      else if key.length ≤ H.blockSize then memcpy env (List.replicate H.blockSize 0) 0 p key.length
      else (do
        let h ← H.init env
        let h ← H.update env h p key.length
        let (_, r) ← H.result env h
        memcpy env (List.replicate H.blockSize 0) 0 (.mem r) (if H.blockSize < r.length then H.blockSize else r.length)))
      = .ok (hmacKey (S.value S.init) H.blockSize key) ∧
        (hmacKey (S.value S.init) H.blockSize key).length = H.blockSize := by
    unfold hmacKey
    by_cases h0 : key = []
    · subst h0; simp
    · rw [if_neg (by simpa using h0)]
      obtain ⟨more, rfl⟩ := hp.resolve_left h0
      by_cases hle : key.length ≤ H.blockSize
      · rw [if_pos hle, if_pos hle, memcpy_ok _ _ _ _ _ (by simp) (by simpa using hle)]
        simp [hle]
      · rw [if_neg hle, if_neg hle, e0]
        simp only [Except.bind_ok]
        obtain ⟨s1, e1, r1⟩ := updH I G s0 _ r0 key more
        obtain ⟨s2, e2, r2⟩ := resH I s1 _ r1
        have hl := G.resLen s1 _ r1
        rw [e1]
        simp only [Except.bind_ok]
        rw [e2]
        simp only [Except.bind_ok]
        rw [if_neg (by omega), memcpy_ok _ _ _ _ _ (by simp) (by simpa using hl)]
        simp only [Machine.value]
        refine ⟨by simp, by simp; omega⟩
  have hi : init H env p key.length = (do
      let key ← (if key.length = 0 then (.ok (List.replicate H.blockSize 0) : M (List Byte))
        else if key.length ≤ H.blockSize then memcpy env (List.replicate H.blockSize 0) 0 p key.length
        else (do
          let h ← H.init env
          let h ← H.update env h p key.length
          let (_, r) ← H.result env h
          memcpy env (List.replicate H.blockSize 0) 0 (.mem r) (if H.blockSize < r.length then H.blockSize else r.length)))
      let key ← forLoop (fun i key => do
        let b ← aget key i
        aset key i (b ^^^ 0x36)) 0 H.blockSize key
      let inner ← H.update env s0 (.mem key) H.blockSize
      let key ← forLoop (fun i key => do
        let b ← aget key i
        aset key i (b ^^^ (0x36 ^^^ 0x5C))) 0 H.blockSize key
      let outer ← H.update env s0 (.mem key) H.blockSize
      return ⟨outer, inner⟩) := by
    unfold init
    rw [e0]
    simp only [Except.bind_ok, BitVec.xor_assoc]
    split
    · rfl
    · split
      · rfl
      · cases H.update env s0 p key.length with
        | error e => rfl
        | ok h1 =>
          simp only [Except.bind_ok]
  rw [hi, hkey.1]
  simp only [Except.bind_ok]
  obtain ⟨K, hKe⟩ : ∃ K, K = hmacKey (S.value S.init) H.blockSize key := ⟨_, rfl⟩
  rw [← hKe] at hkey ⊢
  have hK := hkey.2
  rw [xorLoop _ _ _ hK]
  simp only [Except.bind_ok]
  obtain ⟨s1, e1, r1⟩ := updH I G s0 _ r0 (K.map (· ^^^ 0x36)) []
  rw [List.append_nil, List.length_map, hK] at e1
  rw [e1]
  simp only [Except.bind_ok]
  rw [xorLoop _ _ _ (by simpa using hK), List.map_map]
  have hx : ((fun x : Byte => x ^^^ (0x36 ^^^ 0x5C)) ∘ fun x => x ^^^ 0x36) = fun x => x ^^^ 0x5C := by
    funext x
    show x ^^^ 0x36 ^^^ (0x36 ^^^ 0x5C) = x ^^^ 0x5C
    rw [BitVec.xor_assoc, ← BitVec.xor_assoc 0x36 0x36, BitVec.xor_self, BitVec.zero_xor]
  rw [hx]
  obtain ⟨s2, e2, r2⟩ := updH I G s0 _ r0 (K.map (· ^^^ 0x5C)) []
  rw [List.append_nil, List.length_map, hK] at e2
  simp only [Except.bind_ok]
  rw [e2]
  refine ⟨_, rfl, ?_, ?_⟩
  · simp only [Machine.hmac.keyed, ← hKe]; exact r2
  · simp only [Machine.hmac.keyed, ← hKe]; exact r1

/-- hmac<H> implements HMAC over the hash object that H implements -/
def implements (G : Good I) : Implements (hmac H).toHash env (S.hmac H.blockSize) where
  Rel s a := I.Rel s.outer a.1 ∧ I.Rel s.inner a.2
  nullSafe := I.nullSafe
  fits _ _ := True
  fits_nil _ _ _ := trivial
  fits_append _ _ _ := by simp
  absorb_nil s a h := by
    show (a.1, S.absorb a.2 []) = a
    rw [I.absorb_nil _ _ h.2]; rfl
  absorb_append a xs ys := by
    show (a.1, S.absorb a.2 (xs ++ ys)) = (a.1, S.absorb (S.absorb a.2 xs) ys)
    rw [I.absorb_append]
  update_ok s a bs more h _ := by
    obtain ⟨s1, e1, r1⟩ := updH I G s.inner a.2 h.2 bs more
    refine ⟨{ s with inner := s1 }, ?_, h.1, r1⟩
    show update H env s _ _ = _
    unfold update
    rw [e1]; rfl
  null_ok hn s a h := by
    show update H env s _ _ = _
    have : H.update env s.inner .null 0 = .ok s.inner := I.null_ok hn s.inner a.2 h.2
    unfold update
    rw [this]; rfl
  result_ok s a h := by
    obtain ⟨s1, e1, r1⟩ := resH I s.inner a.2 h.2
    obtain ⟨s2, e2, r2⟩ := updH I G s.outer a.1 h.1 (S.res a.2).2 []
    rw [List.append_nil] at e2
    obtain ⟨s3, e3, r3⟩ := resH I s2 _ r2
    refine ⟨⟨s3, s1⟩, ?_, r3, r1⟩
    show result H env s = _
    unfold result
    rw [e1]
    simp only [Except.bind_ok]
    rw [e2]
    simp only [Except.bind_ok]
    rw [e3]; rfl
  init_ok := by
    obtain ⟨s, e, r⟩ := init_ok I G [] .null (.inl rfl)
    exact ⟨s, e, r⟩
  seed_ok k := by
    show ∃ s, initSeed H env k = .ok s ∧ _
    unfold initSeed
    by_cases hk : k = 0
    · obtain ⟨s, e, r⟩ := init_ok I G [] .null (.inl rfl)
      rw [if_pos hk]
      refine ⟨s, e, ?_⟩
      show I.Rel s.outer (Machine.hmac.keyed S H.blockSize (if k = 0 then [] else natLE 8 k.toNat)).1 ∧
        I.Rel s.inner (Machine.hmac.keyed S H.blockSize (if k = 0 then [] else natLE 8 k.toNat)).2
      rw [if_pos hk]; exact r
    · obtain ⟨s, e, r⟩ := init_ok I G (natLE 8 k.toNat) (.mem (natLE 8 k.toNat)) (.inr ⟨[], by simp⟩)
      rw [if_neg hk, seedBytes, seedBytes8]
      rw [natLE_length] at e
      refine ⟨s, e, ?_⟩
      show I.Rel s.outer (Machine.hmac.keyed S H.blockSize (if k = 0 then [] else natLE 8 k.toNat)).1 ∧
        I.Rel s.inner (Machine.hmac.keyed S H.blockSize (if k = 0 then [] else natLE 8 k.toNat)).2
      rw [if_neg hk]; exact r
  bytesFit _ := True
  bytes_ok bs more _ := by
    obtain ⟨s, e, r⟩ := init_ok I G bs (.mem (bs ++ more)) (.inr ⟨more, rfl⟩)
    exact ⟨s, e, r⟩
  bytes_null_ok := by
    obtain ⟨s, e, r⟩ := init_ok I G [] .null (.inl rfl)
    exact ⟨s, e, r⟩

/-- hmac<H> can itself be used as H -/
theorem good (G : Good I) : Good (implements I G) where
  fits _ _ := trivial
  resLen s a h := by
    obtain ⟨s1, e1, r1⟩ := resH I s.inner a.2 h.2
    obtain ⟨s2, e2, r2⟩ := updH I G s.outer a.1 h.1 (S.res a.2).2 []
    exact G.resLen s2 _ r2

end
end Hash2.Hmac

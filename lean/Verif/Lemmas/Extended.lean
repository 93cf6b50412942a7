import Verif.Lemmas.States
import Verif.Lemmas.Bits
/-
What repeated calls of result() return.
-/
namespace Hash2
open Spec

theorem Spec.Machine.run_data' {R : Type} (M : Machine R) (m : List Byte) (s : M.S) : (M.run s (m.map .data)).2 = [] := by
  induction m generalizing s with
  | nil => rfl
  | cons b m ih => exact ih _

/-! ### padding is injective -/

theorem DigestName.encLen_inj {d : DigestName} {σ : Type} {D : Md σ} (hd : d.md = some ⟨σ, D⟩) {a b : Nat}
    (h : D.encLen (8 * a) = D.encLen (8 * b)) : a % 2 ^ 61 = b % 2 ^ 61 := by
  have le : natLE 8 (8 * a) = natLE 8 (8 * b) → a % 2 ^ 61 = b % 2 ^ 61 := by
    intro h
    rw [← natLE_mod, ← natLE_mod 8 (8 * b)] at h
    have := natLE_inj (Nat.mod_lt _ (by decide)) (Nat.mod_lt _ (by decide)) h
    omega
  have be : natBE 8 (8 * a) = natBE 8 (8 * b) → a % 2 ^ 61 = b % 2 ^ 61 := fun h => le (List.reverse_inj.1 h)
  have be16 : natBE 16 (8 * a % 2 ^ 64) = natBE 16 (8 * b % 2 ^ 64) → a % 2 ^ 61 = b % 2 ^ 61 := by
    intro h
    have := natLE_inj (by omega) (by omega) (List.reverse_inj.1 h)
    omega
  cases d <;> simp only [DigestName.md, Option.some.injEq, Sigma.mk.injEq, reduceCtorEq] at hd <;>
    (obtain ⟨rfl, hd⟩ := hd; cases hd)
  · exact le h
  · exact be h
  · exact be h
  · exact be h
  · exact be16 h
  · exact be16 h
  · exact be16 h
  · exact be16 h
  · exact le h
  · exact le h

theorem DigestName.encLen_length {d : DigestName} {σ : Type} {D : Md σ} (hd : d.md = some ⟨σ, D⟩) (a : Nat) :
    (D.encLen a).length = D.L ∧ D.N ≤ 128 := by
  cases d <;> simp only [DigestName.md, Option.some.injEq, Sigma.mk.injEq, reduceCtorEq] at hd <;>
    (obtain ⟨rfl, hd⟩ := hd; cases hd)
  · exact ⟨(Md5.ok le64).encLen a, by decide⟩
  · exact ⟨(Sha1.ok le64).encLen a, by decide⟩
  · exact ⟨(Sha2.sha256_ok le64).encLen a, by decide⟩
  · exact ⟨(Sha2.sha224_ok le64).encLen a, by decide⟩
  · exact ⟨(Sha2.sha512_ok le64).encLen a, by decide⟩
  · exact ⟨(Sha2.sha384_ok le64).encLen a, by decide⟩
  · exact ⟨(Sha2.sha512_224_ok le64).encLen a, by decide⟩
  · exact ⟨(Sha2.sha512_256_ok le64).encLen a, by decide⟩
  · exact ⟨(Rip128.ok le64).encLen a, by decide⟩
  · exact ⟨(Rip160.ok le64).encLen a, by decide⟩

theorem DigestName.padded_inj {d : DigestName} {σ : Type} {D : Md σ} (hd : d.md = some ⟨σ, D⟩) {m m' : List Byte}
    (h : m ++ D.pad m.length = m' ++ D.pad m'.length) : m = m' := by
  obtain ⟨hN, _⟩ := DigestName.regular hd
  have hL := fun a => (DigestName.encLen_length hd a).1
  have hN' := (DigestName.encLen_length hd 0).2
  have len : ∀ n, D.L + 1 ≤ (D.pad n).length ∧ (D.pad n).length ≤ D.L + D.N := by
    intro n
    simp only [Md.pad, List.cons_append, List.length_cons, List.length_append, List.length_replicate, hL]
    have := Nat.mod_lt (D.N - (n + 1 + D.L) % D.N) hN
    omega
  have hlen := congrArg List.length h
  rw [List.length_append, List.length_append] at hlen
  have split : ∀ m : List Byte, m ++ D.pad m.length =
      (m ++ (0x80#8 :: List.replicate ((D.N - (m.length + 1 + D.L) % D.N) % D.N) 0)) ++ D.encLen (8 * m.length) := by
    intro m; unfold Md.pad; rw [List.append_assoc]
  rw [split, split] at h
  have e := DigestName.encLen_inj hd (List.append_inj' h (by rw [hL, hL])).2
  have l1 := len m.length
  have l2 := len m'.length
  have hm : m.length = m'.length := by omega
  have h2 := (List.append_inj' h (by rw [hL, hL])).1
  exact (List.append_inj h2 hm).1

theorem Spec.Md.log_fin {σ : Type} (D : Md σ) (ts : List Tok) : D.log (ts ++ [.fin]) = D.log ts ++ D.pad (D.log ts).length := by
  unfold Md.log
  rw [List.foldl_append]; rfl

theorem Spec.Md.log_data {σ : Type} (D : Md σ) (ts : List Tok) (m : List Byte) : D.log (ts ++ m.map .data) = D.log ts ++ m := by
  induction m generalizing ts with
  | nil => rw [List.map_nil, List.append_nil, List.append_nil]
  | cons b m ih =>
    have e : D.log (ts ++ [.data b]) = D.log ts ++ [b] := by unfold Md.log; rw [List.foldl_append]; rfl
    rw [List.map_cons, List.append_cons, ih, e, List.append_assoc]; rfl

theorem Spec.Md.run_fins {σ : Type} (D : Md σ) (c : Ctor) (ts : List Tok) (k : Nat) :
    (D.machine.run (c.start D.machine) (ts ++ List.replicate k .fin)).2 =
      (D.machine.run (c.start D.machine) ts).2 ++ (List.range k).map fun i => D.hash (D.log (c.history ++ ts ++ List.replicate i .fin)) := by
  induction k with
  | zero => simp
  | succ k ih =>
    rw [List.replicate_succ', ← List.append_assoc, Machine.run_append, ih, List.range_succ, List.map_append, ← List.append_assoc]
    show _ ++ _ ++ _ = _
    congr 1
    show [D.hash (D.machine.run (c.start D.machine) (ts ++ List.replicate k .fin)).1] = _
    rw [D.start_log, ← List.append_assoc]; rfl

theorem DigestName.log_inj {d : DigestName} {σ : Type} {D : Md σ} (hd : d.md = some ⟨σ, D⟩) (ts : List Tok) {m m' : List Byte} (i : Nat)
    (h : D.log (ts ++ m.map .data ++ List.replicate i .fin) = D.log (ts ++ m'.map .data ++ List.replicate i .fin)) : m = m' := by
  induction i with
  | zero =>
    rw [List.replicate_zero, List.append_nil, List.append_nil, D.log_data, D.log_data] at h
    exact List.append_cancel_left h
  | succ i ih =>
    rw [List.replicate_succ', ← List.append_assoc, ← List.append_assoc, D.log_fin, D.log_fin] at h
    exact ih (DigestName.padded_inj hd h)

/-! ### MurmurHash3: result() changes the length only -/

theorem Spec.BlockHash.run_fins {τ R : Type} (T : BlockHash τ R) {init : Obj τ} {seed : BitVec 64 → Obj τ} {bytes : List Byte → Obj τ}
    (hst : ∀ s t n, (T.finish s t n).1 = s) (hr : T.renum = id) (st : τ) (n k : Nat) (hn : n < 2 ^ T.ctr) :
    ((T.machine init seed bytes).run (⟨st, [], n⟩ : Obj τ) (List.replicate k .fin)).2 =
      (List.range k).map fun i => (T.finish st [] ((n + T.N * i) % 2 ^ T.ctr)).2 := by
  induction k generalizing n with
  | zero => rfl
  | succ k ih =>
    rw [List.range_succ_eq_map, List.map_cons, List.map_map]
    have e : T.res ⟨st, [], n⟩ = (⟨st, [], (n + T.N) % 2 ^ T.ctr⟩, (T.finish st [] n).2) := by
      unfold BlockHash.res
      rw [hst, hr]; rfl
    show (T.res ⟨st, [], n⟩).2 :: ((T.machine init seed bytes).run (T.res ⟨st, [], n⟩).1 (List.replicate k .fin)).2 = _
    rw [e, ih _ (Nat.mod_lt _ (Nat.two_pow_pos _)), Nat.mul_zero, Nat.add_zero, Nat.mod_eq_of_lt hn]
    congr 1
    apply List.map_congr_left
    intro i _
    simp only [Function.comp]
    rw [Nat.mod_add_mod, Nat.mul_succ, Nat.add_assoc, Nat.add_comm T.N]

theorem mur32_len_inj {h : BitVec 32} {t : List Byte} {a b : Nat} (e : MURMUR3.x86_32.finish h t a = MURMUR3.x86_32.finish h t b) :
    a % 2 ^ 32 = b % 2 ^ 32 := by
  have := congrArg BitVec.toNat (xor_left_cancel (MurL.fmix32_inj e))
  rwa [BitVec.toNat_ofNat, BitVec.toNat_ofNat] at this

theorem mur128_len_inj {h : MURMUR3.x64_128.St} {t : List Byte} {a b : Nat} (e : MURMUR3.x64_128.finish h t a = MURMUR3.x64_128.finish h t b) :
    a % 2 ^ 64 = b % 2 ^ 64 := by
  unfold MURMUR3.x64_128.finish at e
  simp only at e
  obtain ⟨h1, h2⟩ := MurL.two (MurL.out_inj e)
  obtain ⟨h1, h2⟩ := MurL.two ⟨MurL.fmix128_inj h1, MurL.fmix128_inj h2⟩
  have := congrArg BitVec.toNat (xor_left_cancel h1)
  rwa [BitVec.toNat_ofNat, BitVec.toNat_ofNat] at this

theorem mur32_start (sz : Nat) (c : Ctor) : (c.start (MURMUR3.x86_32.machine sz) : Obj _).tail = [] := by
  cases c with
  | default => rfl
  | seed k => rfl
  | bytes p n =>
    show (if _ then _ else _ : Obj _).tail = []
    split <;> rfl

theorem mur128_start (sz : Nat) (c : Ctor) : (c.start (MURMUR3.x64_128.machine sz) : Obj _).tail = [] := by
  cases c with
  | default => rfl
  | seed k => rfl
  | bytes p n =>
    show (if _ then _ else if _ then _ else _ : Obj _).tail = []
    split
    · rfl
    · split <;> rfl

end Hash2

import Verif.Spec.FnvBits
import Verif.Spec.Fnv
import Mathlib.Data.Nat.ModEq
/-
Lower bits of FNV-1a.
-/
namespace Hash2.FnvBits
open Spec

variable {w w' : Nat}

theorem step {k : ℕ} (hk : k ≤ w) (hk' : k ≤ w') {p : BitVec w} {p' : BitVec w'} (hp : p.toNat % 2 ^ k = p'.toNat % 2 ^ k)
    {h : BitVec w} {h' : BitVec w'} (hh : h.toNat % 2 ^ k = h'.toNat % 2 ^ k) {a b : Byte} (hab : a.toNat % 2 ^ k = b.toNat % 2 ^ k) :
    ((h ^^^ BitVec.ofNat w a.toNat) * p).toNat % 2 ^ k = ((h' ^^^ BitVec.ofNat w' b.toNat) * p').toNat % 2 ^ k := by
  have h1 : ∀ {v : ℕ} (_ : k ≤ v) (x p : BitVec v) (a : Byte), ((x ^^^ BitVec.ofNat v a.toNat) * p).toNat % 2 ^ k
      = ((x.toNat % 2 ^ k ^^^ a.toNat % 2 ^ k) * (p.toNat % 2 ^ k)) % 2 ^ k := by
    intro v hv x p a
    rw [BitVec.toNat_mul, BitVec.toNat_xor, BitVec.toNat_ofNat, Nat.mod_mod_of_dvd _ (Nat.pow_dvd_pow 2 hv), Nat.mul_mod,
      Nat.xor_mod_two_pow, Nat.mod_mod_of_dvd _ (Nat.pow_dvd_pow 2 hv)]
  rw [h1 hk, h1 hk', hp, hh, hab]

theorem feed {k : ℕ} (hk : k ≤ w) (hk' : k ≤ w') {p : BitVec w} {p' : BitVec w'} (hp : p.toNat % 2 ^ k = p'.toNat % 2 ^ k)
    (m : List Byte) : ∀ {h : BitVec w} {h' : BitVec w'}, h.toNat % 2 ^ k = h'.toNat % 2 ^ k →
    (FNV.feed p h m).toNat % 2 ^ k = (FNV.feed p' h' m).toNat % 2 ^ k := by
  induction m with
  | nil => intro h h' hh; exact hh
  | cons b m ih => intro h h' hh; exact ih (step hk hk' hp hh rfl)

/-- same calls, congruent primes and states: congruent results -/
theorem run {k : ℕ} (hk : k ≤ w) (hk' : k ≤ w') {p : BitVec w} {p' : BitVec w'} (hp : p.toNat % 2 ^ k = p'.toNat % 2 ^ k)
    {ts ts' : List Tok} (ht : LowAlike k ts ts') : ∀ {h : BitVec w} {h' : BitVec w'}, h.toNat % 2 ^ k = h'.toNat % 2 ^ k →
    List.Forall₂ (fun r r' => r.toNat % 2 ^ k = r'.toNat % 2 ^ k) ((FNV.machine p).run h ts).2 ((FNV.machine p').run h' ts').2 := by
  induction ht with
  | nil => intro h h' _; exact .nil
  | data hab _ ih =>
    intro h h' hh
    exact ih (step hk hk' hp hh hab)
  | fin _ ih =>
    intro h h' hh
    exact .cons hh (ih (feed hk hk' hp [0xFF] hh))

theorem alike_refl (k : ℕ) (ts : List Tok) : LowAlike k ts ts := by
  induction ts with
  | nil => exact .nil
  | cons t ts ih => cases t <;> [exact .data rfl ih; exact .fin ih]

theorem parity {w : ℕ} (hw : 1 ≤ w) {p : BitVec w} (hp : p.toNat % 2 = 1) (m : List Byte) : ∀ h : BitVec w,
    (FNV.feed p h m).toNat % 2 = (h.toNat + oddBytes m) % 2 := by
  induction m with
  | nil => intro h; rfl
  | cons b m ih =>
    intro h
    have e : ((h ^^^ BitVec.ofNat w b.toNat) * p).toNat % 2 = (h.toNat + b.toNat) % 2 := by
      have d : 2 ∣ 2 ^ w := dvd_pow_self 2 (by omega)
      rw [BitVec.toNat_mul, BitVec.toNat_xor, BitVec.toNat_ofNat, Nat.mod_mod_of_dvd _ d, Nat.mul_mod, hp, Nat.mul_one, Nat.mod_mod]
      have := Nat.xor_mod_two_pow (a := h.toNat) (b := b.toNat % 2 ^ w) (n := 1)
      rw [pow_one, Nat.mod_mod_of_dvd _ d] at this
      rw [this]
      rcases Nat.mod_two_eq_zero_or_one h.toNat with h1 | h1 <;> rcases Nat.mod_two_eq_zero_or_one b.toNat with h2 | h2 <;>
        rw [h1, h2, Nat.add_mod, h1, h2]
      all_goals rfl
    have := ih ((h ^^^ BitVec.ofNat w b.toNat) * p)
    rw [Nat.add_mod, e, ← Nat.add_mod] at this
    refine Eq.trans this ?_
    simp only [oddBytes, List.countP_cons]
    rcases Nat.mod_two_eq_zero_or_one b.toNat with h2 | h2 <;> simp [h2] <;> omega

end Hash2.FnvBits

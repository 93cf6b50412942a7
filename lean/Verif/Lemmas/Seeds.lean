import Verif.Lemmas.Standards
/-
Lemmas for Props/Seeds.lean.
-/
namespace Hash2
open Spec

theorem HashAlg.exec_congr {A : HashAlg} {env : Env} {c c' : Ctor} (h : A.construct env c = A.construct env c') (ops : List Op) :
    A.exec env c ops = A.exec env c' ops := by
  unfold HashAlg.exec; rw [h]

/-- a constructor that updates and discards a result -/
theorem HashAlg.exec_after {A : HashAlg} {env : Env} {c : Ctor} {p : Ptr} {n : Nat}
    (h : A.construct env c = (do
      let s ← A.init env
      let s ← A.update env s p n
      let (s, _) ← A.result env s
      return s)) (ops : List Op) :
    A.exec env c ops = (A.exec env .default (.update p n :: .result :: ops)).map List.tail := by
  unfold HashAlg.exec
  rw [h]
  show _ = Except.map List.tail (A.init env >>= fun s => (A.run env s (.update p n :: .result :: ops)) >>= fun x => pure x.2)
  cases A.init env with
  | error e => rfl
  | ok s =>
    simp only [HashAlg.run, Except.bind_ok]
    cases A.update env s p n with
    | error e => rfl
    | ok s =>
      simp only [Except.bind_ok]
      cases A.result env s with
      | error e => rfl
      | ok x =>
        simp only [Except.bind_ok]
        show (A.run env x.1 ops >>= fun y => pure y.2) = _
        cases A.run env x.1 ops with
        | error e => rfl
        | ok y => rfl

/-- a constructor that updates -/
theorem HashAlg.exec_prefix {A : HashAlg} {env : Env} {c : Ctor} {p : Ptr} {n : Nat}
    (h : A.construct env c = (do
      let s ← A.init env
      A.update env s p n)) (ops : List Op) :
    A.exec env c ops = A.exec env .default (.update p n :: ops) := by
  unfold HashAlg.exec
  rw [h]
  show _ = (A.init env >>= fun s => (A.run env s (.update p n :: ops)) >>= fun x => pure x.2)
  cases A.init env with
  | error e => rfl
  | ok s =>
    simp only [HashAlg.run, Except.bind_ok]
    cases A.update env s p n with
    | error e => rfl
    | ok s => rfl

theorem seedBytes_ok (env : Env) (k : W64) : seedBytes env k = .ok (natLE 8 k.toNat) := seedBytes8 env k

theorem ctorSeed_ne {S R : Type} (upd : Env → S → Ptr → Nat → M S) (res : Env → S → M (S × R)) (s0 : S) (env : Env) {k : W64}
    (hk : k ≠ 0) : ctorSeed upd res s0 env k = (do
      let s ← upd env s0 (.mem (natLE 8 k.toNat)) 8
      let (s, _) ← res env s
      return s) := by
  unfold ctorSeed
  rw [if_pos hk, seedBytes_ok]
  rfl

theorem ctorBytes_ne {S R : Type} (upd : Env → S → Ptr → Nat → M S) (res : Env → S → M (S × R)) (s0 : S) (env : Env) (p : Ptr)
    {n : Nat} (hn : n ≠ 0) : ctorBytes upd res s0 env p n = (do
      let s ← upd env s0 p n
      let (s, _) ← res env s
      return s) := by
  unfold ctorBytes
  rw [if_pos hn]

end Hash2

import Verif.Lemmas.Values
/-
Lemmas for Props/Standards.lean.
-/
namespace Hash2
open Spec

theorem DigestName.value_ok (d : DigestName) {env : Env} {ops : List Op} {msg : List Byte}
    (h : stream ops = some (msg.map .data)) (hn : (AlgName.digest d).NullOk env ∨ NoNull ops) :
    (AlgName.digest d).impl.exec env .default (ops ++ [.result]) = .ok [d.machine.value d.machine.init msg] :=
  AlgName.exec_message (a := .digest d) (c := .default) trivial h hn trivial

theorem DigestName.absorb_absorb (d : DigestName) : ∀ (s : d.machine.S) (xs ys : List Byte),
    d.machine.absorb (d.machine.absorb s xs) ys = d.machine.absorb s (xs ++ ys) := by
  induction d with
  | hmac H ih =>
    intro s xs ys
    show (s.1, H.machine.absorb (H.machine.absorb s.2 xs) ys) = (s.1, H.machine.absorb s.2 (xs ++ ys))
    rw [ih]
  | _ => intro s xs ys; exact List.append_assoc (show List Byte from s) xs ys

/-- a machine's function is the function the object computes -/
theorem DigestName.value_unique (d : DigestName) {env : Env} {Hf : List Byte → List Byte}
    (hH : ∀ m, (AlgName.digest d).impl.exec env .default [.update (.mem m) m.length, .result] = .ok [Hf m]) :
    d.machine.value d.machine.init = Hf := by
  funext m
  have h1 := d.value_ok (env := env) (stream_once m) (.inr (noNull_once m _))
  have h2 := hH m
  rw [show ([Op.update (.mem m) m.length, .result] : List Op) = [.update (.mem m) m.length] ++ [.result] from rfl, h1] at h2
  exact (List.cons.inj (Except.ok.inj h2)).1

theorem DigestName.hmac_ok (d : DigestName) {env : Env} {c : Ctor} {key : List Byte} {ops : List Op} {msg : List Byte}
    (hc : c.Valid) (hs : c.start (DigestName.hmac d).machine = Machine.hmac.keyed d.machine d.B key)
    (h : stream ops = some (msg.map .data)) (hn : (AlgName.digest d).NullOk env ∨ NoNull ops) :
    (AlgName.digest (.hmac d)).impl.exec env c (ops ++ [.result])
      = .ok [Spec.hmac (d.machine.value d.machine.init) d.B key msg] := by
  rw [AlgName.exec_message (a := .digest (.hmac d)) hc h (show _ from hn) trivial]
  have := hmac_value d.machine d.B key msg (fun xs ys => d.absorb_absorb _ xs ys)
  rw [← this]
  exact congrArg (fun s => Except.ok [(d.machine.hmac d.B).value s msg]) hs

theorem cost_message (msg : List Byte) : cost (msg.map .data ++ [.fin]) = msg.length + 192 := by
  rw [cost_append, cost_data]; rfl

theorem DigestName.machine_of_md {d : DigestName} {σ : Type} {D : Md σ} (hd : d.md = some ⟨σ, D⟩) : d.machine = D.machine := by
  cases d <;> simp only [DigestName.md, Option.some.injEq, Sigma.mk.injEq, reduceCtorEq] at hd <;>
    · obtain ⟨rfl, hd⟩ := hd
      cases hd
      rfl

theorem Md.run_log {σ : Type} (D : Md σ) (ts : List Tok) (l : List Byte) :
    (D.machine.run l ts).1 = ts.foldl (fun l t => match t with
    | .data b => l ++ [b]
    | .fin => l ++ D.pad l.length) l := by
  induction ts generalizing l with
  | nil => rfl
  | cons t ts ih => cases t <;> exact ih _

/-- HMAC over a function of the SHA-512 family does not see the loss of the upper half of the length -/
theorem hmac_mod64 {σ : Type} (D : Md σ) (hout : ∀ s, (D.out s).length ≤ 128) (key msg : List Byte)
    (hk : key.length < 2 ^ 61) (hm : msg.length + 256 < 2 ^ 61) :
    Spec.hmac D.mod64.hash 128 key msg = Spec.hmac D.hash 128 key msg := by
  have e1 : hmacKey D.mod64.hash 128 key = hmacKey D.hash 128 key := by
    unfold hmacKey
    rw [D.hash_mod64 hk]
  have e2 : (hmacKey D.hash 128 key).length = 128 := by
    unfold hmacKey
    have : (if key.length ≤ 128 then key else D.hash key).length ≤ 128 := by
      split
      · assumption
      · exact hout _
    rw [List.length_append, List.length_replicate]
    omega
  unfold Spec.hmac
  simp only
  rw [e1]
  have e3 : (D.hash ((hmacKey D.hash 128 key).map (· ^^^ 0x36) ++ msg)).length ≤ 128 := hout _
  rw [D.hash_mod64 (msg := (hmacKey D.hash 128 key).map (· ^^^ 0x36) ++ msg)
    (by rw [List.length_append, List.length_map, e2]; omega),
    D.hash_mod64 (by rw [List.length_append, List.length_map, e2]; omega)]

theorem md64_out_length (iv : SHA2.St 64) (k : Nat) (s : SHA2.St 64) (hk : k ≤ 128) : ((SHA2.md64 iv k).out s).length ≤ 128 := by
  show ((SHA2.encode s).take k).length ≤ 128
  rw [List.length_take]; omega

end Hash2

import Verif.Props.Standards
/-
C16: result() called repeatedly.
-/
namespace Hash2
open Spec

/-- **C16.** For the ten Merkle-Damgard classes: in any history, a call of result() returns the standard's digest of the
message consisting of all bytes fed so far in which every earlier result() has appended the standard's padding
(`Md.log`, Spec/Md.lean). -/
theorem repeated_result (d : DigestName) (σ : Type) (D : Md σ) (hd : d.md = some ⟨σ, D⟩) (env : Env) (ops : List Op)
    (ts : List Tok) (h : stream ops = some ts) (hn : d.isSha2 = false ∨ env.loops = true ∨ NoNull ops) :
    ∃ rs : List (List Byte), (AlgName.digest d).impl.exec env .default ops = .ok rs ∧
      (AlgName.digest d).impl.exec env .default (ops ++ [.result]) = .ok (rs ++ [D.hash (D.log ts)]) := by
  have hn : (AlgName.digest d).NullOk env ∨ NoNull ops := by
    rcases hn with h | h | h
    exacts [.inl (.inl h), .inl (.inr h), .inr h]
  have hn' : (AlgName.digest d).NullOk env ∨ NoNull (ops ++ [.result]) := hn.imp id fun h n hm => by
    rcases List.mem_append.1 hm with hm | hm
    · exact h n hm
    · simp at hm
  refine ⟨_, AlgName.exec_ok (a := .digest d) (c := .default) trivial h hn trivial, ?_⟩
  rw [AlgName.exec_ok (a := .digest d) (c := .default) trivial (stream_result ops ts h) hn' trivial, Machine.run_append]
  have e := DigestName.machine_of_md hd
  have key : ∀ (M : Machine (List Byte)), M = D.machine →
      (M.run (M.run (Ctor.start M .default) ts).1 [Tok.fin]).2 = [D.hash (D.log ts)] := by
    rintro _ rfl
    show [D.hash (D.machine.run _ ts).1] = _
    rw [show (D.machine.run (Ctor.start D.machine .default) ts).1 = D.log ts from Md.run_log D ts []]
  exact congrArg (fun r => Except.ok (_ ++ r)) (key d.machine e)

example : ∃ rs : List (List Byte), (AlgName.digest .sha2_512).impl.exec le64 .default [.update (.mem abc) 3, .result, .update (.mem abc) 1] = .ok rs ∧
    (AlgName.digest .sha2_512).impl.exec le64 .default ([.update (.mem abc) 3, .result, .update (.mem abc) 1] ++ [.result])
      = .ok (rs ++ [SHA2.sha512.mod64.hash (abc ++ SHA2.sha512.mod64.pad 3 ++ [0x61])]) :=
  repeated_result .sha2_512 _ _ rfl _ _ [.data 0x61, .data 0x62, .data 0x63, .fin, .data 0x61] rfl
    (.inr (.inr (by intro n; simp)))

-- result() twice without update(): md5_128 of "abc", then of "abc" and its padding
example : ∃ rs : List (List Byte), (AlgName.digest .md5_128).impl.exec be32 .default [.update (.mem abc) 3, .result] = .ok rs ∧
    (AlgName.digest .md5_128).impl.exec be32 .default ([.update (.mem abc) 3, .result] ++ [.result])
      = .ok (rs ++ [MD5.md5.hash (abc ++ MD5.md5.pad 3)]) :=
  repeated_result .md5_128 _ _ rfl _ _ [.data 0x61, .data 0x62, .data 0x63, .fin] rfl (.inl rfl)

end Hash2

import Verif.Lemmas.NullCalls
/-
C02, C03 for SHA-2: exactly which programs of valid calls are undefined.
-/
namespace Hash2
open Spec

/-- **C02, C03: exactly when they fail.** A program of valid calls on an object of a SHA-2 class, or of an hmac over one, constructed in
any way, at run time: it is undefined if and only if some call update( nullptr, 0 ) is made while the number of bytes since the
last result() is not a multiple of the block size. Otherwise the program is defined and these calls have no effect. -/
theorem sha2_null_exact (d : DigestName) (hd : d.isSha2 = true) (env : Env) (he : env.loops = false) (c : Ctor) (hc : c.Valid)
    (ops : List Op) (hv : (stream ops).isSome) :
    (d.impl.toHash.exec env c ops = .error .nullMemcpy ↔ NullMidBlock d.B ops) ∧
    (¬ NullMidBlock d.B ops →
      ∃ rs, d.impl.toHash.exec env c ops = .ok rs ∧ d.impl.toHash.exec env c (withoutNull ops) = .ok rs) := by
  obtain ⟨ts, hs⟩ := Option.isSome_iff_exists.1 hv
  have h := sha2_exec_null d hd env he c hc ops ts hs
  refine ⟨⟨fun e => ?_, h.1⟩, fun hn => ⟨_, h.2 hn, ?_⟩⟩
  · by_contra hn
    rw [h.2 hn] at e
    cases e
  · exact AlgName.exec_ok (a := .digest d) hc (stream_withoutNull ops ts hs) (.inr (withoutNull_noNull ops)) trivial

-- harmless: nothing pending at the start, after a whole block, after result()
example : ∃ rs, (AlgName.digest .sha2_256).impl.exec le64 (.seed 7)
      [.update .null 0, .update (.mem (List.replicate 64 1)) 64, .update .null 0, .update (.mem [1]) 1, .result, .update .null 0, .result] = .ok rs :=
  have h := (sha2_null_exact .sha2_256 rfl le64 rfl (.seed 7) trivial
    [.update .null 0, .update (.mem (List.replicate 64 1)) 64, .update .null 0, .update (.mem [1]) 1, .result, .update .null 0, .result] rfl).2 (by
      rw [NullMidBlock]
      intro ⟨b, a, e, h⟩
      match b, e with
      | [], _ => exact h rfl
      | [_], e => cases e
      | [_, _], e => cases e; exact h rfl
      | [_, _, _], e => cases e
      | [_, _, _, _], e => cases e
      | [_, _, _, _, _], e => cases e; exact h rfl
      | [_, _, _, _, _, _], e => cases e
      | _ :: _ :: _ :: _ :: _ :: _ :: _ :: _, e => simp at e)
  ⟨_, h.choose_spec.1⟩

-- undefined: 64 bytes are half a block of SHA-512
example : (DigestName.hmac .sha2_512).impl.toHash.exec le64 .default [.result, .update (.mem (List.replicate 64 1)) 64, .update .null 0, .result]
    = .error .nullMemcpy :=
  (sha2_null_exact (.hmac .sha2_512) rfl le64 rfl .default trivial _ rfl).1.2
    ⟨[.result, .update (.mem (List.replicate 64 1)) 64], [.result], rfl, by decide⟩

end Hash2

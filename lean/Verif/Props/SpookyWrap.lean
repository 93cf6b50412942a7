import Verif.Lemmas.SpookyWrap
import Verif.Spec.Platforms
/-
C03 for spooky2_128: exactly which programs fail an assertion.
-/
namespace Hash2
open Spec

/-- **C03: exactly when it fails of spooky2_128.** A program of valid calls on an object constructed in any way, on any platform: an
assertion fails if and only if some update() makes the byte counter exceed the range of std::size_t and that is noticed, by the same
call or the next one. All other programs are defined, however long, and return what the abstract object returns: a result() that
completes the counter's range starts it anew. -/
theorem spooky2_wrap_exact (env : Env) (c : Ctor) (hc : c.Valid) (hl : c.LengthFits env.sizeBits) (ops : List Op) (ts : List Tok)
    (hv : stream ops = some ts) (ho : ∀ op ∈ ops, op.LengthFits env.sizeBits) :
    (AlgName.spooky2_128.impl.exec env c ops = .error .assertFailed ↔ SpookyWraps env.sizeBits (c.counted env.sizeBits) ops) ∧
    (¬ SpookyWraps env.sizeBits (c.counted env.sizeBits) ops → AlgName.spooky2_128.impl.exec env c ops =
      .ok ((SPOOKY.machine env.sizeBits).run (c.start (SPOOKY.machine env.sizeBits)) ts).2) := by
  have h := spooky_exec_exact env c hc hl ops ts hv ho
  refine ⟨⟨fun e => ?_, h.1⟩, h.2⟩
  by_contra hn
  rw [h.2 hn] at e
  cases e

private theorem valid₁ (bs : List Byte) (n : Nat) (h : n ≤ bs.length) : (Op.update (.mem bs) n).toks = some ((bs.take n).map .data) := by
  simp [Op.toks, h]

private theorem wraps_update (w k : Nat) (p : Ptr) (n : Nat) (ops : List Op) : SpookyWraps w k (.update p n :: ops) =
    if k + n < 2 ^ w then SpookyWraps w (k + n) ops else k % 192 = 0 ∨ 192 ≤ k % 192 + n ∨ ops ≠ [] := rfl

private theorem wraps_result (w k : Nat) (ops : List Op) :
    SpookyWraps w k (.result :: ops) = SpookyWraps w (if (k / 192 + 1) * 192 < 2 ^ w then (k / 192 + 1) * 192 else 0) ops := rfl

-- on a 32 bit platform, as many bytes as can be counted: a result, and as many bytes again
example (bs : List Byte) (h : bs.length = 4294967295) : ∃ rs, AlgName.spooky2_128.impl.exec be32 .default
    [.update (.mem bs) 4294967295, .result, .update (.mem bs) 4294967295, .result] = .ok rs :=
  ⟨_, (spooky2_wrap_exact be32 .default trivial trivial _ ((bs.take 4294967295).map .data ++ ([.fin] ++
      ((bs.take 4294967295).map .data ++ ([.fin] ++ [])))) (by
      simp only [stream, valid₁ bs _ (Nat.le_of_eq h.symm), show Op.result.toks = some [.fin] from rfl, Option.bind_eq_bind, Option.bind_some,
        Option.pure_def])
    (by
      have h32 : (4294967295 : Nat) < 2 ^ be32.sizeBits := by decide
      intro op hm
      simp only [List.mem_cons, List.not_mem_nil, or_false] at hm
      rcases hm with rfl | rfl | rfl | rfl
      · exact h32
      · trivial
      · exact h32
      · trivial)).2 (by
      rw [show be32.sizeBits = 32 from rfl, show Ctor.counted 32 .default = 0 from rfl, wraps_update, if_pos (by decide), wraps_result,
        if_neg (by decide), wraps_update, if_pos (by decide), wraps_result]
      exact id)⟩

-- one byte more: nothing is noticed, unless there is another call
private theorem one_more (bs : List Byte) (h : bs.length = 4294967295) (ops : List Op) (hv : (stream ops).isSome)
    (ho : ∀ op ∈ ops, op.LengthFits 32) :
    AlgName.spooky2_128.impl.exec be32 .default (.update (.mem bs) 4294967295 :: .update (.mem [7]) 1 :: ops) = .error .assertFailed ↔
      ops ≠ [] := by
  obtain ⟨ts, hts⟩ := Option.isSome_iff_exists.1 hv
  refine (spooky2_wrap_exact be32 .default trivial trivial _ ((bs.take 4294967295).map .data ++ ([.data 7] ++ ts)) ?_ ?_).1.trans ?_
  · have h7 : (Op.update (.mem [7]) 1).toks = some [.data 7] := rfl
    simp only [stream, valid₁ bs _ (Nat.le_of_eq h.symm), hts, h7, Option.bind_eq_bind, Option.bind_some, Option.pure_def]
  · intro op hm
    rcases List.mem_cons.1 hm with rfl | hm
    · show (4294967295 : Nat) < 2 ^ 32; decide
    rcases List.mem_cons.1 hm with rfl | hm
    · show (1 : Nat) < 2 ^ 32; decide
    exact ho op hm
  · rw [show be32.sizeBits = 32 from rfl, show Ctor.counted 32 .default = 0 from rfl, wraps_update, if_pos (by decide), wraps_update,
      if_neg (by decide)]
    constructor
    · rintro (h | h | h)
      · exact absurd h (by decide)
      · exact absurd h (by decide)
      · exact h
    · exact fun h => .inr (.inr h)

example (bs : List Byte) (h : bs.length = 4294967295) : AlgName.spooky2_128.impl.exec be32 .default
    [.update (.mem bs) 4294967295, .update (.mem [7]) 1, .result] = .error .assertFailed :=
  (one_more bs h [.result] rfl (by intro op hm; rw [List.mem_singleton.1 hm]; trivial)).2 (by simp)

example (bs : List Byte) (h : bs.length = 4294967295) : AlgName.spooky2_128.impl.exec be32 .default
    [.update (.mem bs) 4294967295, .update (.mem [7]) 1] ≠ .error .assertFailed :=
  fun e => (one_more bs h [] rfl (by intro op hm; cases hm)).1 e rfl

end Hash2

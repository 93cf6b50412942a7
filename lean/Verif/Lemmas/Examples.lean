import Verif.Model.Examples
import Verif.Spec.Examples
import Verif.Lemmas.Programs
import Verif.Lemmas.Integral
import Verif.Lemmas.Values
/-
Lemmas about the example programs.
-/
namespace Hash2
open Spec

theorem DigestName.res_size (d : DigestName) (s : d.machine.S) : (d.machine.res s).2.length = d.resultSize := by
  have h32 : ∀ (q : SHA2.St 32) n, n ≤ 32 → ((SHA2.encode q).take n).length = n := fun q n h => by
    rw [List.length_take, encode_length]; omega
  have h64 : ∀ (q : SHA2.St 64) n, n ≤ 64 → ((SHA2.encode q).take n).length = n := fun q n h => by
    rw [List.length_take, encode_length]; omega
  induction d with
  | md5_128 => show (MD5.md5.hash s).length = 16; simp [Md.hash, MD5.md5, natLE_length]
  | sha1_160 => show (SHA1.sha1.hash s).length = 20; simp [Md.hash, SHA1.sha1, natBE_length]
  | ripemd_128 => show (RIPEMD.ripemd128.hash s).length = 16; simp [Md.hash, RIPEMD.ripemd128, natLE_length]
  | ripemd_160 => show (RIPEMD.ripemd160.hash s).length = 20; simp [Md.hash, RIPEMD.ripemd160, natLE_length]
  | sha2_256 => exact h32 _ 32 (by decide)
  | sha2_224 => exact h32 _ 28 (by decide)
  | sha2_512 => exact h64 _ 64 (by decide)
  | sha2_384 => exact h64 _ 48 (by decide)
  | sha2_512_224 => exact h64 _ 28 (by decide)
  | sha2_512_256 => exact h64 _ 32 (by decide)
  | hmac H ih => exact ih _

namespace Sum

/-- the calls of update in the loop -/
def calls (buffer : List Byte) : Reads → List Op
  | [] => []
  | bs :: reads =>
    if bs.length = 0 then []
    else .update (.mem (bs ++ buffer.drop bs.length)) bs.length :: calls (bs ++ buffer.drop bs.length) reads

theorem calls_stream (reads : Reads) : ∀ buffer, stream (calls buffer reads) = some ((fileContents reads).map .data) := by
  induction reads with
  | nil => intro _; rfl
  | cons bs reads ih =>
    intro buffer
    unfold calls fileContents
    split
    · rename_i h
      obtain rfl : bs = [] := by simpa using h
      rfl
    · rename_i h
      have hb : bs.isEmpty = false := by simpa using h
      rw [List.takeWhile_cons, hb]
      have := ih (bs ++ buffer.drop bs.length)
      simp only [stream, Op.toks, List.length_append, Nat.le_add_right, if_true, this, List.take_left', Option.bind_eq_bind, Option.bind_some]
      show some _ = some _
      simp [fileContents]

theorem calls_noNull (reads : Reads) : ∀ buffer, NoNull (calls buffer reads) := by
  induction reads with
  | nil => intro _ n; simp [calls]
  | cons bs reads ih =>
    intro buffer n
    unfold calls
    split
    · simp
    · simp only [List.mem_cons, not_or]
      exact ⟨by simp, ih _ n⟩

/-- the loop and result() are the calls -/
theorem loop_calls (D : DigestAlg) (env : Env) (reads : Reads) : ∀ (s : D.State) (buffer : List Byte), buffer.length = 4096 →
    (∀ bs ∈ reads, bs.length ≤ 4096) →
    D.toHash.run env s (calls buffer reads ++ [.result]) = (do
      let s ← loop D env s buffer reads
      let (s, r) ← D.result env s
      return (s, [r])) := by
  induction reads with
  | nil =>
    intro s buffer _ _
    simp only [calls, List.nil_append, HashAlg.run, loop, Except.bind_ok]
    show (do let (s, r) ← D.result env s; let (s, rs) ← (Except.ok (s, []) : M (D.State × List (List Byte))); return (s, r :: rs)) = _
    rfl
  | cons bs reads ih =>
    intro s buffer hl hr
    have hb := hr bs (List.mem_cons_self ..)
    unfold calls loop
    rw [if_neg (show ¬ buffer.length < bs.length by omega)]
    split
    · simp only [List.nil_append, HashAlg.run, Except.bind_ok]
      rfl
    · simp only [List.cons_append, HashAlg.run, bind_assoc]
      have hl' : (bs ++ buffer.drop bs.length).length = 4096 := by simp; omega
      congr 1
      funext s'
      exact ih s' _ hl' fun b h => hr b (List.mem_cons_of_mem _ h)

theorem garbage_length (env : Env) : ((List.range 4096).map env.garbage).length = 4096 := by
  rw [List.length_map, List.length_range]

/-- hash2sum is the hexadecimal result of a program that feeds the file -/
theorem hash2sum_eq (d : DigestName) (env : Env) (reads : Reads) (hr : ∀ bs ∈ reads, bs.length ≤ 4096) {r : List Byte}
    (h : (AlgName.digest d).impl.exec env .default (calls ((List.range 4096).map env.garbage) reads ++ [.result]) = .ok [r]) :
    hash2sum d env reads = Digest.toString env d.resultSize r := by
  unfold hash2sum
  unfold HashAlg.exec at h
  change (do
    let s ← d.impl.init env
    let (_, rs) ← d.impl.toHash.run env s _
    return rs : M (List (List Byte))) = _ at h
  cases hi : d.impl.init env with
  | error e => rw [hi] at h; simp at h
  | ok s =>
    rw [hi, Except.bind_ok, loop_calls _ _ _ _ _ (garbage_length env) hr] at h
    rw [Except.bind_ok]
    revert h
    generalize (List.range 4096).map env.garbage = buffer
    intro h
    cases hs : loop d.impl env s buffer reads with
    | error e => rw [hs] at h; cases h
    | ok s' =>
      rw [hs] at h
      simp only [Except.bind_ok] at h ⊢
      cases hq : d.impl.result env s' with
      | error e => rw [hq] at h; cases h
      | ok q =>
        rw [hq] at h
        simp only [Except.bind_ok] at h ⊢
        have : [q.2] = [r] := Except.ok.inj h
        rw [(List.cons.inj this).1]

end Sum

theorem ptrSz_cases (env : Env) : env.ptrSz = .s8 ∨ env.ptrSz = .s4 := by unfold Env.ptrSz; split <;> simp

/-- get_integral_result<std::size_t> never fails on results -/
theorem AlgName.integralAs_ok (a : AlgName) (env : Env) (ctr : Nat) (s : (a.machine ctr).S) :
    ∃ x, a.integralAs env env.ptrSz.n ((a.machine ctr).res s).2 = .ok x := by
  have dig : ∀ r : List Byte, 8 ≤ r.length → ∃ x, Integral.getDigest env env.ptrSz.n r = .ok x := fun r h => by
    unfold Integral.getDigest
    rw [read64le_ok env r h]
    exact ⟨_, rfl⟩
  have h4 : ∀ r : BitVec 32, ∃ x, Integral.get 4 env.ptrSz.n r = .ok x := fun r => by
    rcases ptrSz_cases env with e | e <;> rw [e]
    · exact ⟨_, Integral.get_wide .s4 .s8 (by decide) r⟩
    · exact ⟨_, Integral.get_wide .s4 .s4 (by decide) r⟩
  have h8 : ∀ r : BitVec 64, ∃ x, Integral.get 8 env.ptrSz.n r = .ok x := fun r => by
    rcases ptrSz_cases env with e | e <;> rw [e]
    · exact ⟨_, Integral.get_wide .s8 .s8 (by decide) r⟩
    · exact ⟨_, Integral.get_contract 8 4 (by decide) (by decide) r⟩
  cases a with
  | digest d => exact dig _ (d.res_length s)
  | murmur3_128 => exact dig _ (murmur_finish_length _ _ _)
  | spooky2_128 => exact dig _ (outBytes_length _)
  | siphash_64 => exact h8 _
  | xxhash_64 => exact h8 _
  | fnv1a_64 => exact h8 _
  | siphash_32 => exact h4 _
  | xxhash_32 => exact h4 _
  | fnv1a_32 => exact h4 _
  | murmur3_32 => exact h4 _

namespace Hasher

/-- one call of a function object, from what the program returns that appends the key to a new object -/
theorem call_eq (a : AlgName) (env : Env) (c : Ctor) (t : Ty) (v : t.Val) {h_ : a.impl.State} (hc : a.impl.construct env c = .ok h_) {r : a.impl.R}
    (h : a.impl.execStmts env c [.append default_flavor t v, .call .result] = .ok [r]) :
    call a env h_ t v = a.integralAs env env.ptrSz.n r := by
  unfold HashAlg.execStmts at h
  rw [hc, Except.bind_ok] at h
  unfold call
  simp only [HashAlg.runStmts] at h
  cases hs : hashAppend a.impl env default_flavor t v h_ with
  | error e => rw [hs] at h; simp at h
  | ok s =>
    rw [hs] at h
    simp only [Except.bind_ok] at h ⊢
    cases hq : a.impl.result env s with
    | error e => rw [hq] at h; simp at h
    | ok q =>
      rw [hq] at h
      simp only [Except.bind_ok] at h ⊢
      have : [q.2] = [r] := Except.ok.inj h
      rw [(List.cons.inj this).1]

/-- a program that appends one object and asks for the result returns one result, a result of the abstract machine -/
theorem one_result {a : AlgName} {env : Env} {c : Ctor} {f : Flavor} {t : Ty} {v : t.Val} (h : a.Runs env c [.append f t v, .call .result]) :
    ∃ s : (a.machine env.sizeBits).S,
      a.impl.execStmts env c [.append f t v, .call .result] = .ok [((a.machine env.sizeBits).res s).2] ∧
      a.impl.exec env c [.update (.mem (a.impl.messageOf env c [] f t v)) (a.impl.messageOf env c [] f t v).length, .result]
        = .ok [((a.machine env.sizeBits).res s).2] := by
  obtain ⟨ts, h1, h2, h3, h4⟩ := AlgName.runs_ok h
  obtain ⟨rs, e1, e2⟩ := AlgName.runs_expand h
  have e : a.impl.expand env c [] [.append f t v, .call .result]
    = [.update (.mem (a.impl.messageOf env c [] f t v)) (a.impl.messageOf env c [] f t v).length] ++ [.result] := rfl
  rw [e] at e2 h1
  rw [stream_result _ _ (stream_once _)] at h1
  obtain rfl := Option.some.inj h1
  obtain ⟨s, _, r⟩ := AlgName.construct_ok (ts := []) h.ctor (AlgName.room_of h.room (Nat.zero_le _))
  rw [Machine.run_append, ((a.impls env).run_data r _).1] at h4
  have h4 : a.impl.execStmts env c [.append f t v, .call .result] = .ok [((a.machine env.sizeBits).res
    ((a.machine env.sizeBits).absorb (c.start (a.machine env.sizeBits)) (a.impl.messageOf env c [] f t v))).2] := h4
  refine ⟨_, h4, ?_⟩
  rw [e1] at h4
  rw [← Except.ok.inj h4]
  exact e2

end Hasher
end Hash2

import Verif.Model.Benchmark
import Verif.Lemmas.Average
import Verif.Lemmas.Extended
import Verif.Lemmas.Platform
import Verif.Props.FnvPeriod
import Verif.Props.HashAppend
import Verif.Props.Closed
/-
C76: benchmark/average.cpp: results of fnv1a objects as random numbers of type T. C74: benchmark/buffer.cpp.
-/
namespace Hash2
open Integral Spec

theorem Average.bench_32 (env : Env) (ts : Nat) (rs : List W32) : Bench.twiceSum .fnv1a_32 env ts rs = Average.twiceSum 4 ts rs := by
  induction rs with
  | nil => rfl
  | cons r rs ih => exact congrArg (fun (s : M Int) => (get 4 ts r).bind fun y => s.bind fun s => .ok (2 * y.toInt + 1 + s)) ih

theorem Average.bench_64 (env : Env) (ts : Nat) (rs : List W64) : Bench.twiceSum .fnv1a_64 env ts rs = Average.twiceSum 8 ts rs := by
  induction rs with
  | nil => rfl
  | cons r rs ih => exact congrArg (fun (s : M Int) => (get 8 ts r).bind fun y => s.bind fun s => .ok (2 * y.toInt + 1 + s)) ih

/-- **C76, fnv1a_32** (benchmark/average.cpp). Of 2^32 successive results of an object, however constructed and whatever its history, converted by
get_integral_result to a type T of up to 4 bytes, each value of T occurs equally often; and their exact average (T signed) is -1/2. -/
theorem fnv1a_32_random_numbers (env : Env) (c : Ctor) (hc : c.Valid) (ops : List Op) (toks : List Tok) (hs : stream ops = some toks)
    (ts : Sz) (ht : ts.n ≤ 4) :
    ∃ rs rs' : List W32, AlgName.fnv1a_32.impl.exec env c ops = .ok rs ∧
      AlgName.fnv1a_32.impl.exec env c (ops ++ List.replicate (2 ^ 32) .result) = .ok (rs ++ rs') ∧ rs'.length = 2 ^ 32 ∧
      (∀ y : BitVec (8 * ts.n), Nat.card {i : Fin rs'.length // get 4 ts.n rs'[i] = .ok y} = 2 ^ (32 - 8 * ts.n)) ∧
      Bench.twiceSum .fnv1a_32 env ts.n rs' = .ok 0 := by
  obtain ⟨rs, rs', h1, h2, hl, nd, all⟩ := fnv1a_32_full_period env c hc ops toks hs (2 ^ 32) (Nat.le_refl _)
  have hf := Average.fibres .s4 ts ht (by decide)
  refine ⟨rs, rs', h1, h2, hl, fun y => ?_, (Average.bench_32 env ts.n rs').trans (Average.sum_zero (by cases ts <;> decide) hf.1 hf.2 rs' nd (all rfl))⟩
  rw [Average.places rs' nd (all rfl) (fun r => get 4 ts.n r = .ok y)]
  exact (hf.2 y).trans (congrArg (2 ^ ·) (Nat.mul_sub 8 4 ts.n))

/-- **C76, fnv1a_64**: the same of 2^64 results, for every T. -/
theorem fnv1a_64_random_numbers (env : Env) (c : Ctor) (hc : c.Valid) (ops : List Op) (toks : List Tok) (hs : stream ops = some toks) (ts : Sz) :
    ∃ rs rs' : List W64, AlgName.fnv1a_64.impl.exec env c ops = .ok rs ∧
      AlgName.fnv1a_64.impl.exec env c (ops ++ List.replicate (2 ^ 64) .result) = .ok (rs ++ rs') ∧ rs'.length = 2 ^ 64 ∧
      (∀ y : BitVec (8 * ts.n), Nat.card {i : Fin rs'.length // get 8 ts.n rs'[i] = .ok y} = 2 ^ (64 - 8 * ts.n)) ∧
      Bench.twiceSum .fnv1a_64 env ts.n rs' = .ok 0 := by
  obtain ⟨rs, rs', h1, h2, hl, nd, all⟩ := fnv1a_64_full_period env c hc ops toks hs (2 ^ 64) (Nat.le_refl _)
  have hf := Average.fibres .s8 ts (by cases ts <;> decide) (by decide)
  refine ⟨rs, rs', h1, h2, hl, fun y => ?_, (Average.bench_64 env ts.n rs').trans (Average.sum_zero (by cases ts <;> decide) hf.1 hf.2 rs' nd (all rfl))⟩
  rw [Average.places rs' nd (all rfl) (fun r => get 8 ts.n r = .ok y)]
  exact (hf.2 y).trans (congrArg (2 ^ ·) (Nat.mul_sub 8 8 ts.n))

/-- **C76, the program** benchmark/average.cpp with N the period: r, before the division, is 0, for every type R that is not wider than the results. -/
theorem average_benchmark (env : Env) (ts : Sz) :
    (ts.n ≤ 4 → Bench.average .fnv1a_32 env ts.n (2 ^ 32) = .ok 0) ∧ Bench.average .fnv1a_64 env ts.n (2 ^ 64) = .ok 0 := by
  constructor
  · intro ht
    obtain ⟨rs, rs', h1, h2, _, _, h3⟩ := fnv1a_32_random_numbers env .default trivial [] [] rfl ts ht
    obtain rfl : rs = [] := Except.ok.inj (h1.symm.trans rfl)
    unfold Bench.average
    rw [List.nil_append] at h2
    rw [h2]
    exact h3
  · obtain ⟨rs, rs', h1, h2, _, _, h3⟩ := fnv1a_64_random_numbers env .default trivial [] [] rfl ts
    obtain rfl : rs = [] := Except.ok.inj (h1.symm.trans rfl)
    unfold Bench.average
    rw [List.nil_append] at h2
    rw [h2]
    exact h3

-- an object with a seed and a message already; T = signed char: each of the 256 values occurs 2^24 times
example : ∃ rs rs' : List W32, AlgName.fnv1a_32.impl.exec le64 (.seed 5) [.update (.mem abc) 3, .result] = .ok rs ∧
      AlgName.fnv1a_32.impl.exec le64 (.seed 5) ([.update (.mem abc) 3, .result] ++ List.replicate (2 ^ 32) .result) = .ok (rs ++ rs') ∧
      rs'.length = 2 ^ 32 ∧
      (∀ y : BitVec 8, Nat.card {i : Fin rs'.length // get 4 1 rs'[i] = .ok y} = 2 ^ 24) ∧ Bench.twiceSum .fnv1a_32 le64 1 rs' = .ok 0 :=
  fnv1a_32_random_numbers le64 (.seed 5) trivial _ _ rfl .s1 (by decide)

/-- **C74** (benchmark/buffer.cpp): the number printed is the integral result of the hash of the M copies of the data, passed to one update. -/
theorem buffer_benchmark (a : AlgName) (ha : a ≠ .spooky2_128) (env : Env) (hr : env.fp.roundDown = false) (data : List Byte) (hd : data ≠ []) (m : Nat) :
    ∃ r, a.impl.exec env .default [.update (.mem (List.replicate m data).flatten) (m * data.length), .result] = .ok [r] ∧
      Bench.buffer a env data m = (a.integralAs env 4 r).map fun y => [y] := by
  have hruns : a.Runs env .default (([] : List Op).map .call ++
      (List.replicate m (default_flavor, (⟨.range .pointers (.int .uchar), data⟩ : (t : Ty) × t.Val))).map (fun o => .append o.1 o.2.1 o.2.2) ++
        [Op.result].map .call) := by
    refine ⟨trivial, ?_, .inr ?_, hr, ?_⟩
    · intro p hp
      simp only [List.map_nil, List.nil_append, List.map_replicate, List.map_cons, List.mem_append, List.mem_replicate, List.mem_singleton] at hp
      rcases hp with ⟨_, rfl⟩ | rfl
      · exact ⟨by simp [wellFormed], by simp [Spec.Valid], fun _ => by simp [pointerFree]⟩
      · rfl
    · intro p hp
      simp only [List.map_nil, List.nil_append, List.map_replicate, List.map_cons, List.mem_append, List.mem_replicate, List.mem_singleton] at hp
      rcases hp with ⟨_, rfl⟩ | rfl
      · exact .inr (by simp only [NoEmpty]; exact ⟨fun _ => hd, fun _ _ => trivial⟩)
      · simp [Stmt.NoNull]
    · cases a <;> trivial
  have hpay : ∀ done, ((a.impl.expand env .default done ((List.replicate m (default_flavor, (⟨.range .pointers (.int .uchar), data⟩ : (t : Ty) × t.Val))).map
      fun o => .append o.1 o.2.1 o.2.2)).map Op.payload) = List.replicate m data := by
    clear hruns
    induction m with
    | zero => exact fun _ => rfl
    | succ m ih =>
      intro done
      rw [List.replicate_succ, List.map_cons, HashAlg.expand, List.map_cons, ih, List.replicate_succ]
      congr 1
      simp only [Op.payload, Ptr.bytes, List.take_length]
      exact (bytes_range env default_flavor .pointers data (a.impl.number env .default done)).1.1
  obtain ⟨rs, h1, h2⟩ := series_is_one_update a env .default [] [.result] _ hruns
  rw [hpay, List.length_flatten, List.map_replicate, List.sum_replicate, smul_eq_mul, List.nil_append] at h2
  have hst : stream [.update (.mem (List.replicate m data).flatten) (m * data.length), .result] = some ((List.replicate m data).flatten.map .data ++ [.fin]) := by
    have e : m * data.length = (List.replicate m data).flatten.length := by
      rw [List.length_flatten, List.map_replicate, List.sum_replicate, smul_eq_mul]
    rw [e]
    simp only [stream, Op.toks, Nat.le_refl, if_true, Option.bind_eq_bind, Option.bind_some, List.take_length, Option.pure_def, List.append_nil]
  have h3 := AlgName.exec_ok (a := a) (env := env) (c := .default) trivial hst (.inr (by intro n; simp)) (by cases a <;> trivial)
  rw [Machine.run_append, Machine.run_data', List.nil_append, Machine.run_fin] at h3
  obtain rfl := Except.ok.inj (h3.symm.trans h2)
  refine ⟨_, h2, ?_⟩
  rw [List.map_replicate] at h1
  refine (congrArg (fun x : M (List a.impl.R) => x >>= fun rs => rs.mapM (a.integralAs env 4)) h1).trans ?_
  show List.mapM (a.integralAs env 4) [_] = _
  rw [List.mapM_cons, List.mapM_nil]
  cases a.integralAs env 4 _ <;> rfl

-- buffer.cpp:73: 286326784 times 15 bytes; sha2_256
example : ∃ r, (AlgName.digest .sha2_256).impl.exec le64 .default [.update (.mem (List.replicate 286326784 (List.replicate 15 0)).flatten) (286326784 * 15), .result]
      = .ok [r] ∧ Bench.buffer (.digest .sha2_256) le64 (List.replicate 15 0) 286326784 = ((AlgName.digest .sha2_256).integralAs le64 4 r).map fun y => [y] :=
  buffer_benchmark _ (by decide) _ rfl _ (by simp) _

end Hash2

import Verif.Lemmas.Threads
import Verif.Props.Objects
/-
C63: threads.
-/
namespace Hash2
open Spec

/-- **C63.** Several threads, each with its own program, the steps interleaved by any schedule; objects that one thread changes are
not used by others, but any number of threads may copy the same object. If every thread alone would run without undefined behaviour,
so do all together, and to every thread is returned what is returned to it when it runs alone. For every hash algorithm, also of
users. -/
theorem threads_do_not_interfere (A : HashAlg) (env : Env) (o : Objects A) (s : Schedule) (h : s.NoRace)
    (ok : ∀ i, ∃ out, A.runActs env o (s.program i) = .ok out) :
    ∃ out, A.runActs env o (s.map Prod.snd) = .ok out ∧ ∀ i, A.runActs env o (s.program i) = .ok (s.returned i out) := by
  induction s generalizing o with
  | nil => exact ⟨[], rfl, fun i => rfl⟩
  | cons jx s ih =>
    obtain ⟨j, x⟩ := jx
    have hs : Schedule.NoRace s := fun a ha b hb => h a (List.mem_cons_of_mem _ ha) b (List.mem_cons_of_mem _ hb)
    -- the step, in the thread that makes it
    obtain ⟨outj, hj⟩ := ok j
    rw [program_cons_self, runActs_cons] at hj
    cases e : A.effect env o x with
    | error _ => rw [e] at hj; cases hj
    | ok sr =>
      obtain ⟨st, rs⟩ := sr
      -- what the step changes is not used by others
      have hother : ∀ i, i ≠ j → A.runActs env (o.set x.target st) (Schedule.program s i) = A.runActs env o (Schedule.program s i) := by
        intro i hi
        refine runActs_congr fun y hy k hk => ?_
        have := h (j, x) (List.mem_cons_self ..) (i, y) (List.mem_cons_of_mem _ (mem_program.1 hy)) (Ne.symm hi)
        unfold Objects.set
        rw [if_neg fun hkx => this (by rw [← hkx]; exact hk)]
      obtain ⟨out, e1, e2⟩ := ih (o.set x.target st) hs fun i => by
        by_cases hi : i = j
        · subst hi
          rw [e] at hj
          simp only [Except.bind_ok] at hj
          cases e' : A.runActs env (o.set x.target st) (Schedule.program s i) with
          | error _ => rw [e'] at hj; cases hj
          | ok out => exact ⟨out, rfl⟩
        · rw [hother i hi]
          have := ok i
          rwa [program_cons_ne (Ne.symm hi)] at this
      refine ⟨rs.map (fun r => (x.target, r)) ++ out, ?_, fun i => ?_⟩
      · rw [List.map_cons, runActs_cons, e]
        simp only [Except.bind_ok]
        rw [e1]
        rfl
      · by_cases hi : i = j
        · subst hi
          rw [program_cons_self, runActs_cons, e]
          simp only [Except.bind_ok]
          rw [e2 i]
          simp only [Except.bind_ok]
          refine congrArg Except.ok ?_
          unfold Schedule.returned
          rw [program_cons_self, List.filter_append, (List.filter_eq_self (l := rs.map fun r => (x.target, r))).2 fun q hq => by
            obtain ⟨r, _, rfl⟩ := List.mem_map.1 hq
            simp]
          congr 1
          -- results of x.target that come later are those of this thread in any case
          refine List.filter_congr fun q hq => ?_
          have hq' := runActs_out e1 q hq
          rw [List.map_map, List.mem_map] at hq'
          obtain ⟨⟨k, y⟩, hy, hk⟩ := hq'
          simp only [Function.comp] at hk
          rw [decide_eq_decide, List.map_cons, List.mem_cons]
          constructor
          · exact .inr
          · rintro (hqx | hq)
            · refine List.mem_map.2 ⟨y, mem_program.2 ?_, hk⟩
              by_cases hki : k = i
              · exact hki ▸ hy
              · refine absurd ?_ (h (i, x) (List.mem_cons_self ..) (k, y) (List.mem_cons_of_mem _ hy) (Ne.symm hki))
                show x.target ∈ y.uses
                rw [← hqx, ← hk]
                cases y <;> simp [Act.target, Act.uses]
            · exact hq
        · rw [program_cons_ne (Ne.symm hi), ← hother i hi, e2 i]
          refine congrArg Except.ok ?_
          unfold Schedule.returned
          rw [program_cons_ne (Ne.symm hi), List.filter_append, (List.filter_eq_nil_iff (l := rs.map fun r => (x.target, r))).2 fun q hq => ?_]
          · rfl
          · obtain ⟨r, _, rfl⟩ := List.mem_map.1 hq
            rw [decide_eq_true_eq, List.mem_map]
            rintro ⟨y, hy, hyx⟩
            refine h (j, x) (List.mem_cons_self ..) (i, y) (List.mem_cons_of_mem _ (mem_program.1 hy)) (Ne.symm hi) ?_
            show x.target ∈ y.uses
            have hyx : y.target = x.target := hyx
            rw [← hyx]
            cases y <;> simp [Act.target, Act.uses]

/-- **C63.** Hence the schedule does not matter: two schedules of the same threads return the same to every thread. -/
theorem schedules_agree (A : HashAlg) (env : Env) (o : Objects A) (s s' : Schedule) (h : s.NoRace) (h' : s'.NoRace)
    (same : ∀ i, s.program i = s'.program i) (ok : ∀ i, ∃ out, A.runActs env o (s.program i) = .ok out) :
    ∃ out out', A.runActs env o (s.map Prod.snd) = .ok out ∧ A.runActs env o (s'.map Prod.snd) = .ok out' ∧
      ∀ i, s.returned i out = s'.returned i out' := by
  obtain ⟨out, e1, e2⟩ := threads_do_not_interfere A env o s h ok
  obtain ⟨out', e1', e2'⟩ := threads_do_not_interfere A env o s' h' fun i => same i ▸ ok i
  refine ⟨out, out', e1, e1', fun i => ?_⟩
  have := (e2 i).symm.trans ((congrArg _ (same i)).trans (e2' i))
  exact Except.ok.inj this

/-! Object 0 is a hash function's member; threads 1 and 2 copy it at the same time and hash their keys. -/

def twoThreads : Schedule :=
  [(1, .copy 1 0), (2, .copy 2 0), (2, .stmt 2 (.call (.update (.mem abc) 2))), (1, .stmt 1 (.call (.update (.mem abc) 3))),
   (1, .stmt 1 (.call .result)), (2, .stmt 2 (.call .result))]

theorem twoThreads_noRace : twoThreads.NoRace := by
  intro x hx y hy
  simp only [twoThreads, List.mem_cons, List.not_mem_nil, or_false] at hx hy
  rcases hx with rfl | rfl | rfl | rfl | rfl | rfl <;> rcases hy with rfl | rfl | rfl | rfl | rfl | rfl <;> simp [Act.target, Act.uses]

example : twoThreads.program 1 = [.copy 1 0, .stmt 1 (.call (.update (.mem abc) 3)), .stmt 1 (.call .result)] := rfl

def fnvShared : Objects fnv1a_32 := fun k => if k = 0 then some (0x811C9DC5#32) else none

example : ∃ out, fnv1a_32.runActs le64 fnvShared (twoThreads.map Prod.snd) = .ok out ∧
    ∀ i, fnv1a_32.runActs le64 fnvShared (twoThreads.program i) = .ok (twoThreads.returned i out) :=
  threads_do_not_interfere _ _ _ _ twoThreads_noRace fun i => by
    by_cases h1 : i = 1
    · subst h1; exact ⟨_, rfl⟩
    · by_cases h2 : i = 2
      · subst h2; exact ⟨_, rfl⟩
      · have : twoThreads.program i = [] := by simp [twoThreads, Schedule.program, Ne.symm h1, Ne.symm h2]
        rw [this]
        exact ⟨_, rfl⟩

end Hash2

import Verif.Props.HashAppend
import Verif.Spec.Objects
/-
C43: copies, and independence of objects.
-/
namespace Hash2
open Spec

/-- the object after a life -/
def HashAlg.after (A : HashAlg) (env : Env) (l : Life) : M (A.State × List A.R) := do
  let s ← A.construct env l.ctor
  A.runStmts env s l.past

theorem runStmts_append {A : HashAlg} {env : Env} (ps qs : List Stmt) (s : A.State) :
    A.runStmts env s (ps ++ qs) = (do
      let (s, rs) ← A.runStmts env s ps
      let (s, rs') ← A.runStmts env s qs
      return (s, rs ++ rs')) := by
  induction ps generalizing s with
  | nil =>
    show A.runStmts env s qs = (do let (s, rs') ← A.runStmts env s qs; return (s, [] ++ rs'))
    cases A.runStmts env s qs <;> rfl
  | cons p ps ih =>
    match p with
    | .call (.update q n) =>
      simp only [List.cons_append, HashAlg.runStmts, ih, bind_assoc]
    | .append f t v =>
      simp only [List.cons_append, HashAlg.runStmts, ih, bind_assoc]
    | .call .result =>
      simp only [List.cons_append, HashAlg.runStmts, ih, bind_assoc, pure_bind]

theorem alone_after {A : HashAlg} {env : Env} {l : Life} : A.alone env l = (do let (_, rs) ← A.after env l; return rs) := by
  unfold HashAlg.alone HashAlg.execStmts HashAlg.after
  simp only [bind_assoc]

theorem after_snoc {A : HashAlg} {env : Env} {l : Life} {s : A.State} {rs : List A.R} (h : A.after env l = .ok (s, rs)) (p : Stmt) :
    A.after env ⟨l.ctor, l.past ++ [p]⟩ = (do let (s, rs') ← A.runStmts env s [p]; return (s, rs ++ rs')) := by
  unfold HashAlg.after at h ⊢
  simp only [runStmts_append]
  rw [← bind_assoc, h]
  rfl

/-- the objects have lived as stated -/
def Lived (A : HashAlg) (env : Env) (o : Objects A) (ls : Nat → Option Life) : Prop :=
  ∀ i l, ls i = some l → ∃ s rs, o i = some s ∧ A.after env l = .ok (s, rs)

theorem Lived.set {A : HashAlg} {env : Env} {o : Objects A} {ls : Nat → Option Life} (h : Lived A env o ls) {i : Nat} {l : Life} {s : A.State}
    {rs : List A.R} (e : A.after env l = .ok (s, rs)) : Lived A env (o.set i s) (fun k => if k = i then some l else ls k) := by
  intro j l' hj
  unfold Objects.set
  by_cases hji : j = i
  · simp only [hji, if_true] at hj ⊢
    exact ⟨s, rs, rfl, (Option.some.inj hj) ▸ e⟩
  · simp only [hji, if_false] at hj ⊢
    exact h j l' hj

theorem runActs_ok {A : HashAlg} {env : Env} (as : List Act) : ∀ (o : Objects A) (ls : Nat → Option Life) (ms : List Moment),
    Lived A env o ls → moments ls as = some ms → (∀ m ∈ ms, ∃ rs, A.alone env m.life = .ok rs) →
    ∃ out, A.runActs env o as = .ok out ∧
      List.Forall₂ (fun (x : Nat × A.R) m => x.1 = m.obj ∧ ∃ rs, A.alone env m.life = .ok (rs ++ [x.2])) out (ms.filter Moment.asked) := by
  induction as with
  | nil =>
    intro o ls ms _ hm _
    obtain rfl := Option.some.inj hm
    exact ⟨[], rfl, .nil⟩
  | cons a as ih =>
    intro o ls ms hl hm ha
    unfold moments at hm
    obtain ⟨m, hm1, hm⟩ := Option.bind_eq_some_iff.1 hm
    obtain ⟨ms', hm2, hm⟩ := Option.bind_eq_some_iff.1 hm
    obtain rfl := Option.some.inj hm
    -- the object after this step
    obtain ⟨rs, hrs⟩ := ha m (List.mem_cons_self ..)
    rw [alone_after] at hrs
    cases haft : A.after env m.life with
    | error e => rw [haft] at hrs; simp at hrs
    | ok p =>
      obtain ⟨s', rs'⟩ := p
      rw [haft] at hrs
      obtain rfl : rs' = rs := Except.ok.inj hrs
      have hl' := hl.set (i := m.obj) haft
      obtain ⟨out, ho, hf⟩ := ih _ _ ms' hl' hm2 (fun x hx => ha x (List.mem_cons_of_mem _ hx))
      match a with
      | .construct i c =>
        obtain rfl := Option.some.inj hm1
        refine ⟨out, ?_, hf⟩
        have e : A.construct env c = .ok s' := by
          unfold HashAlg.after at haft
          simp only [HashAlg.runStmts] at haft
          cases hc : A.construct env c with
          | error e => rw [hc] at haft; simp at haft
          | ok x => rw [hc] at haft; simp only [Except.bind_ok] at haft; cases haft; rfl
        simp only [HashAlg.runActs, e, Except.bind_ok]
        exact ho
      | .copy i j =>
        obtain ⟨l, hj, hm1⟩ := Option.map_eq_some_iff.1 hm1
        subst hm1
        obtain ⟨s, rs, hs, he⟩ := hl j l hj
        rw [he] at haft
        cases haft
        refine ⟨out, ?_, hf⟩
        simp only [HashAlg.runActs, Objects.get, hs, Except.bind_ok]
        exact ho
      | .stmt i p =>
        have key : ∀ l, ls i = some l → m = ⟨i, ⟨l.ctor, l.past ++ [p]⟩, m.asked⟩ → ∃ rs0 rs1 s, o.get i = .ok s ∧ A.after env l = .ok (s, rs0) ∧
            A.runStmts env s [p] = .ok (s', rs1) ∧ rs' = rs0 ++ rs1 := by
          intro l hi hmm
          obtain ⟨s, rs0, hs, he⟩ := hl i l hi
          rw [hmm, after_snoc he p] at haft
          cases hr : A.runStmts env s [p] with
          | error e => rw [hr] at haft; simp at haft
          | ok q =>
            rw [hr] at haft
            simp only [Except.bind_ok] at haft
            cases haft
            exact ⟨rs0, q.2, s, by simp [Objects.get, hs], he, hr, rfl⟩
        have fin : ∀ l, ls i = some l → m = ⟨i, ⟨l.ctor, l.past ++ [p]⟩, m.asked⟩ → ∃ rs0 rs1,
            A.after env l = .ok (rs0) ∧ rs' = rs0.2 ++ rs1 ∧ (∃ s, A.runStmts env s [p] = .ok (s', rs1)) ∧
            A.runActs env o (.stmt i p :: as) = .ok (rs1.map (fun r => (i, r)) ++ out) := by
          intro l hi hmm
          obtain ⟨rs0, rs1, s, h1, h2, h3, h4⟩ := key l hi hmm
          have ei : m.obj = i := by rw [hmm]
          rw [ei] at ho
          refine ⟨(s, rs0), rs1, h2, h4, ⟨s, h3⟩, ?_⟩
          simp only [HashAlg.runActs, h1, Except.bind_ok, h3, ho]
          rfl
        match p with
        | .call .result =>
          obtain ⟨l, hi, hm1⟩ := Option.map_eq_some_iff.1 hm1
          obtain ⟨rs0, rs1, h1, h2, ⟨s, h3⟩, h4⟩ := fin l hi (by rw [← hm1])
          -- one result
          simp only [HashAlg.runStmts] at h3
          cases hr : A.result env s with
          | error e => rw [hr] at h3; simp at h3
          | ok q =>
            rw [hr] at h3
            simp only [Except.bind_ok] at h3
            cases h3
            refine ⟨_, h4, ?_⟩
            have ea : m.asked = true := by rw [← hm1]
            have ei : m.obj = i := by rw [← hm1]
            rw [List.filter_cons_of_pos ea]
            refine .cons ⟨ei.symm, rs0.2, ?_⟩ hf
            rw [alone_after, haft, h2]
            rfl
        | .call (.update q n) =>
          obtain ⟨l, hi, hm1⟩ := Option.map_eq_some_iff.1 hm1
          obtain ⟨rs0, rs1, h1, h2, ⟨s, h3⟩, h4⟩ := fin l hi (by rw [← hm1])
          simp only [HashAlg.runStmts] at h3
          cases hr : A.update env s q n with
          | error e => rw [hr] at h3; simp at h3
          | ok x =>
            rw [hr] at h3
            simp only [Except.bind_ok] at h3
            cases h3
            refine ⟨_, h4, ?_⟩
            have ea : m.asked = false := by rw [← hm1]
            rw [List.filter_cons_of_neg (by rw [ea]; decide)]
            exact hf
        | .append f t v =>
          obtain ⟨l, hi, hm1⟩ := Option.map_eq_some_iff.1 hm1
          obtain ⟨rs0, rs1, h1, h2, ⟨s, h3⟩, h4⟩ := fin l hi (by rw [← hm1])
          simp only [HashAlg.runStmts] at h3
          cases hr : hashAppend A env f t v s with
          | error e => rw [hr] at h3; simp at h3
          | ok x =>
            rw [hr] at h3
            simp only [Except.bind_ok] at h3
            cases h3
            refine ⟨_, h4, ?_⟩
            have ea : m.asked = false := by rw [← hm1]
            rw [List.filter_cons_of_neg (by rw [ea]; decide)]
            exact hf

/-- **C43.** In a program with any number of objects, copied and assigned at any time and used in any order, every call of result()
returns what it returns in the program that consists of the life of this object alone: its construction, or that of the object of
which it is a copy, and the statements since. So a copy is equivalent to the original, and what is done to one does not affect the
other. -/
theorem objects_are_values (a : AlgName) (env : Env) (as : List Act) (ms : List Moment) (hm : moments (fun _ => none) as = some ms)
    (hr : ∀ m ∈ ms, a.Runs env m.life.ctor m.life.past) :
    ∃ out, a.impl.runActs env (fun _ => none) as = .ok out ∧
      List.Forall₂ (fun (x : Nat × a.impl.R) m => x.1 = m.obj ∧ ∃ rs, a.impl.alone env m.life = .ok (rs ++ [x.2])) out (ms.filter Moment.asked) :=
  runActs_ok as _ _ ms (fun i l h => by cases h) hm fun m h => by
    obtain ⟨rs, e, _⟩ := AlgName.runs_expand (hr m h)
    exact ⟨rs, e⟩

/-- **C43.** the same for any algorithm (also those of users) whose objects' lives are free of undefined behaviour when lived alone -/
theorem objects_are_values_any (A : HashAlg) (env : Env) (as : List Act) (ms : List Moment) (hm : moments (fun _ => none) as = some ms)
    (hr : ∀ m ∈ ms, ∃ rs, A.alone env m.life = .ok rs) :
    ∃ out, A.runActs env (fun _ => none) as = .ok out ∧
      List.Forall₂ (fun (x : Nat × A.R) m => x.1 = m.obj ∧ ∃ rs, A.alone env m.life = .ok (rs ++ [x.2])) out (ms.filter Moment.asked) :=
  runActs_ok as _ _ ms (fun i l h => by cases h) hm hr

/-! An object 0 is fed "abc" and copied to 1; then 0 returns its result, 1 gets "a" more, 0 becomes a copy of 1, 1 is constructed anew. -/

def copying : List Act :=
  [.construct 0 .default, .stmt 0 (.call (.update (.mem abc) 3)), .copy 1 0, .stmt 0 (.call .result),
   .stmt 1 (.call (.update (.mem abc) 1)), .copy 0 1, .stmt 1 (.call .result), .construct 1 (.seed 7), .stmt 0 (.call .result), .stmt 1 (.call .result)]

/-- the lives of the objects at the four calls of result() -/
def copyingAsked : List (Nat × Life) :=
  [(0, ⟨.default, [.call (.update (.mem abc) 3), .call .result]⟩),
   (1, ⟨.default, [.call (.update (.mem abc) 3), .call (.update (.mem abc) 1), .call .result]⟩),
   (0, ⟨.default, [.call (.update (.mem abc) 3), .call (.update (.mem abc) 1), .call .result]⟩),
   (1, ⟨.seed 7, [.call .result]⟩)]

example : ∃ ms, moments (fun _ => none) copying = some ms ∧ (ms.filter Moment.asked).map (fun m => (m.obj, m.life)) = copyingAsked ∧
    ∀ m ∈ ms, (AlgName.digest .md5_128).Runs le64 m.life.ctor m.life.past := by
  refine ⟨_, rfl, rfl, ?_⟩
  have valid : ∀ (c : Ctor) (ps : List Stmt), c.Valid → (∀ p ∈ ps, p.Valid le64) → (AlgName.digest .md5_128).Runs le64 c ps :=
    fun c ps h1 h2 => ⟨h1, h2, .inl (.inl rfl), rfl, trivial⟩
  intro m hm
  simp only [List.mem_cons, List.not_mem_nil, or_false] at hm
  rcases hm with rfl | rfl | rfl | rfl | rfl | rfl | rfl | rfl | rfl | rfl <;>
  · refine valid _ _ trivial fun p hp => ?_
    simp [copying] at hp
    try rcases hp with rfl | rfl | rfl <;> rfl
    try rcases hp with rfl | rfl <;> rfl
    try (obtain rfl := hp; rfl)

end Hash2

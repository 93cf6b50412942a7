import Verif.Props.Histories
/-
C60: every result of every history.
-/
namespace Hash2
open Spec

/-- **C60.** Every class of the library, constructed in any way, in any history of valid calls of update() and result(): there is no fault, and
the results, in order, are those of the abstract hash object of Spec/Algorithms.lean (which is written down without reference to the code) fed
with the same bytes and asked at the same points. So also the results after the first, and those of objects with seeds of any kind, are fixed for
every algorithm. -/
theorem every_result (a : AlgName) (env : Env) (c : Ctor) (ops : List Op) (ts : List Tok) (hc : c.Valid) (h : stream ops = some ts)
    (hn : a.NullOk env ∨ NoNull ops) (hr : a.Room env c ts) :
    a.impl.exec env c ops = .ok ((a.machine env.sizeBits).run (c.start (a.machine env.sizeBits)) ts).2 := AlgName.exec_ok hc h hn hr

-- xxhash_64 with a byte seed, twice asked for its result: two numbers, the second of which continues from the accumulators the first left
example : (show M (List W64) from AlgName.xxhash_64.impl.exec be32 (.bytes (.mem abc) 3) [.update (.mem abc) 3, .result, .result]) =
    let o := ((XXH64.obj 64).res ((XXH64.obj 64).absorb (Obj.start (XXH64.start 0)) abc)).1
    let p := (XXH64.obj 64).res ((((XXH64.obj 64).absorb ((XXH64.obj 64).absorb ((XXH64.obj 64).absorb o [0x61]) [0x62]) [0x63])))
    .ok [p.2, ((XXH64.obj 64).res p.1).2] :=
  every_result .xxhash_64 be32 (.bytes (.mem abc) 3) [.update (.mem abc) 3, .result, .result] [.data 0x61, .data 0x62, .data 0x63, .fin, .fin]
    (Nat.le_refl 3) rfl (.inl trivial) trivial

private theorem stream_insert {before after : List Op} {ts ts' : List Tok} (h : stream before = some ts) (h' : stream after = some ts') (op : Op) (t : List Tok)
    (ht : op.toks = some t) : stream (before ++ op :: after) = some (ts ++ (t ++ ts')) := by
  rw [stream_append, h]
  simp [stream, ht, h']

private theorem fnv_octet {w : Nat} (prime : BitVec w) (s : BitVec w) (ts ts' : List Tok) :
    ∃ rs r rs', ((FNV.machine prime).run s (ts ++ ([Tok.fin] ++ ts'))).2 = rs ++ r :: rs' ∧
      ((FNV.machine prime).run s ts).2 = rs ∧
      ((FNV.machine prime).run s (ts ++ ([Tok.data 0xFF] ++ ts'))).2 = rs ++ rs' := by
  refine ⟨_, ((FNV.machine prime).run s ts).1, ((FNV.machine prime).run (FNV.feed prime ((FNV.machine prime).run s ts).1 [0xFF]) ts').2, ?_, rfl, ?_⟩
  · exact congrArg Prod.snd (Machine.run_append (FNV.machine prime) s ts _)
  · exact congrArg Prod.snd (Machine.run_append (FNV.machine prime) s ts _)

/-- **C60, FNV-1a.** Asking fnv1a for its result is, for everything that follows, the same as feeding it the octet 0xFF: at any point of any
history, the results before and after are the same. -/
theorem fnv_result_feeds_octet (a : AlgName) (ha : a = .fnv1a_32 ∨ a = .fnv1a_64) (env : Env) (c : Ctor) (hc : c.Valid) (before after : List Op)
    (ts ts' : List Tok) (h : stream before = some ts) (h' : stream after = some ts') :
    ∃ rs r rs', a.impl.exec env c before = .ok rs ∧ a.impl.exec env c (before ++ .result :: after) = .ok (rs ++ r :: rs') ∧
      a.impl.exec env c (before ++ .update (.mem [0xFF]) 1 :: after) = .ok (rs ++ rs') := by
  have i1 := stream_insert h h' .result [.fin] rfl
  have i2 := stream_insert h h' (.update (.mem [0xFF]) 1) [.data 0xFF] rfl
  rcases ha with rfl | rfl
  · obtain ⟨rs, r, rs', e1, e2, e3⟩ := fnv_octet FNV.prime32 (c.start (FNV.machine FNV.prime32)) ts ts'
    refine ⟨rs, r, rs', ?_, ?_, ?_⟩
    · rw [every_result .fnv1a_32 env c _ _ hc h (.inl trivial) trivial]; exact congrArg Except.ok e2
    · rw [every_result .fnv1a_32 env c _ _ hc i1 (.inl trivial) trivial]; exact congrArg Except.ok e1
    · rw [every_result .fnv1a_32 env c _ _ hc i2 (.inl trivial) trivial]; exact congrArg Except.ok e3
  · obtain ⟨rs, r, rs', e1, e2, e3⟩ := fnv_octet FNV.prime64 (c.start (FNV.machine FNV.prime64)) ts ts'
    refine ⟨rs, r, rs', ?_, ?_, ?_⟩
    · rw [every_result .fnv1a_64 env c _ _ hc h (.inl trivial) trivial]; exact congrArg Except.ok e2
    · rw [every_result .fnv1a_64 env c _ _ hc i1 (.inl trivial) trivial]; exact congrArg Except.ok e1
    · rw [every_result .fnv1a_64 env c _ _ hc i2 (.inl trivial) trivial]; exact congrArg Except.ok e3

-- the second result of an object fed with "abc" is the first of one fed with "abc" and 0xFF
example : (show M (List W32) from AlgName.fnv1a_32.impl.exec le64 .default [.update (.mem abc) 3, .result, .result]) = .ok [0x1a47e90b, 0x53354b1c] ∧
    (show M (List W32) from AlgName.fnv1a_32.impl.exec le64 .default [.update (.mem (abc ++ [0xFF])) 4, .result]) = .ok [0x53354b1c] := by
  decide +kernel

end Hash2

import Verif.Lemmas.FutureMurmur
import Verif.Props.Future
import Verif.Props.Standards
/-
C51 for murmur3.
-/
namespace Hash2
open Spec

private theorem future {τ R : Type} (T : BlockHash τ R) (hN : 0 < T.N) (hr : T.renum = id)
    (hi : ∀ s t n s', (T.finish s t n).2 = (T.finish s' t n).2 → s = s') {init : Obj τ} {seed : BitVec 64 → Obj τ} {bytes : List Byte → Obj τ}
    (o o' : Obj τ) (p p' : Nat) (ho : o.tail = []) (ho' : o'.tail = []) (hn : o.n = p % 2 ^ T.ctr ∧ p % T.N = 0)
    (hn' : o'.n = p' % 2 ^ T.ctr ∧ p' % T.N = 0) (ts ts' tm : List Tok) (hc : MURMUR3.counted T.N p ts = MURMUR3.counted T.N p' ts')
    (ht : rest T.N (bytesSince ts) = rest T.N (bytesSince ts')) (rs rs' : List R) (r : R)
    (h : rs ++ [r] = ((T.machine init seed bytes).run o (ts ++ [.fin])).2)
    (h' : rs' ++ [r] = ((T.machine init seed bytes).run o' (ts' ++ [.fin])).2) :
    ∃ qs : List R, ((T.machine init seed bytes).run o (ts ++ tm)).2 = rs ++ qs ∧
      ((T.machine init seed bytes).run o' (ts' ++ tm)).2 = rs' ++ qs := by
  obtain ⟨a1, a2, _⟩ := T.run_counted hN hr (init := init) (seed := seed) (bytes := bytes) o p ho hn.1 hn.2 ts
  obtain ⟨b1, b2, _⟩ := T.run_counted hN hr (init := init) (seed := seed) (bytes := bytes) o' p' ho' hn'.1 hn'.2 ts'
  rw [Machine.run_append (T.machine init seed bytes) o ts [.fin]] at h
  rw [Machine.run_append (T.machine init seed bytes) o' ts' [.fin]] at h'
  have h := List.append_inj' h rfl
  have h' := List.append_inj' h' rfl
  rw [Machine.run_append (T.machine init seed bytes) o ts tm, Machine.run_append (T.machine init seed bytes) o' ts' tm]
  have e := T.same_object hN hr hi _ _ (a1.trans (ht.trans b1.symm)) (a2.trans ((congrArg (· % 2 ^ T.ctr) hc).trans b2.symm))
    ((List.singleton_inj.1 h.2).symm.trans (List.singleton_inj.1 h'.2))
  refine ⟨((T.machine init seed bytes).run ((T.machine init seed bytes).run o ts).1 tm).2, ?_, ?_⟩
  · exact congrArg (· ++ _) h.1.symm
  · have e : ((T.machine init seed bytes).run o ts).1 = ((T.machine init seed bytes).run o' ts').1 := e
    rw [e]
    exact congrArg (· ++ _) h'.1.symm

/-- **C51.** murmur3_32 and murmur3_128: two objects, made and used in any ways, that have counted the same number of bytes, hold the same
incomplete block (none, say) and are about to return the same result, return the same results whatever the calls that follow. -/
theorem murmur3_result_determines_future (a : AlgName) (N : Nat) (ha : a = .murmur3_32 ∧ N = 4 ∨ a = .murmur3_128 ∧ N = 16) (env : Env)
    (c c' : Ctor) (hc : c.Valid) (hc' : c'.Valid) (ops ops' more : List Op) (ts ts' tm : List Tok) (h : stream ops = some ts)
    (h' : stream ops' = some ts') (hm : stream more = some tm)
    (hl : MURMUR3.counted N (MURMUR3.countedBy N c) ts = MURMUR3.counted N (MURMUR3.countedBy N c') ts')
    (ht : rest N (bytesSince ts) = rest N (bytesSince ts')) (rs rs' : List a.impl.R) (r : a.impl.R)
    (he : a.impl.exec env c (ops ++ [.result]) = .ok (rs ++ [r])) (he' : a.impl.exec env c' (ops' ++ [.result]) = .ok (rs' ++ [r])) :
    ∃ qs : List a.impl.R, a.impl.exec env c (ops ++ more) = .ok (rs ++ qs) ∧ a.impl.exec env c' (ops' ++ more) = .ok (rs' ++ qs) := by
  have S1 := stream_result ops ts h
  have S2 := stream_result ops' ts' h'
  have F1 : stream (ops ++ more) = some (ts ++ tm) := by rw [stream_append, h, hm]; rfl
  have F2 : stream (ops' ++ more) = some (ts' ++ tm) := by rw [stream_append, h', hm]; rfl
  rcases ha with ⟨rfl, rfl⟩ | ⟨rfl, rfl⟩
  · have e1 := AlgName.exec_ok (a := .murmur3_32) (env := env) hc S1 (.inl trivial) trivial
    have e2 := AlgName.exec_ok (a := .murmur3_32) (env := env) hc' S2 (.inl trivial) trivial
    have f1 := AlgName.exec_ok (a := .murmur3_32) (env := env) hc F1 (.inl trivial) trivial
    have f2 := AlgName.exec_ok (a := .murmur3_32) (env := env) hc' F2 (.inl trivial) trivial
    obtain ⟨qs, k1, k2⟩ := future (MURMUR3.x86_32.obj env.sizeBits) (show 0 < 4 by decide) rfl (fun s t n s' e => MurL.finish32_inj t n e)
      (c.start (MURMUR3.x86_32.machine env.sizeBits)) (c'.start (MURMUR3.x86_32.machine env.sizeBits)) _ _ (mur32_start _ c) (mur32_start _ c')
      (mur32_counted _ c hc) (mur32_counted _ c' hc') ts ts' tm hl ht rs rs' r (Except.ok.inj (he.symm.trans e1)) (Except.ok.inj (he'.symm.trans e2))
    exact ⟨qs, f1.trans (congrArg Except.ok k1), f2.trans (congrArg Except.ok k2)⟩
  · have e1 := AlgName.exec_ok (a := .murmur3_128) (env := env) hc S1 (.inl trivial) trivial
    have e2 := AlgName.exec_ok (a := .murmur3_128) (env := env) hc' S2 (.inl trivial) trivial
    have f1 := AlgName.exec_ok (a := .murmur3_128) (env := env) hc F1 (.inl trivial) trivial
    have f2 := AlgName.exec_ok (a := .murmur3_128) (env := env) hc' F2 (.inl trivial) trivial
    obtain ⟨qs, k1, k2⟩ := future (MURMUR3.x64_128.obj env.sizeBits) (show 0 < 16 by decide) rfl (fun s t n s' e => MurL.finish128_inj t n e)
      (c.start (MURMUR3.x64_128.machine env.sizeBits)) (c'.start (MURMUR3.x64_128.machine env.sizeBits)) _ _ (mur128_start _ c) (mur128_start _ c')
      (mur128_counted _ c hc) (mur128_counted _ c' hc') ts ts' tm hl ht rs rs' r (Except.ok.inj (he.symm.trans e1)) (Except.ok.inj (he'.symm.trans e2))
    exact ⟨qs, f1.trans (congrArg Except.ok k1), f2.trans (congrArg Except.ok k2)⟩

/-- the byte 5, and 5 as a seed: the same, so they go on alike -/
example : ∃ r : W32, AlgName.murmur3_32.impl.exec le64 (.seed 5) ([.update (.mem abc) 3] ++ [.result]) = .ok ([] ++ [r]) ∧
    AlgName.murmur3_32.impl.exec le64 (.bytes (.mem [5]) 1) ([.update (.mem abc) 3] ++ [.result]) = .ok ([] ++ [r]) ∧
    ∃ qs : List W32, AlgName.murmur3_32.impl.exec le64 (.seed 5) ([.update (.mem abc) 3] ++ [.update (.mem abc) 2, .result]) = .ok ([] ++ qs) ∧
      AlgName.murmur3_32.impl.exec le64 (.bytes (.mem [5]) 1) ([.update (.mem abc) 3] ++ [.update (.mem abc) 2, .result]) = .ok ([] ++ qs) := by
  have h : AlgName.murmur3_32.impl.exec le64 (.seed 5) ([.update (.mem abc) 3] ++ [.result]) = .ok ([] ++ [MURMUR3.x86_32.hash 5 abc]) :=
    murmur3_32_reference le64 5 (by decide) [.update (.mem abc) 3] abc rfl (by decide)
  have h' : AlgName.murmur3_32.impl.exec le64 (.bytes (.mem [5]) 1) ([.update (.mem abc) 3] ++ [.result]) = .ok ([] ++ [MURMUR3.x86_32.hash 5 abc]) := h
  exact ⟨_, h, h', murmur3_result_determines_future .murmur3_32 4 (.inl ⟨rfl, rfl⟩) le64 (.seed 5) (.bytes (.mem [5]) 1) trivial (show 1 ≤ 1 by decide)
    [.update (.mem abc) 3] [.update (.mem abc) 3] [.update (.mem abc) 2, .result] [.data 0x61, .data 0x62, .data 0x63] [.data 0x61, .data 0x62, .data 0x63]
    [.data 0x61, .data 0x62, .fin] rfl rfl rfl rfl rfl [] [] _ h h'⟩

/-- **C51, murmur3.** Extension: there is a function F such that, for an object with any (perhaps secret) seed, an integer or at most
16 bytes (4 for murmur3_32): if r is the hash of a message m then that of m followed by any bytes x is F( r, length of m, m's last incomplete block, x ).
Nothing else of m, and nothing of the seed, enters. -/
theorem murmur3_extension (a : AlgName) (N : Nat) (ha : a = .murmur3_32 ∧ N = 4 ∨ a = .murmur3_128 ∧ N = 16) (env : Env) :
    ∃ F : a.impl.R → Nat → List Byte → List Byte → a.impl.R, ∀ (c : Ctor) (m x : List Byte) (r : a.impl.R) (ops ops' : List Op), c.Valid →
      MURMUR3.countedBy N c = 0 → stream ops = some (m.map .data) → stream ops' = some ((m ++ x).map .data) →
      a.impl.exec env c (ops ++ [.result]) = .ok [r] →
      a.impl.exec env c (ops' ++ [.result]) = .ok [F r m.length (rest N m) x] := by
  classical
  have one : ∀ (y : List Byte), stream [.update (.mem y) y.length] = some (y.map .data) := by intro y; simp [stream, Op.toks]
  have cnt : ∀ (m : List Byte) n, MURMUR3.counted N n (m.map .data) = n + m.length := by
    intro m
    induction m with
    | nil => intro n; rfl
    | cons b m ih => intro n; show MURMUR3.counted N (n + 1) (m.map .data) = _; rw [ih]; simp only [List.length_cons]; omega
  have since : ∀ (m : List Byte), bytesSince (m.map .data) = m := by
    intro m
    induction m using List.reverseRecOn with
    | nil => rfl
    | append_singleton m b ih => rw [List.map_append, List.map_singleton, Spec.bytesSince_append, ih]
  have nul : ∀ ops : List Op, a.NullOk env ∨ NoNull ops := by rcases ha with ⟨rfl, rfl⟩ | ⟨rfl, rfl⟩ <;> exact fun _ => .inl trivial
  have room : ∀ c ts, a.Room env c ts := by rcases ha with ⟨rfl, rfl⟩ | ⟨rfl, rfl⟩ <;> exact fun _ _ => trivial
  refine ⟨fun r n t x => if h : ∃ (q : a.impl.R) (c : Ctor) (m : List Byte), c.Valid ∧ MURMUR3.countedBy N c = 0 ∧ m.length = n ∧ rest N m = t ∧
      a.impl.exec env c ([.update (.mem m) m.length] ++ [.result]) = .ok [r] ∧
      a.impl.exec env c ([.update (.mem m) m.length] ++ [.update (.mem x) x.length, .result]) = .ok [q] then h.choose else r, ?_⟩
  intro c m x r ops ops' hc h0 h h' he
  have SX : stream [.update (.mem x) x.length, .result] = some (x.map .data ++ [.fin]) := stream_result [.update (.mem x) x.length] _ (one x)
  have S1 : stream ([.update (.mem m) m.length] ++ [.update (.mem x) x.length, .result]) = some ((m ++ x).map .data ++ [.fin]) := by
    rw [stream_append, one, SX, List.map_append, List.append_assoc]; rfl
  have e1 : a.impl.exec env c ([.update (.mem m) m.length] ++ [.result]) = .ok [r] :=
    (AlgName.exec_ok hc (stream_result _ _ (one m)) (nul _) (room _ _)).trans
      ((AlgName.exec_ok hc (stream_result _ _ h) (nul _) (room _ _)).symm.trans he)
  have e2 : a.impl.exec env c ([.update (.mem m) m.length] ++ [.update (.mem x) x.length, .result]) = a.impl.exec env c (ops' ++ [.result]) :=
    (AlgName.exec_ok hc S1 (nul _) (room _ _)).trans (AlgName.exec_ok hc (stream_result _ _ h') (nul _) (room _ _)).symm
  obtain ⟨qs, f1, _⟩ := murmur3_result_determines_future a N ha env c c hc hc [.update (.mem m) m.length] [.update (.mem m) m.length]
    [.update (.mem x) x.length, .result] _ _ _ (one m) (one m) SX rfl rfl [] [] r e1 e1
  have len : ∀ c qs, c.Valid → a.impl.exec env c ([.update (.mem m) m.length] ++ [.update (.mem x) x.length, .result]) = .ok qs → ∃ q, qs = [q] := by
    intro c qs hc f
    have := (AlgName.exec_ok hc S1 (nul _) (room c _)).symm.trans f
    rw [← Except.ok.inj this]
    have e := Machine.run_append (a.machine env.sizeBits) (c.start (a.machine env.sizeBits)) ((m ++ x).map .data) [.fin]
    refine ⟨((a.machine env.sizeBits).res ((a.machine env.sizeBits).run (c.start (a.machine env.sizeBits)) ((m ++ x).map .data)).1).2, ?_⟩
    refine (congrArg Prod.snd e).trans ?_
    exact congrArg (· ++ _) (Machine.run_data' (a.machine env.sizeBits) (m ++ x) _)
  obtain ⟨q, rfl⟩ := len c _ hc f1
  rw [← e2]
  have ex : ∃ (q : a.impl.R) (c : Ctor) (m' : List Byte), c.Valid ∧ MURMUR3.countedBy N c = 0 ∧ m'.length = m.length ∧ rest N m' = rest N m ∧
      a.impl.exec env c ([.update (.mem m') m'.length] ++ [.result]) = .ok [r] ∧
      a.impl.exec env c ([.update (.mem m') m'.length] ++ [.update (.mem x) x.length, .result]) = .ok [q] := ⟨q, c, m, hc, h0, rfl, rfl, e1, f1⟩
  refine f1.trans (congrArg (fun z => Except.ok [z]) ?_)
  show q = if h : _ then _ else _
  rw [dif_pos ex]
  obtain ⟨c2, m2, hc2, h02, hm2, ht2, g1, g2⟩ := ex.choose_spec
  obtain ⟨qs, k1, k2⟩ := murmur3_result_determines_future a N ha env c c2 hc hc2 [.update (.mem m) m.length] [.update (.mem m2) m2.length]
    [.update (.mem x) x.length, .result] _ _ _ (one m) (one m2) SX (by rw [cnt, cnt, h0, h02, hm2]) (by rw [since, since, ht2]) [] [] r e1 g1
  have k1 := Except.ok.inj (f1.symm.trans k1)
  have k2 := Except.ok.inj (g2.symm.trans k2)
  exact List.singleton_inj.1 (k1.trans k2.symm)

/-- a murmur3_128 object with the secret seed 5 has hashed 16 secret bytes: what it would return for these followed by "abc" is known -/
example (env : Env) : ∃ F : List Byte → Nat → List Byte → List Byte → List Byte, ∀ (k : W64) (m r : List Byte), m.length = 16 →
    AlgName.murmur3_128.impl.exec env (.seed k) [.update (.mem m) m.length, .result] = .ok [r] →
    AlgName.murmur3_128.impl.exec env (.seed k) [.update (.mem (m ++ abc)) (m ++ abc).length, .result] = .ok [F r 16 [] abc] := by
  obtain ⟨F, h⟩ := murmur3_extension .murmur3_128 16 (.inr ⟨rfl, rfl⟩) env
  refine ⟨F, fun k m r hm hr => ?_⟩
  have := h (.seed k) m abc r [.update (.mem m) m.length] [.update (.mem (m ++ abc)) (m ++ abc).length] trivial rfl
    (by simp [stream, Op.toks]) (by simp [stream, Op.toks]) hr
  rwa [hm, List.eq_nil_of_length_eq_zero (l := rest 16 m) (by rw [rest_length, hm])] at this

end Hash2

import Verif.Lemmas.XX64
/-
xxhash_32 implements XXH32.
-/
namespace Hash2.XX32
open Spec

def rep (s : Acc4 32) : Q4 W32 := ⟨s.a1, s.a2, s.a3, s.a4⟩

theorem P1_eq : P1 = XXH32.prime1 := by decide +kernel
theorem P2_eq : P2 = XXH32.prime2 := by decide +kernel
theorem P3_eq : P3 = XXH32.prime3 := by decide +kernel
theorem P4_eq : P4 = XXH32.prime4 := by decide +kernel
theorem P5_eq : P5 = XXH32.prime5 := by decide +kernel

theorem round_ok (a l : W32) : round a l = XXH32.round a l := by
  simp only [round, XXH32.round, rotl_eq _ (by decide : 13 < 32), P1_eq, P2_eq]

theorem block_ok (env : Env) (s : Acc4 32) (b more : List Byte) (hb : b.length = 16) :
    block env (.mem (b ++ more)) (rep s) = .ok (rep (XXH32.stripe s b)) := by
  have hr : ∀ i, i < 4 → read32le env (.mem ((b ++ more).drop (4 * i))) = .ok (XXH32.lane b i) := by
    intro i hi
    rw [read32le_ok env _ (by simp; omega), List.drop_append_of_le_length (by omega),
      List.take_append_of_le_length (by simp; omega)]
    rfl
  unfold block
  rw [Ptr.add_mem (by simp), Ptr.add_mem (by simp; omega), Ptr.add_mem (by simp; omega), Ptr.add_mem (by simp; omega)]
  simp only [Except.bind_ok]
  have h0 := hr 0 (by omega); have h1 := hr 1 (by omega); have h2 := hr 2 (by omega); have h3 := hr 3 (by omega)
  simp only [Nat.mul_zero, Nat.reduceMul] at h0 h1 h2 h3
  rw [h0, h1, h2, h3]
  simp only [Except.bind_ok, Except.pure_eq, round_ok]
  rfl

theorem tail4_eq (env : Env) (fuel : Nat) (p : Ptr) (m : Nat) (h : W32) :
    tail4 env fuel p m h = whileBlocks 4 (fun p h => do
      let v ← read32le env p
      return rotl (h + v * P3) 17 * P4) fuel p m h := by
  induction fuel generalizing p m h with
  | zero => rfl
  | succ fuel ih =>
    unfold tail4 whileBlocks
    split
    · cases read32le env p <;> simp [ih]
    · rfl

theorem tail1_eq (fuel : Nat) (p : Ptr) (m : Nat) (h : W32) :
    tail1 fuel p m h = (whileBlocks 1 (fun p h => do
      let b ← p.get 0
      return rotl (h + b.zeroExtend 32 * P5) 11 * P1) fuel p m h).map (fun r => r.2.2) := by
  induction fuel generalizing p m h with
  | zero =>
    unfold tail1 whileBlocks
    by_cases h0 : 0 < m
    · rw [if_pos h0, if_pos (show 1 ≤ m from h0)]; rfl
    · rw [if_neg h0, if_neg (show ¬ 1 ≤ m from h0)]; rfl
  | succ fuel ih =>
    unfold tail1 whileBlocks
    by_cases h0 : 0 < m
    · rw [if_pos h0, if_pos (show 1 ≤ m from h0)]
      cases p.get 0 with
      | error e => rfl
      | ok b =>
        simp only [Except.bind_ok, Except.pure_eq]
        cases p.add 1 with
        | error e => rfl
        | ok q => simp only [Except.bind_ok, ih]; rfl
    · rw [if_neg h0, if_neg (show ¬ 1 ≤ m from h0)]; rfl

/-- the two loops over the incomplete block -/
theorem tail_ok (env : Env) (tail more : List Byte) (h : W32) :
    (do
      let (p, m, h) ← tail4 env (tail.length + 1) (.mem (tail ++ more)) tail.length h
      tail1 (m + 1) p m h) = .ok (XXH32.consume h tail) := by
  rw [tail4_eq, whileBlocks_ok (f := fun acc b => (acc + leWord 32 b * XXH32.prime3).rotateLeft 17 * XXH32.prime4)
    (by omega) (by
      intro st b more hb
      rw [read32le_ok env _ (by simp; omega), List.take_left' hb]
      simp only [Except.bind_ok, Except.pure_eq, rotl_eq _ (by decide : 17 < 32), P3_eq, P4_eq])
    _ _ _ _ (by omega)]
  simp only [Except.bind_ok]
  rw [tail1_eq, whileBlocks_ok
    (f := fun acc b => (acc + BitVec.ofNat 32 (b.headD 0).toNat * XXH32.prime5).rotateLeft 11 * XXH32.prime1)
    (by omega) (by
      intro st b more hb
      match b, hb with
      | [b], _ =>
        simp only [List.singleton_append, Ptr.get, List.getElem?_cons_zero, Except.bind_ok, Except.pure_eq, List.headD_cons,
          zeroExtend_ofNat, rotl_eq _ (by decide : 11 < 32), P1_eq, P5_eq]) _ _ _ _ (by omega)]
  simp only [Except.map]
  rw [foldl_blocks1 (fun (acc : W32) b => (acc + BitVec.ofNat 32 b.toNat * XXH32.prime5).rotateLeft 11 * XXH32.prime1)]
  rfl

theorem finalMix_ok (h : W32) : finalMix h = XXH32.avalanche h := by
  simp only [finalMix, XXH32.avalanche, P2_eq, P3_eq]

/-- the value before the remaining input -/
theorem converge_ok (a : Acc4 32) (n : Nat) :
    (if 16 ≤ n then rotl (rep a).a 1 + rotl (rep a).b 7 + rotl (rep a).c 12 + rotl (rep a).d 18 else (rep a).c + P5)
      = (if n < 16 then a.a3 + XXH32.prime5 else XXH32.converge a) := by
  by_cases h : n < 16
  · rw [if_neg (by omega), if_pos h, P5_eq]; rfl
  · rw [if_pos (by omega), if_neg h]
    simp only [XXH32.converge, rep, rotl_eq _ (by decide : 1 < 32), rotl_eq _ (by decide : 7 < 32),
      rotl_eq _ (by decide : 12 < 32), rotl_eq _ (by decide : 18 < 32)]

theorem result_ok (env : Env) (s : BlockState (Q4 W32)) (o : Obj (Acc4 32))
    (h : Hash2.Rel (cfg env) s ⟨rep o.st, o.tail, o.n⟩) :
    ∃ buf, result env s = .ok (⟨rep ((XXH32.obj env.sizeBits).res o).1.st, buf, 0, ((XXH32.obj env.sizeBits).res o).1.n⟩,
        ((XXH32.obj env.sizeBits).res o).2) ∧
      buf = List.replicate 16 0 ∧ ((XXH32.obj env.sizeBits).res o).1.n % 16 = 0 ∧ ((XXH32.obj env.sizeBits).res o).1.n < 2 ^ env.sizeBits := by
  have hm : s.m = o.tail.length := h.m
  have hn : s.n = o.n := h.n
  have hst : s.st = rep o.st := h.st
  have hlt : o.tail.length < 16 := h.wf.tail_lt
  have hbl : s.buf.length = 16 := h.buf_len
  have hsync : s.m = s.n % 16 := h.sync
  have hbuf : s.buf.take o.tail.length = o.tail := by rw [← hm]; exact h.buf
  refine ⟨List.replicate 16 0, ?_, rfl, ?_, Nat.mod_lt _ (Nat.two_pow_pos _)⟩
  · have htail := tail_ok env o.tail (s.buf.drop o.tail.length)
      ((if o.n < 16 then o.st.a3 + XXH32.prime5 else XXH32.converge o.st) + BitVec.ofNat 32 o.n)
    rw [← hbuf, List.length_take, Nat.min_eq_left (by omega), List.take_append_drop, hbuf, ← converge_ok] at htail
    unfold result
    rw [check_ok hsync]
    simp only [Except.bind_ok]
    simp only [hm, hn, hst]
    simp only at htail ⊢
    revert htail
    generalize tail4 env (o.tail.length + 1) (Ptr.mem s.buf) o.tail.length _ = x4
    intro htail
    cases x4 with
    | error e => simp at htail
    | ok r4 =>
        obtain ⟨p, m, h4⟩ := r4
        simp only [Except.bind_ok] at htail ⊢
        rw [htail]
        simp only [Except.bind_ok]
        rw [csub_ok (by omega), memset_ok _ _ _ _ _ (by omega)]
        simp only [Except.bind_ok, Except.pure_eq, converge_ok]
        rw [List.drop_of_length_le (by omega)]
        simp [BlockHash.res, XXH32.obj, rep, finalMix_ok]
  · show (o.n + (16 - o.tail.length)) % 2 ^ env.sizeBits % 16 = 0
    rw [hm, hn] at hsync
    have : env.sizeBits = 64 ∨ env.sizeBits = 32 := by unfold Env.sizeBits; split <;> simp
    rcases this with h | h <;> rw [h] <;> omega

def ok (env : Env) : StreamOk (cfg env) (result env) (XXH32.obj env.sizeBits) where
  u := rep
  v q := ⟨q.a, q.b, q.c, q.d⟩
  uv _ := rfl
  vu _ := rfl
  hN := rfl
  ctr := rfl
  early := rfl
  pos := Nat.succ_pos 15
  tr := block_ok env
  res_ok := result_ok env

theorem fits (env : Env) (o : Obj (Acc4 32)) (bs : List Byte) : (ok env).fits o bs := .inl (by
  show 16 ∣ 2 ^ env.sizeBits
  unfold Env.sizeBits; split <;> decide)

theorem start_ok (env : Env) (t : Acc4 32) : (ok env).RelO ⟨rep t, List.replicate 16 0, 0, 0⟩ (Obj.start t) :=
  (ok env).start t (buf := List.replicate 16 0) rfl (fun _ => rfl)

theorem init_ok (env : Env) : (ok env).RelO init (Obj.start (XXH32.start 0)) := by
  have h := start_ok env (XXH32.start 0)
  have e : rep (XXH32.start 0) = iv := by decide +kernel
  rw [e] at h
  exact h

theorem initSeed_eq (k : W64) : initSeed k = ⟨rep (XXH32.seeded k), List.replicate 16 0, 0, 0⟩ := by
  have h0 : k.truncate 32 = BitVec.ofNat 32 k.toNat := by apply BitVec.eq_of_toNat_eq; simp
  have h1 : (k >>> 32).truncate 32 = BitVec.ofNat 32 (k.toNat / 2 ^ 32) := by
    apply BitVec.eq_of_toNat_eq; simp [Nat.shiftRight_eq_div_pow]
  have e : ∀ x, initV x = rep (XXH32.start x) := by intro x; simp only [rep, XXH32.start, initV, P1_eq, P2_eq]
  unfold initSeed XXH32.seeded
  simp only [h0, h1, e, round_ok]
  by_cases h : BitVec.ofNat 32 (k.toNat / 2 ^ 32) = 0
  · simp only [h, ne_eq, not_true_eq_false, if_false, if_true]; rfl
  · simp only [ne_eq, h, not_false_eq_true, if_true, if_false]; rfl

theorem bytes_ok (env : Env) (bs more : List Byte) :
    ∃ s, initBytes env (.mem (bs ++ more)) bs.length = .ok s ∧ (ok env).RelO s ((XXH32.machine env.sizeBits).bytes bs) := by
  unfold initBytes ctorBytes
  by_cases h0 : bs = []
  · subst h0
    exact ⟨init, by simp, init_ok env⟩
  · obtain ⟨s1, e1, r1⟩ := (ok env).upd env (init_ok env) bs more (fits env _ _)
    obtain ⟨s2, e2, r2⟩ := (ok env).res' r1
    refine ⟨s2, ?_, ?_⟩
    · unfold upd
      rw [if_pos (by simpa using h0), e1]
      simp only [Except.bind_ok]
      rw [e2]
      rfl
    · show (ok env).RelO s2 (if bs = [] then _ else _)
      rw [if_neg h0]; exact r2

/-- xxhash_32 implements XXH32 -/
def implements (env : Env) : Implements xxhash_32 env (XXH32.machine env.sizeBits) :=
  StreamOk.implements env cfg result (ok env) (fun _ => .ok init) (fun _ k => .ok (initSeed k)) initBytes
    (fun _ r => Integral.get 4 8 r) _ _ _ (fun _ => True)
    ⟨_, rfl, init_ok env⟩
    (fun k => ⟨_, rfl, by
      rw [initSeed_eq]
      exact start_ok env (XXH32.seeded k)⟩)
    (fun bs more _ => bytes_ok env bs more)
    (bytes_ok env [] [] |> fun ⟨s, e, h⟩ => ⟨s, by simpa [initBytes, ctorBytes] using e, h⟩)

end Hash2.XX32

import Verif.Lemmas.SpookyMix
/-
spooky2_128 implements SpookyHash V2.
-/
namespace Hash2.Spooky
open Spec SPOOKY

def toQ (s : Words 4) : Q4 W64 := ⟨s 0, s 1, s 2, s 3⟩
theorem toQ_ofQ (q : Q4 W64) : toQ (ofQ q) = q := rfl
theorem ofQ_toQ (s : Words 4) : ofQ (toQ s) = s := funext (forall4 rfl rfl rfl rfl)

theorem addCD_ofQ (q : Q4 W64) (b : List Byte) :
    addCD (ofQ q) b = ofQ ⟨q.a, q.b, q.c + word b 0, q.d + word b 1⟩ := funext (forall4 rfl rfl rfl rfl)
theorem addAB_ofQ (q : Q4 W64) (b : List Byte) :
    addAB (ofQ q) b = ofQ ⟨q.a + word b 0, q.b + word b 1, q.c, q.d⟩ := funext (forall4 rfl rfl rfl rfl)

theorem read_word (env : Env) (b more : List Byte) (i : Nat) (hb : 8 * i + 8 ≤ b.length) :
    read64le env (.mem ((b ++ more).drop (8 * i))) = .ok (word b i) := by
  rw [read64le_ok env _ (by simp; omega), List.drop_append_of_le_length (by omega), List.take_append_of_le_length (by simp; omega)]
  rfl

theorem word_take (b : List Byte) (k i : Nat) (h : 8 * i + 8 ≤ k) : word (b.take k) i = word b i := by
  rw [word, word, List.drop_take, List.take_take, Nat.min_eq_left (by omega)]

theorem word_drop (b : List Byte) (i j : Nat) : word (b.drop (8 * j)) i = word b (j + i) := by
  rw [word, word, List.drop_drop, Nat.mul_add]

/-- the loop over sets of 32 bytes -/
theorem short32_eq (env : Env) (fuel : Nat) (p : Ptr) (m : Nat) (q : Q4 W64) :
    Spooky.short32 env fuel p m q = whileBlocks 32 (fun p q => do
      let c := q.c + (← read64le env (← p.add 0))
      let d := q.d + (← read64le env (← p.add 8))
      let q := short_mix ⟨q.a, q.b, c, d⟩
      let a := q.a + (← read64le env (← p.add 16))
      let b := q.b + (← read64le env (← p.add 24))
      return ⟨a, b, q.c, q.d⟩) fuel p m q := by
  induction fuel generalizing p m q with
  | zero => rfl
  | succ fuel ih =>
    unfold Spooky.short32 whileBlocks
    split
    · simp only [ih, bind_assoc, pure_bind]
    · rfl

theorem short32_ok (env : Env) (bs more : List Byte) (q : Q4 W64) (fuel : Nat) (hf : bs.length < fuel) :
    Spooky.short32 env fuel (.mem (bs ++ more)) bs.length q
      = .ok (.mem (rest 32 bs ++ more), (rest 32 bs).length, toQ ((blocks 32 bs).foldl SPOOKY.short32 (ofQ q))) := by
  rw [short32_eq, whileBlocks_ok (f := fun q b => toQ (SPOOKY.short32 (ofQ q) b)) (by omega) (by
    intro q b more hb
    rw [Ptr.add_mem (by simp), Ptr.add_mem (by simp; omega), Ptr.add_mem (by simp; omega), Ptr.add_mem (by simp; omega)]
    simp only [Except.bind_ok]
    have h0 := read_word env b more 0 (by omega); have h1 := read_word env b more 1 (by omega)
    have h2 := read_word env b more 2 (by omega); have h3 := read_word env b more 3 (by omega)
    simp only [Nat.mul_zero, Nat.reduceMul] at h0 h1 h2 h3
    rw [h0, h1, h2, h3]
    simp only [Except.bind_ok, Except.pure_eq]
    have w2 := word_drop b 0 2; have w3 := word_drop b 1 2
    simp only [Nat.reduceMul, Nat.reduceAdd] at w2 w3
    rw [SPOOKY.short32, addCD_ofQ, ← shortMix_ok, addAB_ofQ, toQ_ofQ, word_take _ _ _ (by omega), word_take _ _ _ (by omega),
      w2, w3]) _ _ _ _ hf]
  congr 3
  generalize blocks 32 bs = bl
  induction bl generalizing q with
  | nil => rfl
  | cons b bl ih => simp only [List.foldl_cons]; rw [ih, ofQ_toQ]

/-- short_hash() -/
theorem short_ok (env : Env) (msg more : List Byte) (s1 s2 : W64) :
    short_hash env (.mem (msg ++ more)) msg.length s1 s2 = .ok (short s1 s2 msg) := by
  unfold short_hash short
  dsimp only
  rw [short32_ok env msg more _ _ (by omega)]
  simp only [Except.bind_ok]
  have hst : (ofQ ⟨s1, s2, sc_const, sc_const⟩ : Words 4) = ![s1, s2, sc, sc] := rfl
  rw [hst]
  generalize (blocks 32 msg).foldl SPOOKY.short32 ![s1, s2, sc, sc] = h
  generalize hr : rest 32 msg = r
  have hrl : r.length < 32 := by rw [← hr]; exact rest_length_lt (by omega) _
  -- 16 or more remaining bytes
  have h16 : (if 16 ≤ r.length then (do
      let c := (toQ h).c + (← read64le env (← (Ptr.mem (r ++ more)).add 0))
      let d := (toQ h).d + (← read64le env (← (Ptr.mem (r ++ more)).add 8))
      let q := short_mix ⟨(toQ h).a, (toQ h).b, c, d⟩
      let p ← (Ptr.mem (r ++ more)).add 16
      return (p, r.length - 16, q))
    else return ((Ptr.mem (r ++ more)), r.length, toQ h) : M (Ptr × Nat × Q4 W64))
      = .ok (.mem (rest 16 r ++ more), (rest 16 r).length, toQ ((blocks 16 r).foldl (fun h b => shortMix (addCD h b)) h)) := by
    by_cases hc : 16 ≤ r.length
    · rw [if_pos hc]
      obtain ⟨b, t, rfl, hb⟩ : ∃ b t, r = b ++ t ∧ b.length = 16 :=
        ⟨r.take 16, r.drop 16, (List.take_append_drop 16 r).symm, by simp; omega⟩
      rw [blocks_append (by omega) hb, rest_append (by omega) hb]
      have htl : t.length < 16 := by simp at hrl; omega
      rw [blocks_short htl, rest_short htl, List.append_assoc, Ptr.add_mem (by simp), Ptr.add_mem (by simp; omega),
        Ptr.add_mem (by simp; omega)]
      simp only [Except.bind_ok]
      have h0 := read_word env b (t ++ more) 0 (by omega); have h1 := read_word env b (t ++ more) 1 (by omega)
      simp only [Nat.mul_zero, Nat.reduceMul] at h0 h1
      rw [h0, h1]
      simp only [Except.bind_ok, Except.pure_eq, List.foldl_cons, List.foldl_nil]
      rw [List.drop_left' hb]
      conv => rhs; rw [← ofQ_toQ h, addCD_ofQ, ← shortMix_ok, toQ_ofQ]
      simp [hb]
    · rw [if_neg hc, blocks_short (by omega), rest_short (by omega)]; rfl
  simp only [Except.pure_eq] at h16 ⊢
  rw [h16]
  simp only [Except.bind_ok]
  generalize (blocks 16 r).foldl (fun h b => shortMix (addCD h b)) h = g
  generalize hl : rest 16 r = l
  have hll : l.length < 16 := by rw [← hl]; exact rest_length_lt (by omega) _
  have hlast : (if l.length = 0 then (.ok (⟨(toQ g).a, (toQ g).b, (toQ g).c + sc_const, (toQ g).d + sc_const⟩ : Q4 W64) : M (Q4 W64))
      else (do
        check (l.length < 16)
        let tmp ← stdMemcpy (List.replicate 16 0) 0 (.mem (l ++ more)) l.length
        let c := (toQ g).c + (← read64le env (← (Ptr.mem tmp).add 0))
        let d := (toQ g).d + (← read64le env (← (Ptr.mem tmp).add 8))
        .ok (⟨(toQ g).a, (toQ g).b, c, d⟩ : Q4 W64)))
      = .ok (toQ (if l = [] then put (put g 2 (g 2 + sc)) 3 (g 3 + sc) else addCD g (l ++ List.replicate (16 - l.length) 0))) := by
    by_cases h0 : l = []
    · subst h0; rfl
    · rw [if_neg (by simpa using h0), if_neg h0, check_ok hll, stdMemcpy_ok _ _ _ _ (by simp) (by simp; omega)]
      simp only [Except.bind_ok, List.take_zero, List.nil_append, Nat.zero_add, List.take_left', List.drop_replicate]
      have hlen : (l ++ List.replicate (16 - l.length) (0 : Byte)).length = 16 := by simp; omega
      generalize l ++ List.replicate (16 - l.length) (0 : Byte) = t at hlen
      rw [Ptr.add_mem (by omega), Ptr.add_mem (by omega)]
      simp only [Except.bind_ok]
      have h0 := read_word env t [] 0 (by omega); have h1 := read_word env t [] 1 (by omega)
      simp only [Nat.mul_zero, Nat.reduceMul, List.append_nil] at h0 h1
      rw [h0, h1]
      conv => rhs; rw [← ofQ_toQ g, addCD_ofQ, toQ_ofQ]
      rfl
  rw [hlast]
  simp only [Except.bind_ok]
  generalize (if l = [] then put (put g 2 (g 2 + sc)) 3 (g 3 + sc) else addCD g (l ++ List.replicate (16 - l.length) 0)) = k
  have hk : put k 3 (k 3 + BitVec.ofNat 64 msg.length <<< 56)
      = ofQ { toQ k with d := (toQ k).d + BitVec.ofNat 64 msg.length <<< 56 } := funext (forall4 rfl rfl rfl rfl)
  rw [hk, ← shortEnd_ok]
  rfl

theorem block_ok (env : Env) (v : V) (b more : List Byte) (hb : b.length = 192) :
    block env (.mem (b ++ more)) v = .ok (toV ((blocks 96 b).foldl SPOOKY.mix (ofV v))) := by
  obtain ⟨x, y, rfl, hx⟩ : ∃ x y, b = x ++ y ∧ x.length = 96 :=
    ⟨b.take 96, b.drop 96, (List.take_append_drop 96 b).symm, by simp; omega⟩
  have hy : y.length = 96 := by simp at hb; omega
  unfold block
  rw [List.append_assoc, mix_ok env v x _ hx]
  simp only [Except.bind_ok]
  rw [Ptr.add_mem (by simp; omega)]
  simp only [Except.bind_ok]
  rw [List.drop_left' hx, mix_ok env _ y _ hy, ofV_toV, blocks_append (by omega) hx]
  have : blocks 96 y = [y] := by
    have := blocks_append (N := 96) (b := y) (l := []) (by omega) hy
    rw [List.append_nil] at this
    rw [this]; rfl
  rw [this]; rfl

theorem resultLong_ok (env : Env) (s : BlockState V) (st : Words 12) (tail : List Byte) (hst : s.st = toV st)
    (hm : s.m = tail.length) (hlt : tail.length < 192) (hbl : s.buf.length = 192) (hbuf : s.buf.take tail.length = tail) :
    ∃ buf, resultLong env s = .ok (buf, toV (finalBlock ((blocks 96 tail).foldl SPOOKY.mix st) (lastBlock (rest 96 tail)))) ∧
      buf.length = 192 := by
  -- the first half of the buffer
  have h96 : (if 96 ≤ s.m then (do
      let v ← Spooky.mix env (.mem s.buf) s.st
      return (96, s.m - 96, v)) else return (0, s.m, s.st) : M (Nat × Nat × V))
      = .ok (if 96 ≤ s.m then 96 else 0, (rest 96 tail).length, toV ((blocks 96 tail).foldl SPOOKY.mix st)) := by
    rw [hm, hst]
    by_cases hc : 96 ≤ tail.length
    · rw [if_pos hc, if_pos hc]
      obtain ⟨x, y, rfl, hx⟩ : ∃ x y, tail = x ++ y ∧ x.length = 96 :=
        ⟨tail.take 96, tail.drop 96, (List.take_append_drop 96 tail).symm, by simp; omega⟩
      have hy : y.length < 96 := by simp at hlt; omega
      have hs : s.buf = x ++ s.buf.drop 96 := by
        conv => lhs; rw [← List.take_append_drop 96 s.buf]
        congr 1
        have := congrArg (List.take 96) hbuf
        rw [List.take_take, List.take_left' hx, Nat.min_eq_left (by simp; omega)] at this
        exact this
      rw [hs, mix_ok env _ x _ hx, ofV_toV, blocks_append (by omega) hx, rest_append (by omega) hx, blocks_short hy, rest_short hy]
      simp [hx]
    · rw [if_neg hc, if_neg hc, blocks_short (by omega), rest_short (by omega)]; rfl
  have hrl : (rest 96 tail).length < 96 := rest_length_lt (by omega) _
  have hoff : (if 96 ≤ s.m then 96 else 0) + (rest 96 tail).length = tail.length := by
    rw [hm, rest_length]
    split <;> omega
  have htail : s.buf.take tail.length = s.buf.take (if 96 ≤ s.m then 96 else 0) ++ rest 96 tail := by
    rw [hbuf]
    have h1 : rest 96 tail = tail.drop (if 96 ≤ s.m then 96 else 0) := by
      rw [rest]
      congr 1
      rw [hm]; split <;> omega
    have h2 : s.buf.take (if 96 ≤ s.m then 96 else 0) = tail.take (if 96 ≤ s.m then 96 else 0) := by
      conv => rhs; rw [← hbuf]
      rw [List.take_take, Nat.min_eq_left (by rw [← hoff]; omega)]
    rw [h1, h2, List.take_append_drop]
  generalize hof : (if 96 ≤ s.m then 96 else 0) = off at *
  have hof2 : off + 96 ≤ 192 := by rw [← hof]; split <;> omega
  unfold resultLong
  simp only [Except.pure_eq] at h96 ⊢
  rw [h96]
  simp only [Except.bind_ok]
  rw [csub_ok (by omega)]
  simp only [Except.bind_ok]
  rw [stdMemset_ok _ _ _ _ (by omega), hoff, htail]
  simp only [Except.bind_ok]
  generalize hr : rest 96 tail = r at *
  -- p[ 95 ] = m
  have hset : aset (s.buf.take off ++ r ++ List.replicate (96 - r.length) 0 ++ s.buf.drop (tail.length + (96 - r.length))) (off + 95)
      (BitVec.ofNat 8 r.length) = .ok (s.buf.take off ++ (lastBlock r ++ s.buf.drop (tail.length + (96 - r.length)))) := by
    have hz : (List.replicate (96 - r.length) (0 : Byte)) = List.replicate (95 - r.length) 0 ++ [0] := by
      rw [show [(0 : Byte)] = List.replicate 1 0 from rfl, List.replicate_append_replicate]; congr 1; omega
    have hlen : (s.buf.take off ++ (r ++ List.replicate (95 - r.length) (0 : Byte))).length = off + 95 := by
      simp; omega
    rw [hz]
    simp only [List.append_assoc]
    rw [aset_ok (by simp; omega)]
    have e : ∀ t : List Byte, s.buf.take off ++ (r ++ (List.replicate (95 - r.length) (0 : Byte) ++ t))
        = (s.buf.take off ++ (r ++ List.replicate (95 - r.length) (0 : Byte))) ++ t := by intro t; simp
    rw [e, List.set_append_right _ _ (by omega), hlen, Nat.sub_self]
    simp [lastBlock]
  rw [hset]
  simp only [Except.bind_ok]
  have hlb : (lastBlock r).length = 96 := by simp [lastBlock]; omega
  rw [Ptr.add_mem (by simp; omega)]
  simp only [Except.bind_ok]
  rw [List.drop_left' (by simp; omega), end_ok env _ _ _ hlb, ofV_toV]
  refine ⟨_, rfl, ?_⟩
  simp [hlb]; omega

theorem result_ok (env : Env) (s : BlockState V) (o : Obj (Words 12)) (h : Hash2.Rel (cfg env) s ⟨toV o.st, o.tail, o.n⟩) :
    ∃ buf, result env s = .ok (⟨toV ((obj env.sizeBits).res o).1.st, buf, 0, ((obj env.sizeBits).res o).1.n⟩,
        ((obj env.sizeBits).res o).2) ∧
      buf = List.replicate 192 0 ∧ ((obj env.sizeBits).res o).1.n % 192 = 0 ∧
        ((obj env.sizeBits).res o).1.n < 2 ^ env.sizeBits := by
  have hm : s.m = o.tail.length := h.m
  have hn : s.n = o.n := h.n
  have hst : s.st = toV o.st := h.st
  have hlt : o.tail.length < 192 := h.wf.tail_lt
  have hbl : s.buf.length = 192 := h.buf_len
  have hsync : s.m = s.n % 192 := h.sync
  have hnlt : o.n < 2 ^ env.sizeBits := h.wf.n_lt
  have hbuf : s.buf.take o.tail.length = o.tail := by rw [← hm]; exact h.buf
  have hbr : ∃ buf, (if s.n < 192 then (do
        let (h0, h1) ← short_hash env (.mem s.buf) s.n s.st.h0 s.st.h1
        return (s.buf, { s.st with h0 := h0, h1 := h1 }))
      else resultLong env s : M (List Byte × V)) = .ok (buf, toV (finish o.st o.tail o.n)) ∧ buf.length = 192 := by
    by_cases hs : s.n < 192
    · rw [if_pos hs]
      have hnt : s.n = o.tail.length := by rw [← hm, hsync, Nat.mod_eq_of_lt hs]
      have hsb : s.buf = o.tail ++ s.buf.drop o.tail.length := by
        conv => lhs; rw [← List.take_append_drop o.tail.length s.buf, hbuf]
      have e := short_ok env o.tail (s.buf.drop o.tail.length) s.st.h0 s.st.h1
      rw [← hsb, ← hnt] at e
      rw [e]
      refine ⟨s.buf, ?_, hbl⟩
      have hf : toV (finish o.st o.tail o.n)
          = { s.st with h0 := (short s.st.h0 s.st.h1 o.tail).1, h1 := (short s.st.h0 s.st.h1 o.tail).2 } := by
        rw [finish, if_pos (by omega), hst]; rfl
      rw [hf]; rfl
    · rw [if_neg hs]
      obtain ⟨buf, e, hl⟩ := resultLong_ok env s o.st o.tail hst hm hlt hbl hbuf
      refine ⟨buf, ?_, hl⟩
      rw [e, finish, if_neg (by omega)]
  obtain ⟨buf, hbr, hbufl⟩ := hbr
  have hfin : ((obj env.sizeBits).res o).1.n = (if (o.n + (192 - o.tail.length)) % 2 ^ env.sizeBits < 192 then 0
    else (o.n + (192 - o.tail.length)) % 2 ^ env.sizeBits) := rfl
  refine ⟨List.replicate 192 0, ?_, rfl, ?_, ?_⟩
  · unfold result
    rw [check_ok hsync]
    simp only [Except.bind_ok, Except.pure_eq] at hbr ⊢
    rw [hbr]
    simp only [Except.bind_ok]
    rw [csub_ok (by omega), stdMemset_ok _ _ _ _ (by omega)]
    simp only [Except.bind_ok]
    rw [write2, List.drop_of_length_le (by omega), hn, hm, hfin]
    simp only [BlockHash.res, obj, outBytes, toV, List.take_zero, List.nil_append, List.append_nil]
  · rw [hfin]
    rw [hm, hn] at hsync
    have hp : 192 < 2 ^ env.sizeBits := by rcases sizeBits_cases env with h | h <;> rw [h] <;> decide
    generalize 2 ^ env.sizeBits = P at hnlt hp
    split
    · rfl
    · rename_i hge
      have hx : o.n + (192 - o.tail.length) < P := by
        refine Nat.lt_of_not_le fun hle => hge ?_
        rw [Nat.mod_eq_sub_mod (a := o.n + (192 - o.tail.length)) (b := P) hle, Nat.mod_eq_of_lt (by omega)]
        omega
      rw [Nat.mod_eq_of_lt hx]
      omega
  · rw [hfin]
    have := Nat.two_pow_pos env.sizeBits
    split
    · exact this
    · exact Nat.mod_lt _ this

def ok (env : Env) : StreamOk (cfg env) (result env) (obj env.sizeBits) where
  u := toV
  v := ofV
  uv := toV_ofV
  vu := ofV_toV
  hN := rfl
  ctr := rfl
  early := rfl
  pos := Nat.succ_pos 191
  tr st b more hb := by
    have := block_ok env (toV st) b more hb
    rw [ofV_toV] at this
    exact this
  res_ok := result_ok env

theorem start_ok (env : Env) (s1 s2 : W64) : (ok env).RelO (initSeed2 env s1 s2) (Obj.start (start s1 s2)) :=
  (ok env).start (start s1 s2) (buf := uninit env 192) (uninit_length env 192) (fun h => by cases h)

theorem bytes_ok (env : Env) (bs more : List Byte) (hf : bs.length < 2 ^ env.sizeBits) :
    ∃ s, initBytes env (.mem (bs ++ more)) bs.length = .ok s ∧ (ok env).RelO s ((machine env.sizeBits).bytes bs) := by
  unfold initBytes
  show ∃ s, _ ∧ (ok env).RelO s (if bs.length ≤ 16 then _ else _)
  by_cases h0 : bs.length = 0
  · rw [if_pos h0, if_pos (by omega)]
    have : bs = [] := by simpa using h0
    subst this
    exact ⟨_, rfl, start_ok env 0 0⟩
  · rw [if_neg h0]
    by_cases h16 : bs.length ≤ 16
    · rw [if_pos h16, if_pos h16, stdMemcpy_ok _ _ _ _ (by simp) (by simp; omega)]
      simp only [Except.bind_ok, List.take_zero, List.nil_append, Nat.zero_add, List.take_left', List.drop_replicate]
      rw [Ptr.add_mem (by simp), Ptr.add_mem (by simp; omega)]
      simp only [Except.bind_ok]
      rw [read64le_ok env _ (by simp; omega), read64le_ok env _ (by simp; omega)]
      simp only [Except.bind_ok, List.drop_zero]
      rw [List.take_append, List.take_replicate, leWord_zeros, List.drop_append, List.drop_replicate, List.take_append,
        List.take_replicate, leWord_zeros, List.take_of_length_le (l := bs.drop 8) (by simp; omega)]
      exact ⟨_, rfl, start_ok env _ _⟩
    · rw [if_neg h16, if_neg h16, Ptr.add_mem (by simp), Ptr.add_mem (by simp; omega)]
      simp only [Except.bind_ok]
      rw [read64le_ok env _ (by simp; omega), read64le_ok env _ (by simp; omega), Ptr.add_mem (by simp; omega), csub_ok (by omega)]
      simp only [Except.bind_ok, List.drop_zero]
      rw [List.take_append_of_le_length (by omega), List.drop_append_of_le_length (by omega),
        List.take_append_of_le_length (by simp; omega), List.drop_append_of_le_length (by omega)]
      obtain ⟨s1, e1, r1⟩ := (ok env).upd env
        (start_ok env (leWord 64 (bs.take 8)) (leWord 64 ((bs.drop 8).take 8))) (bs.drop 16) more (.inr (by
          show 0 + (bs.drop 16).length < _
          rw [List.length_drop]
          show _ < 2 ^ env.sizeBits
          omega))
      obtain ⟨s2, e2, r2⟩ := (ok env).res' r1
      refine ⟨s2, ?_, r2⟩
      rw [List.length_drop] at e1
      unfold upd
      rw [e1]
      simp only [Except.bind_ok]
      rw [e2]
      rfl

def implements (env : Env) : Implements spooky2_128 env (machine env.sizeBits) :=
  StreamOk.implements env cfg result (ok env) (fun env => .ok (initSeed2 env 0 0)) (fun env k => .ok (initSeed2 env k 0)) initBytes
    (fun env r => Integral.getDigest env 8 r) _ _ _ (fun bs => bs.length < 2 ^ env.sizeBits)
    ⟨_, rfl, start_ok env 0 0⟩ (fun k => ⟨_, rfl, start_ok env k 0⟩)
    (fun bs more h => bytes_ok env bs more h) ⟨_, rfl, start_ok env 0 0⟩

end Hash2.Spooky

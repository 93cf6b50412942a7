import Verif.Lemmas.Platform
/-
The first result of an object, as a function of the message.
-/
namespace Hash2
open Spec

/-- the results of a program that sends a message and asks for the result -/
theorem AlgName.exec_message {a : AlgName} {env : Env} {c : Ctor} {ops : List Op} {msg : List Byte} (hc : c.Valid)
    (h : stream ops = some (msg.map .data)) (hn : a.NullOk env ∨ NoNull ops) (hr : a.Room env c (msg.map .data ++ [.fin])) :
    a.impl.exec env c (ops ++ [.result]) = .ok [(a.machine env.sizeBits).value (c.start (a.machine env.sizeBits)) msg] := by
  rw [AlgName.exec_ok hc (stream_result ops _ h) (hn.imp id (fun h n hm => by
    rcases List.mem_append.1 hm with hm | hm
    · exact h n hm
    · simp at hm)) hr]
  obtain ⟨s, _, r⟩ := AlgName.construct_ok hc hr
  rw [Machine.run_append, ((a.impls env).run_data r msg).1]
  rfl

/-- one update() and the result -/
theorem stream_once (msg : List Byte) : stream [.update (.mem msg) msg.length] = some (msg.map .data) := by
  simp [stream, Op.toks]

theorem noNull_once (msg : List Byte) (n : Nat) : NoNull [.update (.mem msg) n] := by intro n; simp

theorem Md.value_nil {σ : Type} (D : Md σ) (msg : List Byte) : D.machine.value ([] : List Byte) msg = D.hash msg := rfl

theorem Spec.Md.pad_mod64 {σ : Type} (D : Md σ) {len : Nat} (h : len < 2 ^ 61) : D.mod64.pad len = D.pad len := by
  unfold Md.pad Md.mod64
  simp only
  rw [Nat.mod_eq_of_lt (show 8 * len < 2 ^ 64 by omega)]

theorem Spec.Md.hash_mod64 {σ : Type} (D : Md σ) {msg : List Byte} (h : msg.length < 2 ^ 61) : D.mod64.hash msg = D.hash msg := by
  unfold Md.hash
  rw [D.pad_mod64 h]
  rfl

theorem Spec.BlockHash.value_start {τ R : Type} (T : BlockHash τ R) (i : Obj τ) (s : BitVec 64 → Obj τ) (b : List Byte → Obj τ) (st : τ)
    (msg : List Byte) : (T.machine i s b).value (Obj.start st) msg
      = (T.finish ((blocks T.N msg).foldl T.compress st) (rest T.N msg) (msg.length % 2 ^ T.ctr)).2 := by
  show (T.finish _ _ ((0 + msg.length) % _)).2 = _
  rw [Nat.zero_add]
  rfl

theorem foldl_map_words {α β γ : Type} (f : γ → β → γ) (g : α → β) (l : List α) (x : γ) :
    l.foldl (fun x a => f x (g a)) x = (l.map g).foldl f x := by rw [List.foldl_map]

theorem sip_value {w : Nat} (V : SIP.Variant w) (ctr : Nat) (hc : 8 ≤ ctr) (i : Obj (SIP.St w)) (s : BitVec 64 → Obj (SIP.St w))
    (b : List Byte → Obj (SIP.St w)) (k0 k1 : BitVec w) (msg : List Byte) :
    ((SIP.obj V ctr).machine i s b).value (Obj.start (SIP.start V k0 k1)) msg = SIP.hash V k0 k1 msg := by
  rw [BlockHash.value_start]
  have hm : SIP.lastWord V (rest V.bytes msg) (msg.length % 2 ^ ctr) = SIP.lastWord V (rest V.bytes msg) msg.length := by
    unfold SIP.lastWord
    rw [Nat.mod_mod_of_dvd _ (show 256 ∣ 2 ^ ctr from by
      rw [show (256 : Nat) = 2 ^ 8 from rfl]; exact Nat.pow_dvd_pow 2 hc)]
  show V.out (SIP.finalize V (SIP.compress V _ (SIP.lastWord V _ (_ % 2 ^ ctr)))) = _
  unfold SIP.hash
  rw [show (SIP.obj V ctr).N = V.bytes from rfl, hm]
  show V.out (SIP.finalize V (SIP.compress V ((blocks V.bytes msg).foldl (fun s b => SIP.compress V s (leWord w b)) _) _)) = _
  rw [foldl_map_words (SIP.compress V) (leWord w)]
  simp only [List.foldl_append]
  rfl

theorem xxh64_value (k : BitVec 64) (msg : List Byte) (hl : msg.length < 2 ^ 64) :
    XXH64.machine.value (Obj.start (XXH64.start k)) msg = XXH64.hash k msg := by
  unfold XXH64.machine
  rw [BlockHash.value_start, show (XXH64.obj 64).ctr = 64 from rfl, Nat.mod_eq_of_lt hl, show (XXH64.obj 64).N = 32 from rfl]
  show XXH64.avalanche (XXH64.consume ((if msg.length < 32 then Acc4.a3 _ + _ else XXH64.converge _) + _) _) = _
  unfold XXH64.hash
  by_cases h : msg.length < 32
  · rw [if_pos h, blocks_short h]
    simp only [if_pos h]
    rfl
  · rw [if_neg h]
    simp only [if_neg h]
    rfl

theorem xxh32_value (ctr : Nat) (k : BitVec 64) (hk : k.toNat < 2 ^ 32) (msg : List Byte) (hl : msg.length < 2 ^ ctr) :
    (XXH32.machine ctr).value (Obj.start (XXH32.seeded k)) msg = XXH32.hash (BitVec.ofNat 32 k.toNat) msg := by
  have hs : XXH32.seeded k = XXH32.start (BitVec.ofNat 32 k.toNat) := by
    unfold XXH32.seeded
    simp only
    rw [if_pos (by rw [Nat.div_eq_of_lt hk]; rfl)]
  unfold XXH32.machine
  rw [hs, BlockHash.value_start, show (XXH32.obj ctr).ctr = ctr from rfl, Nat.mod_eq_of_lt hl, show (XXH32.obj ctr).N = 16 from rfl]
  show XXH32.avalanche (XXH32.consume ((if msg.length < 16 then Acc4.a3 _ + _ else XXH32.converge _) + _) _) = _
  unfold XXH32.hash
  by_cases h : msg.length < 16
  · rw [if_pos h, blocks_short h]
    simp only [if_pos h]
    rfl
  · rw [if_neg h]
    simp only [if_neg h]
    rfl

theorem murmur32_value (ctr : Nat) (k : BitVec 32) (msg : List Byte) (hl : msg.length < 2 ^ ctr) :
    (MURMUR3.x86_32.machine ctr).value (Obj.start k) msg = MURMUR3.x86_32.hash k msg := by
  unfold MURMUR3.x86_32.machine
  rw [BlockHash.value_start, show (MURMUR3.x86_32.obj ctr).ctr = ctr from rfl, Nat.mod_eq_of_lt hl]
  show MURMUR3.x86_32.finish ((blocks 4 msg).foldl (fun h b => MURMUR3.x86_32.body h (leWord 32 b)) k) _ _ = _
  rw [foldl_map_words MURMUR3.x86_32.body (leWord 32)]
  rfl

theorem murmur128_value (ctr : Nat) (k1 k2 : BitVec 64) (msg : List Byte) (hl : msg.length < 2 ^ ctr) :
    (MURMUR3.x64_128.machine ctr).value (Obj.start ⟨k1, k2⟩) msg = MURMUR3.x64_128.hash k1 k2 msg := by
  unfold MURMUR3.x64_128.machine
  rw [BlockHash.value_start, show (MURMUR3.x64_128.obj ctr).ctr = ctr from rfl, Nat.mod_eq_of_lt hl]
  rfl

/-- blocks of 192 bytes are pairs of blocks of 96 -/
theorem blocks_96_192 {τ : Type} (f : τ → List Byte → τ) (msg : List Byte) (st : τ) :
    (blocks 96 (rest 192 msg)).foldl f ((blocks 192 msg).foldl (fun s b => (blocks 96 b).foldl f s) st) = (blocks 96 msg).foldl f st ∧
      rest 96 (rest 192 msg) = rest 96 msg := by
  induction hn : msg.length using Nat.strongRecOn generalizing msg st with
  | ind n ih =>
    by_cases h : msg.length < 192
    · rw [rest_short h, blocks_short h]; exact ⟨rfl, rfl⟩
    · obtain ⟨b, t, rfl, hb⟩ : ∃ b t, msg = b ++ t ∧ b.length = 192 :=
        ⟨msg.take 192, msg.drop 192, (List.take_append_drop 192 msg).symm, by simp; omega⟩
      obtain ⟨x, y, rfl, hx⟩ : ∃ x y, b = x ++ y ∧ x.length = 96 :=
        ⟨b.take 96, b.drop 96, (List.take_append_drop 96 b).symm, by simp; omega⟩
      have hy : y.length = 96 := by simp at hb; omega
      have := ih t.length (by simp at hn; omega) t ((blocks 96 (x ++ y)).foldl f st) rfl
      have h1 : blocks 96 y = [y] := by
        have := blocks_append (N := 96) (b := y) (l := []) (by omega) hy
        rw [List.append_nil] at this
        rw [this]; rfl
      rw [rest_append (by omega) hb, blocks_append (by omega) hb, List.foldl_cons, this.1, this.2, blocks_append (by omega) hx, h1,
        List.append_assoc, blocks_append (by omega) hx, blocks_append (by omega) hy, rest_append (by omega) hx,
        rest_append (by omega) hy]
      exact ⟨rfl, rfl⟩

theorem spooky_value (ctr : Nat) (k1 k2 : BitVec 64) (msg : List Byte) (hl : msg.length < 2 ^ ctr) :
    (SPOOKY.machine ctr).value (Obj.start (SPOOKY.start k1 k2)) msg = SPOOKY.outBytes (SPOOKY.hash128 k1 k2 msg) := by
  unfold SPOOKY.machine
  rw [BlockHash.value_start, show (SPOOKY.obj ctr).ctr = ctr from rfl, Nat.mod_eq_of_lt hl]
  show SPOOKY.outBytes (SPOOKY.finish _ _ _ 0, SPOOKY.finish _ _ _ 1) = _
  congr 1
  unfold SPOOKY.finish SPOOKY.hash128
  by_cases h : msg.length < 192
  · rw [if_pos h, if_pos h, blocks_short (show msg.length < (SPOOKY.obj ctr).N from h),
      rest_short (show msg.length < (SPOOKY.obj ctr).N from h)]
    rfl
  · rw [if_neg h, if_neg h]
    have := blocks_96_192 SPOOKY.mix msg (SPOOKY.start k1 k2)
    rw [show (SPOOKY.obj ctr).N = 192 from rfl,
      show (SPOOKY.obj ctr).compress = fun s b => (blocks 96 b).foldl SPOOKY.mix s from rfl, this.1, this.2]

/-- HMAC -/
theorem hmac_value (M : Machine (List Byte)) (B : Nat) (key msg : List Byte)
    (ha : ∀ xs ys, M.absorb (M.absorb M.init xs) ys = M.absorb M.init (xs ++ ys)) :
    (M.hmac B).value (Machine.hmac.keyed M B key) msg = hmac (M.value M.init) B key msg := by
  show (M.res (M.absorb (M.absorb M.init _) (M.res (M.absorb (M.absorb M.init _) msg)).2)).2 = _
  rw [ha, ha]
  rfl

end Hash2

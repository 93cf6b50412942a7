import Verif.Lemmas.Future
import Verif.Props.Repeated
/-
C51: what the result of a digest tells about everything that follows (length extension).
-/
namespace Hash2
open Spec

/-- **C51.** md5_128, sha1_160, sha2_256, sha2_512, ripemd_128, ripemd_160: two objects, made in any ways and used in any ways, that have
processed the same number of bytes and now return the same digest, return the same results ever after. So all that follows is
determined by the digest returned, the number of bytes, and the later calls: it is no secret, and calling result() again adds
nothing that is not already known. -/
theorem digest_determines_future (d : DigestName) (σ : Type) (D : Md σ) (hd : d.md = some ⟨σ, D⟩) (hs : d.showsAll = true) (env : Env)
    (c c' : Ctor) (hc : c.Valid) (hc' : c'.Valid) (ops ops' more : List Op) (ts ts' tm : List Tok) (h : stream ops = some ts)
    (h' : stream ops' = some ts') (hm : stream more = some tm)
    (hn : d.isSha2 = false ∨ env.loops = true ∨ NoNull ops ∧ NoNull ops' ∧ NoNull more)
    (hl : D.processed (D.processedBy c) ts = D.processed (D.processedBy c') ts') (rs rs' : List (List Byte)) (r : List Byte)
    (he : d.impl.toHash.exec env c (ops ++ [.result]) = .ok (rs ++ [r]))
    (he' : d.impl.toHash.exec env c' (ops' ++ [.result]) = .ok (rs' ++ [r])) :
    ∃ qs : List (List Byte), d.impl.toHash.exec env c (ops ++ [.result] ++ more) = .ok (rs ++ [r] ++ qs) ∧
      d.impl.toHash.exec env c' (ops' ++ [.result] ++ more) = .ok (rs' ++ [r] ++ qs) := by
  have nul : ∀ x y : List Op, NoNull x → NoNull y → NoNull (x ++ [.result] ++ y) := by
    intro x y hx hy n hm
    rcases List.mem_append.1 hm with hm | hm
    · rcases List.mem_append.1 hm with hm | hm
      · exact hx n hm
      · simp at hm
    · exact hy n hm
  have nn : ∀ x, x = ops ∨ x = ops' → ((AlgName.digest d).NullOk env ∨ NoNull (x ++ [.result])) ∧
      ((AlgName.digest d).NullOk env ∨ NoNull (x ++ [.result] ++ more)) := by
    intro x hx
    rcases hn with h | h | ⟨h1, h2, h3⟩
    · exact ⟨.inl (.inl h), .inl (.inl h)⟩
    · exact ⟨.inl (.inr h), .inl (.inr h)⟩
    · have h4 : NoNull x := by rcases hx with rfl | rfl <;> assumption
      refine ⟨.inr ?_, .inr (nul _ _ h4 h3)⟩
      have := nul x [] h4 (by intro n; simp)
      rwa [List.append_nil] at this
  have S1 := stream_result ops ts h
  have S2 := stream_result ops' ts' h'
  have F1 : stream (ops ++ [.result] ++ more) = some (ts ++ [.fin] ++ tm) := by rw [stream_append, S1, hm]; rfl
  have F2 : stream (ops' ++ [.result] ++ more) = some (ts' ++ [.fin] ++ tm) := by rw [stream_append, S2, hm]; rfl
  have e1 := AlgName.exec_ok (a := .digest d) hc S1 (nn _ (.inl rfl)).1 trivial
  have e2 := AlgName.exec_ok (a := .digest d) hc' S2 (nn _ (.inr rfl)).1 trivial
  have f1 := AlgName.exec_ok (a := .digest d) hc F1 (nn _ (.inl rfl)).2 trivial
  have f2 := AlgName.exec_ok (a := .digest d) hc' F2 (nn _ (.inr rfl)).2 trivial
  have g1 := Except.ok.inj (he.symm.trans e1)
  have g2 := Except.ok.inj (he'.symm.trans e2)
  have key : ∀ M : Machine (List Byte), M = D.machine → (rs ++ [r] = (M.run (c.start M) (ts ++ [Tok.fin])).2) →
      (rs' ++ [r] = (M.run (c'.start M) (ts' ++ [Tok.fin])).2) →
      ∃ qs, (M.run (c.start M) (ts ++ [Tok.fin] ++ tm)).2 = rs ++ [r] ++ qs ∧ (M.run (c'.start M) (ts' ++ [Tok.fin] ++ tm)).2 = rs' ++ [r] ++ qs := by
    rintro _ rfl g1 g2
    have R := DigestName.regular hd
    let log : Ctor → List Tok → List Byte := fun c ts => (D.machine.run (c.start D.machine) ts).1
    have q : ∀ (c : Ctor) ts, D.machine.run (c.start D.machine) (ts ++ [Tok.fin]) =
        ((log c ts ++ D.pad (log c ts).length : List Byte), (D.machine.run (c.start D.machine) ts).2 ++ [D.hash (log c ts)]) := by
      intro c ts
      rw [Machine.run_append]; rfl
    have hlen : ∀ (c : Ctor) ts, c.Valid → (log c ts).length = D.processed (D.processedBy c) ts := by
      intro c ts hc
      exact (D.run_length ts (c.start D.machine)).trans (by rw [D.start_length c hc])
    have l1 := hlen c ts hc
    have l2 := hlen c' ts' hc'
    have r1 := g1
    have r2 := g2
    rw [q] at r1 r2
    have i1 := List.append_inj' r1 rfl
    have i2 := List.append_inj' r2 rfl
    have hh : D.hash (log c ts) = D.hash (log c' ts') :=
      (List.singleton_inj.1 i1.2).symm.trans (List.singleton_inj.1 i2.2)
    have A := D.alike_padded R.1 R.2 _ _ (l1.trans (hl.trans l2.symm)) (DigestName.out_inj hd hs hh)
    refine ⟨(D.machine.run (D.machine.run (c.start D.machine) (ts ++ [Tok.fin])).1 tm).2, ?_, ?_⟩
    · rw [Machine.run_append, ← g1]
    · rw [Machine.run_append, ← g2]
      have := A.run R.1 tm
      rw [q, q]
      exact congrArg _ this.symm
  obtain ⟨qs, k1, k2⟩ := key d.machine (DigestName.machine_of_md hd) g1 g2
  exact ⟨qs, f1.trans (congrArg Except.ok k1), f2.trans (congrArg Except.ok k2)⟩

/-- an object with the seed 5 and one with the key 5,0,0,0,0,0,0,0 that was fed in other pieces -/
example (env : Env) : ∃ (rs rs' : List (List Byte)) (r : List Byte),
    DigestName.md5_128.impl.toHash.exec env (.seed 5) ([.update (.mem abc) 3] ++ [.result]) = .ok (rs ++ [r]) ∧
    DigestName.md5_128.impl.toHash.exec env (.bytes (.mem [5, 0, 0, 0, 0, 0, 0, 0]) 8) ([.update (.mem abc) 1, .update (.mem [0x62, 0x63]) 2] ++ [.result])
      = .ok (rs' ++ [r]) ∧
    ∃ qs : List (List Byte), DigestName.md5_128.impl.toHash.exec env (.seed 5) ([.update (.mem abc) 3] ++ [.result] ++ [.update (.mem abc) 2, .result, .result])
        = .ok (rs ++ [r] ++ qs) ∧
      DigestName.md5_128.impl.toHash.exec env (.bytes (.mem [5, 0, 0, 0, 0, 0, 0, 0]) 8)
        ([.update (.mem abc) 1, .update (.mem [0x62, 0x63]) 2] ++ [.result] ++ [.update (.mem abc) 2, .result, .result]) = .ok (rs' ++ [r] ++ qs) := by
  have e1 : DigestName.md5_128.impl.toHash.exec env (.seed 5) ([.update (.mem abc) 3] ++ [.result]) = .ok ([] ++ [_]) :=
    AlgName.exec_ok (a := .digest .md5_128) (c := .seed 5) (ts := [.data 0x61, .data 0x62, .data 0x63, .fin]) trivial rfl (.inl (.inl rfl)) trivial
  have e2 : DigestName.md5_128.impl.toHash.exec env (.bytes (.mem [5, 0, 0, 0, 0, 0, 0, 0]) 8)
      ([.update (.mem abc) 1, .update (.mem [0x62, 0x63]) 2] ++ [.result]) = .ok ([] ++ [_]) :=
    AlgName.exec_ok (a := .digest .md5_128) (c := .bytes (.mem [5, 0, 0, 0, 0, 0, 0, 0]) 8)
      (ts := [.data 0x61, .data 0x62, .data 0x63, .fin]) (show 8 ≤ 8 from Nat.le_refl _) rfl (.inl (.inl rfl)) trivial
  exact ⟨[], [], _, e1, e2, digest_determines_future .md5_128 _ _ rfl rfl env (.seed 5) (.bytes (.mem [5, 0, 0, 0, 0, 0, 0, 0]) 8) trivial (show 8 ≤ 8 from Nat.le_refl _) _ _ _
    [.data 0x61, .data 0x62, .data 0x63] [.data 0x61, .data 0x62, .data 0x63] [.data 0x61, .data 0x62, .fin, .fin] rfl rfl rfl (.inl rfl)
    (by decide +kernel) [] [] _ e1 e2⟩

/-- **C51.** Length extension. For each of these six digests there is a function F such that, for an object with any (perhaps
secret) seed: if r is the digest of any (perhaps secret) message m, then the digest of m followed by the padding and by any bytes
x is F( r, number of bytes processed, x ). So these digests, seeded, are no message authentication codes (doc/hash2/hashing_bytes.adoc:107 says they are
usable as such); hmac is for that. -/
theorem length_extension (d : DigestName) (σ : Type) (D : Md σ) (hd : d.md = some ⟨σ, D⟩) (hs : d.showsAll = true) :
    ∃ F : List Byte → Nat → List Byte → List Byte, ∀ (env : Env) (c : Ctor) (m x r : List Byte) (ops ops' : List Op), c.Valid →
      stream ops = some (m.map .data) → stream ops' = some ((m ++ D.pad (D.processedBy c + m.length) ++ x).map .data) →
      (d.isSha2 = false ∨ env.loops = true ∨ NoNull ops ∧ NoNull ops') →
      d.impl.toHash.exec env c (ops ++ [.result]) = .ok [r] →
      d.impl.toHash.exec env c (ops' ++ [.result]) = .ok [F r (D.processedBy c + m.length) x] := by
  classical
  refine ⟨fun r n x => if h : ∃ l : List Byte, l.length = n ∧ D.hash l = r then D.hash (h.choose ++ D.pad n ++ x) else [], ?_⟩
  intro env c m x r ops ops' hc h h' hn he
  have nn : ∀ y, y = ops ∨ y = ops' → ((AlgName.digest d).NullOk env ∨ NoNull (y ++ [.result])) := by
    intro y hy
    rcases hn with h | h | ⟨h1, h2⟩
    · exact .inl (.inl h)
    · exact .inl (.inr h)
    · have h4 : NoNull y := by rcases hy with rfl | rfl <;> assumption
      refine .inr fun n hm => ?_
      rcases List.mem_append.1 hm with hm | hm
      · exact h4 n hm
      · simp at hm
  have e1 := AlgName.exec_ok (a := .digest d) hc (stream_result ops _ h) (nn _ (.inl rfl)) trivial
  refine (AlgName.exec_ok (a := .digest d) hc (stream_result ops' _ h') (nn _ (.inr rfl)) trivial).trans (congrArg Except.ok ?_)
  have g1 := Except.ok.inj (he.symm.trans e1)
  have key : ∀ M : Machine (List Byte), M = D.machine → ([r] = (M.run (c.start M) (m.map Tok.data ++ [Tok.fin])).2) →
      (M.run (c.start M) ((m ++ D.pad (D.processedBy c + m.length) ++ x).map Tok.data ++ [Tok.fin])).2 =
      [if h : ∃ l : List Byte, l.length = D.processedBy c + m.length ∧ D.hash l = r then
        D.hash (h.choose ++ D.pad (D.processedBy c + m.length) ++ x) else []] := by
    rintro _ rfl g1
    obtain ⟨hN, hp⟩ := DigestName.regular hd
    obtain ⟨z, hz, q⟩ : ∃ z : List Byte, z.length = D.processedBy c ∧
        ∀ y : List Byte, (D.machine.run (c.start D.machine) (y.map Tok.data ++ [Tok.fin])).2 = [D.hash (z ++ y)] :=
      ⟨c.start D.machine, D.start_length c hc, fun y => D.run_message _ y⟩
    generalize D.processedBy c = n at *
    rw [q] at g1 ⊢
    have ex : ∃ l : List Byte, l.length = n + m.length ∧ D.hash l = r :=
      ⟨z ++ m, by rw [List.length_append, hz], (List.singleton_inj.1 g1).symm⟩
    rw [dif_pos ex]
    obtain ⟨hl, hh⟩ := ex.choose_spec
    generalize ex.choose = l at *
    have A := D.alike_padded hN hp (z ++ m) l (by rw [List.length_append, hz, hl])
      (DigestName.out_inj hd hs ((List.singleton_inj.1 g1).symm.trans hh.symm))
    have B := (A.append hN x).hash hN
    rw [List.length_append, hz, hl] at B
    rw [← B]
    simp only [List.append_assoc]
  exact key d.machine (DigestName.machine_of_md hd) g1

/-- a sha2_256 object with the secret seed 5 has hashed "abc": what it would return for "abc" + padding + "abc" is known -/
example (env : Env) : ∃ F : List Byte → Nat → List Byte → List Byte, ∀ r : List Byte,
    DigestName.sha2_256.impl.toHash.exec env (.seed 5) [.update (.mem abc) 3, .result] = .ok [r] →
    DigestName.sha2_256.impl.toHash.exec env (.seed 5) [.update (.mem (abc ++ SHA2.sha256.pad (64 + 3) ++ abc)) 67, .result] = .ok [F r 67 abc] := by
  obtain ⟨F, h⟩ := length_extension .sha2_256 _ _ rfl rfl
  refine ⟨F, fun r hr => ?_⟩
  have e : SHA2.sha256.processedBy (.seed 5) = 64 := by decide +kernel
  have := h env (.seed 5) abc abc r [.update (.mem abc) 3] [.update (.mem (abc ++ SHA2.sha256.pad (64 + 3) ++ abc)) 67] trivial rfl
    (by rw [e]; decide +kernel) (.inr (.inr ⟨by intro n; simp, by intro n; simp⟩)) hr
  rwa [e] at this

/-- **C51.** fnv1a: the result alone determines all that follows, whatever the two objects' seeds and histories. -/
theorem fnv_result_determines_future (a : AlgName) (ha : a = .fnv1a_32 ∨ a = .fnv1a_64) (env : Env) (c c' : Ctor) (hc : c.Valid)
    (hc' : c'.Valid) (ops ops' more : List Op) (ts ts' tm : List Tok) (h : stream ops = some ts) (h' : stream ops' = some ts')
    (hm : stream more = some tm) (rs rs' : List a.impl.R) (r : a.impl.R)
    (he : a.impl.exec env c (ops ++ [.result]) = .ok (rs ++ [r])) (he' : a.impl.exec env c' (ops' ++ [.result]) = .ok (rs' ++ [r])) :
    ∃ qs : List a.impl.R, a.impl.exec env c (ops ++ [.result] ++ more) = .ok (rs ++ [r] ++ qs) ∧
      a.impl.exec env c' (ops' ++ [.result] ++ more) = .ok (rs' ++ [r] ++ qs) := by
  have S1 := stream_result ops ts h
  have S2 := stream_result ops' ts' h'
  have F1 : stream (ops ++ [.result] ++ more) = some (ts ++ [.fin] ++ tm) := by rw [stream_append, S1, hm]; rfl
  have F2 : stream (ops' ++ [.result] ++ more) = some (ts' ++ [.fin] ++ tm) := by rw [stream_append, S2, hm]; rfl
  rcases ha with rfl | rfl
  · have e1 := AlgName.exec_ok (a := .fnv1a_32) (env := env) hc S1 (.inl trivial) trivial
    have e2 := AlgName.exec_ok (a := .fnv1a_32) (env := env) hc' S2 (.inl trivial) trivial
    have f1 := AlgName.exec_ok (a := .fnv1a_32) (env := env) hc F1 (.inl trivial) trivial
    have f2 := AlgName.exec_ok (a := .fnv1a_32) (env := env) hc' F2 (.inl trivial) trivial
    obtain ⟨qs, k1, k2⟩ := Machine.future (FNV.machine FNV.prime32) (fun r => FNV.feed FNV.prime32 r [0xFF]) (fun _ => rfl) _ _ _ _ tm _ _ _ (Except.ok.inj (he.symm.trans e1)) (Except.ok.inj (he'.symm.trans e2))
    exact ⟨qs, f1.trans (congrArg Except.ok k1), f2.trans (congrArg Except.ok k2)⟩
  · have e1 := AlgName.exec_ok (a := .fnv1a_64) (env := env) hc S1 (.inl trivial) trivial
    have e2 := AlgName.exec_ok (a := .fnv1a_64) (env := env) hc' S2 (.inl trivial) trivial
    have f1 := AlgName.exec_ok (a := .fnv1a_64) (env := env) hc F1 (.inl trivial) trivial
    have f2 := AlgName.exec_ok (a := .fnv1a_64) (env := env) hc' F2 (.inl trivial) trivial
    obtain ⟨qs, k1, k2⟩ := Machine.future (FNV.machine FNV.prime64) (fun r => FNV.feed FNV.prime64 r [0xFF]) (fun _ => rfl) _ _ _ _ tm _ _ _ (Except.ok.inj (he.symm.trans e1)) (Except.ok.inj (he'.symm.trans e2))
    exact ⟨qs, f1.trans (congrArg Except.ok k1), f2.trans (congrArg Except.ok k2)⟩

/-- "abc" by default, and "c" with the seed "ab", have the same result; so they go on alike -/
example (env : Env) : ∃ (rs rs' : List (BitVec 32)) (r : BitVec 32),
    AlgName.fnv1a_32.impl.exec env .default ([.update (.mem abc) 3] ++ [.result]) = .ok (rs ++ [r]) ∧
    AlgName.fnv1a_32.impl.exec env (.bytes (.mem abc) 2) ([.update (.mem [0x63]) 1] ++ [.result]) = .ok (rs' ++ [r]) ∧
    ∃ qs : List (BitVec 32), AlgName.fnv1a_32.impl.exec env .default ([.update (.mem abc) 3] ++ [.result] ++ [.result]) = .ok (rs ++ [r] ++ qs) ∧
      AlgName.fnv1a_32.impl.exec env (.bytes (.mem abc) 2) ([.update (.mem [0x63]) 1] ++ [.result] ++ [.result]) = .ok (rs' ++ [r] ++ qs) := by
  have e1 := AlgName.exec_ok (a := .fnv1a_32) (env := env) (c := .default) (ops := [.update (.mem abc) 3] ++ [.result])
    (ts := [.data 0x61, .data 0x62, .data 0x63, .fin]) trivial rfl (.inl trivial) trivial
  have e2 := AlgName.exec_ok (a := .fnv1a_32) (env := env) (c := .bytes (.mem abc) 2) (ops := [.update (.mem [0x63]) 1] ++ [.result])
    (ts := [.data 0x63, .fin]) (show 2 ≤ 3 by decide) rfl (.inl trivial) trivial
  have k1 : ((FNV.machine FNV.prime32).run (FNV.machine FNV.prime32).init [.data 0x61, .data 0x62, .data 0x63, .fin]).2 = [] ++ [0x1A47E90B] := by
    decide +kernel
  have k2 : ((FNV.machine FNV.prime32).run ((FNV.machine FNV.prime32).bytes [0x61, 0x62]) [.data 0x63, .fin]).2 = [] ++ [0x1A47E90B] := by
    decide +kernel
  have e1 := e1.trans (congrArg Except.ok k1)
  have e2 := e2.trans (congrArg Except.ok k2)
  exact ⟨[], [], _, e1, e2, fnv_result_determines_future .fnv1a_32 (.inl rfl) env .default (.bytes (.mem abc) 2) trivial
    (show 2 ≤ 3 by decide) _ _ [.result] [.data 0x61, .data 0x62, .data 0x63] [.data 0x63] [.fin] rfl rfl rfl [] [] _ e1 e2⟩

end Hash2

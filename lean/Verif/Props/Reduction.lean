import Verif.Lemmas.Reduction
import Verif.Lemmas.Parts
import Verif.Props.Standards
import Verif.Props.HashAppend
import Verif.Lemmas.Pigeon
/-
C59: digests collide only where the compression function does.
-/
namespace Hash2
open Spec

private theorem digest_value {d : DigestName} {σ : Type} {D : Md σ} (hd : d.md = some ⟨σ, D⟩) (env : Env) {c : Ctor} (hc : c.Valid) {ops : List Op}
    {m : List Byte} (h : stream ops = some (m.map .data)) (hn : d.isSha2 = false ∨ env.loops = true ∨ NoNull ops) :
    d.impl.toHash.exec env c (ops ++ [.result]) = .ok [D.hash (D.log c.history ++ m)] := by
  have hn : (AlgName.digest d).NullOk env ∨ NoNull (ops ++ [.result]) := by
    rcases hn with h | h | h
    exacts [.inl (.inl h), .inl (.inr h), .inr (noNull_append.2 ⟨h, by intro n; simp⟩)]
  refine (AlgName.exec_ok (a := .digest d) hc (stream_result ops _ h) hn trivial).trans (congrArg Except.ok ?_)
  have key : ∀ M : Machine (List Byte), M = D.machine → (M.run (c.start M) (m.map Tok.data ++ [Tok.fin])).2 = [D.hash (D.log c.history ++ m)] := by
    rintro _ rfl
    have := D.run_fins c (m.map .data) 1
    rw [Machine.run_data', List.nil_append] at this
    refine Eq.trans this ?_
    simp only [List.range_one, List.map_cons, List.map_nil, List.replicate_zero, List.append_nil, D.log_data]
  exact key d.machine (DigestName.machine_of_md hd)

private theorem of_hash {d : DigestName} {σ : Type} {D : Md σ} (hd : d.md = some ⟨σ, D⟩) {x y : List Byte} (hx : x.length < 2 ^ 61)
    (hy : y.length < 2 ^ 61) (hne : x ≠ y) (h : D.hash x = D.hash y) :
    D.CompressionCollision x y ∨ d.showsAll = false ∧ D.TruncationCollision x y := by
  by_cases hc : D.chain (x ++ D.pad x.length) = D.chain (y ++ D.pad y.length)
  · exact .inl (DigestName.reduction hd hx hy hne hc)
  · refine .inr ⟨?_, hc, h⟩
    cases hs : d.showsAll with
    | false => rfl
    | true => exact absurd (DigestName.out_inj hd hs h) hc

/-- **C59.** The ten digests: if two different messages, passed in any pieces to objects made in the same way, have the same digest, then
among the calls of the standard's compression function made for them there are two with different arguments and the same value; or, for the
truncated ones (SHA-224, SHA-384, SHA-512/224, SHA-512/256), the last chaining values differ and are truncated to the same digest. So padding,
length and buffering add no collisions of their own. (`D.log c.history ++ m` are the bytes processed: the message, after the padded seed if
there is one; below 2^61 bytes.) -/
theorem digest_collisions (d : DigestName) (σ : Type) (D : Md σ) (hd : d.md = some ⟨σ, D⟩) (env : Env) (c : Ctor) (hc : c.Valid)
    (ops ops' : List Op) (m m' : List Byte) (h : stream ops = some (m.map .data)) (h' : stream ops' = some (m'.map .data))
    (hn : d.isSha2 = false ∨ env.loops = true ∨ NoNull ops ∧ NoNull ops') (hne : m ≠ m')
    (hl : (D.log c.history ++ m).length < 2 ^ 61) (hl' : (D.log c.history ++ m').length < 2 ^ 61)
    (he : d.impl.toHash.exec env c (ops ++ [.result]) = d.impl.toHash.exec env c (ops' ++ [.result])) :
    D.CompressionCollision (D.log c.history ++ m) (D.log c.history ++ m') ∨
      d.showsAll = false ∧ D.TruncationCollision (D.log c.history ++ m) (D.log c.history ++ m') := by
  rw [digest_value hd env hc h (by rcases hn with h | h | h; exacts [.inl h, .inr (.inl h), .inr (.inr h.1)]),
    digest_value hd env hc h' (by rcases hn with h | h | h; exacts [.inl h, .inr (.inl h), .inr (.inr h.2)])] at he
  exact of_hash hd hl hl' (fun e => hne (List.append_cancel_left e)) (List.singleton_inj.1 (Except.ok.inj he))

-- there are such messages (of 17 bytes, more than there are values)
example (env : Env) : ∃ m m' : List Byte, m ≠ m' ∧ m.length < 2 ^ 61 ∧ m'.length < 2 ^ 61 ∧
    DigestName.md5_128.impl.toHash.exec env .default ([.update (.mem m) m.length] ++ [.result]) =
    DigestName.md5_128.impl.toHash.exec env .default ([.update (.mem m') m'.length] ++ [.result]) := by
  obtain ⟨m, m', hne, h1, h2, h⟩ := bytes_pigeon 16 (fun m => MD5.md5.chain (m ++ MD5.md5.pad m.length)) MD5.md5.out
    (fun s => by simp [MD5.md5]) (fun s t => md5_out_inj)
  refine ⟨m, m', hne, by rw [h1]; decide, by rw [h2]; decide, ?_⟩
  have e1 := md5_rfc1321 env [.update (.mem m) m.length] m (stream_once m)
  have e2 := md5_rfc1321 env [.update (.mem m') m'.length] m' (stream_once m')
  exact e1.trans ((congrArg (fun x => Except.ok [MD5.md5.out x]) h).trans e2.symm)

-- the compression function is called as often as there are blocks: once for "abc", on the initial value and the padded message
example : SHA1.sha1.calls abc = [(SHA1.sha1.iv, abc ++ SHA1.sha1.pad 3)] := by
  simp only [Md.calls]
  rw [show blocks SHA1.sha1.N (abc ++ SHA1.sha1.pad abc.length) = [abc ++ SHA1.sha1.pad 3] by decide +kernel]
  rfl

/-- **C59, hmac.** For any H with a block_size, hmac included: if two different messages have the same hmac<H> under the same key, then H maps
two different messages to the same value: the padded key and the messages, or the padded key and the two inner hashes. -/
theorem hmac_collisions (H : DigestName) (env : Env) (Hf : List Byte → List Byte)
    (hH : ∀ m, (AlgName.digest H).impl.exec env .default [.update (.mem m) m.length, .result] = .ok [Hf m])
    (p : Ptr) (n : Nat) (hp : p.Readable n) (ops ops' : List Op) (m m' : List Byte) (h : stream ops = some (m.map .data))
    (h' : stream ops' = some (m'.map .data)) (hn : H.isSha2 = false ∨ env.loops = true ∨ NoNull ops ∧ NoNull ops') (hne : m ≠ m')
    (he : (AlgName.digest (.hmac H)).impl.exec env (.bytes p n) (ops ++ [.result]) =
      (AlgName.digest (.hmac H)).impl.exec env (.bytes p n) (ops' ++ [.result])) :
    let inner := (hmacKey Hf H.B (p.bytes n)).map (· ^^^ 0x36)
    let outer := (hmacKey Hf H.B (p.bytes n)).map (· ^^^ 0x5C)
    inner ++ m ≠ inner ++ m' ∧ Hf (inner ++ m) = Hf (inner ++ m') ∨
      outer ++ Hf (inner ++ m) ≠ outer ++ Hf (inner ++ m') ∧ Hf (outer ++ Hf (inner ++ m)) = Hf (outer ++ Hf (inner ++ m')) := by
  intro inner outer
  rw [hmac_rfc2104 H env Hf hH p n hp ops m h (by rcases hn with h | h | h; exacts [.inl h, .inr (.inl h), .inr (.inr h.1)]),
    hmac_rfc2104 H env Hf hH p n hp ops' m' h' (by rcases hn with h | h | h; exacts [.inl h, .inr (.inl h), .inr (.inr h.2)])] at he
  have he : Hf (outer ++ Hf (inner ++ m)) = Hf (outer ++ Hf (inner ++ m')) := List.singleton_inj.1 (Except.ok.inj he)
  by_cases hi : Hf (inner ++ m) = Hf (inner ++ m')
  · exact .inl ⟨fun e => hne (List.append_cancel_left e), hi⟩
  · exact .inr ⟨fun e => hi (List.append_cancel_left e), he⟩

-- there are such messages (of 17 bytes, more than there are values)
example (env : Env) (key : List Byte) : ∃ m m' : List Byte, m ≠ m' ∧
    (AlgName.digest (.hmac .md5_128)).impl.exec env (.bytes (.mem key) key.length) ([.update (.mem m) m.length] ++ [.result]) =
    (AlgName.digest (.hmac .md5_128)).impl.exec env (.bytes (.mem key) key.length) ([.update (.mem m') m'.length] ++ [.result]) := by
  obtain ⟨m, m', hne, -, -, h⟩ := bytes_pigeon 16 (fun m => MD5.md5.chain (((hmacKey MD5.md5.hash 64 key).map (· ^^^ 0x36) ++ m) ++
    MD5.md5.pad ((hmacKey MD5.md5.hash 64 key).map (· ^^^ 0x36) ++ m).length)) MD5.md5.out (fun s => by simp [MD5.md5]) (fun s t => md5_out_inj)
  refine ⟨m, m', hne, ?_⟩
  rw [hmac_md5_rfc2104 env (.mem key) key.length (Nat.le_refl _) _ m (stream_once m),
    hmac_md5_rfc2104 env (.mem key) key.length (Nat.le_refl _) _ m' (stream_once m')]
  have e : (Ptr.mem key).bytes key.length = key := List.take_length
  have h := congrArg MD5.md5.out h
  simp only [e, hmac]
  unfold Md.hash at h ⊢
  rw [h]

private theorem object_value {d : DigestName} {σ : Type} {D : Md σ} (hd : d.md = some ⟨σ, D⟩) {env : Env} {c : Ctor} {f : Flavor} {t : Ty} {v : t.Val}
    (h : (AlgName.digest d).Runs env c [.append f t v, .call .result]) :
    d.impl.toHash.execStmts env c [.append f t v, .call .result] = .ok [D.hash (D.log c.history ++ message (layout env f)
      ((AlgName.digest d).numAt env (c.start ((AlgName.digest d).machine env.sizeBits))) t v [])] := by
  have e := AlgName.exec_toks h
  simp only [AlgName.toks, AlgName.tok, Op.toks, Option.getD_some, List.append_nil] at e
  refine e.trans (congrArg Except.ok ?_)
  have key : ∀ M : Machine (List Byte), M = D.machine → ∀ m : List Byte, (M.run (c.start M) (m.map Tok.data ++ [Tok.fin])).2 = [D.hash (D.log c.history ++ m)] := by
    rintro _ rfl m
    have := D.run_fins c (m.map .data) 1
    rw [Machine.run_data', List.nil_append] at this
    refine Eq.trans this ?_
    simp only [List.range_one, List.map_cons, List.map_nil, List.replicate_zero, List.append_nil, D.log_data]
  exact key d.machine (DigestName.machine_of_md hd) _

/-- **C59, objects.** Two objects of the same type that are not equal (no unordered containers, no NaNs, no tag_invoke that feeds a range
without its size) and have the same digest: the bytes hash_append feeds for them (x and y, as a recorder shows) differ, and collide in the
compression function or by truncation. So hash_append adds no collisions of its own. -/
theorem object_collisions (d : DigestName) (σ : Type) (D : Md σ) (hd : d.md = some ⟨σ, D⟩) (env : Env) (c : Ctor) (f : Flavor) (t : Ty)
    (v v' : t.Val) (hdel : delimited t = true) (ho : ordered t = true) (hnan : NoNaN t v) (hs : SizesFit f.sizeType.n t v)
    (hs' : SizesFit f.sizeType.n t v') (h : (AlgName.digest d).Runs env c [.append f t v, .call .result])
    (h' : (AlgName.digest d).Runs env c [.append f t v', .call .result]) (hne : ¬ Equal t v v')
    (hw : (D.log c.history).length + weight t v < 2 ^ 61) (hw' : (D.log c.history).length + weight t v' < 2 ^ 61)
    (he : d.impl.toHash.execStmts env c [.append f t v, .call .result] = d.impl.toHash.execStmts env c [.append f t v', .call .result]) :
    ∃ (num : List Byte → W64) (x y : List Byte), hashAppend (recorder num) env f t v [] = .ok x ∧ hashAppend (recorder num) env f t v' [] = .ok y ∧ x ≠ y ∧
      (D.CompressionCollision (D.log c.history ++ x) (D.log c.history ++ y) ∨
        d.showsAll = false ∧ D.TruncationCollision (D.log c.history ++ x) (D.log c.history ++ y)) := by
  have val : ∀ {v : t.Val}, (AlgName.digest d).Runs env c [.append f t v, .call .result] → (Stmt.append f t v).Valid env :=
    fun h => h.valid _ (List.mem_cons_self ..)
  generalize hnum : (AlgName.digest d).numAt env (c.start ((AlgName.digest d).machine env.sizeBits)) = num
  have hr : ∀ {v : t.Val}, (AlgName.digest d).Runs env c [.append f t v, .call .result] →
      hashAppend (recorder num) env f t v [] = .ok (message (layout env f) num t v []) := fun {v} h => record num env f h.round t v (val h) []
  have hx : ∀ {v : t.Val}, (AlgName.digest d).Runs env c [.append f t v, .call .result] →
      d.impl.toHash.execStmts env c [.append f t v, .call .result] = .ok [D.hash (D.log c.history ++ message (layout env f) num t v [])] := by
    intro v h
    rw [object_value hd h, hnum]
  have hxy : message (layout env f) num t v [] ≠ message (layout env f) num t v' [] := by
    intro e
    refine different_objects_differ num env f h.round t v v' hdel ho hnan (val h) (val h') hs hs' hne [] [] ?_
    rw [hr h, hr h', e]
  refine ⟨num, _, _, hr h, hr h', hxy, ?_⟩
  rw [hx h, hx h'] at he
  have l := message_weight env f num t v []
  have l' := message_weight env f num t v' []
  refine of_hash hd ?_ ?_ (fun e => hxy (List.append_cancel_left e)) (List.singleton_inj.1 (Except.ok.inj he))
  · rw [List.length_append]
    generalize 2 ^ 61 = P at *
    omega
  · rw [List.length_append]
    generalize 2 ^ 61 = P at *
    omega

-- there are such objects: two vectors of 17 bytes
example : ∃ v v' : List (BitVec 8), ¬ Equal (.seq .contiguous (.int .uchar)) v v' ∧
    DigestName.md5_128.impl.toHash.execStmts le64 .default [.append default_flavor (.seq .contiguous (.int .uchar)) v, .call .result] =
    DigestName.md5_128.impl.toHash.execStmts le64 .default [.append default_flavor (.seq .contiguous (.int .uchar)) v', .call .result] := by
  let num := (AlgName.digest .md5_128).numAt le64 (Ctor.default.start ((AlgName.digest .md5_128).machine le64.sizeBits))
  let msg : List (BitVec 8) → List Byte := fun v => MD5.md5.log Ctor.default.history ++
    message (layout le64 default_flavor) num (.seq .contiguous (.int .uchar)) v []
  obtain ⟨m, m', hne, -, -, h⟩ := bytes_pigeon 16 (fun m => MD5.md5.chain (msg m ++ MD5.md5.pad (msg m).length)) MD5.md5.out
    (fun s => by simp [MD5.md5]) (fun s t => md5_out_inj)
  have runs : ∀ v : List (BitVec 8), (AlgName.digest .md5_128).Runs le64 .default
      [.append default_flavor (.seq .contiguous (.int .uchar)) v, .call .result] := by
    intro v
    refine ⟨trivial, ?_, .inl (.inl rfl), rfl, trivial⟩
    intro p hp
    rcases List.mem_cons.1 hp with rfl | hp
    · exact ⟨by simp [wellFormed], by simp [Spec.Valid], fun _ => by simp [pointerFree]⟩
    · rw [List.mem_singleton.1 hp]; rfl
  refine ⟨m, m', ?_, ?_⟩
  · intro e
    simp only [Equal] at e
    exact hne (List.forall₂_eq_eq_eq ▸ e)
  · rw [object_value (d := .md5_128) rfl (runs m), object_value (d := .md5_128) rfl (runs m')]
    exact congrArg (fun x => Except.ok [MD5.md5.out x]) h

end Hash2

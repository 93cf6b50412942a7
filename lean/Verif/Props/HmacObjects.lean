import Verif.Props.Standards
import Verif.Props.Repeated
import Verif.Props.Extended
import Verif.Lemmas.HmacObjects
/-
C68: an hmac object is two hash objects.
-/
namespace Hash2
open Spec

open HmacObjects

/-- **C68.** hmac< H >, for every H that has a block_size, constructed in any way (`c.key` is the key given), through any history of calls:
it behaves as two objects of class H. One is fed the key xor 0x36 and then all that the hmac object is fed, and asked whenever it is asked; the
other is fed the key xor 0x5C and then what the first one answers, and gives the results. (The key: of block size, zeros appended, or first hashed
by H, `hmacKey`.) -/
theorem hmac_is_two_objects (H : DigestName) (env : Env) (Hf : List Byte → List Byte)
    (hH : ∀ m, (AlgName.digest H).impl.exec env .default [.update (.mem m) m.length, .result] = .ok [Hf m])
    (c : Ctor) (hc : c.Valid) (ops : List Op) (ts : List Tok) (hs : stream ops = some ts)
    (hn : H.isSha2 = false ∨ env.loops = true ∨ NoNull ops) :
    let K := hmacKey Hf H.B c.key
    ∃ inner rs : List (List Byte),
      (AlgName.digest H).impl.exec env .default (.update (.mem (K.map (· ^^^ 0x36))) K.length :: ops) = .ok inner ∧
      (AlgName.digest H).impl.exec env .default (.update (.mem (K.map (· ^^^ 0x5C))) K.length :: macCalls inner) = .ok rs ∧
      (AlgName.digest (.hmac H)).impl.exec env c ops = .ok rs := by
  intro K
  have hs1 : ∀ (x : Byte) (ops : List Op) (ts : List Tok), stream ops = some ts →
      stream (.update (.mem (K.map (· ^^^ x))) K.length :: ops) = some ((K.map (· ^^^ x)).map .data ++ ts) := by
    intro x ops ts hs
    have e : Op.update (.mem (K.map (· ^^^ x))) K.length :: ops = [Op.update (.mem (K.map (· ^^^ x))) K.length] ++ ops := rfl
    rw [e, stream_append, hs]
    have : stream [Op.update (.mem (K.map (· ^^^ x))) K.length] = some ((K.map (· ^^^ x)).map .data) := by
      have := stream_once (K.map (· ^^^ x))
      rwa [List.length_map] at this
    rw [this]; rfl
  have hn' : (AlgName.digest H).NullOk env ∨ NoNull ops := by
    rcases hn with h | h | h
    exacts [.inl (.inl h), .inl (.inr h), .inr h]
  have nn : ∀ (x : Byte) (ops : List Op), NoNull ops → NoNull (.update (.mem (K.map (· ^^^ x))) K.length :: ops) := by
    intro x ops h n hm
    rcases List.mem_cons.1 hm with hm | hm
    · simp at hm
    · exact h n hm
  refine ⟨_, _, AlgName.exec_ok (a := .digest H) (c := .default) trivial (hs1 0x36 ops ts hs) (hn'.imp id (nn 0x36 ops)) trivial,
    AlgName.exec_ok (a := .digest H) (c := .default) trivial (hs1 0x5C _ _ (stream_macCalls _)) (.inr (nn 0x5C _ (noNull_macCalls _))) trivial, ?_⟩
  rw [AlgName.exec_ok (a := .digest (.hmac H)) hc hs hn' trivial]
  refine congrArg Except.ok ?_
  have e := start_keyed H c
  show ((H.machine.hmac H.B).run (c.start (DigestName.hmac H).machine) ts).2 = _
  rw [e]
  unfold Machine.hmac.keyed
  rw [H.value_unique hH, run]
  show _ = (H.machine.run H.machine.init _).2
  rw [Machine.run_append H.machine, run_bytes]
  show _ = [] ++ (H.machine.run (H.machine.absorb H.machine.init _) (macToks (H.machine.run H.machine.init _).2)).2
  rw [Machine.run_append H.machine, run_bytes]
  rfl

example : let K := hmacKey MD5.md5.hash 64 [0x6B]
    ∃ inner rs : List (List Byte),
      (AlgName.digest .md5_128).impl.exec le64 .default (.update (.mem (K.map (· ^^^ 0x36))) K.length :: [.update (.mem abc) 3, .result, .result]) = .ok inner ∧
      (AlgName.digest .md5_128).impl.exec le64 .default (.update (.mem (K.map (· ^^^ 0x5C))) K.length :: macCalls inner) = .ok rs ∧
      (AlgName.digest (.hmac .md5_128)).impl.exec le64 (.bytes (.mem [0x6B]) 1) [.update (.mem abc) 3, .result, .result] = .ok rs :=
  hmac_is_two_objects .md5_128 le64 _ (fun m => md5_rfc1321 le64 _ m (stream_once m)) (.bytes (.mem [0x6B]) 1) (Nat.le_refl 1) _ _ rfl (.inl rfl)

/-- **C53, hmac.** hmac over one of the ten digests: every one of the results of repeated result() calls is the standard's digest of an encoding
of inner digests, each of which is the standard's digest of an encoding of the message; nothing is lost in the encodings. (The j-th inner digest
goes into all results from the j-th on.) So two messages with the same i-th result lead to a collision of the digest, for every i. -/
theorem hmac_extended_output_partial (H : DigestName) (σ : Type) (D : Md σ) (hd : H.md = some ⟨σ, D⟩) (c : Ctor) (hc : c.Valid) :
    ∃ (inner : Nat → List Byte → List Byte) (outer : List (List Byte) → List Byte),
      (∀ i m m', inner i m = inner i m' → m = m') ∧
      (∀ n rs rs', rs.length = rs'.length → (∀ r ∈ rs, r.length = n) → (∀ r ∈ rs', r.length = n) → outer rs = outer rs' → rs = rs') ∧
      ∀ (env : Env) (ops : List Op) (m : List Byte) (k : Nat), stream ops = some (m.map .data) →
        (H.isSha2 = false ∨ env.loops = true ∨ NoNull ops) →
        (AlgName.digest (.hmac H)).impl.exec env c (ops ++ List.replicate k .result)
          = .ok ((List.range k).map fun i => D.hash (outer ((List.range (i + 1)).map fun j => D.hash (inner j m)))) := by
  obtain ⟨e, inj, he⟩ := digest_extended_output_partial H σ D hd .default trivial
  let K := hmacKey D.hash H.B c.key
  refine ⟨fun i m => e i (K.map (· ^^^ 0x36) ++ m), HmacObjects.outer D (K.map (· ^^^ 0x5C)), fun i m m' h => List.append_cancel_left (inj i _ _ h),
    fun n rs rs' => HmacObjects.outer_inj D _ n rs rs', ?_⟩
  intro env ops m k hs hn
  have hH : ∀ m : List Byte, (AlgName.digest H).impl.exec env .default [.update (.mem m) m.length, .result] = .ok [D.hash m] := by
    intro m
    have h1 := H.value_ok (env := env) (stream_once m) (.inr (noNull_once m _))
    refine h1.trans (congrArg (fun r => Except.ok [r]) ?_)
    have key : ∀ M : Machine (List Byte), M = D.machine → M.value M.init m = D.hash m := by rintro _ rfl; exact Md.value_nil D m
    exact key _ (DigestName.machine_of_md hd)
  obtain ⟨inn, rs, h1, h2, h3⟩ := hmac_is_two_objects H env D.hash hH c hc _ _ (stream_more_results ops _ hs k)
    (by rcases hn with h | h | h; exacts [.inl h, .inr (.inl h), .inr (.inr (noNull_results h k))])
  have g1 := he env (.update (.mem (K.map (· ^^^ 0x36))) K.length :: ops) (K.map (· ^^^ 0x36) ++ m) k (by
      have e : Op.update (.mem (K.map (· ^^^ 0x36))) K.length :: ops = [Op.update (.mem (K.map (· ^^^ 0x36))) K.length] ++ ops := rfl
      have q := stream_once (K.map (· ^^^ 0x36))
      rw [List.length_map] at q
      rw [e, stream_append, hs, q, List.map_append]; rfl)
    (by
      rcases hn with h | h | h
      · exact .inl h
      · exact .inr (.inl h)
      · refine .inr (.inr fun n hm => ?_)
        rcases List.mem_cons.1 hm with hm | hm
        · simp at hm
        · exact h n hm)
  have e1 : inn = (List.range k).map fun j => D.hash (e j (K.map (· ^^^ 0x36) ++ m)) := Except.ok.inj (h1.symm.trans g1)
  refine h3.trans (Eq.trans h2.symm ?_)
  have q := stream_once (K.map (· ^^^ 0x5C))
  rw [List.length_map] at q
  have hst : stream (.update (.mem (K.map (· ^^^ 0x5C))) K.length :: macCalls inn) = some ((K.map (· ^^^ 0x5C)).map .data ++ macToks inn) := by
    have e : Op.update (.mem (K.map (· ^^^ 0x5C))) K.length :: macCalls inn = [Op.update (.mem (K.map (· ^^^ 0x5C))) K.length] ++ macCalls inn := rfl
    rw [e, stream_append, stream_macCalls, q]; rfl
  have hnn : NoNull (.update (.mem (K.map (· ^^^ 0x5C))) K.length :: macCalls inn) := by
    intro n hm
    rcases List.mem_cons.1 hm with hm | hm
    · simp at hm
    · exact noNull_macCalls inn n hm
  refine (AlgName.exec_ok (a := .digest H) (c := .default) trivial hst (.inr hnn) trivial).trans (congrArg Except.ok ?_)
  have key : ∀ M : Machine (List Byte), M = D.machine → (M.run (Ctor.default.start M) ((K.map (· ^^^ 0x5C)).map .data ++ macToks inn)).2
      = (List.range k).map fun i => D.hash (HmacObjects.outer D (K.map (· ^^^ 0x5C)) ((List.range (i + 1)).map fun j => D.hash (e j (K.map (· ^^^ 0x36) ++ m)))) := by
    rintro _ rfl
    refine (run_macToks D (K.map (· ^^^ 0x5C)) inn).trans ?_
    rw [e1, List.length_map, List.length_range]
    refine List.map_congr_left fun i hi => ?_
    rw [← List.map_take, List.take_range, Nat.min_eq_left (by have := List.mem_range.1 hi; omega)]
  exact key _ (DigestName.machine_of_md hd)

/-- two results from hmac_sha2_256 -/
example (env : Env) : ∃ (inner : Nat → List Byte → List Byte) (outer : List (List Byte) → List Byte),
    (∀ i m m', inner i m = inner i m' → m = m') ∧
    (AlgName.digest (.hmac .sha2_256)).impl.exec env (.bytes (.mem [0x6B]) 1) [.update (.mem abc) 3, .result, .result] =
      .ok [SHA2.sha256.hash (outer [SHA2.sha256.hash (inner 0 abc)]),
        SHA2.sha256.hash (outer [SHA2.sha256.hash (inner 0 abc), SHA2.sha256.hash (inner 1 abc)])] := by
  obtain ⟨i, o, h1, _, h⟩ := hmac_extended_output_partial .sha2_256 _ _ rfl (.bytes (.mem [0x6B]) 1) (Nat.le_refl 1)
  exact ⟨i, o, h1, h env [.update (.mem abc) 3] abc 2 rfl (.inr (.inr (by intro n; simp)))⟩

end Hash2

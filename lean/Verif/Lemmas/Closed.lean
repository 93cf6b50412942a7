import Verif.Props.Standards
import Verif.Spec.Closed
import Verif.Lemmas.Programs
import Verif.Lemmas.Examples
import Verif.Lemmas.Integral
import Verif.Lemmas.MessagePort
import Verif.Lemmas.Parts
import Verif.Lemmas.Portable
/-
Lemmas for C62.
-/
namespace Hash2
open Spec

theorem DigestName.fits_mono (d : DigestName) : ∀ {m n : Nat}, m ≤ n → d.Fits n → d.Fits m := by
  induction d with
  | sha2_512 | sha2_384 | sha2_512_224 | sha2_512_256 => intro m n h h'; exact Nat.lt_of_le_of_lt h h'
  | hmac H ih => intro m n h h'; exact ih (by omega : m + 256 ≤ n + 256) h'
  | _ => intros; trivial

theorem DigestName.B_le (d : DigestName) : d.B ≤ 128 := by
  induction d with
  | hmac H ih => exact ih
  | _ => simp [DigestName.B]

theorem DigestName.resultSize_le_B (d : DigestName) : d.resultSize ≤ d.B := by
  induction d with
  | hmac H ih => exact ih
  | _ => decide

/-- HMAC over a function that is only the same on the messages HMAC makes -/
theorem hmac_congr {H H' : List Byte → List Byte} {B : Nat} (key msg : List Byte) (hB : B ≤ 128)
    (hH : ∀ m, (H m).length ≤ B)
    (hk : H key = H' key)
    (h : ∀ m, m.length ≤ msg.length + 256 → H m = H' m) : Spec.hmac H B key msg = Spec.hmac H' B key msg := by
  have e1 : hmacKey H' B key = hmacKey H B key := by
    unfold hmacKey
    rw [hk]
  have e2 : (hmacKey H B key).length = B := by
    unfold hmacKey
    have : (if key.length ≤ B then key else H key).length ≤ B := by
      split
      · assumption
      · exact hH _
    rw [List.length_append, List.length_replicate]
    omega
  unfold Spec.hmac
  simp only
  rw [e1]
  have e3 := hH ((hmacKey H B key).map (· ^^^ 0x36) ++ msg)
  rw [← h ((hmacKey H B key).map (· ^^^ 0x36) ++ msg) (by rw [List.length_append, List.length_map, e2]; omega),
    h _ (by rw [List.length_append, List.length_map, e2]; omega)]

theorem DigestName.value_size (d : DigestName) (m : List Byte) : (d.machine.value d.machine.init m).length ≤ d.B := by
  have := d.res_size (d.machine.absorb d.machine.init m)
  have h := d.resultSize_le_B
  unfold Machine.value
  omega

theorem DigestName.value_function (d : DigestName) : ∀ {m : List Byte}, d.Fits m.length → d.machine.value d.machine.init m = d.function m := by
  induction d with
  | sha2_512 => intro m h; exact Md.hash_mod64 SHA2.sha512 h
  | sha2_384 => intro m h; exact Md.hash_mod64 SHA2.sha384 h
  | sha2_512_224 => intro m h; exact Md.hash_mod64 SHA2.sha512_224 h
  | sha2_512_256 => intro m h; exact Md.hash_mod64 SHA2.sha512_256 h
  | hmac H ih =>
    intro m h
    have e1 := hmac_value H.machine H.B [] m (fun xs ys => H.absorb_absorb _ xs ys)
    refine Eq.trans e1 ?_
    refine hmac_congr [] m H.B_le H.value_size (ih (H.fits_mono (Nat.zero_le _) h)) fun m' h' => ih (H.fits_mono h' h)
  | _ => intro m _; rfl

theorem computes_exec {env : Env} {a : AlgName} {c : Ctor} {N : Nat} {F : List Byte → a.impl.R} (h : Computes env.sizeBits a c N F)
    {m : List Byte} (hm : m.length ≤ N) : a.impl.exec env c ([.update (.mem m) m.length] ++ [.result]) = .ok [F m] := by
  have hs := stream_once m
  have hn : NoNull [.update (.mem m) m.length] := noNull_once m _
  cases h with
  | digest d _ hf => rw [← d.value_function (d.fits_mono hm hf)]; exact DigestName.value_ok d hs (.inr hn)
  | hmac H key _ hk hf =>
    rw [DigestName.hmac_ok (c := .bytes (.mem key) key.length) (key := key) H (Nat.le_refl _)
      (congrArg (Machine.hmac.keyed H.machine H.B) (List.take_length)) hs (.inr hn)]
    refine congrArg (fun r => Except.ok [r]) ?_
    exact hmac_congr key m H.B_le H.value_size (H.value_function hk) fun m' h' => H.value_function (H.fits_mono (by omega) hf)
  | siphash_64 => exact siphash64_default _ _ _ hs
  | siphash_64_seed => exact siphash64_seed _ _ _ _ hs
  | siphash_64_key k0 k1 _ h0 h1 => exact siphash64_key _ _ _ _ _ h0 h1 hs
  | siphash_32 => exact siphash32_default _ _ _ hs
  | siphash_32_seed => exact siphash32_seed _ _ _ _ hs
  | siphash_32_key k0 k1 _ h0 h1 => exact siphash32_key _ _ _ _ _ h0 h1 hs
  | xxhash_64 _ h => exact xxhash64_default _ _ _ hs (by omega)
  | xxhash_64_seed k _ h => exact xxhash64_spec _ _ _ _ hs (by omega)
  | xxhash_32 _ h => exact xxhash32_default _ _ _ hs (by omega)
  | xxhash_32_seed k _ hk h => exact xxhash32_spec _ _ hk _ _ hs (by omega)
  | fnv1a_32 => exact fnv1a_32_spec _ _ _ hs
  | fnv1a_64 => exact fnv1a_64_spec _ _ _ hs
  | murmur3_32 _ h => exact murmur3_32_default _ _ _ hs (by omega)
  | murmur3_32_seed k _ hk h => exact murmur3_32_reference _ _ hk _ _ hs (by omega)
  | murmur3_128 _ h => exact murmur3_128_default _ _ _ hs (by omega)
  | murmur3_128_seed k _ h => exact murmur3_128_reference _ _ _ _ hs (by omega)
  | spooky2_128 _ h => exact spooky2_default _ _ _ hs (by omega)
  | spooky2_128_seed k _ h => exact spooky2_reference _ _ _ _ hs (by omega)

/-- get_integral_result<std::uint64_t> is the number -/
theorem AlgName.numberOf_eq (a : AlgName) (env : Env) (ctr : Nat) (s : (a.machine ctr).S) :
    a.impl.numberOf env ((a.machine ctr).res s).2 = a.number64 ((a.machine ctr).res s).2 := by
  have key : ∀ (A : HashAlg) (r : A.R) (x : W64), A.integral env r = .ok x → A.numberOf env r = x := by
    intro A r x h; unfold HashAlg.numberOf; rw [h]
  have h4 : ∀ r : W32, Integral.get 4 8 r = .ok (BitVec.ofNat 64 (r.toNat * 0x7FFFFFFF7FFFFFFF)) := fun r =>
    Integral.get_wide .s4 .s8 (by decide) r
  have h8 : ∀ r : W64, Integral.get 8 8 r = .ok r := fun r =>
    (Integral.get_wide .s8 .s8 (by decide) r).trans (by
      congr 1
      show BitVec.ofNat 64 (r.toNat * 1) = r
      rw [Nat.mul_one]
      rw [BitVec.ofNat_toNat, BitVec.setWidth_eq])
  cases a with
  | digest d => exact key _ _ _ (integral_digest env _ (d.res_length s))
  | murmur3_128 => exact key _ _ _ (integral_digest env _ (murmur_finish_length _ _ _))
  | spooky2_128 => exact key _ _ _ (integral_digest env _ (outBytes_length _))
  | siphash_64 => exact key _ _ _ (h8 _)
  | xxhash_64 => exact key _ _ _ (h8 _)
  | fnv1a_64 => exact key _ _ _ (h8 _)
  | siphash_32 => exact key _ _ _ (h4 _)
  | xxhash_32 => exact key _ _ _ (h4 _)
  | fnv1a_32 => exact key _ _ _ (h4 _)
  | murmur3_32 => exact key _ _ _ (h4 _)

section
variable {a : AlgName} {env : Env} {c : Ctor} {N : Nat} {F : List Byte → a.impl.R}

/-- any calls that feed m yield F m -/
theorem exec_function (hc : c.Valid) (hroom : a.RoomFor env c (N + 192))
    (hF : ∀ m : List Byte, m.length ≤ N → a.impl.exec env c ([.update (.mem m) m.length] ++ [.result]) = .ok [F m])
    {ops : List Op} {m : List Byte} (hs : stream ops = some (m.map .data)) (hn : NoNull ops) (hm : m.length ≤ N) :
    F m = (a.machine env.sizeBits).value (c.start (a.machine env.sizeBits)) m ∧ a.impl.exec env c (ops ++ [.result]) = .ok [F m] := by
  have room := AlgName.room_of (ts := m.map .data ++ [.fin]) hroom (by rw [cost_message]; omega)
  have h1 := AlgName.exec_message hc (stream_once m) (.inr (noNull_once m _)) room
  have h2 := AlgName.exec_message hc hs (.inr hn) room
  have e : F m = (a.machine env.sizeBits).value (c.start (a.machine env.sizeBits)) m := by
    have := (hF m hm).symm.trans h1
    exact (List.cons.inj (Except.ok.inj this)).1
  exact ⟨e, h2.trans (by rw [e])⟩

theorem number_function (hc : c.Valid) (hroom : a.RoomFor env c (N + 192))
    (hF : ∀ m : List Byte, m.length ≤ N → a.impl.exec env c ([.update (.mem m) m.length] ++ [.result]) = .ok [F m])
    {done : List Op} {p : List Byte} (hs : stream done = some (p.map .data)) (hn : NoNull done) {bs : List Byte} (hb : p.length + bs.length ≤ N) :
    a.impl.number env c done bs = a.number64 (F (p ++ bs)) := by
  have hs' : stream (done ++ [.update (.mem bs) bs.length]) = some ((p ++ bs).map .data) := by
    rw [stream_append, hs, stream_once, List.map_append]; rfl
  obtain ⟨e1, e2⟩ := exec_function hc hroom hF hs' (noNull_append.2 ⟨hn, noNull_once bs _⟩) (by rw [List.length_append]; exact hb)
  unfold HashAlg.number
  rw [show done ++ [.update (.mem bs) bs.length, .result] = (done ++ [.update (.mem bs) bs.length]) ++ [.result] by
    rw [List.append_assoc]; rfl, e2]
  show a.impl.numberOf env (F (p ++ bs)) = _
  rw [e1]
  exact a.numberOf_eq env _ _

/-- an object to be hashed, with the flavor -/
abbrev Object := Flavor × (t : Ty) × t.Val

theorem expand_objects (hc : c.Valid) (hroom : a.RoomFor env c (N + 192))
    (hF : ∀ m : List Byte, m.length ≤ N → a.impl.exec env c ([.update (.mem m) m.length] ++ [.result]) = .ok [F m])
    (objects : List Object) : ∀ {done : List Op} {p : List Byte}, stream done = some (p.map .data) → NoNull done →
    p.length + (objects.map fun o => weight o.2.1 o.2.2).sum ≤ N →
    stream (a.impl.expand env c done (objects.map fun o => .append o.1 o.2.1 o.2.2)) =
      some ((concat (fun (o : Object) before => message (layout env o.1) (fun bs => a.number64 (F bs)) o.2.1 o.2.2 before) objects p).map .data) ∧
    NoNull (a.impl.expand env c done (objects.map fun o => .append o.1 o.2.1 o.2.2)) := by
  induction objects with
  | nil => intro done p _ _ _; exact ⟨rfl, by intro n; simp [HashAlg.expand]⟩
  | cons o os ih =>
    intro done p hs hn hp
    rw [List.map_cons, List.sum_cons] at hp
    have hm : a.impl.messageOf env c done o.1 o.2.1 o.2.2 =
        message (layout env o.1) (fun bs => a.number64 (F bs)) o.2.1 o.2.2 p := by
      have h1 := message_shift (L := layout env o.1) (H := fun bs => a.number64 (F bs)) (p := p) o.2.1 o.2.2 []
      rw [List.append_nil] at h1
      rw [h1]
      exact message_port (K := weight o.2.1 o.2.2) rfl rfl o.1.sizeType.n_le env.ptrSz.n_le
        (fun bs hb => number_function hc hroom hF hs hn (by omega)) o.2.1 o.2.2 [] (.inr rfl) (.inr rfl) (by simp)
    have hl := message_weight env o.1 (fun bs => a.number64 (F bs)) o.2.1 o.2.2 p
    simp only [List.map_cons, HashAlg.expand, concat]
    rw [hm]
    generalize message (layout env o.1) (fun bs => a.number64 (F bs)) o.2.1 o.2.2 p = m at hl
    have hn' : NoNull [.update (.mem m) m.length] := noNull_once m _
    obtain ⟨i1, i2⟩ := ih (done := done ++ [.update (.mem m) m.length]) (p := p ++ m)
      (by rw [stream_append, hs, stream_once, List.map_append]; rfl) (noNull_append.2 ⟨hn, hn'⟩)
      (by rw [List.length_append]; omega)
    constructor
    · rw [show ∀ (x : Op) xs, x :: xs = [x] ++ xs from fun _ _ => rfl, stream_append, stream_once, i1, List.map_append]; rfl
    · rw [show ∀ (x : Op) xs, x :: xs = [x] ++ xs from fun _ _ => rfl]
      exact noNull_append.2 ⟨hn', i2⟩

end

end Hash2

import Verif.Lemmas.Closed
import Verif.Props.HashAppend
/-
C62: the hash of an object (of a series of objects) in closed form: the published function of the concatenated messages.
-/
namespace Hash2
open Spec

/-- **C62.** Whatever function F of bytes a class computes under a constructor, on messages as long as needed: hash_append on any
number of objects and result() return F of the concatenation of the objects' messages; in these, the hashes of the elements of
unordered containers are F of what was fed before and the element. -/
theorem objects_hash (a : AlgName) (env : Env) (c : Ctor) (objects : List Object) (F : List Byte → a.impl.R)
    (hF : ∀ m : List Byte, m.length ≤ (objects.map fun o => weight o.2.1 o.2.2).sum →
      a.impl.exec env c [.update (.mem m) m.length, .result] = .ok [F m])
    (h : a.Runs env c (objects.map (fun o => .append o.1 o.2.1 o.2.2) ++ [.call .result])) :
    a.impl.execStmts env c (objects.map (fun o => .append o.1 o.2.1 o.2.2) ++ [.call .result]) =
      .ok [F (concat (fun o before => message (layout env o.1) (fun bs => a.number64 (F bs)) o.2.1 o.2.2 before) objects [])] := by
  have hcost : progCost (objects.map (fun o => .append o.1 o.2.1 o.2.2) ++ [.call .result]) =
      (objects.map fun o => weight o.2.1 o.2.2).sum + 192 := by
    simp [progCost, Stmt.cost, List.map_map, Function.comp_def]
  have hroom := h.room
  rw [hcost] at hroom
  obtain ⟨e1, e2⟩ := expand_objects h.ctor hroom hF objects (done := []) (p := []) rfl (by intro n; simp) (by simp)
  obtain ⟨rs, r1, r2⟩ := AlgName.runs_expand h
  rw [expand_append] at r2
  rw [r1, ← r2]
  refine (exec_function h.ctor hroom hF e1 e2 ?_).2
  exact concat_length_le (fun o _ p => message_weight env o.1 _ o.2.1 o.2.2 p) []

/-- **C62.** For every class of the library, under every constructor for which a published function of the message is known: the
result is that function. -/
theorem object_hash (a : AlgName) (env : Env) (c : Ctor) (f : Flavor) (t : Ty) (v : t.Val) (F : List Byte → a.impl.R)
    (hF : Computes env.sizeBits a c (weight t v) F) (h : a.Runs env c [.append f t v, .call .result]) :
    a.impl.execStmts env c [.append f t v, .call .result] = .ok [objectHash env f a F t v] := by
  have := objects_hash a env c [(f, ⟨t, v⟩)] F (fun m hm => computes_exec hF (by simpa using hm)) h
  refine Eq.trans this ?_
  simp [concat, objectHash]

/-- the message and the weight of a range of single bytes -/
theorem bytes_range (env : Env) (f : Flavor) (k : RangeKind) (s : List Byte) (H : List Byte → W64) :
    (message (layout env f) H (.range k (.int .uchar)) s [] = s ∧ weight (.range k (.int .uchar)) s = 8 * s.length) ∧
    (message (layout env f) H (.range k (.int (.int .s1))) s [] = s ∧ weight (.range k (.int (.int .s1))) s = 8 * s.length) := by
  have hw : ∀ s : List Byte, (s.map fun _ => 8).sum = 8 * s.length := by
    intro s
    induction s with
    | nil => rfl
    | cons x xs ih => rw [List.map_cons, List.sum_cons, ih, List.length_cons]; omega
  have hm : ∀ (s : List Byte) (p : List Byte), concat (fun (x : Byte) _ => (layout env f).word 1 x.toNat) s p = s := by
    intro s
    induction s with
    | nil => intro p; rfl
    | cons x xs ih => intro p; simp only [concat]; rw [ih, word_one]; simp
  refine ⟨⟨?_, ?_⟩, ?_, ?_⟩
  · simp only [message]
    exact (concat_congr (m' := fun (x : Byte) _ => (layout env f).word 1 x.toNat) (fun v _ p => message.eq_1 (layout env f) H p .uchar v) []).trans (hm s [])
  · simp only [weight]; exact hw s
  · simp only [message]
    exact (concat_congr (m' := fun (x : Byte) _ => (layout env f).word 1 x.toNat) (fun v _ p => message.eq_1 (layout env f) H p (.int .s1) v) []).trans (hm s [])
  · simp only [weight]; exact hw s

/-- **C62, characters** (example/compile_time_2.cpp): hash_append_range on chars is the function of their bytes, under any flavor, on
any platform, for any kind of iterators -/
theorem chars_hash (a : AlgName) (env : Env) (c : Ctor) (f : Flavor) (k : RangeKind) (s : List Byte) (F : List Byte → a.impl.R)
    (hF : Computes env.sizeBits a c (8 * s.length) F) (h : a.Runs env c [.append f (.range k (.int (.int .s1))) s, .call .result]) :
    a.impl.execStmts env c [.append f (.range k (.int (.int .s1))) s, .call .result] = .ok [F s] := by
  obtain ⟨h1, h2⟩ := (bytes_range env f k s (fun bs => a.number64 (F bs))).2
  have hF' : Computes env.sizeBits a c (weight (.range k (.int (.int .s1))) s) F := by rw [h2]; exact hF
  have e := object_hash a env c f (.range k (.int (.int .s1))) s F hF' h
  unfold objectHash at e
  rw [h1] at e
  exact e

/-- the same for unsigned chars -/
theorem uchars_hash (a : AlgName) (env : Env) (c : Ctor) (f : Flavor) (k : RangeKind) (s : List Byte) (F : List Byte → a.impl.R)
    (hF : Computes env.sizeBits a c (8 * s.length) F) (h : a.Runs env c [.append f (.range k (.int .uchar)) s, .call .result]) :
    a.impl.execStmts env c [.append f (.range k (.int .uchar)) s, .call .result] = .ok [F s] := by
  obtain ⟨h1, h2⟩ := (bytes_range env f k s (fun bs => a.number64 (F bs))).1
  have hF' : Computes env.sizeBits a c (weight (.range k (.int .uchar)) s) F := by rw [h2]; exact hF
  have e := object_hash a env c f (.range k (.int .uchar)) s F hF' h
  unfold objectHash at e
  rw [h1] at e
  exact e

/-! The string "abc", a std::string: the bytes and the size. An unordered set of two numbers; its elements are hashed by the same
function. The program of example/compile_time_2.cpp. -/

example : (AlgName.digest .md5_128).impl.execStmts le64 .default
      [.append little_endian_flavor (.seq .contiguous (.int (.int .s1))) abc, .call .result]
    = .ok [MD5.md5.hash (abc ++ [3, 0, 0, 0, 0, 0, 0, 0])] := by
  refine (object_hash (.digest .md5_128) le64 .default little_endian_flavor (.seq .contiguous (.int (.int .s1))) abc MD5.md5.hash
    (.digest .md5_128 _ trivial) ?_).trans ?_
  · refine ⟨trivial, ?_, .inl (.inl rfl), rfl, trivial⟩
    intro p hp
    simp only [List.mem_cons, List.not_mem_nil, or_false] at hp
    rcases hp with rfl | rfl
    · exact ⟨by simp [wellFormed], by simp [Spec.Valid], fun _ => by simp [pointerFree]⟩
    · rfl
  · have e : ∀ H, message (layout le64 little_endian_flavor) H (.seq .contiguous (.int (.int .s1))) abc [] =
        abc ++ [3, 0, 0, 0, 0, 0, 0, 0] := fun H => by simp only [message]; decide +kernel
    unfold objectHash
    rw [e]

example (x y : BitVec 8) : AlgName.fnv1a_64.impl.execStmts be32 .default
      [.append little_endian_flavor (.unord (.int (.int .s1))) [x, y], .call .result]
    = .ok [FNV.hash FNV.prime64 (natLE 8 ((FNV.hash FNV.prime64 [x]).toNat + ((FNV.hash FNV.prime64 [y]).toNat + 0)) ++ [2, 0, 0, 0, 0, 0, 0, 0])] := by
  refine (object_hash .fnv1a_64 be32 .default little_endian_flavor (.unord (.int (.int .s1))) [x, y] (FNV.hash FNV.prime64) (.fnv1a_64 _) ?_).trans ?_
  · refine ⟨trivial, ?_, .inl trivial, rfl, trivial⟩
    intro p hp
    simp only [List.mem_cons, List.not_mem_nil, or_false] at hp
    rcases hp with rfl | rfl
    · exact ⟨by simp [wellFormed], by simp [Spec.Valid], fun _ => by simp [pointerFree]⟩
    · rfl
  · have e : ∀ H, message (layout be32 little_endian_flavor) H (.unord (.int (.int .s1))) [x, y] [] =
        natLE 8 ((H [x]).toNat + ((H [y]).toNat + 0)) ++ [2, 0, 0, 0, 0, 0, 0, 0] := fun H => by
      have e : ∀ z : BitVec 8, natLE 1 z.toNat = [z] := fun z => by simp [natLE]
      rw [← e x, ← e y]
      simp only [message, List.nil_append]
      exact congrArg₂ (· ++ ·) rfl (show (layout be32 little_endian_flavor).word (layout be32 little_endian_flavor).sizeBytes 2 = _ by decide +kernel)
    unfold objectHash
    rw [e]
    rfl

example (secret license : List Byte) (hl : license ≠ []) : (AlgName.digest (.hmac .sha2_256)).impl.execStmts le64 (.bytes (.mem secret) secret.length)
      [.append default_flavor (.range .pointers (.int (.int .s1))) license, .call .result]
    = .ok [Spec.hmac SHA2.sha256.hash 64 secret license] := by
  refine chars_hash (.digest (.hmac .sha2_256)) le64 _ default_flavor .pointers license _ (.hmac .sha2_256 secret _ trivial trivial) ?_
  refine ⟨Nat.le_refl _, ?_, .inr ?_, rfl, trivial⟩
  · intro p hp
    simp only [List.mem_cons, List.not_mem_nil, or_false] at hp
    rcases hp with rfl | rfl
    · exact ⟨by simp [wellFormed], by simp [Spec.Valid], fun _ => by simp [pointerFree]⟩
    · rfl
  · intro p hp
    simp only [List.mem_cons, List.not_mem_nil, or_false] at hp
    rcases hp with rfl | rfl
    · exact .inr ⟨fun _ => hl, fun _ _ => by simp only [NoEmpty]⟩
    · intro n; simp

end Hash2

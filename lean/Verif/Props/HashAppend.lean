import Verif.Lemmas.Portable
import Verif.Spec.Platforms
/-
C23 - C30, C41: hash_append, for every algorithm of the library, every flavor, every type and every value.

`A.Runs env c ps` says that the program `ps` (calls of update, result and hash_append on one object) consists of valid calls;
`message` (Spec/Messages.lean) says which bytes an object stands for; `A.expand env c [] ps` (Spec/Programs.lean) is the program
in which every hash_append has been replaced by one update with the message.
-/
namespace Hash2
open Spec

/-! ### objects used in the examples -/

/-- struct { std::uint16_t x; std::vector<unsigned char> y; double z; } described -/
def point : Ty := .described false false .nil (.cons (.int (.int .s2)) (.cons (.seq .contiguous (.int .uchar)) (.cons .f64 .nil)))

/-- { 0x1234, { 5, 6 }, 1.0 } -/
def aPoint : point.Val := ((), (0x1234#16, ([5#8, 6#8], (0x3FF0000000000000#64, ()))))

/-- std::unordered_map<int, std::string> -/
def dict : Ty := .unord (.tuple (.cons (.int (.int .s4)) (.cons (.seq .contiguous (.int (.int .s1))) .nil)))

/-- { { 1, "ab" }, { 2, "" } } -/
def aDict : dict.Val := [(1#32, ([0x61#8, 0x62#8], ())), (2#32, ([], ()))]

/-- update( "abc" ); hash_append( aPoint ); result(); hash_append( aDict ); result() -/
def aProgram (f : Flavor) : List Stmt :=
  [.call (.update (.mem abc) 3), .append f point aPoint, .call .result, .append f dict aDict, .call .result]

theorem aProgram_runs (a : AlgName) (env : Env) (f : Flavor) (hn : a.NullOk env) (hr : env.fp.roundDown = false)
    (hroom : 500 < 2 ^ env.sizeBits) : a.Runs env .default (aProgram f) := by
  refine ⟨trivial, ?_, .inl hn, hr, ?_⟩
  · intro p hp
    simp only [aProgram, List.mem_cons, List.not_mem_nil, or_false] at hp
    rcases hp with rfl | rfl | rfl | rfl | rfl
    · rfl
    · refine ⟨by simp [point, wellFormed, wellFormedAll], ?_, fun _ => by simp [point, pointerFree, pointerFreeAll]⟩
      simp [point, aPoint, Spec.Valid, ValidAll]
    · rfl
    · refine ⟨by simp [dict, wellFormed, wellFormedAll], ?_, fun _ => by simp [dict, pointerFree, pointerFreeAll]⟩
      simp [dict, aDict, Spec.Valid, ValidAll]
    · rfl
  · cases a with
    | spooky2_128 =>
      have : progCost (aProgram f) ≤ 500 := by
        simp [progCost, aProgram, Stmt.cost, point, aPoint, dict, aDict, weight, weights]
        decide
      show 0 + progCost (aProgram f) < 2 ^ env.sizeBits
      omega
    | _ => trivial

/-! ### C30 -/

/-- **C30.** A program with hash_append returns, without undefined behaviour, what the program returns in which every hash_append
is one update with the message of the object. -/
theorem append_is_update_with_message (a : AlgName) (env : Env) (c : Ctor) (ps : List Stmt) (h : a.Runs env c ps) :
    ∃ rs, a.impl.execStmts env c ps = .ok rs ∧ a.impl.exec env c (a.impl.expand env c [] ps) = .ok rs :=
  AlgName.runs_expand h

example : ∃ rs, (AlgName.digest .ripemd_160).impl.execStmts le64 .default (aProgram default_flavor) = .ok rs ∧
    (AlgName.digest .ripemd_160).impl.exec le64 .default ((AlgName.digest .ripemd_160).impl.expand le64 .default [] (aProgram default_flavor)) = .ok rs :=
  append_is_update_with_message _ _ _ _ (aProgram_runs _ _ _ (.inl rfl) rfl (by decide))

-- the message of aPoint, in little endian: x, the bytes of y, the size of y, z
example (H : List Byte → W64) (p : List Byte) : message (layout le64 little_endian_flavor) H point aPoint p =
    [0x34, 0x12, 5, 6, 2, 0, 0, 0, 0, 0, 0, 0, 0, 0, 0, 0, 0, 0, 0xF0, 0x3F] := by
  simp only [point, aPoint, message, messages, concat]
  decide +kernel

/-- the bytes a call sends -/
def Op.payload : Op → List Byte
  | .update p n => p.bytes n
  | .result => []

/-- **C30, series of objects.** Hashing a series of objects is hashing the concatenation of their messages with one update. -/
theorem series_is_one_update (a : AlgName) (env : Env) (c : Ctor) (before after : List Op) (objects : List (Flavor × (t : Ty) × t.Val))
    (h : a.Runs env c (before.map .call ++ objects.map (fun o => .append o.1 o.2.1 o.2.2) ++ after.map .call)) :
    let m := ((a.impl.expand env c before (objects.map fun o => .append o.1 o.2.1 o.2.2)).map Op.payload).flatten
    ∃ rs, a.impl.execStmts env c (before.map .call ++ objects.map (fun o => .append o.1 o.2.1 o.2.2) ++ after.map .call) = .ok rs ∧
      a.impl.exec env c (before ++ [.update (.mem m) m.length] ++ after) = .ok rs := by
  intro m
  have hcalls : ∀ (ops done : List Op), a.impl.expand env c done (ops.map .call) = ops := by
    intro ops
    induction ops with
    | nil => exact fun _ => rfl
    | cons op ops ih => intro done; simp only [List.map_cons, HashAlg.expand, ih]
  obtain ⟨ts, h1, h2, h3, h4⟩ := AlgName.runs_ok h
  have hexp : a.impl.expand env c [] (before.map .call ++ objects.map (fun o => .append o.1 o.2.1 o.2.2) ++ after.map .call) =
      before ++ a.impl.expand env c before (objects.map fun o => .append o.1 o.2.1 o.2.2) ++ after := by
    rw [expand_append, expand_append, hcalls, hcalls, List.nil_append]
  -- the updates send the same stream as the one update
  have hup : ∀ (os : List (Flavor × (t : Ty) × t.Val)) (done : List Op),
      let es := a.impl.expand env c done (os.map fun o => .append o.1 o.2.1 o.2.2)
      stream es = some (((es.map Op.payload).flatten).map .data) := by
    intro os
    induction os with
    | nil => intro done; rfl
    | cons o os ih =>
      intro done
      simp only [List.map_cons, HashAlg.expand, stream, Op.toks, Nat.le_refl, if_true, Option.bind_eq_bind, Option.bind_some,
        List.flatten_cons, Op.payload, Ptr.bytes, List.take_length, List.map_append]
      have := ih (done ++ [.update (.mem (a.impl.messageOf env c done o.1 o.2.1 o.2.2)) (a.impl.messageOf env c done o.1 o.2.1 o.2.2).length])
      simp only at this
      rw [this]
      rfl
  rw [hexp] at h1 h3
  have hm : stream [.update (.mem m) m.length] = some (m.map .data) := by simp [stream, Op.toks]
  have hst : stream (before ++ [.update (.mem m) m.length] ++ after) = some ts := by
    rw [stream_append, stream_append, hup objects before] at h1
    rw [stream_append, stream_append, hm]
    exact h1
  refine ⟨_, h4, AlgName.exec_ok h.ctor hst (h3.imp id fun hn => ?_) (AlgName.room_of h.room h2)⟩
  rw [noNull_append, noNull_append] at hn ⊢
  exact ⟨⟨hn.1.1, by intro n; simp⟩, hn.2⟩

/-- **C30 and C03 are false of SHA-2**: hash_append of an empty vector whose data() is null, after data that do not fill a
block, is undefined behaviour. -/
theorem sha2_empty_vector_undefined (d : DigestName) (hd : d.isSha2 = true) (env : Env) (he : env.loops = false)
    (hnull : env.emptyDataNull = true) (f : Flavor) (msg : List Byte) (hm : msg.length % d.B ≠ 0) :
    d.impl.toHash.execStmts env .default [.call (.update (.mem msg) msg.length), .append f (.seq .contiguous (.int .uchar)) []] =
      .error .nullMemcpy := by
  have h := sha2_null_fault d hd env he msg hm
  simp only [HashAlg.exec, HashAlg.run, HashAlg.execStmts, HashAlg.runStmts] at h ⊢
  cases h0 : d.impl.toHash.construct env .default with
  | error e => rw [h0] at h; exact h
  | ok s =>
    rw [h0] at h
    simp only [Except.bind_ok] at h ⊢
    cases h1 : d.impl.toHash.update env s (.mem msg) msg.length with
    | error e => rw [h1] at h; exact h
    | ok s1 =>
      rw [h1] at h
      simp only [Except.bind_ok] at h ⊢
      have hu : d.impl.toHash.update env s1 .null 0 = .error .nullMemcpy := by
        cases h2 : d.impl.toHash.update env s1 .null 0 with
        | error e =>
          rw [h2] at h
          have h' : (Except.error e : M (List (List Byte))) = .error .nullMemcpy := h
          cases h'
          rfl
        | ok s2 => rw [h2] at h; cases h
      have : hashAppend d.impl.toHash env f (.seq .contiguous (.int .uchar)) [] s1 = .error .nullMemcpy := by
        simp only [hashAppend, hashAppendWith, Ty.contiguouslyHashable, Ty.triviallyComparable, doHashAppend, appendSeq, appendRangeSize,
          appendRange, appendPointers, elements, hnull]
        simp [hu]
      rw [this]
      rfl

example : (AlgName.digest .sha2_256).impl.execStmts le64 .default
    [.call (.update (.mem abc) 3), .append default_flavor (.seq .contiguous (.int .uchar)) []] = .error .nullMemcpy :=
  sha2_empty_vector_undefined .sha2_256 rfl le64 rfl rfl default_flavor abc (by decide)

/-! ### C23, C24 -/

/-- **C23.** In constant expressions everything is hashed number by number; at run time objects and ranges of contiguously
hashable types are hashed as the memory they occupy. The results are the same, on every platform; likewise between compilers with
and without __builtin_is_constant_evaluated or constexpr functions, which choose between the two ways by the preprocessor. -/
theorem fast_path_same (a : AlgName) (env : Env) (ce₁ ce₂ builtin₁ builtin₂ cxx14₁ cxx14₂ : Bool) (c : Ctor) (ps : List Stmt)
    (h₁ : a.Runs { env with constEval := ce₁, builtin := builtin₁, cxx14 := cxx14₁ } c ps)
    (h₂ : a.Runs { env with constEval := ce₂, builtin := builtin₂, cxx14 := cxx14₂ } c ps) :
    ∃ rs, a.impl.execStmts { env with constEval := ce₁, builtin := builtin₁, cxx14 := cxx14₁ } c ps = .ok rs ∧
      a.impl.execStmts { env with constEval := ce₂, builtin := builtin₂, cxx14 := cxx14₂ } c ps = .ok rs :=
  AlgName.portable_ok h₁ h₂ (fun p _ => by
    cases p with
    | call op => trivial
    | append f t v => exact ⟨.inr rfl, .inr rfl, .inr rfl⟩) (.inl rfl)

example : ∃ rs, AlgName.xxhash_64.impl.execStmts le64c .default (aProgram big_endian_flavor) = .ok rs ∧
    AlgName.xxhash_64.impl.execStmts { le64c with constEval := false } .default (aProgram big_endian_flavor) = .ok rs :=
  fast_path_same _ le64c true false true true true true _ _ (aProgram_runs _ _ _ trivial rfl (by decide)) (aProgram_runs _ _ _ trivial rfl (by decide))
example : ∃ rs, AlgName.xxhash_64.impl.execStmts le64Cxx11 .default (aProgram big_endian_flavor) = .ok rs ∧
    AlgName.xxhash_64.impl.execStmts le64 .default (aProgram big_endian_flavor) = .ok rs :=
  fast_path_same _ le64 false false false true false true _ _ (aProgram_runs _ _ _ trivial rfl (by decide)) (aProgram_runs _ _ _ trivial rfl (by decide))

-- the fast path is taken: an array of std::uint32_t, one update of 8 bytes at run time, two of 4 in constant expressions
example : (Ty.carray 2 (.int (.int .s4))).contiguouslyHashable le64 .little = true := rfl

/-- **C24.** A program whose flavors fix the byte order returns the same results on any two platforms: byte order, size of
std::size_t and of pointers, constant evaluation or run time, representation of empty ranges. The objects must not contain
pointers, nor NaNs if one of the platforms replaces these; classes that count bytes in std::size_t need the count to fit the
smaller one. -/
theorem explicit_flavors_portable (a : AlgName) (env₁ env₂ : Env) (c : Ctor) (ps : List Stmt)
    (h₁ : a.Runs env₁ c ps) (h₂ : a.Runs env₂ c ps)
    (hf : ∀ f t v, .append f t v ∈ ps → f.order ≠ .native ∧ pointerFree t = true ∧
      (NoNaN t v ∨ env₁.fp.canonicalNaN = env₂.fp.canonicalNaN))
    (hs : env₁.size64 = env₂.size64 ∨ a.countsInSizeT = false ∨ c.cost + progCost ps + 192 < 2 ^ 32) :
    ∃ rs, a.impl.execStmts env₁ c ps = .ok rs ∧ a.impl.execStmts env₂ c ps = .ok rs :=
  AlgName.portable_ok h₁ h₂ (fun p hp => by
    cases p with
    | call op => trivial
    | append f t v => exact ⟨.inl (hf f t v hp).1, .inl (hf f t v hp).2.1, (hf f t v hp).2.2⟩) hs

/-- the same for the messages alone, without unordered containers: the bytes fed are the same, whatever has been fed before -/
theorem explicit_messages_portable (num : List Byte → W64) (env₁ env₂ : Env) (f : Flavor) (hf : f.order ≠ .native) (t : Ty) (v : t.Val)
    (h₁ : (Stmt.append f t v).Valid env₁) (h₂ : (Stmt.append f t v).Valid env₂) (hp : pointerFree t = true) (hn : NoNaN t v)
    (r₁ : env₁.fp.roundDown = false) (r₂ : env₂.fp.roundDown = false) (s : List Byte) :
    ∃ s', hashAppend (recorder num) env₁ f t v s = .ok s' ∧ hashAppend (recorder num) env₂ f t v s = .ok s' := by
  refine ⟨_, record num env₁ f r₁ t v h₁ s, ?_⟩
  rw [record num env₂ f r₂ t v h₂ s]
  rw [message_port (L := layout env₁ f) (L' := layout env₂ f) (H := num) (H' := num) (layout_congr (.inl hf)) rfl f.sizeType.n_le
    env₁.ptrSz.n_le (fun _ _ => rfl) t v s (.inl hp) (.inl hn) (Nat.le_refl _)]

theorem aPoint_noNaN : NoNaN point aPoint := by
  simp only [point, aPoint, NoNaN, NoNaNAll]
  refine ⟨trivial, trivial, ?_, ?_, trivial⟩
  · intro v _; trivial
  · decide +kernel

theorem aDict_noNaN : NoNaN dict aDict := by
  simp only [dict, NoNaN, NoNaNAll]
  intro v _
  exact ⟨trivial, fun _ _ => trivial, trivial⟩

example : ∃ rs, AlgName.siphash_64.impl.execStmts le64 .default (aProgram little_endian_flavor) = .ok rs ∧
    AlgName.siphash_64.impl.execStmts be32 .default (aProgram little_endian_flavor) = .ok rs := by
  refine explicit_flavors_portable _ _ _ _ _ (aProgram_runs _ _ _ trivial rfl (by decide)) (aProgram_runs _ _ _ trivial rfl (by decide)) ?_
    (.inr (.inl rfl))
  intro f t v hm
  simp only [aProgram, List.mem_cons, List.not_mem_nil, or_false, reduceCtorEq, false_or] at hm
  rcases hm with hm | hm
  · cases hm
    exact ⟨by decide, by simp [point, pointerFree, pointerFreeAll], .inl aPoint_noNaN⟩
  · cases hm
    exact ⟨by decide, by simp [dict, pointerFree, pointerFreeAll], .inl aDict_noNaN⟩

/-- **C24, C30.** What the three flavors of the library say: numbers are fed in little endian order with little_endian_flavor, in big
endian order with big_endian_flavor, in the order of the platform with default_flavor; sizes as 8 bytes with all of them. -/
theorem library_flavors (num : List Byte → W64) (env : Env) (hr : env.fp.roundDown = false) (t : Ty) (v : t.Val) (s : List Byte) :
    ((Stmt.append little_endian_flavor t v).Valid env → hashAppend (recorder num) env little_endian_flavor t v s =
      .ok (s ++ message ⟨.little, 8, env.ptrSz.n, env.fp.canonicalNaN⟩ num t v s)) ∧
    ((Stmt.append big_endian_flavor t v).Valid env → hashAppend (recorder num) env big_endian_flavor t v s =
      .ok (s ++ message ⟨.big, 8, env.ptrSz.n, env.fp.canonicalNaN⟩ num t v s)) ∧
    ((Stmt.append default_flavor t v).Valid env → hashAppend (recorder num) env default_flavor t v s =
      .ok (s ++ message ⟨env.native, 8, env.ptrSz.n, env.fp.canonicalNaN⟩ num t v s)) :=
  ⟨fun h => record num env _ hr t v h s, fun h => record num env _ hr t v h s, fun h => record num env _ hr t v h s⟩

/-- the std::uint32_t 1 on a big-endian platform -/
example (num : List Byte → W64) :
    hashAppend (recorder num) be32 little_endian_flavor (.int (.int .s4)) 1#32 [] = .ok [1, 0, 0, 0] ∧
    hashAppend (recorder num) be32 big_endian_flavor (.int (.int .s4)) 1#32 [] = .ok [0, 0, 0, 1] ∧
    hashAppend (recorder num) be32 default_flavor (.int (.int .s4)) 1#32 [] = .ok [0, 0, 0, 1] := ⟨rfl, rfl, rfl⟩

/-- **C24, for the flavors of the library.** A program that uses little_endian_flavor and big_endian_flavor only returns the same results
on any two platforms. -/
theorem library_flavors_portable (a : AlgName) (env₁ env₂ : Env) (c : Ctor) (ps : List Stmt)
    (h₁ : a.Runs env₁ c ps) (h₂ : a.Runs env₂ c ps)
    (hf : ∀ f t v, .append f t v ∈ ps → (f = little_endian_flavor ∨ f = big_endian_flavor) ∧ pointerFree t = true ∧
      (NoNaN t v ∨ env₁.fp.canonicalNaN = env₂.fp.canonicalNaN))
    (hs : env₁.size64 = env₂.size64 ∨ a.countsInSizeT = false ∨ c.cost + progCost ps + 192 < 2 ^ 32) :
    ∃ rs, a.impl.execStmts env₁ c ps = .ok rs ∧ a.impl.execStmts env₂ c ps = .ok rs := by
  refine explicit_flavors_portable a env₁ env₂ c ps h₁ h₂ (fun f t v hm => ?_) hs
  obtain ⟨h, h'⟩ := hf f t v hm
  refine ⟨?_, h'⟩
  rcases h with rfl | rfl <;> decide

example : ∃ rs, AlgName.siphash_64.impl.execStmts le64 .default (aProgram big_endian_flavor) = .ok rs ∧
    AlgName.siphash_64.impl.execStmts be32 .default (aProgram big_endian_flavor) = .ok rs := by
  refine library_flavors_portable _ _ _ _ _ (aProgram_runs _ _ _ trivial rfl (by decide)) (aProgram_runs _ _ _ trivial rfl (by decide)) ?_
    (.inr (.inl rfl))
  intro f t v hm
  simp only [aProgram, List.mem_cons, List.not_mem_nil, or_false, reduceCtorEq, false_or] at hm
  rcases hm with hm | hm
  · cases hm
    exact ⟨.inr rfl, by simp [point, pointerFree, pointerFreeAll], .inl aPoint_noNaN⟩
  · cases hm
    exact ⟨.inr rfl, by simp [dict, pointerFree, pointerFreeAll], .inl aDict_noNaN⟩

/-- the native flavor is not portable: FNV-1a of the std::uint16_t 1 -/
theorem native_flavor_not_portable :
    ∃ r₁ r₂ : W32, r₁ ≠ r₂ ∧
      AlgName.fnv1a_32.impl.execStmts le64 .default [.append default_flavor (.int (.int .s2)) 1#16, .call .result] = .ok [r₁] ∧
      AlgName.fnv1a_32.impl.execStmts be32 .default [.append default_flavor (.int (.int .s2)) 1#16, .call .result] = .ok [r₂] :=
  ⟨0xeb741d64, 0x1076963a, by decide, rfl, rfl⟩

/-! ### C25, C26 -/

/-- **C25.** Every hash_append feeds at least one byte: to a recorder of all that is fed. `contributing` excludes only objects
hashed by a tag_invoke that feeds nothing, or just a range. -/
theorem every_append_contributes (num : List Byte → W64) (env : Env) (f : Flavor) (t : Ty) (v : t.Val) (hc : contributing t = true)
    (h : (Stmt.append f t v).Valid env) (hr : env.fp.roundDown = false) (s : List Byte) :
    ∃ m, m ≠ [] ∧ hashAppend (recorder num) env f t v s = .ok (s ++ m) :=
  ⟨_, message_ne_nil (L := layout env f) num f.sizeType.n_pos env.ptrSz.n_pos t v s _ hc h.1 h.2.1, record num env f hr t v h s⟩

/-- **C25, for the algorithms of the library**: hash_append acts as an update with at least one byte, no matter what follows. -/
theorem every_append_contributes_to_hash (a : AlgName) (env : Env) (c : Ctor) (before : List Op) (f : Flavor) (t : Ty) (v : t.Val)
    (hc : contributing t = true) (hv : (Stmt.append f t v).Valid env) :
    ∃ m, m ≠ [] ∧ ∀ after, a.Runs env c (before.map .call ++ [.append f t v] ++ after.map .call) →
      ∃ rs, a.impl.execStmts env c (before.map .call ++ [.append f t v] ++ after.map .call) = .ok rs ∧
        a.impl.exec env c (before ++ [.update (.mem m) m.length] ++ after) = .ok rs := by
  refine ⟨a.impl.messageOf env c before f t v,
    message_ne_nil (L := layout env f) _ f.sizeType.n_pos env.ptrSz.n_pos t v [] _ hc hv.1 hv.2.1, fun after h => ?_⟩
  have := series_is_one_update a env c before after [(f, ⟨t, v⟩)] h
  simpa [HashAlg.expand, Op.payload, Ptr.bytes] using this

-- the empty tuple, the empty vector, an empty std::array
example (s : List Byte) : ∃ m, m ≠ [] ∧ hashAppend (recorder fun _ => 0) le64 default_flavor (.tuple .nil) () s = .ok (s ++ m) :=
  every_append_contributes _ _ _ _ _ (by simp [contributing, contributingAll]) ⟨by simp [wellFormed, wellFormedAll], by simp [Spec.Valid, ValidAll], by simp [le64]⟩ rfl s
example (s : List Byte) : ∃ m, m ≠ [] ∧ hashAppend (recorder fun _ => 0) le64 default_flavor (.arr .contiguous 0 .f32) [] s = .ok (s ++ m) :=
  every_append_contributes _ _ _ _ _ (by simp [contributing]) ⟨by simp [wellFormed], by simp [Spec.Valid], by simp [le64]⟩ rfl s

/-- hash_append_range of an empty range feeds nothing -/
theorem empty_range_feeds_nothing (num : List Byte → W64) (s : List Byte) :
    hashAppend (recorder num) le64 default_flavor (.range .forward .f32) [] s = .ok s := by
  simp only [hashAppend, hashAppendWith, doHashAppend, appendRange, appendEach]
  rfl

/-- **C26.** If, after s and s', hash_append of two objects of the same type leaves a recorder with the same bytes, then s = s'
and the objects are alike: equal, except that NaNs are not told apart, and unordered containers only by their size. So the
bytes fed determine the object and all that was fed before: no confusion between neighbouring objects. `delimited` excludes only
a tag_invoke that feeds a range without its size. -/
theorem messages_differ (num : List Byte → W64) (env : Env) (f : Flavor) (hr : env.fp.roundDown = false) (t : Ty) (v v' : t.Val)
    (hd : delimited t = true) (h : (Stmt.append f t v).Valid env) (h' : (Stmt.append f t v').Valid env)
    (hs : SizesFit f.sizeType.n t v) (hs' : SizesFit f.sizeType.n t v') (s s' : List Byte)
    (e : hashAppend (recorder num) env f t v s = hashAppend (recorder num) env f t v' s') : s = s' ∧ Alike t v v' := by
  rw [record num env f hr t v h s, record num env f hr t v' h' s'] at e
  exact message_decode (L := layout env f) num t v v' hd h.2.1 h'.2.1 hs hs' s s' (Except.ok.inj e)

/-- **C26.** Different objects without unordered containers and NaNs feed different bytes. -/
theorem different_objects_differ (num : List Byte → W64) (env : Env) (f : Flavor) (hr : env.fp.roundDown = false) (t : Ty) (v v' : t.Val)
    (hd : delimited t = true) (ho : ordered t = true) (hn : NoNaN t v) (h : (Stmt.append f t v).Valid env)
    (h' : (Stmt.append f t v').Valid env) (hs : SizesFit f.sizeType.n t v) (hs' : SizesFit f.sizeType.n t v') (hne : ¬ Equal t v v')
    (s s' : List Byte) : hashAppend (recorder num) env f t v s ≠ hashAppend (recorder num) env f t v' s' :=
  fun e => hne (alike_equal t v v' ho hn (messages_differ num env f hr t v v' hd h h' hs hs' s s' e).2)

/-- std::pair<std::vector<unsigned char>, std::vector<unsigned char>> -/
def twoVectors : Ty := .tuple (.cons (.seq .contiguous (.int .uchar)) (.cons (.seq .contiguous (.int .uchar)) .nil))

-- ( { 1 }, { 2, 3 } ) and ( { 1, 2 }, { 3 } )
example (s s' : List Byte) :
    hashAppend (recorder fun _ => 0) le64 default_flavor twoVectors ([1#8], ([2#8, 3#8], ())) s ≠
    hashAppend (recorder fun _ => 0) le64 default_flavor twoVectors ([1#8, 2#8], ([3#8], ())) s' := by
  have hv : ∀ v : twoVectors.Val, (Stmt.append default_flavor twoVectors v).Valid le64 := fun v =>
    ⟨by simp [twoVectors, wellFormed, wellFormedAll], by simp [twoVectors, Spec.Valid, ValidAll], by simp [le64]⟩
  refine different_objects_differ _ _ _ rfl twoVectors _ _ (by simp [twoVectors, delimited, delimitedAll])
    (by simp [twoVectors, ordered, orderedAll]) (by simp [twoVectors, NoNaN, NoNaNAll]) (hv _) (hv _) ?_ ?_ ?_ s s'
  · simp only [twoVectors, SizesFit, SizesFitAll]; decide
  · simp only [twoVectors, SizesFit, SizesFitAll]; decide
  · simp only [twoVectors, Equal, EqualAll]
    rintro ⟨h, -⟩
    cases h with
    | cons _ h => cases h

/-- `delimited` is needed: ranges fed without their sizes, as hash_append_range does, confuse neighbours -/
theorem undelimited_ranges_confused (num : List Byte → W64) :
    let t := Ty.user (.cons (.range .forward (.int .uchar)) (.cons (.range .forward (.int .uchar)) .nil))
    let v : t.Val := ([1#8], ([2#8, 3#8], ()))
    let v' : t.Val := ([1#8, 2#8], ([3#8], ()))
    ∃ s, hashAppend (recorder num) le64 default_flavor t v [] = .ok s ∧ hashAppend (recorder num) le64 default_flavor t v' [] = .ok s := by
  intro t v v'
  have hv : ∀ v : t.Val, (Stmt.append default_flavor t v).Valid le64 := fun v =>
    ⟨by simp [t, wellFormed, wellFormedAll], by simp [t, Spec.Valid, ValidAll], by simp [le64]⟩
  refine ⟨_, record num le64 default_flavor rfl t v (hv v) [], ?_⟩
  rw [record num le64 default_flavor rfl t v' (hv v') []]
  simp only [t, v, v', message, messages, concat]
  rfl

/-! ### C27, C28, C29, C41 -/

/-- **C41.** Programs that append equal objects return the same results: equal in the sense of operator==, anywhere inside
containers, tuples and classes. -/
theorem equal_objects_hash_equally (a : AlgName) (env : Env) (c : Ctor) (before after : List Stmt) (f : Flavor) (t : Ty) (v v' : t.Val)
    (he : Equal t v v') (h : a.Runs env c (before ++ .append f t v :: after)) (h' : a.Runs env c (before ++ .append f t v' :: after)) :
    ∃ rs, a.impl.execStmts env c (before ++ .append f t v :: after) = .ok rs ∧
      a.impl.execStmts env c (before ++ .append f t v' :: after) = .ok rs := by
  obtain ⟨rs, e1, e2⟩ := AlgName.runs_expand h
  obtain ⟨rs', e1', e2'⟩ := AlgName.runs_expand h'
  have hm : ∀ done, a.impl.messageOf env c done f t v = a.impl.messageOf env c done f t v' := fun done => message_equal _ t v v' [] he
  have : a.impl.expand env c [] (before ++ .append f t v :: after) = a.impl.expand env c [] (before ++ .append f t v' :: after) := by
    rw [expand_append, expand_append]
    simp only [HashAlg.expand, hm]
  rw [← this, e2] at e2'
  rw [← Except.ok.inj e2'] at e1'
  exact ⟨rs, e1, e1'⟩

/-- the conditions to run a program do not depend on the value appended, if it is no heavier and makes no trouble -/
theorem AlgName.Runs.replace {a : AlgName} {env : Env} {c : Ctor} {before after : List Stmt} {f : Flavor} {t t' : Ty} {v : t.Val} {v' : t'.Val}
    (h : a.Runs env c (before ++ .append f t v :: after)) (hv : (Stmt.append f t' v').Valid env)
    (hn : (Stmt.append f t v).NoNull env → (Stmt.append f t' v').NoNull env) (hw : weight t' v' ≤ weight t v) :
    a.Runs env c (before ++ .append f t' v' :: after) where
  ctor := h.ctor
  valid p hp := by
    rcases List.mem_append.1 hp with hp | hp
    · exact h.valid p (List.mem_append_left _ hp)
    · rcases List.mem_cons.1 hp with rfl | hp
      · exact hv
      · exact h.valid p (List.mem_append_right _ (List.mem_cons_of_mem _ hp))
  null := h.null.imp id fun hnn p hp => by
    rcases List.mem_append.1 hp with hp | hp
    · exact hnn p (List.mem_append_left _ hp)
    · rcases List.mem_cons.1 hp with rfl | hp
      · exact hn (hnn _ (List.mem_append_right _ (List.mem_cons_self ..)))
      · exact hnn p (List.mem_append_right _ (List.mem_cons_of_mem _ hp))
  round := h.round
  room := by
    have h1 : ∀ (s : Stmt), progCost (before ++ s :: after) = progCost before + (s.cost + progCost after) := by
      intro s; simp [progCost]
    have hr := h.room
    cases a with
    | spooky2_128 =>
      have hr : c.cost + progCost (before ++ .append f t v :: after) < 2 ^ env.sizeBits := hr
      show c.cost + progCost (before ++ .append f t' v' :: after) < 2 ^ env.sizeBits
      rw [h1] at hr ⊢
      have e1 : (Stmt.append f t v).cost = weight t v := rfl
      have e2 : (Stmt.append f t' v').cost = weight t' v' := rfl
      omega
    | _ => trivial

/-- **C27.** Floating point numbers with the same value, as +0.0 and -0.0, hash equally. -/
theorem equal_floats_hash_equally (a : AlgName) (env : Env) (c : Ctor) (before after : List Stmt) (f : Flavor) (x y : W32)
    (hx : float32 x ≠ .nan) (he : float32 x = float32 y) (h : a.Runs env c (before ++ .append f .f32 x :: after)) :
    ∃ rs, a.impl.execStmts env c (before ++ .append f .f32 x :: after) = .ok rs ∧
      a.impl.execStmts env c (before ++ .append f .f32 y :: after) = .ok rs :=
  equal_objects_hash_equally a env c before after f .f32 x y (by simp only [Equal]; exact ⟨hx, he⟩) h
    (h.replace ⟨rfl, by simp [Spec.Valid], fun _ => rfl⟩ (fun _ => .inr (by simp [NoEmpty])) (Nat.le_refl _))

/-- **C27, double.** -/
theorem equal_doubles_hash_equally (a : AlgName) (env : Env) (c : Ctor) (before after : List Stmt) (f : Flavor) (x y : W64)
    (hx : float64 x ≠ .nan) (he : float64 x = float64 y) (h : a.Runs env c (before ++ .append f .f64 x :: after)) :
    ∃ rs, a.impl.execStmts env c (before ++ .append f .f64 x :: after) = .ok rs ∧
      a.impl.execStmts env c (before ++ .append f .f64 y :: after) = .ok rs :=
  equal_objects_hash_equally a env c before after f .f64 x y (by simp only [Equal]; exact ⟨hx, he⟩) h
    (h.replace ⟨rfl, by simp [Spec.Valid], fun _ => rfl⟩ (fun _ => .inr (by simp [NoEmpty])) (Nat.le_refl _))

-- 0.0 and -0.0
example : ∃ rs, AlgName.fnv1a_64.impl.execStmts le64 .default ([] ++ .append default_flavor .f64 0 :: [.call .result]) = .ok rs ∧
    AlgName.fnv1a_64.impl.execStmts le64 .default ([] ++ .append default_flavor .f64 0x8000000000000000 :: [.call .result]) = .ok rs :=
  equal_doubles_hash_equally _ _ _ _ _ _ _ _ (by decide +kernel) (by decide +kernel)
    ⟨trivial, by simp [Stmt.Valid, wellFormed, Spec.Valid, pointerFree, Op.toks], .inl trivial, rfl, trivial⟩

/-- **C27 needs the rounding mode**: if the program has set rounding downward, -0.0 + 0 is -0.0, and the two zeros hash
differently. -/
theorem zeros_differ_rounding_down :
    float64 0 = float64 0x8000000000000000 ∧
    ∃ r₁ r₂ : W32, r₁ ≠ r₂ ∧
      AlgName.fnv1a_32.impl.execStmts { le64 with fp := ⟨true, false⟩ } .default [.append default_flavor .f64 0#64, .call .result] = .ok [r₁] ∧
      AlgName.fnv1a_32.impl.execStmts { le64 with fp := ⟨true, false⟩ } .default
        [.append default_flavor .f64 0x8000000000000000#64, .call .result] = .ok [r₂] :=
  ⟨by decide +kernel, 0x9be17165, 0x1be23ae5, by decide, rfl, rfl⟩

theorem valid_perm {env : Env} {f : Flavor} {t : Ty} {vs vs' : List t.Val} (hp : vs.Perm vs')
    (h : (Stmt.append f (.unord t) vs).Valid env) : (Stmt.append f (.unord t) vs').Valid env := by
  obtain ⟨h1, h2, h3⟩ := h
  refine ⟨h1, ?_, h3⟩
  simp only [Spec.Valid] at h2 ⊢
  exact fun v hm => h2 v (hp.mem_iff.2 hm)

/-- **C28.** The order of the elements of an unordered container does not matter, whatever the elements, the algorithm, what was
hashed before and what follows. -/
theorem unordered_any_order (a : AlgName) (env : Env) (c : Ctor) (before after : List Stmt) (f : Flavor) (t : Ty) (vs vs' : List t.Val)
    (hp : vs.Perm vs') (h : a.Runs env c (before ++ .append f (.unord t) vs :: after)) :
    ∃ rs, a.impl.execStmts env c (before ++ .append f (.unord t) vs :: after) = .ok rs ∧
      a.impl.execStmts env c (before ++ .append f (.unord t) vs' :: after) = .ok rs := by
  have hv := h.valid _ (List.mem_append_right _ (List.mem_cons_self ..))
  have h' : a.Runs env c (before ++ .append f (.unord t) vs' :: after) := by
    refine h.replace (valid_perm hp hv) (Or.imp id fun hn => ?_) ?_
    · simp only [NoEmpty] at hn ⊢
      exact fun v hm => hn v (hp.mem_iff.2 hm)
    · simp only [weight]
      rw [(hp.map _).sum_nat]
  obtain ⟨rs, e1, e2⟩ := AlgName.runs_expand h
  obtain ⟨rs', e1', e2'⟩ := AlgName.runs_expand h'
  have hm : ∀ done, a.impl.messageOf env c done f (.unord t) vs = a.impl.messageOf env c done f (.unord t) vs' := by
    intro done
    simp only [HashAlg.messageOf, message]
    rw [hp.length_eq, (hp.map _).sum_nat]
  have : a.impl.expand env c [] (before ++ .append f (.unord t) vs :: after) = a.impl.expand env c [] (before ++ .append f (.unord t) vs' :: after) := by
    rw [expand_append, expand_append]
    simp only [HashAlg.expand, hm]
  rw [← this, e2] at e2'
  rw [← Except.ok.inj e2'] at e1'
  exact ⟨rs, e1, e1'⟩

example : ∃ rs, AlgName.murmur3_128.impl.execStmts le64 .default ([] ++ .append default_flavor dict aDict :: [.call .result]) = .ok rs ∧
    AlgName.murmur3_128.impl.execStmts le64 .default ([] ++ .append default_flavor dict aDict.reverse :: [.call .result]) = .ok rs :=
  unordered_any_order _ _ _ _ _ _ _ _ _ (List.reverse_perm _).symm
    ⟨trivial, by simp [Stmt.Valid, wellFormed, wellFormedAll, Spec.Valid, ValidAll, pointerFree, pointerFreeAll, Op.toks], .inl trivial, rfl, trivial⟩

/-- **C29.** Programs that append objects which hold the same return the same results: the kind of containers does not matter
(`Same`, Spec/Same.lean), at any depth, nor does a C array count differently from a std::array, a class from a tuple, an
enumeration from its underlying type, nor whether a class has been declared trivially equality comparable or endian independent. -/
theorem container_kind_irrelevant (a : AlgName) (env : Env) (c : Ctor) (ps ps' : List Stmt) (h : a.Runs env c ps) (h' : a.Runs env c ps')
    (hs : List.Forall₂ Stmt.Same ps ps') :
    ∃ rs, a.impl.execStmts env c ps = .ok rs ∧ a.impl.execStmts env c ps' = .ok rs :=
  AlgName.same_ok h h' hs

-- std::vector<std::uint32_t>, std::list<unsigned enum> of the same numbers, under SHA-1
example : ∃ rs, (AlgName.digest .sha1_160).impl.execStmts le64 .default
      [.append default_flavor (.seq .contiguous (.int (.int .s4))) [1#32, 2#32], .call .result] = .ok rs ∧
    (AlgName.digest .sha1_160).impl.execStmts le64 .default
      [.append default_flavor (.seq .forward (.enum (.int .s4))) [1#32, 2#32], .call .result] = .ok rs := by
  refine container_kind_irrelevant _ _ _ _ _ ⟨trivial, ?_, .inl (.inl rfl), rfl, trivial⟩ ⟨trivial, ?_, .inl (.inl rfl), rfl, trivial⟩ ?_
  · simp [Stmt.Valid, wellFormed, Spec.Valid, pointerFree, Op.toks]
  · simp [Stmt.Valid, wellFormed, Spec.Valid, pointerFree, Op.toks]
  · refine .cons ⟨rfl, ?_⟩ (.cons rfl .nil)
    simp only [Spec.Same]
    exact .cons ⟨trivial, rfl⟩ (.cons ⟨trivial, rfl⟩ .nil)

end Hash2

import Verif.Lemmas.Updates
import Verif.Props.HashAppend
/-
C65: which member functions of a hash object hash_append calls. Here the algorithm is any class whatever: nothing is assumed of its update or
result.
-/
namespace Hash2
open Spec

/-! ### update, and nothing else -/

/-- **C65.** For an object without unordered containers hash_append makes a number of calls of update, and does nothing else to the hash object.
The calls are the same for every class, and whatever the state of the hash object (the order of the quantifiers says so); each passes readable
memory, or null and zero; what they pass, one after another, is the message of the object. -/
theorem append_only_updates (env : Env) (f : Flavor) (t : Ty) (v : t.Val) (ho : ordered t = true) (hv : (Stmt.append f t v).Valid env)
    (hr : env.fp.roundDown = false) :
    ∃ calls : List (Ptr × Nat),
      (∀ (A : HashAlg) (s : A.State), hashAppend A env f t v s = A.updates env s calls) ∧
      stream (calls.map fun c => .update c.1 c.2) = some ((message (layout env f) (fun _ => 0) t v []).map .data) ∧
      calls.length = updateCount (objectAtOnce env f) (rangeAtOnce env f) t v :=
  ⟨withBlocks env f t v (doBlocks env f t v), fun _ s => issues_with (issues_do t v ho hv.2.2) s, blocks_message hr t v ho hv,
    callBlocks_length t v ho⟩

/-- for a described class on an ordinary machine: four calls, for { 0x1234, { 5, 6 }, 1.0 } -/
example : ∃ calls : List (Ptr × Nat), (∀ (A : HashAlg) (s : A.State), hashAppend A le64 default_flavor point aPoint s = A.updates le64 s calls) ∧
    calls.length = 4 := by
  obtain ⟨calls, h1, -, h3⟩ := append_only_updates le64 default_flavor point aPoint (by simp [point, ordered, orderedAll])
    ⟨by simp [point, wellFormed, wellFormedAll], by simp [point, aPoint, Spec.Valid, ValidAll], fun _ => by simp [point, pointerFree, pointerFreeAll]⟩ rfl
  refine ⟨calls, h1, h3.trans ?_⟩
  simp [updateCount, updateCounts, point, objectAtOnce, rangeAtOnce, Ty.contiguouslyHashable, Ty.triviallyComparable, RangeKind.byPointer, isByte]

/-- **C65.** "If is_contiguously_hashable is true, calls h.update(&v, sizeof(v))": exactly one call, at run time, if the compiler can tell that it
is; the memory is the message. -/
theorem contiguous_object_one_update (env : Env) (hrun : env.isConstantEvaluated = false) (f : Flavor) (t : Ty) (v : t.Val)
    (hc : t.contiguouslyHashable env (f.endian env) = true) (hv : (Stmt.append f t v).Valid env) :
    ∃ bytes : List Byte, bytes.length = t.sizeOf env ∧ (∀ H before, message (layout env f) H t v before = bytes) ∧
      ∀ (A : HashAlg) (s : A.State), hashAppend A env f t v s = A.update env s (.mem bytes) bytes.length := by
  have h := fun H p => contig_message (L := layout env f) H rfl hv.1 hv.2.1 hc p
  refine ⟨t.rep env v, (h (fun _ => 0) []).2, fun H p => (h H p).1, fun A s => ?_⟩
  rw [(h (fun _ => 0) []).2]
  unfold hashAppend hashAppendWith
  rw [if_pos ⟨hrun, hc⟩]

/-- int[ 2 ][ 3 ] -/
example : ∃ bytes : List Byte, bytes.length = 24 ∧
    ∀ (A : HashAlg) (s : A.State), hashAppend A le64 default_flavor (.carray 2 (.carray 3 (.int (.int .s4)))) [[1#32, 2#32, 3#32], [4#32, 5#32, 6#32]] s =
      A.update le64 s (.mem bytes) bytes.length := by
  obtain ⟨b, h1, -, h3⟩ := contiguous_object_one_update le64 rfl default_flavor (.carray 2 (.carray 3 (.int (.int .s4)))) [[1#32, 2#32, 3#32], [4#32, 5#32, 6#32]]
    rfl ⟨by simp [wellFormed], by simp [Spec.Valid]; exact ⟨rfl, rfl⟩, fun _ => by simp [pointerFree]⟩
  exact ⟨b, h1, h3⟩

/-- **C65.** A container whose elements lie side by side in memory (std::vector, std::string), of a contiguously hashable element type: exactly two
calls of update, however many elements it has: all elements, then their number. -/
theorem contiguous_container_two_updates (env : Env) (hrun : env.isConstantEvaluated = false) (f : Flavor) (t : Ty) (vs : List t.Val)
    (hc : t.contiguouslyHashable env (f.endian env) = true) (ho : ordered t = true) (hv : (Stmt.append f (.seq .contiguous t) vs).Valid env)
    (hr : env.fp.roundDown = false) :
    ∃ first second : Ptr × Nat, ∀ (A : HashAlg) (s : A.State),
      hashAppend A env f (.seq .contiguous t) vs s = (do let s ← A.update env s first.1 first.2; A.update env s second.1 second.2) := by
  obtain ⟨calls, h1, -, h3⟩ := append_only_updates env f (.seq .contiguous t) vs (by simpa only [ordered] using ho) hv hr
  have hl : env.loops = false := by unfold Env.loops; split; exact hrun; rfl
  have : rangeAtOnce env f t = true := by simp [rangeAtOnce, hl, hc]
  simp only [updateCount, RangeKind.byPointer, this, Bool.and_true, if_true] at h3
  match calls, h3 with
  | [c, d], _ =>
    refine ⟨c, d, fun A s => (h1 A s).trans ?_⟩
    simp only [HashAlg.updates]
    cases A.update env s c.1 c.2 with
    | error e => rfl
    | ok s => rw [Except.bind_ok, Except.bind_ok]; cases A.update env s d.1 d.2 <;> rfl

example : ∃ first second : Ptr × Nat, ∀ (A : HashAlg) (s : A.State),
    hashAppend A le64 default_flavor (.seq .contiguous (.int (.int .s8))) [1#64, 2#64, 3#64] s =
      (do let s ← A.update le64 s first.1 first.2; A.update le64 s second.1 second.2) :=
  contiguous_container_two_updates le64 rfl default_flavor (.int (.int .s8)) [1#64, 2#64, 3#64] rfl rfl
    ⟨by simp [wellFormed], by simp [Spec.Valid], fun _ => by simp [pointerFree]⟩ rfl

/-! ### unordered containers too: nothing but copies, update, result and get_integral_result -/

/-- **C65.** hash_append cannot tell two classes apart, if their objects can be related so that update keeps them related and get_integral_result of
their results is the same. For all types, unordered containers included, whether or not the calls are valid. -/
theorem append_parametric (env : Env) (A B : HashAlg) (R : A.State → B.State → Prop)
    (hu : ∀ s s' p n, R s s' → SameOutcome R (A.update env s p n) (B.update env s' p n))
    (hr : ∀ s s', R s s' → A.hashValue env s = B.hashValue env s')
    (f : Flavor) (t : Ty) (v : t.Val) (s : A.State) (s' : B.State) (h : R s s') :
    SameOutcome R (hashAppend A env f t v s) (hashAppend B env f t v s') :=
  alike_with hu (alike_do hu hr t v) s s' h

/-- **C65.** A class B that wraps an algorithm A, with whatever members of its own (a log, a counter), and forwards update and result, hashes every
object just as A does: the wrapped object goes through the same states, or the same fault occurs. -/
theorem wrapper_hashes_the_same (env : Env) (A B : HashAlg) (inner : B.State → A.State)
    (hu : ∀ s p n, (B.update env s p n).map inner = A.update env (inner s) p n) (hr : ∀ s, B.hashValue env s = A.hashValue env (inner s))
    (f : Flavor) (t : Ty) (v : t.Val) (s : B.State) :
    (hashAppend B env f t v s).map inner = hashAppend A env f t v (inner s) := by
  have key : ∀ {x : M B.State} {y : M A.State}, SameOutcome (fun b a => inner b = a) x y ↔ x.map inner = y := by
    intro x y
    cases x with
    | error e =>
      cases y with
      | error e' => exact ⟨fun h => congrArg Except.error h, fun h => Except.error.inj h⟩
      | ok a => exact ⟨fun h => h.elim, fun h => by cases h⟩
    | ok b =>
      cases y with
      | error e' => exact ⟨fun h => h.elim, fun h => by cases h⟩
      | ok a => exact ⟨fun h => congrArg Except.ok h, fun h => Except.ok.inj h⟩
  refine key.1 (append_parametric env B A (fun b a => inner b = a) ?_ ?_ f t v s (inner s) rfl)
  · rintro s _ p n rfl; exact key.2 (hu s p n)
  · rintro s _ rfl; exact hr s

/-- a class that counts the bytes that go through it -/
def counting (A : HashAlg) : HashAlg where
  State := A.State × Nat
  R := A.R
  init env := (A.init env).map fun s => (s, 0)
  initSeed env k := (A.initSeed env k).map fun s => (s, 0)
  initBytes env p n := (A.initBytes env p n).map fun s => (s, 0)
  update env s p n := (A.update env s.1 p n).map fun t => (t, s.2 + n)
  result env s := (A.result env s.1).map fun x => ((x.1, s.2), x.2)
  integral := A.integral

example (a : AlgName) (s : a.impl.State) (n : Nat) :
    (hashAppend (counting a.impl) le64 default_flavor dict aDict (s, n)).map Prod.fst = hashAppend a.impl le64 default_flavor dict aDict s := by
  refine wrapper_hashes_the_same le64 a.impl (counting a.impl) Prod.fst (fun s p n => ?_) (fun s => ?_) default_flavor dict aDict (s, n)
  · show ((a.impl.update le64 s.1 p n).map fun t => (t, s.2 + n)).map Prod.fst = _
    cases a.impl.update le64 s.1 p n <;> rfl
  · show (((a.impl.result le64 s.1).map fun x => ((x.1, s.2), x.2)) >>= fun x => a.impl.integral le64 x.2) =
      (a.impl.result le64 s.1 >>= fun x => a.impl.integral le64 x.2)
    cases a.impl.result le64 s.1 <;> rfl

end Hash2

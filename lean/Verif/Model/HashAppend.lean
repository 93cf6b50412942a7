import Verif.Model.Types
import Verif.Model.Alg
/-
Model of include/boost/hash2/hash_append.hpp.

Every function takes the class `A` of the hash object (template parameter Hash), the platform and the flavor; `s` is the state
of the object h. The condition `env.isConstantEvaluated` is detail::is_constant_evaluated().
-/
namespace Hash2

/-- detail::write( v, E, tmp ), detail/write.hpp:105-154, tmp being the array in the caller -/
def writeInt (env : Env) (E : Endian) (tmp : List Byte) : (sz : Sz) → BitVec (8 * sz.n) → M (List Byte)
  | .s1, v => aset tmp 0 v
  | .s2, v => if E = .little then write16le env tmp 0 v else write16be tmp 0 v
  | .s4, v => if E = .little then write32le env tmp 0 v else write32be tmp 0 v
  | .s8, v => if E = .little then write64le env tmp 0 v else write64be tmp 0 v

/-- the IEEE 754 operation `v + 0` (hash_append.hpp:216, 224) on a bit pattern of w bits, of which mb are the fraction: NaNs become quiet
(or canonical), -0 becomes +0 unless rounding downward, everything else is unchanged (x + 0 is exact). The bit pattern is what detail::bit_cast returns, detail/bit_cast.hpp:20-45 -/
def addZero (fp : FpEnv) (w mb : Nat) (v : BitVec w) : BitVec w :=
  let magnitude := v.toNat % 2 ^ (w - 1)
  let infinity := 2 ^ (w - 1) - 2 ^ mb
  if infinity < magnitude then
    if fp.canonicalNaN then BitVec.ofNat w (infinity + 2 ^ (mb - 1)) else v ||| BitVec.ofNat w (2 ^ (mb - 1))
  else if magnitude = 0 then
    if fp.roundDown then v else 0
  else v

section
variable (A : HashAlg) (env : Env) (f : Flavor)

/-- hash_append( h, f, v ), hash_append.hpp:410-421: the fast path, or else what do_hash_append does -/
def hashAppendWith (t : Ty) (v : t.Val) (doHashAppend : A.State → M A.State) (s : A.State) : M A.State :=
  if env.isConstantEvaluated = false ∧ t.contiguouslyHashable env (f.endian env) = true then
    A.update env s (.mem (t.rep env v)) (t.sizeOf env)
  else doHashAppend s

/-- do_hash_append for integral types, hash_append.hpp:176-187 -/
def doAppendInt (sz : Sz) (v : BitVec (8 * sz.n)) (s : A.State) : M A.State := do
  let tmp ← writeInt env (f.endian env) (List.replicate sz.n 0) sz v
  A.update env s (.mem tmp) sz.n

/-- hash_append of an integer: of an integral type, not bool or unsigned char: hash_append.hpp:410-421 with 176-187 -/
def appendInt (sz : Sz) (v : BitVec (8 * sz.n)) : A.State → M A.State :=
  hashAppendWith A env f (.int (.int sz)) v (doAppendInt A env f sz v)

/-- hash_append( h, f, '\x00' ), hash_append.hpp:280, 299, 333, 386 -/
def appendNul : A.State → M A.State := appendInt A env f .s1 0

/-- hash_append_size( h, f, v ), hash_append.hpp:110-113 -/
def appendSize (n : Nat) : A.State → M A.State :=
  appendInt A env f f.sizeType (BitVec.ofNat (8 * f.sizeType.n) n)

/-- do_hash_append for pointer types, hash_append.hpp:201-207 (the reinterpret_cast is not allowed in constant expressions) -/
def doAppendPtr (v : W64) (s : A.State) : M A.State :=
  if env.constEval then .error .notConstant
  else appendInt A env f env.ptrSz (v.setWidth (8 * env.ptrSz.n)) s

/-- for( ; first != last; ++first ) hash_append( h, f, *first ): hash_append_range_ for iterators, hash_append.hpp:49-56; the
loops in 92-95 and 124-127 -/
def appendEach {α : Type} (hashAppend : α → A.State → M A.State) : List α → A.State → M A.State
  | [], s => .ok s
  | v :: vs, s => do
    let s ← hashAppend v s
    appendEach hashAppend vs s

/-- the pointer to the first of the elements of a range (data(), begin()), which may be null if there are none: hash_append.hpp:251, 285 -/
def elements (t : Ty) (vs : List t.Val) : Ptr :=
  if vs.isEmpty ∧ env.emptyDataNull then .null else .mem ((vs.map (t.rep env)).flatten)

/-- hash_append_range_ for pointers, hash_append.hpp:58-99: for unsigned char (58-66), for contiguously hashable types (68-97),
and for iterators (49-56) -/
def appendPointers (t : Ty) (hashAppend : t.Val → A.State → M A.State) (vs : List t.Val) (s : A.State) : M A.State :=
  match t with
  | .int .uchar => A.update env s (elements env (.int .uchar) vs) vs.length
  | t =>
    if t.contiguouslyHashable env (f.endian env) then
      if env.loops = false then A.update env s (elements env t vs) (vs.length * t.sizeOf env)
      else appendEach A hashAppend vs s
    else appendEach A hashAppend vs s

/-- hash_append_range( h, f, first, last ), hash_append.hpp:103-106, by the kind of iterators; for a contiguous range they are
data() and data() + size() -/
def appendRange (k : RangeKind) (t : Ty) (hashAppend : t.Val → A.State → M A.State) (vs : List t.Val) (s : A.State) : M A.State :=
  match k with
  | .contiguous | .pointers => appendPointers A env f t hashAppend vs s
  | .randomAccess | .forward => appendEach A hashAppend vs s

/-- hash_append_sized_range_( h, f, first, last, std::input_iterator_tag ), hash_append.hpp:120-130 -/
def appendCounted {α : Type} (hashAppend : α → A.State → M A.State) (vs : List α) (s : A.State) : M A.State := do
  let s ← appendEach A hashAppend vs s
  appendSize A env f vs.length s

/-- hash_append_sized_range_( h, f, first, last, std::random_access_iterator_tag ), hash_append.hpp:132-136; the same two calls
are made for contiguous containers, 246-253 -/
def appendRangeSize (k : RangeKind) (t : Ty) (hashAppend : t.Val → A.State → M A.State) (vs : List t.Val) (s : A.State) :
    M A.State := do
  let s ← appendRange A env f k t hashAppend vs s
  appendSize A env f vs.length s

/-- do_hash_append for containers and ranges with size, hash_append.hpp:244-263; hash_append_sized_range chooses by the iterator category, 140-143 -/
def appendSeq (k : RangeKind) (t : Ty) (hashAppend : t.Val → A.State → M A.State) (vs : List t.Val) (s : A.State) : M A.State :=
  match k with
  | .contiguous => appendRangeSize A env f .contiguous t hashAppend vs s
  | .pointers => appendRangeSize A env f .pointers t hashAppend vs s
  | .randomAccess => appendRangeSize A env f .randomAccess t hashAppend vs s
  | .forward => appendCounted A env f hashAppend vs s

/-- do_hash_append for constant size containers and ranges, hash_append.hpp:270-305 -/
def appendArr (k : RangeKind) (t : Ty) (hashAppend : t.Val → A.State → M A.State) (vs : List t.Val) (s : A.State) : M A.State :=
  if vs.isEmpty then appendNul A env f s else appendRange A env f k t hashAppend vs s

/-- the loop of hash_append_unordered_range, hash_append.hpp:153-159: h2 is a copy of h -/
def unorderedSum {α : Type} (hashAppend : α → A.State → M A.State) (h : A.State) : List α → W64 → M W64
  | [], w => .ok w
  | v :: vs, w => do
    let h2 ← hashAppend v h
    let (_, r) ← A.result env h2
    let x ← A.integral env r
    unorderedSum hashAppend h vs (w + x)

/-- hash_append_unordered_range, hash_append.hpp:147-163 -/
def appendUnordered {α : Type} (hashAppend : α → A.State → M A.State) (vs : List α) (s : A.State) : M A.State := do
  let w ← unorderedSum A env hashAppend s vs 0
  let s ← appendInt A env f .s8 w s
  appendSize A env f vs.length s

mutual
/-- detail::do_hash_append( h, f, v ), hash_append.hpp:165-404 -/
def doHashAppend : (t : Ty) → t.Val → A.State → M A.State
  -- 176-187
  | .int k, v, s => doAppendInt A env f k.size (k.bits v) s
  -- 191-197
  | .enum k, v, s => hashAppendWith A env f (.int k) v (doAppendInt A env f k.size (k.bits v)) s
  -- 201-207
  | .ptr, v, s => doAppendPtr A env f v s
  -- 211-225
  | .f32, v, s => appendInt A env f .s4 (addZero env.fp 32 23 v) s
  | .f64, v, s => appendInt A env f .s8 (addZero env.fp 64 52 v) s
  -- 230-235
  | .nullptr, _, s => hashAppendWith A env f .ptr 0 (doAppendPtr A env f 0) s
  -- 239-242
  | .carray _ t, vs, s => appendPointers A env f t (fun v => hashAppendWith A env f t v (doHashAppend t v)) vs s
  -- 246-263
  | .seq k t, vs, s => appendSeq A env f k t (fun v => hashAppendWith A env f t v (doHashAppend t v)) vs s
  -- 272-305
  | .arr k _ t, vs, s => appendArr A env f k t (fun v => hashAppendWith A env f t v (doHashAppend t v)) vs s
  -- 313-319
  | .unord t, vs, s => appendUnordered A env f (fun v => hashAppendWith A env f t v (doHashAppend t v)) vs s
  -- 323-343
  | .tuple .nil, _, s => appendNul A env f s
  | .tuple ts, v, s => appendAll ts v s
  -- 354-387
  | .described _ _ .nil .nil, _, s => appendNul A env f s
  | .described _ _ bs ms, v, s => do
    let s ← appendAll bs v.1 s
    appendAll ms v.2 s
  -- 398-404
  | .user cs, v, s => appendAll cs v s
  -- 103-106
  | .range k t, vs, s => appendRange A env f k t (fun v => hashAppendWith A env f t v (doHashAppend t v)) vs s
  -- 110-113
  | .size, n, s => appendSize A env f n s
/-- hash_append( h, f, v_i ) for v_1, v_2, ...: hash_append.hpp:326, 365-380; the body of a tag_invoke, e.g.
doc/hash2/hashing_objects.adoc:388-394 -/
def appendAll : (ts : Tys) → ts.Val → A.State → M A.State
  | .nil, _, s => .ok s
  | .cons t ts, v, s => do
    let s ← hashAppendWith A env f t v.1 (doHashAppend t v.1) s
    appendAll ts v.2 s
end

/-- hash_append( h, f, v ), hash_append.hpp:408-421 -/
def hashAppend (t : Ty) (v : t.Val) : A.State → M A.State := hashAppendWith A env f t v (doHashAppend A env f t v)

end

/-- One statement of a program that uses one hash object: a member function (doc/hash2/hashing_bytes.adoc:45-47) or hash_append.hpp:410.
Not code of /repo: what its user writes. -/
inductive Stmt
  | call (op : Op)
  | append (f : Flavor) (t : Ty) (v : t.Val)

/-- A sequence of statements; the results returned, in order. Not code of /repo: what its user writes, e.g. test/append_described.cpp:31-43. -/
def HashAlg.runStmts (A : HashAlg) (env : Env) : A.State → List Stmt → M (A.State × List A.R)
  | s, [] => .ok (s, [])
  | s, .call (.update p n) :: ps => do
    let s ← A.update env s p n
    A.runStmts env s ps
  | s, .call .result :: ps => do
    let (s, r) ← A.result env s
    let (s, rs) ← A.runStmts env s ps
    return (s, r :: rs)
  | s, .append f t v :: ps => do
    let s ← hashAppend A env f t v s
    A.runStmts env s ps

/-- A whole program: construct an object, run the statements, return the results. Not code of /repo: what its user writes.
E.g. test/append_described.cpp:31-43. -/
def HashAlg.execStmts (A : HashAlg) (env : Env) (c : Ctor) (ps : List Stmt) : M (List A.R) := do
  let s ← A.construct env c
  let (_, rs) ← A.runStmts env s ps
  return rs

end Hash2

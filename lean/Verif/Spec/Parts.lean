import Verif.Spec.Programs
/-
The effects of hash_append, hash_append_range, hash_append_size as documented (doc/hash2/reference/hash_append.adoc): which
calls stand for one call.
-/
namespace Hash2
open Spec

/-- hash_append( h, f, '\x00' ) -/
def nulStmt (f : Flavor) : Stmt := .append f (.int (.int .s1)) 0#8

/-- hash_append( h, f, w ) for each of several values -/
def eachStmt (f : Flavor) : (ts : Tys) → ts.Val → List Stmt
  | .nil, _ => []
  | .cons t ts, v => .append f t v.1 :: eachStmt f ts v.2

/-- **The calls one hash_append is documented to make**, except for unordered ranges (which hash copies of the object). -/
def parts (env : Env) (f : Flavor) : (t : Ty) → t.Val → Option (List Stmt)
  -- "obtains a byte representation of v in the byte order requested by Flavor::byte_order, then calls h.update(p, n)"
  | .int k, v => some [.call (.update (.mem ((layout env f).word k.size.n (k.bits v).toNat)) k.size.n)]
  -- "calls hash_append(h, f, w), where w is v converted to the underlying type of T"
  | .enum k, v => some [.append f (.int k) v]
  -- "calls hash_append(h, f, reinterpret_cast<std::uintptr_t>(v))"
  | .ptr, v => some [.append f (.int (.int env.ptrSz)) (v.setWidth (8 * env.ptrSz.n))]
  -- "calls hash_append(h, f, static_cast<void*>(v))"
  | .nullptr, _ => some [.append f .ptr 0#64]
  -- "first replaces v with positive zero if it's negative zero, then calls hash_append(h, f, std::bit_cast<U>(v))"
  -- (not documented: a signalling NaN becomes a quiet one)
  | .f32, v => some [.append f (.int (.int .s4)) (BitVec.ofNat 32 (canonical env.fp.canonicalNaN 8 23 v.toNat))]
  | .f64, v => some [.append f (.int (.int .s8)) (BitVec.ofNat 64 (canonical env.fp.canonicalNaN 11 52 v.toNat))]
  -- "calls hash_append_range(h, f, v + 0, v + N)"
  | .carray _ t, vs => some [.append f (.range .pointers t) vs]
  -- "calls hash_append_sized_range", "equivalent to hash_append_range(h, f, first, last); hash_append_size(h, f, m)"
  | .seq k t, vs => some [.append f (.range k t) vs, .append f .size vs.length]
  -- "calls hash_append_range"; "in case no calls would be made, a call to hash_append(h, f, '\x00') is made"
  | .arr k _ t, vs => some (if vs = [] then [nulStmt f] else [.append f (.range k t) vs])
  | .unord _, _ => none
  -- "calls hash_append(h, f, w) for each tuple element w"
  | .tuple .nil, _ => some [nulStmt f]
  | .tuple ts, v => some (eachStmt f ts v)
  -- "calls hash_append(h, f, b) for each base class subobject b of v, then hash_append(h, f, m) for each member subobject m"
  | .described _ _ .nil .nil, _ => some [nulStmt f]
  | .described _ _ bs ms, v => some (eachStmt f bs v.1 ++ eachStmt f ms v.2)
  -- "calls tag_invoke(hash_append_tag(), h, f, v)"
  | .user cs, v => some (eachStmt f cs v)
  -- hash_append_range: "for each element v in the range denoted by [first, last), calls hash_append(h, f, v)"
  | .range _ t, vs => some (vs.map (.append f t))
  -- hash_append_size: "equivalent to hash_append(h, f, static_cast<typename Flavor::size_type>(v))"
  | .size, n => some [.append f (.int (.int f.sizeType)) (BitVec.ofNat (8 * f.sizeType.n) n)]

/-- **The same calls, by the documentation**: one program can be got from the other by replacing calls of hash_append by the calls they are
documented to make, or the other way round, any number of times -/
inductive SameCalls (env : Env) : List Stmt → List Stmt → Prop
  | refl (ps : List Stmt) : SameCalls env ps ps
  | symm {ps qs : List Stmt} : SameCalls env ps qs → SameCalls env qs ps
  | trans {ps qs rs : List Stmt} : SameCalls env ps qs → SameCalls env qs rs → SameCalls env ps rs
  | replace (before after : List Stmt) {f : Flavor} {t : Ty} {v : t.Val} {ps : List Stmt} (h : parts env f t v = some ps) :
    SameCalls env (before ++ [.append f t v] ++ after) (before ++ ps ++ after)

/-- `Hash h2( h ); hash_append( h2, f, v ); get_integral_result<std::uint64_t>( h2.result() )` is w, where h is an object on which `before` has
been run -/
def AlgName.ElementHash (a : AlgName) (env : Env) (c : Ctor) (before : List Stmt) (f : Flavor) (t : Ty) (v : t.Val) (w : W64) : Prop :=
  ∃ rs r, a.impl.execStmts env c (before ++ [.append f t v, .call .result]) = .ok (rs ++ [r]) ∧ a.impl.integral env r = .ok w

end Hash2

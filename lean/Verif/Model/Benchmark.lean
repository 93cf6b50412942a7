import Verif.Model.Examples
/-
The hash function objects of the benchmarks: benchmark/unordered.cpp and benchmark/keys.cpp; what average.cpp and buffer.cpp
compute. (The rest of these programs measures time.)
-/
namespace Hash2.Bench

/-- `detail::compute_hash_value_impl`, benchmark/unordered.cpp:31-39, and `hasher::hash_append_impl`, keys.cpp:35-43: keys that are contiguous ranges
by hash_append_range with the pointers v.data(), v.data() + v.size(), all others by hash_append. The choice is made by
`is_contiguous_range< T >()`, unordered.cpp:43, keys.cpp:63. -/
def appendImpl (a : AlgName) (env : Env) : (t : Ty) → t.Val → a.impl.State → M a.impl.State
  | .seq .contiguous u, vs, h => hashAppend a.impl env default_flavor (.range .pointers u) vs h
  | .arr .contiguous _ u, vs, h => hashAppend a.impl env default_flavor (.range .pointers u) vs h
  | t, v, h => hashAppend a.impl env default_flavor t v h

/-- `detail::compute_hash_value`, benchmark/unordered.cpp:41-45, on a copy of the object; `hasher::operator()`, keys.cpp:59-66 -/
def call (a : AlgName) (env : Env) (h_ : a.impl.State) (t : Ty) (v : t.Val) : M (BitVec (8 * env.ptrSz.n)) := do
  let h ← appendImpl a env t v h_
  let (_, r) ← a.impl.result env h
  a.integralAs env env.ptrSz.n r

/-- an object that keeps a seeded hash object and copies it in every call: `hash_with_byte_seed`, benchmark/unordered.cpp:83-104, `hasher`,
keys.cpp:27-67; it is constructed by c and called with the keys vs, in order -/
def use (a : AlgName) (env : Env) (c : Ctor) (t : Ty) (vs : List t.Val) : M (List (BitVec (8 * env.ptrSz.n))) := do
  let h_ ← a.impl.construct env c
  vs.mapM (call a env h_ t)

/-- an object that makes a new hash object in every call: `hash_without_seed`, `hash_with_uint64_seed`, benchmark/unordered.cpp:49-81 -/
def useFresh (a : AlgName) (env : Env) (c : Ctor) (t : Ty) (vs : List t.Val) : M (List (BitVec (8 * env.ptrSz.n))) :=
  vs.mapM fun v => do
    let h ← a.impl.construct env c
    call a env h t v

/-- The loop of benchmark/average.cpp:31-36, `r += get_integral_result<R>( h.result() ); r += 0.5;`, over the results of `h`: twice the sum r. R is a signed type
of `ts` bytes. Simplifications: the sum is exact (a double in the program), and the results have been collected before (the conversion does not touch h). -/
def twiceSum (a : AlgName) (env : Env) (ts : Nat) : List a.impl.R → M Int
  | [] => .ok 0
  | r :: rs => do
    let y ← a.integralAs env ts r
    let s ← twiceSum a env ts rs
    return 2 * y.toInt + 1 + s

/-- `test_<R, H>( N )`, benchmark/average.cpp:23-50: twice r before the division by N at line 42, H constructed by default -/
def average (a : AlgName) (env : Env) (ts N : Nat) : M Int := do
  let rs ← a.impl.exec env .default (List.replicate N .result)
  twiceSum a env ts rs

/-- `test_<Hash>( p, N, M )`, benchmark/buffer.cpp:21-40: the number printed; `data` are the N bytes at p; unsigned has 4 bytes -/
def buffer (a : AlgName) (env : Env) (data : List Byte) (m : Nat) : M (List (BitVec 32)) := do
  let rs ← a.impl.execStmts env .default (List.replicate m (.append default_flavor (.range .pointers (.int .uchar)) data) ++ [.call .result])
  rs.mapM (a.integralAs env 4)

end Hash2.Bench

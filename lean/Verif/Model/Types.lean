import Verif.Model.Core
/-
The C++ types hash_append accepts (doc/hash2/hashing_objects.adoc:46-66), their values, and the type traits of
include/boost/hash2/{is_contiguously_hashable,is_trivially_equality_comparable,is_endian_independent,flavor}.hpp.

A `Ty` says everything about a type that the overload set of hash_append.hpp looks at. Type traits of Boost.ContainerHash and
Boost.Describe (is_range, is_contiguous_range, describe_members, ...) are not modelled: their answer for a type is which
constructor of `Ty` it is. `long double` and 128-bit integers have no overload and are not in the universe.
-/
namespace Hash2

/-- sizeof of an integral type: detail::write has overloads for these, detail/write.hpp:105-154 -/
inductive Sz
  | s1 | s2 | s4 | s8
  deriving DecidableEq, Repr

/-- the sizeof, see `Sz`: detail/write.hpp:105-154 -/
def Sz.n : Sz → Nat
  | .s1 => 1 | .s2 => 2 | .s4 => 4 | .s8 => 8

/-- Integral types. `bool`; `unsigned char`, which has overloads of its own (hash_append.hpp:58-66); any other, signed or
unsigned, character or number: its values are the bit patterns. -/
inductive IntTy
  | bool
  | uchar
  | int (sz : Sz)
  deriving DecidableEq, Repr

/-- sizeof, hash_append.hpp:181 -/
def IntTy.size : IntTy → Sz
  | .bool => .s1 | .uchar => .s1 | .int sz => sz

/-- the values, hash_append.hpp:176-187 -/
def IntTy.Val : IntTy → Type
  | .bool => Bool
  | .uchar => BitVec 8
  | .int sz => BitVec (8 * sz.n)

/-- the value converted to the unsigned type of the same size: the argument of detail::write16le etc., static_cast<unsigned
char>( v ) for size 1 (detail/write.hpp:105-154) -/
def IntTy.bits : (k : IntTy) → k.Val → BitVec (8 * k.size.n)
  | .bool, v => BitVec.ofNat 8 (Bool.toNat v)
  | .uchar, v => v
  | .int _, v => v

/-- What is known of a range: its iterators, and whether it has data(), hash_append.hpp:49-97, 120-136, 246-305 -/
inductive RangeKind
  /-- is_contiguous_range: data() and size() (std::vector, std::string, std::span; std::array, boost::array, digest) -/
  | contiguous
  /-- random access iterators that are pointers, no data() (std::initializer_list, a C array as a range) -/
  | pointers
  /-- random access iterators of class type (std::deque, std::vector<bool>) -/
  | randomAccess
  /-- any weaker iterators (std::list, std::forward_list, std::set, std::map) -/
  | forward
  deriving DecidableEq, Repr

mutual
/-- The argument of one call of the library: of hash_append, by type (hash_append.hpp:165-404); and of hash_append_range and
hash_append_size (103-113), which a tag_invoke may call directly. -/
inductive Ty
  | int (k : IntTy)
  /-- enumeration with the given underlying type -/
  | enum (k : IntTy)
  /-- T* -/
  | ptr
  /-- std::nullptr_t -/
  | nullptr
  /-- float, double: IEEE 754 binary32 and binary64 -/
  | f32
  | f64
  /-- T[ n ] -/
  | carray (n : Nat) (t : Ty)
  /-- range without constant size, not unordered -/
  | seq (k : RangeKind) (t : Ty)
  /-- range with constant size n (a std::tuple_size) -/
  | arr (k : RangeKind) (n : Nat) (t : Ty)
  /-- unordered range (std::unordered_set, std::unordered_map); also a call of hash_append_unordered_range -/
  | unord (t : Ty)
  /-- tuple-like that is not a range (std::pair, std::tuple) -/
  | tuple (ts : Tys)
  /-- described class with bases bs and members ms; `triv`, `indep`: is_trivially_equality_comparable and
  is_endian_independent have been specialised to true for it -/
  | described (triv indep : Bool) (bs ms : Tys)
  /-- class with a tag_invoke that makes these calls in order -/
  | user (cs : Tys)
  /-- a call of hash_append_range -/
  | range (k : RangeKind) (t : Ty)
  /-- a call of hash_append_size -/
  | size
/-- lists of them: the elements of a tuple, bases, members, calls: hash_append.hpp:323-328, 363-380, 403 -/
inductive Tys
  | nil
  | cons (t : Ty) (ts : Tys)
end

mutual
/-- the values of a type; hash_append.hpp:411 -/
@[reducible] def Ty.Val : Ty → Type
  | .int k => k.Val
  | .enum k => k.Val
  /- the address -/
  | .ptr => W64
  | .nullptr => Unit
  /- the bit pattern -/
  | .f32 => W32
  | .f64 => W64
  | .carray _ t => List t.Val
  | .seq _ t => List t.Val
  | .arr _ _ t => List t.Val
  | .unord t => List t.Val
  | .tuple ts => ts.Val
  | .described _ _ bs ms => bs.Val × ms.Val
  | .user cs => cs.Val
  | .range _ t => List t.Val
  | .size => Nat
/-- their values, hash_append.hpp:326, 363-380 -/
@[reducible] def Tys.Val : Tys → Type
  | .nil => Unit
  | .cons t ts => t.Val × ts.Val
end

/-- sizeof( std::uintptr_t ), hash_append.hpp:206 -/
def Env.ptrSz (env : Env) : Sz := if env.size64 then .s8 else .s4

mutual
/-- sizeof( T ) in hash_append.hpp:75, 88, 415, for the types where it matters (is_trivially_equality_comparable.hpp:15-23); classes for
which that is specialised to true are without padding -/
def Ty.sizeOf (env : Env) : Ty → Nat
  | .int k => k.size.n
  | .enum k => k.size.n
  | .ptr => env.ptrSz.n
  | .nullptr => env.ptrSz.n
  | .f32 => 4
  | .f64 => 8
  | .carray n t => n * t.sizeOf env
  | .described _ _ bs ms => max 1 (bs.sizeOf env + ms.sizeOf env)
  | _ => 0
/-- the sum, for the bases and members of a class without padding; hash_append.hpp:88, 415 -/
def Tys.sizeOf (env : Env) : Tys → Nat
  | .nil => 0
  | .cons t ts => t.sizeOf env + ts.sizeOf env
end

/-- is_trivially_equality_comparable<T>, is_trivially_equality_comparable.hpp:15-23 -/
def Ty.triviallyComparable : Ty → Bool
  | .int _ => true
  | .enum _ => true
  | .ptr => true
  | .described triv _ _ _ => triv
  | _ => false

/-- is_endian_independent<T>, is_endian_independent.hpp:15-23 -/
def Ty.endianIndependent (env : Env) (t : Ty) : Bool :=
  (match t with
    | .described _ indep _ _ => indep
    | _ => false) || t.sizeOf env == 1

/-- is_contiguously_hashable<T, E>, is_contiguously_hashable.hpp:18-26 -/
def Ty.contiguouslyHashable (env : Env) (E : Endian) : Ty → Bool
  | .carray _ t => t.contiguouslyHashable env E
  | t => t.triviallyComparable && (E == env.native || t.endianIndependent env)

mutual
/-- the object representation, what hash_append.hpp:75, 88, 415 pass to update(), for the types of `triviallyComparable` and arrays of them;
an integer is stored in native byte order, a bool as 0 or 1, an array or class (without padding, see `sizeOf`) as its parts -/
def Ty.rep (env : Env) : (t : Ty) → t.Val → List Byte
  | .int k, v => objBytes env.native k.size.n (k.bits v)
  | .enum k, v => objBytes env.native k.size.n (k.bits v)
  | .ptr, v => objBytes env.native env.ptrSz.n v
  | .carray _ t, vs => (vs.map (t.rep env)).flatten
  | .described _ _ bs ms, v => bs.rep env v.1 ++ ms.rep env v.2
  | _, _ => []
/-- the concatenation, for the bases and members of a class without padding; hash_append.hpp:88, 415 -/
def Tys.rep (env : Env) : (ts : Tys) → ts.Val → List Byte
  | .nil, _ => []
  | .cons t ts, v => t.rep env v.1 ++ ts.rep env v.2
end

/-- Flavor::byte_order, flavor.hpp:19, 25, 31; endian.hpp:13-33 -/
inductive Order
  | native | little | big
  deriving DecidableEq, Repr

/-- A flavor: byte_order and the size of size_type (an unsigned type), flavor.hpp:15-31 -/
structure Flavor where
  order : Order
  sizeType : Sz
  deriving DecidableEq, Repr

/-- flavor.hpp:15-19 -/
def default_flavor : Flavor := ⟨.native, .s8⟩
/-- flavor.hpp:21-25 -/
def little_endian_flavor : Flavor := ⟨.little, .s8⟩
/-- flavor.hpp:27-31 -/
def big_endian_flavor : Flavor := ⟨.big, .s8⟩

/-- endian::native is one of the other two, endian.hpp:13-33 -/
def Flavor.endian (env : Env) (f : Flavor) : Endian :=
  match f.order with
  | .native => env.native
  | .little => .little
  | .big => .big

end Hash2

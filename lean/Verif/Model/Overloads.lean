import Verif.Model.Types
/-
Model of the overload set detail::do_hash_append, hash_append.hpp:165-404: which overloads are viable for a type, by the traits the
conditions in std::enable_if look at.
-/
namespace Hash2.Overloads

/-- the overloads, in the order of the file, hash_append.hpp:176-404 -/
inductive Overload
  | integral | enum | pointer | float4 | float8 | nullptr | carray | contiguous | ranges | constantContiguous | constantRange
  | unordered | tuple | described | tagInvoke
  deriving DecidableEq, Repr

/-- what the C++ standard calls the category of a type: std::is_integral etc., hash_append.hpp:178, 193, 203, 213, 221, 231, 239 -/
inductive Category
  | integral | enum | pointer | floating | nullptr | array | class
  deriving DecidableEq, Repr

/-- The answers of the traits for a type that the conditions look at, hash_append.hpp:176-404 -/
structure Traits where
  category : Category
  /-- sizeof, of a floating point type -/
  size : Nat
  /-- container_hash::is_range, is_contiguous_range, is_unordered_range, is_tuple_like, is_described_class -/
  range : Bool
  contiguous : Bool
  unordered : Bool
  tupleLike : Bool
  described : Bool
  /-- has_constant_size.hpp:19-60 -/
  constantSize : Bool
  /-- whether tag_invoke can be called with an archetype of a hash algorithm and of a flavor, detail/has_tag_invoke.hpp:18-51 -/
  tagInvoke : Bool
  deriving DecidableEq, Repr

/-- the conditions, hash_append.hpp:176-404 -/
def Overload.viable (t : Traits) : Overload → Bool
  -- 178
  | .integral => t.category == .integral
  -- 193
  | .enum => t.category == .enum
  -- 203
  | .pointer => t.category == .pointer
  -- 213
  | .float4 => t.category == .floating && t.size == 4
  -- 221
  | .float8 => t.category == .floating && t.size == 8
  -- 231
  | .nullptr => t.category == .nullptr
  -- 239
  | .carray => t.category == .array
  -- 248
  | .contiguous => t.contiguous && !t.constantSize
  -- 259
  | .ranges => t.range && !t.constantSize && !t.contiguous && !t.unordered
  -- 274
  | .constantContiguous => t.contiguous && t.constantSize
  -- 293
  | .constantRange => t.range && t.constantSize && !t.contiguous
  -- 315
  | .unordered => t.unordered
  -- 338
  | .tuple => !t.range && t.tupleLike
  -- 356
  | .described => t.described
  -- 400
  | .tagInvoke => t.tagInvoke

/-- all of them, hash_append.hpp:176-404 -/
def all : List Overload :=
  [.integral, .enum, .pointer, .float4, .float8, .nullptr, .carray, .contiguous, .ranges, .constantContiguous, .constantRange,
   .unordered, .tuple, .described, .tagInvoke]

/-- the overloads a call (hash_append.hpp:419) can use. A call compiles if there is exactly one: all but the one for arrays have the same
parameters, and that one is not viable together with them for want of traits of arrays. -/
def viable (t : Traits) : List Overload := all.filter (·.viable t)

/-- the traits of the types of the universe, except for `range` and `size`, which are not types. boost::array and digest have no
std::tuple_size but has_constant_size is specialised for them, has_constant_size.hpp:52-58; a std::array has one, so it is tuple-like. -/
def traits (stdArray : Bool) : Ty → Option Traits
  | .int _ => some ⟨.integral, 0, false, false, false, false, false, false, false⟩
  | .enum _ => some ⟨.enum, 0, false, false, false, false, false, false, false⟩
  | .ptr => some ⟨.pointer, 0, false, false, false, false, false, false, false⟩
  | .nullptr => some ⟨.nullptr, 0, false, false, false, false, false, false, false⟩
  | .f32 => some ⟨.floating, 4, false, false, false, false, false, false, false⟩
  | .f64 => some ⟨.floating, 8, false, false, false, false, false, false, false⟩
  | .carray _ _ => some ⟨.array, 0, false, false, false, false, false, false, false⟩
  | .seq k _ => some ⟨.class, 0, true, k == .contiguous, false, false, false, false, false⟩
  | .arr k _ _ => some ⟨.class, 0, true, k == .contiguous, false, stdArray, false, true, false⟩
  | .unord _ => some ⟨.class, 0, true, false, true, false, false, false, false⟩
  | .tuple _ => some ⟨.class, 0, false, false, false, true, false, true, false⟩
  | .described _ _ _ _ => some ⟨.class, 0, false, false, false, false, true, false, false⟩
  | .user _ => some ⟨.class, 0, false, false, false, false, false, false, true⟩
  | .range _ _ => none
  | .size => none

/-- the overload whose body `doHashAppend` (Model/HashAppend.lean) is for a type: the lines cited there, hash_append.hpp:176-404 -/
def modelled : Ty → Option Overload
  | .int _ => some .integral
  | .enum _ => some .enum
  | .ptr => some .pointer
  | .nullptr => some .nullptr
  | .f32 => some .float4
  | .f64 => some .float8
  | .carray _ _ => some .carray
  | .seq .contiguous _ => some .contiguous
  | .seq _ _ => some .ranges
  | .arr .contiguous _ _ => some .constantContiguous
  | .arr _ _ _ => some .constantRange
  | .unord _ => some .unordered
  | .tuple _ => some .tuple
  | .described _ _ _ _ => some .described
  | .user _ => some .tagInvoke
  | .range _ _ => none
  | .size => none

end Hash2.Overloads

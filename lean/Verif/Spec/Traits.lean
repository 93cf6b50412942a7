import Verif.Spec.Messages
/-
What the type traits of the library claim (doc/hash2/reference/is_trivially_equality_comparable.adoc, is_endian_independent.adoc,
is_contiguously_hashable.adoc), in terms of the bytes that objects occupy in memory. Of the model only the vocabulary of types is used.
-/
namespace Hash2.Spec

/-- the platform as far as objects in memory are concerned -/
structure Memory where
  order : Endian
  /-- bytes of an address -/
  ptrBytes : Nat

/-- the memory of a platform -/
def _root_.Hash2.Env.memory (env : Env) : Memory := ⟨env.native, env.ptrSz.n⟩

/-- the k bytes in which the number v is stored -/
def Memory.number (M : Memory) (k v : Nat) : List Byte :=
  match M.order with
  | .little => natLE k v
  | .big => natBE k v

mutual
/-- **The bytes of an object in memory**: numbers in the byte order of the platform, a bool as 0 or 1, a floating point number as its
bit pattern, the elements of an array one after another, and the parts of a class without padding one after another. Of the other
classes nothing is said, nor of std::nullptr_t, whose bytes are indeterminate. -/
def storage (M : Memory) : (t : Ty) → t.Val → List Byte
  | .int k, v => M.number k.size.n (k.bits v).toNat
  | .enum k, v => M.number k.size.n (k.bits v).toNat
  | .ptr, v => M.number M.ptrBytes v.toNat
  | .f32, v => M.number 4 v.toNat
  | .f64, v => M.number 8 v.toNat
  | .carray _ t, vs => (vs.map (storage M t)).flatten
  | .described _ _ bs ms, v => storages M bs v.1 ++ storages M ms v.2
  | _, _ => []
def storages (M : Memory) : (ts : Tys) → ts.Val → List Byte
  | .nil, _ => []
  | .cons t ts, v => storage M t v.1 ++ storages M ts v.2
end

/-- "A type is trivially equality comparable if, for two values x and y of that type, x == y is equivalent to
std::memcmp( &x, &y, sizeof(x) ) == 0." -/
def TriviallyComparable (M : Memory) (t : Ty) : Prop :=
  ∀ x y : t.Val, Valid (8 * M.ptrBytes) t x → Valid (8 * M.ptrBytes) t y → (Equal t x y ↔ storage M t x = storage M t y)

/-- "A type is endian-independent if its memory representation is the same on little-endian and big-endian platforms." -/
def EndianIndependent (ptrBytes : Nat) (t : Ty) : Prop :=
  ∀ x : t.Val, Valid (8 * ptrBytes) t x → storage ⟨.little, ptrBytes⟩ t x = storage ⟨.big, ptrBytes⟩ t x

/-- "A type is contiguously hashable under a particular byte order E if the message that would have been produced for the type if it
weren't considered contiguously hashable is the same as its underlying storage byte representation." -/
def ContiguouslyHashable (M : Memory) (L : Layout) (t : Ty) : Prop :=
  ∀ (x : t.Val) (H : List Byte → W64) (before : List Byte), Valid (8 * M.ptrBytes) t x → message L H t x before = storage M t x

/-- arithmetic types, enumerations (for which no operator== has been written) and pointers: their traits are the library's own -/
def scalar : Ty → Bool
  | .int _ | .enum _ | .ptr | .f32 | .f64 => true
  | _ => false

/-- these, and arrays of them -/
def builtIn : Ty → Bool
  | .carray n t => n != 0 && builtIn t
  | t => scalar t

end Hash2.Spec

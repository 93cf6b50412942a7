import Verif.Model.Types
import Mathlib.Data.List.Forall2
/-
The message of an object: the bytes hash_append is to feed to the hash object (doc/hash2/hashing_objects.adoc). Besides, what it
means that two objects are equal, and the conditions under which statements are made. Of the model only the vocabulary of types
is used.
-/
namespace Hash2.Spec

/-- what messages depend on besides the value -/
structure Layout where
  /-- byte order of numbers -/
  order : Endian
  /-- bytes of a size -/
  sizeBytes : Nat
  /-- bytes of an address -/
  ptrBytes : Nat
  /-- what becomes of a NaN -/
  canonicalNaN : Bool
  deriving DecidableEq

/-- the k bytes of the number v -/
def Layout.word (L : Layout) (k v : Nat) : List Byte :=
  match L.order with
  | .little => natLE k v
  | .big => natBE k v

/-- the value of a floating point number: not a number, an infinity, or a multiple of the least positive number -/
inductive FVal
  | nan
  | inf (negative : Bool)
  | num (n : Int)
  deriving DecidableEq, Repr

/-- IEEE 754: the value of the bit pattern b, with eb bits of exponent and mb bits of fraction -/
def fval (eb mb b : Nat) : FVal :=
  let fraction := b % 2 ^ mb
  let exponent := b / 2 ^ mb % 2 ^ eb
  let negative := b / 2 ^ (mb + eb) % 2 == 1
  let magnitude : Nat := if exponent = 0 then fraction else (2 ^ mb + fraction) * 2 ^ (exponent - 1)
  if exponent = 2 ^ eb - 1 then
    if fraction = 0 then .inf negative else .nan
  else .num (if negative then -(magnitude : Int) else magnitude)

/-- the value of a float, of a double -/
def float32 (b : W32) : FVal := fval 8 23 b.toNat
def float64 (b : W64) : FVal := fval 11 52 b.toNat

/-- the bit pattern that stands for b in messages: zeros become +0, signalling NaNs quiet (or the canonical NaN) -/
def canonical (canonicalNaN : Bool) (eb mb b : Nat) : Nat :=
  match fval eb mb b with
  | .nan => if canonicalNaN then (2 ^ eb - 1) * 2 ^ mb + 2 ^ (mb - 1) else b ||| 2 ^ (mb - 1)
  | .num 0 => 0
  | _ => b

/-- the messages of a list of things, one after another; a message may depend on what was fed before -/
def concat {α : Type} (message : α → List Byte → List Byte) : List α → List Byte → List Byte
  | [], _ => []
  | v :: vs, before => message v before ++ concat message vs (before ++ message v before)

mutual
/-- **The message of a value**, the bytes `before` having been fed so far. `H bs` is the number (get_integral_result) of the
hash of bs; only unordered containers need it. -/
def message (L : Layout) (H : List Byte → W64) : (t : Ty) → t.Val → List Byte → List Byte
  | .int k, v, _ => L.word k.size.n (k.bits v).toNat
  | .enum k, v, _ => L.word k.size.n (k.bits v).toNat
  | .ptr, v, _ => L.word L.ptrBytes v.toNat
  | .nullptr, _, _ => L.word L.ptrBytes 0
  | .f32, v, _ => L.word 4 (canonical L.canonicalNaN 8 23 v.toNat)
  | .f64, v, _ => L.word 8 (canonical L.canonicalNaN 11 52 v.toNat)
  | .carray _ t, vs, before => concat (message L H t) vs before
  | .seq _ t, vs, before => concat (message L H t) vs before ++ L.word L.sizeBytes vs.length
  | .arr _ _ _, [], _ => [0]
  | .arr _ _ t, vs, before => concat (message L H t) vs before
  | .unord t, vs, before =>
    L.word 8 (vs.map fun v => (H (before ++ message L H t v before)).toNat).sum ++ L.word L.sizeBytes vs.length
  | .tuple .nil, _, _ => [0]
  | .tuple ts, v, before => messages L H ts v before
  | .described _ _ .nil .nil, _, _ => [0]
  | .described _ _ bs ms, v, before =>
    messages L H bs v.1 before ++ messages L H ms v.2 (before ++ messages L H bs v.1 before)
  | .user cs, v, before => messages L H cs v before
  | .range _ t, vs, before => concat (message L H t) vs before
  | .size, n, _ => L.word L.sizeBytes n
/-- the messages of several values, one after another -/
def messages (L : Layout) (H : List Byte → W64) : (ts : Tys) → ts.Val → List Byte → List Byte
  | .nil, _, _ => []
  | .cons t ts, v, before =>
    message L H t v.1 before ++ messages L H ts v.2 (before ++ message L H t v.1 before)
end

mutual
/-- a == b in C++: floating point numbers by value, unordered containers as multisets -/
def Equal : (t : Ty) → t.Val → t.Val → Prop
  | .int _, a, b => a = b
  | .enum _, a, b => a = b
  | .ptr, a, b => a = b
  | .nullptr, _, _ => True
  | .f32, a, b => float32 a ≠ .nan ∧ float32 a = float32 b
  | .f64, a, b => float64 a ≠ .nan ∧ float64 a = float64 b
  | .carray _ t, as, bs => List.Forall₂ (Equal t) as bs
  | .seq _ t, as, bs => List.Forall₂ (Equal t) as bs
  | .arr _ _ t, as, bs => List.Forall₂ (Equal t) as bs
  | .unord t, as, bs => ∃ cs, as.Perm cs ∧ List.Forall₂ (Equal t) cs bs
  | .tuple ts, a, b => EqualAll ts a b
  | .described _ _ bs ms, a, b => EqualAll bs a.1 b.1 ∧ EqualAll ms a.2 b.2
  | .user cs, a, b => EqualAll cs a b
  | .range _ t, as, bs => List.Forall₂ (Equal t) as bs
  | .size, a, b => a = b
def EqualAll : (ts : Tys) → ts.Val → ts.Val → Prop
  | .nil, _, _ => True
  | .cons t ts, a, b => Equal t a.1 b.1 ∧ EqualAll ts a.2 b.2
end

mutual
/-- equal, except that NaNs are not told apart, and unordered containers only by their size -/
def Alike : (t : Ty) → t.Val → t.Val → Prop
  | .int _, a, b => a = b
  | .enum _, a, b => a = b
  | .ptr, a, b => a = b
  | .nullptr, _, _ => True
  | .f32, a, b => float32 a = float32 b
  | .f64, a, b => float64 a = float64 b
  | .carray _ t, as, bs => List.Forall₂ (Alike t) as bs
  | .seq _ t, as, bs => List.Forall₂ (Alike t) as bs
  | .arr _ _ t, as, bs => List.Forall₂ (Alike t) as bs
  | .unord _, as, bs => as.length = bs.length
  | .tuple ts, a, b => AlikeAll ts a b
  | .described _ _ bs ms, a, b => AlikeAll bs a.1 b.1 ∧ AlikeAll ms a.2 b.2
  | .user cs, a, b => AlikeAll cs a b
  | .range _ t, as, bs => List.Forall₂ (Alike t) as bs
  | .size, a, b => a = b
def AlikeAll : (ts : Tys) → ts.Val → ts.Val → Prop
  | .nil, _, _ => True
  | .cons t ts, a, b => Alike t a.1 b.1 ∧ AlikeAll ts a.2 b.2
end

mutual
/-- only single bytes and arrays and classes of them -/
def bytesOnly : Ty → Bool
  | .int k => k.size == .s1
  | .enum k => k.size == .s1
  | .carray _ t => bytesOnly t
  | .described _ _ bs ms => bytesOnlyAll bs && bytesOnlyAll ms
  | _ => false
def bytesOnlyAll : Tys → Bool
  | .nil => true
  | .cons t ts => bytesOnly t && bytesOnlyAll ts
end

/-- may be a part of a class that is specialised as trivially comparable -/
def plain : Ty → Bool
  | .carray _ t => plain t
  | t => t.triviallyComparable

def plainAll : Tys → Bool
  | .nil => true
  | .cons t ts => plain t && plainAll ts

mutual
/-- The type exists in C++ (an array has at least one element), and the user's specialisations of traits are right: the class
has a part, all parts are trivially comparable; all parts are single bytes. -/
def wellFormed : Ty → Bool
  | .carray n t => n != 0 && wellFormed t
  | .seq _ t => wellFormed t
  | .arr _ _ t => wellFormed t
  | .unord t => wellFormed t
  | .tuple ts => wellFormedAll ts
  | .described triv indep bs ms => wellFormedAll bs && wellFormedAll ms &&
    (!triv || plainAll bs && plainAll ms && (match bs, ms with | .nil, .nil => false | _, _ => true)) &&
    (!indep || bytesOnlyAll bs && bytesOnlyAll ms)
  | .user cs => wellFormedAll cs
  | .range _ t => wellFormed t
  | _ => true
def wellFormedAll : Tys → Bool
  | .nil => true
  | .cons t ts => wellFormed t && wellFormedAll ts
end

mutual
/-- without pointers: these cannot be hashed in constant expressions, and their messages are not portable -/
def pointerFree : Ty → Bool
  | .ptr => false
  | .nullptr => false
  | .carray _ t => pointerFree t
  | .seq _ t => pointerFree t
  | .arr _ _ t => pointerFree t
  | .unord t => pointerFree t
  | .tuple ts => pointerFreeAll ts
  | .described _ _ bs ms => pointerFreeAll bs && pointerFreeAll ms
  | .user cs => pointerFreeAll cs
  | .range _ t => pointerFree t
  | _ => true
def pointerFreeAll : Tys → Bool
  | .nil => true
  | .cons t ts => pointerFree t && pointerFreeAll ts
end

mutual
/-- every call of hash_append on it feeds something: a tag_invoke makes a call, and is not just a hash_append_range -/
def contributing : Ty → Bool
  | .carray _ t => contributing t
  | .seq _ t => contributing t
  | .arr _ _ t => contributing t
  | .unord t => contributing t
  | .tuple ts => contributingAll ts
  | .described _ _ bs ms => contributingAll bs && contributingAll ms
  | .user .nil => false
  | .user cs => contributingAll cs
  | .range _ _ => false
  | _ => true
def contributingAll : Tys → Bool
  | .nil => true
  | .cons t ts => contributing t && contributingAll ts
end

mutual
/-- tells its values apart: no tag_invoke feeds a range without its size -/
def delimited : Ty → Bool
  | .carray _ t => delimited t
  | .seq _ t => delimited t
  | .arr _ _ t => delimited t
  | .unord _ => true
  | .tuple ts => delimitedAll ts
  | .described _ _ bs ms => delimitedAll bs && delimitedAll ms
  | .user cs => delimitedAll cs
  | .range _ _ => false
  | _ => true
def delimitedAll : Tys → Bool
  | .nil => true
  | .cons t ts => delimited t && delimitedAll ts
end

mutual
/-- without unordered containers -/
def ordered : Ty → Bool
  | .carray _ t => ordered t
  | .seq _ t => ordered t
  | .arr _ _ t => ordered t
  | .unord _ => false
  | .tuple ts => orderedAll ts
  | .described _ _ bs ms => orderedAll bs && orderedAll ms
  | .user cs => orderedAll cs
  | .range _ t => ordered t
  | _ => true
def orderedAll : Tys → Bool
  | .nil => true
  | .cons t ts => ordered t && orderedAll ts
end

mutual
/-- the value exists in a program: arrays have their number of elements, addresses fit into pointers of w bits -/
def Valid (w : Nat) : (t : Ty) → t.Val → Prop
  | .ptr, v => v.toNat < 2 ^ w
  | .carray n t, vs => vs.length = n ∧ ∀ v ∈ vs, Valid w t v
  | .seq _ t, vs => ∀ v ∈ vs, Valid w t v
  | .arr _ n t, vs => vs.length = n ∧ ∀ v ∈ vs, Valid w t v
  | .unord t, vs => ∀ v ∈ vs, Valid w t v
  | .tuple ts, v => ValidAll w ts v
  | .described _ _ bs ms, v => ValidAll w bs v.1 ∧ ValidAll w ms v.2
  | .user cs, v => ValidAll w cs v
  | .range _ t, vs => ∀ v ∈ vs, Valid w t v
  | _, _ => True
def ValidAll (w : Nat) : (ts : Tys) → ts.Val → Prop
  | .nil, _ => True
  | .cons t ts, v => Valid w t v.1 ∧ ValidAll w ts v.2
end

mutual
/-- all sizes are representable in k bytes -/
def SizesFit (k : Nat) : (t : Ty) → t.Val → Prop
  | .carray _ t, vs => ∀ v ∈ vs, SizesFit k t v
  | .seq _ t, vs => vs.length < 256 ^ k ∧ ∀ v ∈ vs, SizesFit k t v
  | .arr _ _ t, vs => ∀ v ∈ vs, SizesFit k t v
  | .unord t, vs => vs.length < 256 ^ k ∧ ∀ v ∈ vs, SizesFit k t v
  | .tuple ts, v => SizesFitAll k ts v
  | .described _ _ bs ms, v => SizesFitAll k bs v.1 ∧ SizesFitAll k ms v.2
  | .user cs, v => SizesFitAll k cs v
  | .range _ t, vs => ∀ v ∈ vs, SizesFit k t v
  | .size, n => n < 256 ^ k
  | _, _ => True
def SizesFitAll (k : Nat) : (ts : Tys) → ts.Val → Prop
  | .nil, _ => True
  | .cons t ts, v => SizesFit k t v.1 ∧ SizesFitAll k ts v.2
end

/-- the range is given by pointers, which may be null if it is empty -/
def _root_.Hash2.RangeKind.byPointer : RangeKind → Bool
  | .contiguous | .pointers => true
  | .randomAccess | .forward => false

mutual
/-- no range that is given by pointers is empty -/
def NoEmpty : (t : Ty) → t.Val → Prop
  | .carray _ t, vs => ∀ v ∈ vs, NoEmpty t v
  | .seq k t, vs => (k.byPointer = true → vs ≠ []) ∧ ∀ v ∈ vs, NoEmpty t v
  | .arr _ _ t, vs => ∀ v ∈ vs, NoEmpty t v
  | .unord t, vs => ∀ v ∈ vs, NoEmpty t v
  | .tuple ts, v => NoEmptyAll ts v
  | .described _ _ bs ms, v => NoEmptyAll bs v.1 ∧ NoEmptyAll ms v.2
  | .user cs, v => NoEmptyAll cs v
  | .range k t, vs => (k.byPointer = true → vs ≠ []) ∧ ∀ v ∈ vs, NoEmpty t v
  | _, _ => True
def NoEmptyAll : (ts : Tys) → ts.Val → Prop
  | .nil, _ => True
  | .cons t ts, v => NoEmpty t v.1 ∧ NoEmptyAll ts v.2
end

mutual
/-- no NaN in it -/
def NoNaN : (t : Ty) → t.Val → Prop
  | .f32, v => float32 v ≠ .nan
  | .f64, v => float64 v ≠ .nan
  | .carray _ t, vs => ∀ v ∈ vs, NoNaN t v
  | .seq _ t, vs => ∀ v ∈ vs, NoNaN t v
  | .arr _ _ t, vs => ∀ v ∈ vs, NoNaN t v
  | .unord t, vs => ∀ v ∈ vs, NoNaN t v
  | .tuple ts, v => NoNaNAll ts v
  | .described _ _ bs ms, v => NoNaNAll bs v.1 ∧ NoNaNAll ms v.2
  | .user cs, v => NoNaNAll cs v
  | .range _ t, vs => ∀ v ∈ vs, NoNaN t v
  | _, _ => True
def NoNaNAll : (ts : Tys) → ts.Val → Prop
  | .nil, _ => True
  | .cons t ts, v => NoNaN t v.1 ∧ NoNaNAll ts v.2
end

mutual
/-- a hash object, or a copy of it made for an element of an unordered container, is fed as many bytes at most; addresses and
sizes having 8 at most -/
def weight : (t : Ty) → t.Val → Nat
  | .carray _ t, vs => (vs.map (weight t)).sum
  | .seq _ t, vs => (vs.map (weight t)).sum + 8
  | .arr _ _ t, vs => (vs.map (weight t)).sum + 1
  | .unord t, vs => (vs.map (weight t)).sum + 16
  | .tuple ts, v => weights ts v + 1
  | .described _ _ bs ms, v => weights bs v.1 + weights ms v.2 + 1
  | .user cs, v => weights cs v
  | .range _ t, vs => (vs.map (weight t)).sum
  | _, _ => 8
def weights : (ts : Tys) → ts.Val → Nat
  | .nil, _ => 0
  | .cons t ts, v => weight t v.1 + weights ts v.2
end

end Hash2.Spec

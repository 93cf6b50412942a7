import Verif.Spec.Messages
/-
When objects of different types are the same to hash_append.
-/
namespace Hash2.Spec

mutual
/-- The two objects hold the same: equal numbers of the same size (an enumeration counting as its underlying type; floating point
numbers equal, or the very same NaN), the same elements in the same order in containers of any kind (for unordered containers: in
any order; a C array, which has an element, counting as a constant size container), the same members in tuples or classes,
whatever has been specialised for these. -/
def Same : (t t' : Ty) → t.Val → t'.Val → Prop
  | .int k, .int k', a, b => k.size = k'.size ∧ (k.bits a).toNat = (k'.bits b).toNat
  | .int k, .enum k', a, b => k.size = k'.size ∧ (k.bits a).toNat = (k'.bits b).toNat
  | .enum k, .int k', a, b => k.size = k'.size ∧ (k.bits a).toNat = (k'.bits b).toNat
  | .enum k, .enum k', a, b => k.size = k'.size ∧ (k.bits a).toNat = (k'.bits b).toNat
  | .ptr, .ptr, a, b => a = b
  | .ptr, .nullptr, a, _ => a = 0
  | .nullptr, .ptr, _, b => b = 0
  | .nullptr, .nullptr, _, _ => True
  | .f32, .f32, a, b => a = b ∨ float32 a ≠ .nan ∧ float32 a = float32 b
  | .f64, .f64, a, b => a = b ∨ float64 a ≠ .nan ∧ float64 a = float64 b
  | .carray _ t, .carray _ t', as, bs => List.Forall₂ (Same t t') as bs
  | .carray _ t, .arr _ _ t', as, bs => as ≠ [] ∧ List.Forall₂ (Same t t') as bs
  | .arr _ _ t, .carray _ t', as, bs => as ≠ [] ∧ List.Forall₂ (Same t t') as bs
  | .arr _ _ t, .arr _ _ t', as, bs => List.Forall₂ (Same t t') as bs
  | .seq _ t, .seq _ t', as, bs => List.Forall₂ (Same t t') as bs
  | .unord t, .unord t', as, bs => ∃ cs, as.Perm cs ∧ List.Forall₂ (Same t t') cs bs
  | .tuple ts, .tuple ts', a, b => SameAll ts ts' a b
  | .tuple ts, .described _ _ .nil ms, a, b => SameAll ts ms a b.2
  | .described _ _ .nil ms, .tuple ts, a, b => SameAll ms ts a.2 b
  | .described _ _ bs ms, .described _ _ bs' ms', a, b => SameAll bs bs' a.1 b.1 ∧ SameAll ms ms' a.2 b.2
  | .user cs, .user cs', a, b => SameAll cs cs' a b
  | .range _ t, .range _ t', as, bs => List.Forall₂ (Same t t') as bs
  | .size, .size, a, b => a = b
  | _, _, _, _ => False
def SameAll : (ts ts' : Tys) → ts.Val → ts'.Val → Prop
  | .nil, .nil, _, _ => True
  | .cons t ts, .cons t' ts', a, b => Same t t' a.1 b.1 ∧ SameAll ts ts' a.2 b.2
  | _, _, _, _ => False
end

end Hash2.Spec

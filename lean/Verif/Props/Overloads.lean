import Verif.Model.Overloads
/-
C48: which types hash_append accepts.
-/
namespace Hash2.Overloads

/-- the ways documented (doc/hash2/hashing_objects.adoc) in which a type can be hashed -/
inductive Way
  | builtin | container | unordered | tuple | described | user
  deriving DecidableEq, Repr

/-- the type can be hashed in this way -/
def Way.applies (t : Traits) : Way → Bool
  | .builtin => match t.category with
    | .floating => t.size == 4 || t.size == 8
    | .class => false
    | _ => true
  | .container => t.range && !(t.unordered && !t.constantSize && !t.contiguous)
  | .unordered => t.unordered
  | .tuple => t.tupleLike && !t.range
  | .described => t.described
  | .user => t.tagInvoke

def ways (t : Traits) : List Way := [.builtin, .container, .unordered, .tuple, .described, .user].filter (·.applies t)

/-- what holds for all types: contiguous and unordered ranges are ranges (is_contiguous_range, is_unordered_range); only classes are ranges,
tuple-like or described -/
structure Traits.Coherent (t : Traits) : Prop where
  contiguous : t.contiguous = true → t.range = true
  unordered : t.unordered = true → t.range = true
  range : t.range = true → t.category = .class
  tupleLike : t.tupleLike = true → t.category = .class
  described : t.described = true → t.category = .class

/-- the way of which an overload's body is the implementation -/
def Overload.way : Overload → Way
  | .integral | .enum | .pointer | .float4 | .float8 | .nullptr | .carray => .builtin
  | .contiguous | .ranges | .constantContiguous | .constantRange => .container
  | .unordered => .unordered
  | .tuple => .tuple
  | .described => .described
  | .tagInvoke => .user

/-- **C48.** For every type: the viable overloads are those of the ways to hash it, one for each. So hash_append compiles if there is
exactly one way, and uses that one; if there is none (a class without range, tuple, description or tag_invoke; a long double), or more than one (for example a
described class with a tag_invoke, or a range with a tag_invoke), the call is ill-formed: it is never decided silently. -/
theorem overloads_match_ways (t : Traits) (h : t.Coherent) : (viable t).map Overload.way = ways t := by
  obtain ⟨cat, size, r, c, u, tl, d, cs, ti⟩ := t
  obtain ⟨h1, h2, h3, h4, h5⟩ := h
  simp only at h1 h2 h3 h4 h5
  by_cases s4 : size = 4
  · subst s4
    revert h1 h2 h3 h4 h5
    cases cat <;> (revert r c u tl d cs ti; decide +kernel)
  by_cases s8 : size = 8
  · subst s8
    revert h1 h2 h3 h4 h5
    cases cat <;> (revert r c u tl d cs ti; decide +kernel)
  have b4 : (size == 4) = false := by simpa using s4
  have b8 : (size == 8) = false := by simpa using s8
  simp only [viable, ways, all, List.filter_cons, List.filter_nil, Overload.viable, Way.applies, b4, b8]
  clear s4 s8 b4 b8
  revert h1 h2 h3 h4 h5
  cases cat <;> (revert r c u tl d cs ti; decide +kernel)

/-- **C48.** Exactly one overload is viable for every type of the model, and it is the one that is modelled. -/
theorem modelled_overload (stdArray : Bool) (t : Ty) (tr : Traits) (h : traits stdArray t = some tr) :
    ∃ o, modelled t = some o ∧ viable tr = [o] ∧ tr.Coherent := by
  cases t with
  | seq k _ => cases k <;> (obtain rfl := Option.some.inj h; exact ⟨_, rfl, rfl, by constructor <;> simp⟩)
  | arr k _ _ => cases k <;> (obtain rfl := Option.some.inj h; exact ⟨_, rfl, rfl, by constructor <;> simp⟩)
  | range _ _ => cases h
  | size => cases h
  | _ => obtain rfl := Option.some.inj h; exact ⟨_, rfl, rfl, by constructor <;> simp⟩

/-- **C48.** a long double cannot be hashed; a described class with a tag_invoke neither -/
theorem not_hashable :
    viable ⟨.floating, 16, false, false, false, false, false, false, false⟩ = [] ∧
    viable ⟨.class, 0, false, false, false, false, true, false, true⟩ = [.described, .tagInvoke] ∧
    viable ⟨.class, 0, true, true, false, false, false, false, true⟩ = [.contiguous, .tagInvoke] := ⟨rfl, rfl, rfl⟩

-- std::vector<int>: one way, one overload
example : Traits.Coherent ⟨.class, 0, true, true, false, false, false, false, false⟩ := by constructor <;> simp
example : (viable ⟨.class, 0, true, true, false, false, false, false, false⟩).map Overload.way = ways ⟨.class, 0, true, true, false, false, false, false, false⟩ :=
  overloads_match_ways _ (by constructor <;> simp)

end Hash2.Overloads

import Verif.Spec.Calls
/-
The calls on the outer object of an hmac.
-/
namespace Hash2

/-- outer.update( r ), outer.result(), for one digest r after another -/
def macCalls (rs : List (List Byte)) : List Op := rs.flatMap fun r => [.update (.mem r) r.length, .result]

end Hash2

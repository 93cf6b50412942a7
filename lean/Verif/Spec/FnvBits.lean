import Verif.Spec.Calls
/-
Lower bits of FNV-1a.
-/
namespace Hash2.Spec

/-- the same calls, with bytes that may differ above the lowest k bits -/
inductive LowAlike (k : Nat) : List Tok → List Tok → Prop
  | nil : LowAlike k [] []
  | data {a b : Byte} {ts ts'} (h : a.toNat % 2 ^ k = b.toNat % 2 ^ k) : LowAlike k ts ts' → LowAlike k (.data a :: ts) (.data b :: ts')
  | fin {ts ts'} : LowAlike k ts ts' → LowAlike k (.fin :: ts) (.fin :: ts')

/-- the number of bytes of the message that are odd -/
def oddBytes (m : List Byte) : Nat := m.countP fun b => b.toNat % 2 == 1

end Hash2.Spec

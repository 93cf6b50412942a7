import Verif.Model.Core
/-
Some concrete platforms and messages, used in the examples beside the theorems.
-/
namespace Hash2

/-- x86-64 at run time, data() of an empty container being null -/
def le64 : Env := ⟨.little, false, true, true, true, true, fun _ => 0xCC, ⟨false, false⟩⟩
/-- a big-endian machine with 32-bit std::size_t -/
def be32 : Env := ⟨.big, false, true, true, false, false, fun _ => 0x55, ⟨false, true⟩⟩
/-- constant evaluation on x86-64 -/
def le64c : Env := ⟨.little, true, true, true, true, true, fun _ => 0, ⟨false, false⟩⟩

/-- le64, by a compiler without __builtin_is_constant_evaluated -/
def le64NoBuiltin : Env := { le64 with builtin := false }
/-- le64, in C++11 -/
def le64Cxx11 : Env := { le64 with builtin := false, cxx14 := false }

/-- "abc" -/
def abc : List Byte := [0x61, 0x62, 0x63]

end Hash2

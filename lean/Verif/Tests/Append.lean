import Verif.Model.HashAppend
import Verif.Spec.Platforms
/-
The expectations of /repo/test/append_*.cpp and hash_append_range*.cpp, evaluated in the model by the kernel.
These are tests of the model against the project's own test-suite, not proofs of properties.
-/
namespace Hash2.Tests

/-- the result of fnv1a_32 after hash_append( h, f, v ) -/
def r32 (env : Env) (f : Flavor) (t : Ty) (v : t.Val) : Nat :=
  match (show M (List W32) from fnv1a_32.execStmts env .default [.append f t v, .call .result]) with
  | .ok [r] => r.toNat
  | _ => 2 ^ 64

/-- the result of fnv1a_64 after hash_append( h, f, v ) -/
def r64 (env : Env) (f : Flavor) (t : Ty) (v : t.Val) : Nat :=
  match (show M (List W64) from fnv1a_64.execStmts env .default [.append f t v, .call .result]) with
  | .ok [r] => r.toNat
  | _ => 2 ^ 64

/-- the result of fnv1a_32 after update( bs ) -/
def u32 (env : Env) (bs : List Byte) : Nat :=
  match (show M (List W32) from fnv1a_32.exec env .default [.update (.mem bs) bs.length, .result]) with
  | .ok [r] => r.toNat
  | _ => 2 ^ 65

/-- a big endian 64 bit platform in constant evaluation -/
def be64c : Env := ⟨.big, true, true, true, true, false, fun _ => 0, ⟨false, false⟩⟩

/-- the platforms the tests are run on -/
def envs : List Env := [le64, be32, le64c, be64c]

def everywhere (p : Env → Bool) : Bool := envs.all p
def runTime (p : Env → Bool) : Bool := [le64, be32].all p

instance (s : Sz) (n : Nat) : OfNat (IntTy.Val (.int s)) n := inferInstanceAs (OfNat (BitVec (8 * s.n)) n)
instance (n : Nat) : OfNat (IntTy.Val .uchar) n := inferInstanceAs (OfNat (BitVec 8) n)
instance (s : Sz) : Neg (IntTy.Val (.int s)) := inferInstanceAs (Neg (BitVec (8 * s.n)))

abbrev char : Ty := .int (.int .s1)
abbrev uchar : Ty := .int .uchar
abbrev short : Ty := .int (.int .s2)
abbrev int : Ty := .int (.int .s4)
abbrev int64 : Ty := .int (.int .s8)
abbrev two (t : Ty) : Ty := .tuple (.cons t (.cons t .nil))

private abbrev LE := little_endian_flavor
private abbrev BE := big_endian_flavor
private abbrev DF := default_flavor

-- append_bool.cpp
example : everywhere (fun e => r32 e DF (.int .bool) false == 84696351) = true := by decide +kernel
example : everywhere (fun e => r32 e DF (.int .bool) true == 67918732) = true := by decide +kernel
example : everywhere (fun e => r32 e DF (.range .pointers (.int .bool)) (List.replicate 7 false) == 1177189415) = true := by decide +kernel
example : everywhere (fun e => r32 e DF (.range .randomAccess (.int .bool)) (List.replicate 7 false) == 1177189415) = true := by decide +kernel

-- append_byte_sized.cpp, append_character.cpp
example : everywhere (fun e => r32 e DF (.carray 95 (.int .bool)) (List.replicate 95 false) == 409807047) = true := by decide +kernel
example : everywhere (fun e => r32 e DF (.carray 95 char) (List.replicate 95 (0 : BitVec 8)) == 409807047) = true := by decide +kernel
example : everywhere (fun e => r32 e DF (.carray 95 uchar) (List.replicate 95 (0 : BitVec 8)) == 409807047) = true := by decide +kernel
example : everywhere (fun e => r32 e DF (.carray 95 (.enum .uchar)) (List.replicate 95 (0 : BitVec 8)) == 409807047) = true := by decide +kernel
example : everywhere (fun e => r32 e DF (.carray 95 short) (List.replicate 95 (0 : BitVec 16)) == 4291711997) = true := by decide +kernel
example : everywhere (fun e => r32 e DF (.carray 95 int) (List.replicate 95 (0 : BitVec 32)) == 3226601845) = true := by decide +kernel

-- append_integer.cpp
example : everywhere (fun e => r32 e LE char (-2) == u32 e [0xFE]) = true := by decide +kernel
example : everywhere (fun e => r32 e BE uchar 1 == u32 e [1]) = true := by decide +kernel
example : everywhere (fun e => r32 e DF short 0 == u32 e [0, 0]) = true := by decide +kernel
example : everywhere (fun e => r32 e LE short (-2) == u32 e [0xFE, 0xFF]) = true := by decide +kernel
example : everywhere (fun e => r32 e LE short 1 == u32 e [1, 0]) = true := by decide +kernel
example : everywhere (fun e => r32 e BE short (-2) == u32 e [0xFF, 0xFE]) = true := by decide +kernel
example : everywhere (fun e => r32 e BE short 1 == u32 e [0, 1]) = true := by decide +kernel
example : everywhere (fun e => r32 e LE int (-2) == u32 e [0xFE, 0xFF, 0xFF, 0xFF]) = true := by decide +kernel
example : everywhere (fun e => r32 e BE int (-2) == u32 e [0xFF, 0xFF, 0xFF, 0xFE]) = true := by decide +kernel
example : everywhere (fun e => r32 e LE int64 (-2) == u32 e [0xFE, 0xFF, 0xFF, 0xFF, 0xFF, 0xFF, 0xFF, 0xFF]) = true := by decide +kernel
example : everywhere (fun e => r32 e BE int64 1 == u32 e [0, 0, 0, 0, 0, 0, 0, 1]) = true := by decide +kernel

-- append_floating_point.cpp
example : everywhere (fun e => r32 e DF .f32 0x80000000 == u32 e [0, 0, 0, 0]) = true := by decide +kernel
example : everywhere (fun e => r32 e BE .f32 0x3F800000 == u32 e [0x3F, 0x80, 0, 0]) = true := by decide +kernel
example : everywhere (fun e => r32 e BE .f32 0xC048F5C3 == u32 e [0xC0, 0x48, 0xF5, 0xC3]) = true := by decide +kernel
example : everywhere (fun e => r32 e LE .f32 0x4048F5C3 == u32 e [0xC3, 0xF5, 0x48, 0x40]) = true := by decide +kernel
example : everywhere (fun e => r32 e LE .f32 0xFF800000 == u32 e [0, 0, 0x80, 0xFF]) = true := by decide +kernel
example : everywhere (fun e => r32 e DF .f64 0x8000000000000000 == u32 e [0, 0, 0, 0, 0, 0, 0, 0]) = true := by decide +kernel
example : everywhere (fun e => r32 e BE .f64 0x40091EB851EB851F == u32 e [0x40, 0x09, 0x1E, 0xB8, 0x51, 0xEB, 0x85, 0x1F]) = true := by decide +kernel
example : everywhere (fun e => r32 e LE .f64 0xC0091EB851EB851F == u32 e [0x1F, 0x85, 0xEB, 0x51, 0xB8, 0x1E, 0x09, 0xC0]) = true := by decide +kernel
example : everywhere (fun e => r32 e LE .f64 0x7FF0000000000000 == u32 e [0, 0, 0, 0, 0, 0, 0xF0, 0x7F]) = true := by decide +kernel

-- append_pointer.cpp
example : r32 le64 DF .nullptr () = u32 le64 [0, 0, 0, 0, 0, 0, 0, 0] := by decide +kernel
example : r32 be32 DF .nullptr () = u32 be32 [0, 0, 0, 0] := by decide +kernel
example : r32 le64 DF .ptr 0 = u32 le64 [0, 0, 0, 0, 0, 0, 0, 0] := by decide +kernel
example : r32 be32 DF .ptr 0 = u32 be32 [0, 0, 0, 0] := by decide +kernel

-- append_string.cpp, append_string_view.cpp, append_container.cpp, append_vector_cx.cpp: vector, list, deque
def seqs (e : Env) (f : Flavor) (t : Ty) (v : List t.Val) (r : Nat) : Bool :=
  r32 e f (.seq .contiguous t) v == r && r32 e f (.seq .forward t) v == r && r32 e f (.seq .randomAccess t) v == r && r32 e f (.seq .pointers t) v == r

example : everywhere (fun e => seqs e LE char [1, 2, 3, 4] 2468847257) = true := by decide +kernel
example : everywhere (fun e => seqs e BE char [1, 2, 3, 4] 78451921) = true := by decide +kernel
example : everywhere (fun e => seqs e LE uchar [1, 2, 3, 4] 2468847257) = true := by decide +kernel
example : everywhere (fun e => seqs e BE uchar [1, 2, 3, 4] 78451921) = true := by decide +kernel
example : everywhere (fun e => seqs e LE short [1, 2, 3, 4] 634283301) = true := by decide +kernel
example : everywhere (fun e => seqs e BE short [1, 2, 3, 4] 1469224165) = true := by decide +kernel
example : everywhere (fun e => seqs e LE int [1, 2, 3, 4] 2374676325) = true := by decide +kernel
example : everywhere (fun e => seqs e BE int [1, 2, 3, 4] 2877134693) = true := by decide +kernel

/-- 1.0, 2.0, 3.0, 4.0 -/
def doubles : List W64 := [0x3FF0000000000000, 0x4000000000000000, 0x4008000000000000, 0x4010000000000000]
example : everywhere (fun e => seqs e LE .f64 doubles 461647460) = true := by decide +kernel
example : everywhere (fun e => seqs e BE .f64 doubles 1394753398) = true := by decide +kernel

-- append_array.cpp, append_array_cx.cpp, append_digest.cpp: one after the other, T[4], T[2][2], std::array<T, 4>
def arrays (e : Env) (f : Flavor) (t : Ty) (a b c d : t.Val) (r : Nat) : Bool :=
  r32 e f (.user (.cons t (.cons t (.cons t (.cons t .nil))))) (a, b, c, d, ()) == r &&
  r32 e f (.carray 4 t) [a, b, c, d] == r && r32 e f (.carray 2 (.carray 2 t)) [[a, b], [c, d]] == r &&
  r32 e f (.arr .contiguous 4 t) [a, b, c, d] == r

example : everywhere (fun e => [DF, LE, BE].all (fun f => arrays e f uchar 1 2 3 4 1463068797)) = true := by decide +kernel
example : everywhere (fun e => arrays e LE int 1 2 3 4 1041505217) = true := by decide +kernel
example : everywhere (fun e => arrays e BE int 1 2 3 4 3216558841) = true := by decide +kernel
example : everywhere (fun e => arrays e LE .f64 doubles[0] doubles[1] doubles[2] doubles[3] 4043691488) = true := by decide +kernel
example : everywhere (fun e => arrays e BE .f64 doubles[0] doubles[1] doubles[2] doubles[3] 3684964226) = true := by decide +kernel

-- append_tuple_like.cpp
def pairs (e : Env) (f : Flavor) (t : Ty) (a b : t.Val) (r : Nat) : Bool :=
  r32 e f (.carray 2 t) [a, b] == r && r32 e f (two t) (a, b, ()) == r && r32 e f (.arr .contiguous 2 t) [a, b] == r

example : everywhere (fun e => [DF, LE, BE].all (fun f => pairs e f uchar 1 2 3983810698)) = true := by decide +kernel
example : everywhere (fun e => pairs e LE int 1 2 3738734694) = true := by decide +kernel
example : everywhere (fun e => pairs e BE int 1 2 1396319868) = true := by decide +kernel
example : everywhere (fun e => pairs e LE .f64 doubles[0] doubles[1] 1170904120) = true := by decide +kernel
example : everywhere (fun e => pairs e BE .f64 doubles[0] doubles[1] 786481930) = true := by decide +kernel

-- append_tuple_like_2.cpp
example : everywhere (fun e => r32 e DF (.tuple .nil) () == r32 e DF (.arr .contiguous 0 char) []) = true := by decide +kernel

-- append_set.cpp: the order of iteration of a set is sorted, of an unordered set any
def i64' : List W32 := (List.range 64).map (BitVec.ofNat 32)
def p64 : List W32 := (List.range 64).map (fun i => BitVec.ofNat 32 (i * 17 % 64))
example : runTime (fun e => r32 e LE (.seq .forward int) i64' == 3576652581) = true := by decide +kernel
example : runTime (fun e => r64 e LE (.seq .forward int) i64' == 17046016161958689285) = true := by decide +kernel
example : runTime (fun e => r32 e LE (.unord int) i64' == 776982489) = true := by decide +kernel
example : runTime (fun e => r32 e LE (.unord int) i64'.reverse == 776982489) = true := by decide +kernel
example : runTime (fun e => r32 e LE (.unord int) p64 == 776982489) = true := by decide +kernel
example : runTime (fun e => r64 e LE (.unord int) i64' == 3232503781718511241) = true := by decide +kernel
example : runTime (fun e => r64 e LE (.unord int) p64 == 3232503781718511241) = true := by decide +kernel

-- append_map.cpp
def m64 : List (two int).Val := (List.range 64).map (fun i => (BitVec.ofNat 32 i, BitVec.ofNat 32 (3 * i + 1), ()))
example : runTime (fun e => r32 e LE (.seq .forward (two int)) m64 == 1082144933) = true := by decide +kernel
example : runTime (fun e => r64 e LE (.seq .forward (two int)) m64 == 12051529320333828229) = true := by decide +kernel
example : runTime (fun e => r32 e LE (.unord (two int)) m64 == 2445282413) = true := by decide +kernel
example : runTime (fun e => r64 e LE (.unord (two int)) m64.reverse == 2617313294186790738) = true := by decide +kernel

-- append_zero_sized.cpp, append_described_3.cpp
def zeros (e : Env) (t : Ty) (v : t.Val) : Bool :=
  r32 e DF (.range .pointers t) [v] == 84696351 && r32 e DF (.range .pointers t) [v, v] == 292984781 &&
    r32 e DF (.range .pointers t) [v, v, v] == 1253111735
example : everywhere (fun e => zeros e (.arr .contiguous 0 int) []) = true := by decide +kernel
example : everywhere (fun e => zeros e (.described false false .nil .nil) ((), ())) = true := by decide +kernel

-- append_described.cpp, append_described_2.cpp
abbrev X : Ty := .described false false .nil (.cons int (.cons int .nil))
example : everywhere (fun e => [DF, LE, BE].all (fun f => r32 e f X ((), 0, 0, ()) == 2615243109)) = true := by decide +kernel
example : everywhere (fun e => r32 e LE X ((), 1, 2, ()) == 3738734694) = true := by decide +kernel
example : everywhere (fun e => r32 e BE X ((), 1, 2, ()) == 1396319868) = true := by decide +kernel
abbrev Z : Ty := .described false false (.cons X (.cons X .nil)) (.cons int (.cons int .nil))
example : everywhere (fun e => r32 e LE Z ((((), 1, 2, ()), ((), 3, 4, ()), ()), 5, 6, ()) == 2412827170) = true := by decide +kernel
example : everywhere (fun e => r32 e BE Z ((((), 1, 2, ()), ((), 3, 4, ()), ()), 5, 6, ()) == 1970495216) = true := by decide +kernel
example : everywhere (fun e => r32 e LE (.carray 6 int) [1, 2, 3, 4, 5, 6] == 2412827170) = true := by decide +kernel

-- append_described_4.cpp, append_tag_invoke_2.cpp
abbrev string : Ty := .seq .contiguous char
abbrev S : Ty := .described false false .nil (.cons string (.cons string .nil))
abbrev SU : Ty := .user (.cons string (.cons string .nil))
example : everywhere (fun e => r32 e LE S ((), [0x73, 0x31], [0x73, 0x32], ()) == 2447527756) = true := by decide +kernel
example : everywhere (fun e => r32 e BE S ((), [0x73, 0x31], [0x73, 0x32], ()) == 2986383648) = true := by decide +kernel
example : everywhere (fun e => r32 e LE SU ([0x73, 0x31], [0x73, 0x32], ()) == 2447527756) = true := by decide +kernel
example : everywhere (fun e => r32 e BE SU ([0x73, 0x31], [0x73, 0x32], ()) == 2986383648) = true := by decide +kernel

-- append_described_5.cpp
abbrev CD : Ty := .described false false .nil (.cons char (.cons .f64 .nil))
example : everywhere (fun e => r32 e LE CD ((), 0x41, 0x40091EB851EB851F, ()) == 2789734447) = true := by decide +kernel
example : everywhere (fun e => r32 e BE CD ((), 0x41, 0x40091EB851EB851F, ()) == 1423350833) = true := by decide +kernel
example : everywhere (fun e => r32 e BE (.tuple (.cons char (.cons .f64 .nil))) (0x41, 0x40091EB851EB851F, ()) == 1423350833) = true := by decide +kernel

-- append_tag_invoke.cpp
example : everywhere (fun e => r32 e LE (.user (.cons int (.cons int .nil))) (1, 2, ()) == 3738734694) = true := by decide +kernel

-- hash_append_5.cpp
example : everywhere (fun e => seqs e LE SU (List.replicate 3 ([0x73, 0x31], [0x73, 0x32], ())) 4058687743) = true := by decide +kernel

-- hash_append_range.cpp, hash_append_range_2.cpp (the latter expects a little endian platform)
example : everywhere (fun e => [RangeKind.contiguous, .pointers, .randomAccess, .forward].all fun k =>
  r32 e DF (.range k uchar) [1, 2, 3, 4] == 1463068797 && r64 e DF (.range k uchar) [1, 2, 3, 4] == 13725386680924731485) = true := by decide +kernel
example : everywhere (fun e => r32 e DF (.range .pointers (.carray 2 uchar)) [[1, 2], [3, 4]] == 1463068797) = true := by decide +kernel
example : [le64, le64c].all (fun e => [RangeKind.contiguous, .pointers, .randomAccess, .forward].all fun k =>
  r32 e DF (.range k int) [1, 2, 3, 4] == 1041505217 && r64 e DF (.range k int) [1, 2, 3, 4] == 9566659391000707361) = true := by decide +kernel
example : [le64, le64c].all (fun e => r32 e DF (.range .pointers (.carray 2 int)) [[1, 2], [3, 4]] == 1041505217) = true := by decide +kernel

end Hash2.Tests

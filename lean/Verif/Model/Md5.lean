import Verif.Model.Digest
/-
Model of include/boost/hash2/md5.hpp.
-/
namespace Hash2.Md5

/-- the local variables a, b, c, d of transform(), md5.hpp:112-115 -/
inductive Reg | a | b | c | d
  deriving DecidableEq, Repr

/-- the value of a local variable of transform(), md5.hpp:112-115 -/
def get (q : Q4 W32) : Reg → W32
  | .a => q.a | .b => q.b | .c => q.c | .d => q.d

/-- assignment to a local variable of transform(), md5.hpp:112-115 -/
def set (q : Q4 W32) (r : Reg) (v : W32) : Q4 W32 :=
  match r with
  | .a => { q with a := v } | .b => { q with b := v } | .c => { q with c := v } | .d => { q with d := v }

/-- md5.hpp:45-48 -/
def F (x y z : W32) : W32 := (x &&& y) ||| (~~~x &&& z)
/-- md5.hpp:50-53 -/
def G (x y z : W32) : W32 := (x &&& z) ||| (y &&& ~~~z)
/-- md5.hpp:55-58 -/
def H (x y z : W32) : W32 := x ^^^ y ^^^ z
/-- md5.hpp:60-63 -/
def I (x y z : W32) : W32 := y ^^^ (x ||| ~~~z)

/-- the four step functions, md5.hpp:65-91 -/
inductive Fn | FF | GG | HH | II
  deriving DecidableEq, Repr

/-- the Boolean function used by the step function, md5.hpp:67, 74, 81, 88 -/
def Fn.eval : Fn → W32 → W32 → W32 → W32
  | .FF => F | .GG => G | .HH => H | .II => I

/-- one call FF( a, b, c, d, x[ k ], s, ac ), md5.hpp:124-190 -/
structure Row where
  (fn : Fn) (ra rb rc rd : Reg) (k s : Nat) (ac : W32)
  deriving DecidableEq, Repr

/-- body of FF, GG, HH, II, md5.hpp:65-91: a += F( b, c, d ) + x + ac; a = rotl( a, s ); a += b; -/
def exec (x : List W32) (r : Row) (q : Q4 W32) : M (Q4 W32) := do
  let xk ← aget x r.k
  let a := get q r.ra + (r.fn.eval (get q r.rb) (get q r.rc) (get q r.rd) + xk + r.ac)
  let a ← rotlM a r.s
  return set q r.ra (a + get q r.rb)

/-- md5.hpp:93 -/
def S11 := 7
/-- md5.hpp:94 -/
def S12 := 12
/-- md5.hpp:95 -/
def S13 := 17
/-- md5.hpp:96 -/
def S14 := 22
/-- md5.hpp:97 -/
def S21 := 5
/-- md5.hpp:98 -/
def S22 := 9
/-- md5.hpp:99 -/
def S23 := 14
/-- md5.hpp:100 -/
def S24 := 20
/-- md5.hpp:101 -/
def S31 := 4
/-- md5.hpp:102 -/
def S32 := 11
/-- md5.hpp:103 -/
def S33 := 16
/-- md5.hpp:104 -/
def S34 := 23
/-- md5.hpp:105 -/
def S41 := 6
/-- md5.hpp:106 -/
def S42 := 10
/-- md5.hpp:107 -/
def S43 := 15
/-- md5.hpp:108 -/
def S44 := 21

/-- the calls of transform(), one row per source line, md5.hpp:124-190 -/
def rows : List Row := [
  ⟨.FF, .a, .b, .c, .d, 0, S11, 0xd76aa478#32⟩,
  ⟨.FF, .d, .a, .b, .c, 1, S12, 0xe8c7b756#32⟩,
  ⟨.FF, .c, .d, .a, .b, 2, S13, 0x242070db#32⟩,
  ⟨.FF, .b, .c, .d, .a, 3, S14, 0xc1bdceee#32⟩,
  ⟨.FF, .a, .b, .c, .d, 4, S11, 0xf57c0faf#32⟩,
  ⟨.FF, .d, .a, .b, .c, 5, S12, 0x4787c62a#32⟩,
  ⟨.FF, .c, .d, .a, .b, 6, S13, 0xa8304613#32⟩,
  ⟨.FF, .b, .c, .d, .a, 7, S14, 0xfd469501#32⟩,
  ⟨.FF, .a, .b, .c, .d, 8, S11, 0x698098d8#32⟩,
  ⟨.FF, .d, .a, .b, .c, 9, S12, 0x8b44f7af#32⟩,
  ⟨.FF, .c, .d, .a, .b, 10, S13, 0xffff5bb1#32⟩,
  ⟨.FF, .b, .c, .d, .a, 11, S14, 0x895cd7be#32⟩,
  ⟨.FF, .a, .b, .c, .d, 12, S11, 0x6b901122#32⟩,
  ⟨.FF, .d, .a, .b, .c, 13, S12, 0xfd987193#32⟩,
  ⟨.FF, .c, .d, .a, .b, 14, S13, 0xa679438e#32⟩,
  ⟨.FF, .b, .c, .d, .a, 15, S14, 0x49b40821#32⟩,
  ⟨.GG, .a, .b, .c, .d, 1, S21, 0xf61e2562#32⟩,
  ⟨.GG, .d, .a, .b, .c, 6, S22, 0xc040b340#32⟩,
  ⟨.GG, .c, .d, .a, .b, 11, S23, 0x265e5a51#32⟩,
  ⟨.GG, .b, .c, .d, .a, 0, S24, 0xe9b6c7aa#32⟩,
  ⟨.GG, .a, .b, .c, .d, 5, S21, 0xd62f105d#32⟩,
  ⟨.GG, .d, .a, .b, .c, 10, S22, 0x2441453#32⟩,
  ⟨.GG, .c, .d, .a, .b, 15, S23, 0xd8a1e681#32⟩,
  ⟨.GG, .b, .c, .d, .a, 4, S24, 0xe7d3fbc8#32⟩,
  ⟨.GG, .a, .b, .c, .d, 9, S21, 0x21e1cde6#32⟩,
  ⟨.GG, .d, .a, .b, .c, 14, S22, 0xc33707d6#32⟩,
  ⟨.GG, .c, .d, .a, .b, 3, S23, 0xf4d50d87#32⟩,
  ⟨.GG, .b, .c, .d, .a, 8, S24, 0x455a14ed#32⟩,
  ⟨.GG, .a, .b, .c, .d, 13, S21, 0xa9e3e905#32⟩,
  ⟨.GG, .d, .a, .b, .c, 2, S22, 0xfcefa3f8#32⟩,
  ⟨.GG, .c, .d, .a, .b, 7, S23, 0x676f02d9#32⟩,
  ⟨.GG, .b, .c, .d, .a, 12, S24, 0x8d2a4c8a#32⟩,
  ⟨.HH, .a, .b, .c, .d, 5, S31, 0xfffa3942#32⟩,
  ⟨.HH, .d, .a, .b, .c, 8, S32, 0x8771f681#32⟩,
  ⟨.HH, .c, .d, .a, .b, 11, S33, 0x6d9d6122#32⟩,
  ⟨.HH, .b, .c, .d, .a, 14, S34, 0xfde5380c#32⟩,
  ⟨.HH, .a, .b, .c, .d, 1, S31, 0xa4beea44#32⟩,
  ⟨.HH, .d, .a, .b, .c, 4, S32, 0x4bdecfa9#32⟩,
  ⟨.HH, .c, .d, .a, .b, 7, S33, 0xf6bb4b60#32⟩,
  ⟨.HH, .b, .c, .d, .a, 10, S34, 0xbebfbc70#32⟩,
  ⟨.HH, .a, .b, .c, .d, 13, S31, 0x289b7ec6#32⟩,
  ⟨.HH, .d, .a, .b, .c, 0, S32, 0xeaa127fa#32⟩,
  ⟨.HH, .c, .d, .a, .b, 3, S33, 0xd4ef3085#32⟩,
  ⟨.HH, .b, .c, .d, .a, 6, S34, 0x4881d05#32⟩,
  ⟨.HH, .a, .b, .c, .d, 9, S31, 0xd9d4d039#32⟩,
  ⟨.HH, .d, .a, .b, .c, 12, S32, 0xe6db99e5#32⟩,
  ⟨.HH, .c, .d, .a, .b, 15, S33, 0x1fa27cf8#32⟩,
  ⟨.HH, .b, .c, .d, .a, 2, S34, 0xc4ac5665#32⟩,
  ⟨.II, .a, .b, .c, .d, 0, S41, 0xf4292244#32⟩,
  ⟨.II, .d, .a, .b, .c, 7, S42, 0x432aff97#32⟩,
  ⟨.II, .c, .d, .a, .b, 14, S43, 0xab9423a7#32⟩,
  ⟨.II, .b, .c, .d, .a, 5, S44, 0xfc93a039#32⟩,
  ⟨.II, .a, .b, .c, .d, 12, S41, 0x655b59c3#32⟩,
  ⟨.II, .d, .a, .b, .c, 3, S42, 0x8f0ccc92#32⟩,
  ⟨.II, .c, .d, .a, .b, 10, S43, 0xffeff47d#32⟩,
  ⟨.II, .b, .c, .d, .a, 1, S44, 0x85845dd1#32⟩,
  ⟨.II, .a, .b, .c, .d, 8, S41, 0x6fa87e4f#32⟩,
  ⟨.II, .d, .a, .b, .c, 15, S42, 0xfe2ce6e0#32⟩,
  ⟨.II, .c, .d, .a, .b, 6, S43, 0xa3014314#32⟩,
  ⟨.II, .b, .c, .d, .a, 13, S44, 0x4e0811a1#32⟩,
  ⟨.II, .a, .b, .c, .d, 4, S41, 0xf7537e82#32⟩,
  ⟨.II, .d, .a, .b, .c, 11, S42, 0xbd3af235#32⟩,
  ⟨.II, .c, .d, .a, .b, 2, S43, 0x2ad7d2bb#32⟩,
  ⟨.II, .b, .c, .d, .a, 9, S44, 0xeb86d391#32⟩]

/-- void transform( unsigned char const block[ 64 ] ), md5.hpp:110-196 -/
def transform (env : Env) (block : Ptr) (st : Q4 W32) : M (Q4 W32) := do
  let x ← forLoop (fun i x => do
    let p ← block.add (i * 4)
    let v ← read32le env p
    aset x i v) 0 16 (List.replicate 16 0)
  let q ← rows.foldlM (fun q r => exec x r q) st
  return ⟨st.a + q.a, st.b + q.b, st.c + q.c, st.d + q.d⟩

/-- update(), md5.hpp:227-279: N = 64, 64-bit counter, `if( n == 0 ) return`, buffer cleared, while loop -/
def cfg (env : Env) : BlockCfg (Q4 W32) :=
  { N := 64, ctrBits := 64, early := true, clear := true, whileLoop := true, transform := transform env }

/-- md5.hpp:291-299 -/
def pad : PadCfg :=
  { bitsLen := 8, writeBits := fun env d v => write64le env d 0 v, thr := 56, over := 120, padLen := 64,
    assertFirst := true }

/-- md5.hpp:34 -/
def iv : Q4 W32 := ⟨0x67452301#32, 0xefcdab89#32, 0x98badcfe#32, 0x10325476#32⟩

/-- md5.hpp:305-312 -/
def out (env : Env) (st : Q4 W32) : M (List Byte) :=
  forLoop (fun i d => do
    let v ← st.get i
    write32le env d (i * 4) v) 0 4 (List.replicate 16 0)

/-- what the class md5_128 is made of, md5.hpp:30-314 -/
def md : MdCfg (Q4 W32) := { cfg := cfg, pad := pad, iv := iv, out := out }

/-- class md5_128, md5.hpp:30-314 -/
def md5_128 : DigestAlg := md.alg 64

end Hash2.Md5

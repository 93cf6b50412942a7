import Verif.Model.Digest
/-
Model of class ripemd_128, include/boost/hash2/ripemd.hpp:33-380.
-/
namespace Hash2.Rip128

/-- the local variables of transform(), ripemd.hpp:103-111 -/
inductive Reg | aa | bb | cc | dd | aaa | bbb | ccc | ddd
  deriving DecidableEq, Repr

/-- aa.. are the left, aaa.. the right registers, ripemd.hpp:103-111 -/
structure Regs where
  (L R : Q4 W32)
  deriving DecidableEq, Repr

/-- the value of a local variable of transform(), ripemd.hpp:103-111 -/
def get (q : Regs) : Reg → W32
  | .aa => q.L.a
  | .bb => q.L.b
  | .cc => q.L.c
  | .dd => q.L.d
  | .aaa => q.R.a
  | .bbb => q.R.b
  | .ccc => q.R.c
  | .ddd => q.R.d

/-- assignment to a local variable of transform(), ripemd.hpp:103-111 -/
def set (q : Regs) (r : Reg) (v : W32) : Regs :=
  match r with
  | .aa => { q with L := { q.L with a := v } }
  | .bb => { q with L := { q.L with b := v } }
  | .cc => { q with L := { q.L with c := v } }
  | .dd => { q with L := { q.L with d := v } }
  | .aaa => { q with R := { q.R with a := v } }
  | .bbb => { q with R := { q.R with b := v } }
  | .ccc => { q with R := { q.R with c := v } }
  | .ddd => { q with R := { q.R with d := v } }

/-- ripemd.hpp:48 -/
def F1 (x y z : W32) : W32 := x ^^^ y ^^^ z
/-- ripemd.hpp:49 -/
def F2 (x y z : W32) : W32 := (x &&& y) ||| (~~~x &&& z)
/-- ripemd.hpp:50 -/
def F3 (x y z : W32) : W32 := (x ||| ~~~y) ^^^ z
/-- ripemd.hpp:51 -/
def F4 (x y z : W32) : W32 := (x &&& z) ||| (y &&& ~~~z)

/-- the step functions, ripemd.hpp:53-99 -/
inductive Fn | R1 | R2 | R3 | R4 | RR1 | RR2 | RR3 | RR4
  deriving DecidableEq, Repr

/-- the Boolean function each step function calls, ripemd.hpp:53-99 -/
def Fn.eval : Fn → W32 → W32 → W32 → W32
  | .R1 => F1
  | .R2 => F2
  | .R3 => F3
  | .R4 => F4
  | .RR1 => F4
  | .RR2 => F3
  | .RR3 => F2
  | .RR4 => F1

/-- the constant each step function adds (0 where none), ripemd.hpp:53-99 -/
def Fn.const : Fn → W32
  | .R1 => 0#32
  | .R2 => 0x5a827999#32
  | .R3 => 0x6ed9eba1#32
  | .R4 => 0x8f1bbcdc#32
  | .RR1 => 0x50a28be6#32
  | .RR2 => 0x5c4dd124#32
  | .RR3 => 0x6d703ef3#32
  | .RR4 => 0#32

/-- one call, e.g. R1(aa, bb, cc, dd, .. X[ k ], s), ripemd.hpp:121-255 -/
structure Row where
  (fn : Fn) (ra rb rc rd : Reg) (k s : Nat)
  deriving DecidableEq, Repr

/-- bodies of the step functions, ripemd.hpp:53-99: a += F( b, c, d ) + x + K; a = rotl( a, s ); -/
def exec (x : List W32) (r : Row) (q : Regs) : M Regs := do
  let xk ← aget x r.k
  let a := get q r.ra + (r.fn.eval (get q r.rb) (get q r.rc) (get q r.rd) + xk + r.fn.const)
  let a ← rotlM a r.s
  return set q r.ra a

/-- the calls of transform(), one row per source line, ripemd.hpp:121-255 -/
def rows : List Row := [
  ⟨.R1, .aa, .bb, .cc, .dd, 0, 11⟩,
  ⟨.R1, .dd, .aa, .bb, .cc, 1, 14⟩,
  ⟨.R1, .cc, .dd, .aa, .bb, 2, 15⟩,
  ⟨.R1, .bb, .cc, .dd, .aa, 3, 12⟩,
  ⟨.R1, .aa, .bb, .cc, .dd, 4, 5⟩,
  ⟨.R1, .dd, .aa, .bb, .cc, 5, 8⟩,
  ⟨.R1, .cc, .dd, .aa, .bb, 6, 7⟩,
  ⟨.R1, .bb, .cc, .dd, .aa, 7, 9⟩,
  ⟨.R1, .aa, .bb, .cc, .dd, 8, 11⟩,
  ⟨.R1, .dd, .aa, .bb, .cc, 9, 13⟩,
  ⟨.R1, .cc, .dd, .aa, .bb, 10, 14⟩,
  ⟨.R1, .bb, .cc, .dd, .aa, 11, 15⟩,
  ⟨.R1, .aa, .bb, .cc, .dd, 12, 6⟩,
  ⟨.R1, .dd, .aa, .bb, .cc, 13, 7⟩,
  ⟨.R1, .cc, .dd, .aa, .bb, 14, 9⟩,
  ⟨.R1, .bb, .cc, .dd, .aa, 15, 8⟩,
  ⟨.RR1, .aaa, .bbb, .ccc, .ddd, 5, 8⟩,
  ⟨.RR1, .ddd, .aaa, .bbb, .ccc, 14, 9⟩,
  ⟨.RR1, .ccc, .ddd, .aaa, .bbb, 7, 9⟩,
  ⟨.RR1, .bbb, .ccc, .ddd, .aaa, 0, 11⟩,
  ⟨.RR1, .aaa, .bbb, .ccc, .ddd, 9, 13⟩,
  ⟨.RR1, .ddd, .aaa, .bbb, .ccc, 2, 15⟩,
  ⟨.RR1, .ccc, .ddd, .aaa, .bbb, 11, 15⟩,
  ⟨.RR1, .bbb, .ccc, .ddd, .aaa, 4, 5⟩,
  ⟨.RR1, .aaa, .bbb, .ccc, .ddd, 13, 7⟩,
  ⟨.RR1, .ddd, .aaa, .bbb, .ccc, 6, 7⟩,
  ⟨.RR1, .ccc, .ddd, .aaa, .bbb, 15, 8⟩,
  ⟨.RR1, .bbb, .ccc, .ddd, .aaa, 8, 11⟩,
  ⟨.RR1, .aaa, .bbb, .ccc, .ddd, 1, 14⟩,
  ⟨.RR1, .ddd, .aaa, .bbb, .ccc, 10, 14⟩,
  ⟨.RR1, .ccc, .ddd, .aaa, .bbb, 3, 12⟩,
  ⟨.RR1, .bbb, .ccc, .ddd, .aaa, 12, 6⟩,
  ⟨.R2, .aa, .bb, .cc, .dd, 7, 7⟩,
  ⟨.R2, .dd, .aa, .bb, .cc, 4, 6⟩,
  ⟨.R2, .cc, .dd, .aa, .bb, 13, 8⟩,
  ⟨.R2, .bb, .cc, .dd, .aa, 1, 13⟩,
  ⟨.R2, .aa, .bb, .cc, .dd, 10, 11⟩,
  ⟨.R2, .dd, .aa, .bb, .cc, 6, 9⟩,
  ⟨.R2, .cc, .dd, .aa, .bb, 15, 7⟩,
  ⟨.R2, .bb, .cc, .dd, .aa, 3, 15⟩,
  ⟨.R2, .aa, .bb, .cc, .dd, 12, 7⟩,
  ⟨.R2, .dd, .aa, .bb, .cc, 0, 12⟩,
  ⟨.R2, .cc, .dd, .aa, .bb, 9, 15⟩,
  ⟨.R2, .bb, .cc, .dd, .aa, 5, 9⟩,
  ⟨.R2, .aa, .bb, .cc, .dd, 2, 11⟩,
  ⟨.R2, .dd, .aa, .bb, .cc, 14, 7⟩,
  ⟨.R2, .cc, .dd, .aa, .bb, 11, 13⟩,
  ⟨.R2, .bb, .cc, .dd, .aa, 8, 12⟩,
  ⟨.RR2, .aaa, .bbb, .ccc, .ddd, 6, 9⟩,
  ⟨.RR2, .ddd, .aaa, .bbb, .ccc, 11, 13⟩,
  ⟨.RR2, .ccc, .ddd, .aaa, .bbb, 3, 15⟩,
  ⟨.RR2, .bbb, .ccc, .ddd, .aaa, 7, 7⟩,
  ⟨.RR2, .aaa, .bbb, .ccc, .ddd, 0, 12⟩,
  ⟨.RR2, .ddd, .aaa, .bbb, .ccc, 13, 8⟩,
  ⟨.RR2, .ccc, .ddd, .aaa, .bbb, 5, 9⟩,
  ⟨.RR2, .bbb, .ccc, .ddd, .aaa, 10, 11⟩,
  ⟨.RR2, .aaa, .bbb, .ccc, .ddd, 14, 7⟩,
  ⟨.RR2, .ddd, .aaa, .bbb, .ccc, 15, 7⟩,
  ⟨.RR2, .ccc, .ddd, .aaa, .bbb, 8, 12⟩,
  ⟨.RR2, .bbb, .ccc, .ddd, .aaa, 12, 7⟩,
  ⟨.RR2, .aaa, .bbb, .ccc, .ddd, 4, 6⟩,
  ⟨.RR2, .ddd, .aaa, .bbb, .ccc, 9, 15⟩,
  ⟨.RR2, .ccc, .ddd, .aaa, .bbb, 1, 13⟩,
  ⟨.RR2, .bbb, .ccc, .ddd, .aaa, 2, 11⟩,
  ⟨.R3, .aa, .bb, .cc, .dd, 3, 11⟩,
  ⟨.R3, .dd, .aa, .bb, .cc, 10, 13⟩,
  ⟨.R3, .cc, .dd, .aa, .bb, 14, 6⟩,
  ⟨.R3, .bb, .cc, .dd, .aa, 4, 7⟩,
  ⟨.R3, .aa, .bb, .cc, .dd, 9, 14⟩,
  ⟨.R3, .dd, .aa, .bb, .cc, 15, 9⟩,
  ⟨.R3, .cc, .dd, .aa, .bb, 8, 13⟩,
  ⟨.R3, .bb, .cc, .dd, .aa, 1, 15⟩,
  ⟨.R3, .aa, .bb, .cc, .dd, 2, 14⟩,
  ⟨.R3, .dd, .aa, .bb, .cc, 7, 8⟩,
  ⟨.R3, .cc, .dd, .aa, .bb, 0, 13⟩,
  ⟨.R3, .bb, .cc, .dd, .aa, 6, 6⟩,
  ⟨.R3, .aa, .bb, .cc, .dd, 13, 5⟩,
  ⟨.R3, .dd, .aa, .bb, .cc, 11, 12⟩,
  ⟨.R3, .cc, .dd, .aa, .bb, 5, 7⟩,
  ⟨.R3, .bb, .cc, .dd, .aa, 12, 5⟩,
  ⟨.RR3, .aaa, .bbb, .ccc, .ddd, 15, 9⟩,
  ⟨.RR3, .ddd, .aaa, .bbb, .ccc, 5, 7⟩,
  ⟨.RR3, .ccc, .ddd, .aaa, .bbb, 1, 15⟩,
  ⟨.RR3, .bbb, .ccc, .ddd, .aaa, 3, 11⟩,
  ⟨.RR3, .aaa, .bbb, .ccc, .ddd, 7, 8⟩,
  ⟨.RR3, .ddd, .aaa, .bbb, .ccc, 14, 6⟩,
  ⟨.RR3, .ccc, .ddd, .aaa, .bbb, 6, 6⟩,
  ⟨.RR3, .bbb, .ccc, .ddd, .aaa, 9, 14⟩,
  ⟨.RR3, .aaa, .bbb, .ccc, .ddd, 11, 12⟩,
  ⟨.RR3, .ddd, .aaa, .bbb, .ccc, 8, 13⟩,
  ⟨.RR3, .ccc, .ddd, .aaa, .bbb, 12, 5⟩,
  ⟨.RR3, .bbb, .ccc, .ddd, .aaa, 2, 14⟩,
  ⟨.RR3, .aaa, .bbb, .ccc, .ddd, 10, 13⟩,
  ⟨.RR3, .ddd, .aaa, .bbb, .ccc, 0, 13⟩,
  ⟨.RR3, .ccc, .ddd, .aaa, .bbb, 4, 7⟩,
  ⟨.RR3, .bbb, .ccc, .ddd, .aaa, 13, 5⟩,
  ⟨.R4, .aa, .bb, .cc, .dd, 1, 11⟩,
  ⟨.R4, .dd, .aa, .bb, .cc, 9, 12⟩,
  ⟨.R4, .cc, .dd, .aa, .bb, 11, 14⟩,
  ⟨.R4, .bb, .cc, .dd, .aa, 10, 15⟩,
  ⟨.R4, .aa, .bb, .cc, .dd, 0, 14⟩,
  ⟨.R4, .dd, .aa, .bb, .cc, 8, 15⟩,
  ⟨.R4, .cc, .dd, .aa, .bb, 12, 9⟩,
  ⟨.R4, .bb, .cc, .dd, .aa, 4, 8⟩,
  ⟨.R4, .aa, .bb, .cc, .dd, 13, 9⟩,
  ⟨.R4, .dd, .aa, .bb, .cc, 3, 14⟩,
  ⟨.R4, .cc, .dd, .aa, .bb, 7, 5⟩,
  ⟨.R4, .bb, .cc, .dd, .aa, 15, 6⟩,
  ⟨.R4, .aa, .bb, .cc, .dd, 14, 8⟩,
  ⟨.R4, .dd, .aa, .bb, .cc, 5, 6⟩,
  ⟨.R4, .cc, .dd, .aa, .bb, 6, 5⟩,
  ⟨.R4, .bb, .cc, .dd, .aa, 2, 12⟩,
  ⟨.RR4, .aaa, .bbb, .ccc, .ddd, 8, 15⟩,
  ⟨.RR4, .ddd, .aaa, .bbb, .ccc, 6, 5⟩,
  ⟨.RR4, .ccc, .ddd, .aaa, .bbb, 4, 8⟩,
  ⟨.RR4, .bbb, .ccc, .ddd, .aaa, 1, 11⟩,
  ⟨.RR4, .aaa, .bbb, .ccc, .ddd, 3, 14⟩,
  ⟨.RR4, .ddd, .aaa, .bbb, .ccc, 11, 14⟩,
  ⟨.RR4, .ccc, .ddd, .aaa, .bbb, 15, 6⟩,
  ⟨.RR4, .bbb, .ccc, .ddd, .aaa, 0, 14⟩,
  ⟨.RR4, .aaa, .bbb, .ccc, .ddd, 5, 6⟩,
  ⟨.RR4, .ddd, .aaa, .bbb, .ccc, 12, 9⟩,
  ⟨.RR4, .ccc, .ddd, .aaa, .bbb, 2, 12⟩,
  ⟨.RR4, .bbb, .ccc, .ddd, .aaa, 13, 9⟩,
  ⟨.RR4, .aaa, .bbb, .ccc, .ddd, 9, 12⟩,
  ⟨.RR4, .ddd, .aaa, .bbb, .ccc, 7, 5⟩,
  ⟨.RR4, .ccc, .ddd, .aaa, .bbb, 10, 15⟩,
  ⟨.RR4, .bbb, .ccc, .ddd, .aaa, 14, 8⟩
]

/-- void transform( unsigned char const block[ 64 ] ), ripemd.hpp:101-262 -/
def transform (env : Env) (block : Ptr) (st : Q4 W32) : M (Q4 W32) := do
  let x ← forLoop (fun i x => do
    let p ← block.add (i * 4)
    let v ← read32le env p
    aset x i v) 0 16 (List.replicate 16 0)
  let q ← rows.foldlM (fun q r => exec x r q) ⟨st, st⟩
  let ddd := q.R.d + (q.L.c + st.b)
  let s1 := st.c + q.L.d + q.R.a
  let s2 := st.d + q.L.a + q.R.b
  let s3 := st.a + q.L.b + q.R.c
  return ⟨ddd, s1, s2, s3⟩

/-- update(), ripemd.hpp:293-345 -/
def cfg (env : Env) : BlockCfg (Q4 W32) :=
  { N := 64, ctrBits := 64, early := true, clear := true, whileLoop := true, transform := transform env }

/-- ripemd.hpp:357-365 -/
def pad : PadCfg :=
  { bitsLen := 8, writeBits := fun env d v => write64le env d 0 v, thr := 56, over := 120, padLen := 64,
    assertFirst := true }

/-- ripemd.hpp:37 -/
def iv : Q4 W32 := ⟨0x67452301#32, 0xEFCDAB89#32, 0x98BADCFE#32, 0x10325476#32⟩

/-- ripemd.hpp:371-378 -/
def out (env : Env) (st : Q4 W32) : M (List Byte) :=
  forLoop (fun i d => do
    let v ← st.get i
    write32le env d (i * 4) v) 0 4 (List.replicate 16 0)

/-- what the class ripemd_128 is made of, ripemd.hpp:33-380 -/
def md : MdCfg (Q4 W32) := { cfg := cfg, pad := pad, iv := iv, out := out }

/-- class ripemd_128, ripemd.hpp:33-380 -/
def ripemd_128 : DigestAlg := md.alg 64

end Hash2.Rip128

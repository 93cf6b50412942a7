import Verif.Model.Digest
/-
Model of class ripemd_160, include/boost/hash2/ripemd.hpp:382-800.
-/
namespace Hash2.Rip160

/-- the local variables of transform(), ripemd.hpp:475-485 -/
inductive Reg | aa | bb | cc | dd | ee | aaa | bbb | ccc | ddd | eee
  deriving DecidableEq, Repr

/-- aa.. are the left, aaa.. the right registers, ripemd.hpp:475-485 -/
structure Regs where
  (L R : Q5 W32)
  deriving DecidableEq, Repr

/-- the value of a local variable of transform(), ripemd.hpp:475-485 -/
def get (q : Regs) : Reg → W32
  | .aa => q.L.a
  | .bb => q.L.b
  | .cc => q.L.c
  | .dd => q.L.d
  | .ee => q.L.e
  | .aaa => q.R.a
  | .bbb => q.R.b
  | .ccc => q.R.c
  | .ddd => q.R.d
  | .eee => q.R.e

/-- assignment to a local variable of transform(), ripemd.hpp:475-485 -/
def set (q : Regs) (r : Reg) (v : W32) : Regs :=
  match r with
  | .aa => { q with L := { q.L with a := v } }
  | .bb => { q with L := { q.L with b := v } }
  | .cc => { q with L := { q.L with c := v } }
  | .dd => { q with L := { q.L with d := v } }
  | .ee => { q with L := { q.L with e := v } }
  | .aaa => { q with R := { q.R with a := v } }
  | .bbb => { q with R := { q.R with b := v } }
  | .ccc => { q with R := { q.R with c := v } }
  | .ddd => { q with R := { q.R with d := v } }
  | .eee => { q with R := { q.R with e := v } }

/-- ripemd.hpp:397 -/
def F1 (x y z : W32) : W32 := x ^^^ y ^^^ z
/-- ripemd.hpp:398 -/
def F2 (x y z : W32) : W32 := (x &&& y) ||| (~~~x &&& z)
/-- ripemd.hpp:399 -/
def F3 (x y z : W32) : W32 := (x ||| ~~~y) ^^^ z
/-- ripemd.hpp:400 -/
def F4 (x y z : W32) : W32 := (x &&& z) ||| (y &&& ~~~z)
/-- ripemd.hpp:401 -/
def F5 (x y z : W32) : W32 := x ^^^ (y ||| ~~~z)

/-- the step functions, ripemd.hpp:403-471 -/
inductive Fn | R1 | R2 | R3 | R4 | R5 | RR1 | RR2 | RR3 | RR4 | RR5
  deriving DecidableEq, Repr

/-- the Boolean function each step function calls, ripemd.hpp:403-471 -/
def Fn.eval : Fn → W32 → W32 → W32 → W32
  | .R1 => F1
  | .R2 => F2
  | .R3 => F3
  | .R4 => F4
  | .R5 => F5
  | .RR1 => F5
  | .RR2 => F4
  | .RR3 => F3
  | .RR4 => F2
  | .RR5 => F1

/-- the constant each step function adds (0 where none), ripemd.hpp:403-471 -/
def Fn.const : Fn → W32
  | .R1 => 0#32
  | .R2 => 0x5a827999#32
  | .R3 => 0x6ed9eba1#32
  | .R4 => 0x8f1bbcdc#32
  | .R5 => 0xa953fd4e#32
  | .RR1 => 0x50a28be6#32
  | .RR2 => 0x5c4dd124#32
  | .RR3 => 0x6d703ef3#32
  | .RR4 => 0x7a6d76e9#32
  | .RR5 => 0#32

/-- one call, e.g. R1(aa, bb, cc, dd, .. X[ k ], s), ripemd.hpp:506-674 -/
structure Row where
  (fn : Fn) (ra rb rc rd re : Reg) (k s : Nat)
  deriving DecidableEq, Repr

/-- bodies of the step functions, ripemd.hpp:403-471: a += F( b, c, d ) + x + K; a = rotl( a, s ) + e; c = rotl( c, 10 ); -/
def exec (x : List W32) (r : Row) (q : Regs) : M Regs := do
  let xk ← aget x r.k
  let a := get q r.ra + (r.fn.eval (get q r.rb) (get q r.rc) (get q r.rd) + xk + r.fn.const)
  let a ← rotlM a r.s
  let q := set q r.ra (a + get q r.re)
  return set q r.rc (rotl (get q r.rc) 10)

/-- the calls of transform(), one row per source line, ripemd.hpp:506-674 -/
def rows : List Row := [
  ⟨.R1, .aa, .bb, .cc, .dd, .ee, 0, 11⟩,
  ⟨.R1, .ee, .aa, .bb, .cc, .dd, 1, 14⟩,
  ⟨.R1, .dd, .ee, .aa, .bb, .cc, 2, 15⟩,
  ⟨.R1, .cc, .dd, .ee, .aa, .bb, 3, 12⟩,
  ⟨.R1, .bb, .cc, .dd, .ee, .aa, 4, 5⟩,
  ⟨.R1, .aa, .bb, .cc, .dd, .ee, 5, 8⟩,
  ⟨.R1, .ee, .aa, .bb, .cc, .dd, 6, 7⟩,
  ⟨.R1, .dd, .ee, .aa, .bb, .cc, 7, 9⟩,
  ⟨.R1, .cc, .dd, .ee, .aa, .bb, 8, 11⟩,
  ⟨.R1, .bb, .cc, .dd, .ee, .aa, 9, 13⟩,
  ⟨.R1, .aa, .bb, .cc, .dd, .ee, 10, 14⟩,
  ⟨.R1, .ee, .aa, .bb, .cc, .dd, 11, 15⟩,
  ⟨.R1, .dd, .ee, .aa, .bb, .cc, 12, 6⟩,
  ⟨.R1, .cc, .dd, .ee, .aa, .bb, 13, 7⟩,
  ⟨.R1, .bb, .cc, .dd, .ee, .aa, 14, 9⟩,
  ⟨.R1, .aa, .bb, .cc, .dd, .ee, 15, 8⟩,
  ⟨.RR1, .aaa, .bbb, .ccc, .ddd, .eee, 5, 8⟩,
  ⟨.RR1, .eee, .aaa, .bbb, .ccc, .ddd, 14, 9⟩,
  ⟨.RR1, .ddd, .eee, .aaa, .bbb, .ccc, 7, 9⟩,
  ⟨.RR1, .ccc, .ddd, .eee, .aaa, .bbb, 0, 11⟩,
  ⟨.RR1, .bbb, .ccc, .ddd, .eee, .aaa, 9, 13⟩,
  ⟨.RR1, .aaa, .bbb, .ccc, .ddd, .eee, 2, 15⟩,
  ⟨.RR1, .eee, .aaa, .bbb, .ccc, .ddd, 11, 15⟩,
  ⟨.RR1, .ddd, .eee, .aaa, .bbb, .ccc, 4, 5⟩,
  ⟨.RR1, .ccc, .ddd, .eee, .aaa, .bbb, 13, 7⟩,
  ⟨.RR1, .bbb, .ccc, .ddd, .eee, .aaa, 6, 7⟩,
  ⟨.RR1, .aaa, .bbb, .ccc, .ddd, .eee, 15, 8⟩,
  ⟨.RR1, .eee, .aaa, .bbb, .ccc, .ddd, 8, 11⟩,
  ⟨.RR1, .ddd, .eee, .aaa, .bbb, .ccc, 1, 14⟩,
  ⟨.RR1, .ccc, .ddd, .eee, .aaa, .bbb, 10, 14⟩,
  ⟨.RR1, .bbb, .ccc, .ddd, .eee, .aaa, 3, 12⟩,
  ⟨.RR1, .aaa, .bbb, .ccc, .ddd, .eee, 12, 6⟩,
  ⟨.R2, .ee, .aa, .bb, .cc, .dd, 7, 7⟩,
  ⟨.R2, .dd, .ee, .aa, .bb, .cc, 4, 6⟩,
  ⟨.R2, .cc, .dd, .ee, .aa, .bb, 13, 8⟩,
  ⟨.R2, .bb, .cc, .dd, .ee, .aa, 1, 13⟩,
  ⟨.R2, .aa, .bb, .cc, .dd, .ee, 10, 11⟩,
  ⟨.R2, .ee, .aa, .bb, .cc, .dd, 6, 9⟩,
  ⟨.R2, .dd, .ee, .aa, .bb, .cc, 15, 7⟩,
  ⟨.R2, .cc, .dd, .ee, .aa, .bb, 3, 15⟩,
  ⟨.R2, .bb, .cc, .dd, .ee, .aa, 12, 7⟩,
  ⟨.R2, .aa, .bb, .cc, .dd, .ee, 0, 12⟩,
  ⟨.R2, .ee, .aa, .bb, .cc, .dd, 9, 15⟩,
  ⟨.R2, .dd, .ee, .aa, .bb, .cc, 5, 9⟩,
  ⟨.R2, .cc, .dd, .ee, .aa, .bb, 2, 11⟩,
  ⟨.R2, .bb, .cc, .dd, .ee, .aa, 14, 7⟩,
  ⟨.R2, .aa, .bb, .cc, .dd, .ee, 11, 13⟩,
  ⟨.R2, .ee, .aa, .bb, .cc, .dd, 8, 12⟩,
  ⟨.RR2, .eee, .aaa, .bbb, .ccc, .ddd, 6, 9⟩,
  ⟨.RR2, .ddd, .eee, .aaa, .bbb, .ccc, 11, 13⟩,
  ⟨.RR2, .ccc, .ddd, .eee, .aaa, .bbb, 3, 15⟩,
  ⟨.RR2, .bbb, .ccc, .ddd, .eee, .aaa, 7, 7⟩,
  ⟨.RR2, .aaa, .bbb, .ccc, .ddd, .eee, 0, 12⟩,
  ⟨.RR2, .eee, .aaa, .bbb, .ccc, .ddd, 13, 8⟩,
  ⟨.RR2, .ddd, .eee, .aaa, .bbb, .ccc, 5, 9⟩,
  ⟨.RR2, .ccc, .ddd, .eee, .aaa, .bbb, 10, 11⟩,
  ⟨.RR2, .bbb, .ccc, .ddd, .eee, .aaa, 14, 7⟩,
  ⟨.RR2, .aaa, .bbb, .ccc, .ddd, .eee, 15, 7⟩,
  ⟨.RR2, .eee, .aaa, .bbb, .ccc, .ddd, 8, 12⟩,
  ⟨.RR2, .ddd, .eee, .aaa, .bbb, .ccc, 12, 7⟩,
  ⟨.RR2, .ccc, .ddd, .eee, .aaa, .bbb, 4, 6⟩,
  ⟨.RR2, .bbb, .ccc, .ddd, .eee, .aaa, 9, 15⟩,
  ⟨.RR2, .aaa, .bbb, .ccc, .ddd, .eee, 1, 13⟩,
  ⟨.RR2, .eee, .aaa, .bbb, .ccc, .ddd, 2, 11⟩,
  ⟨.R3, .dd, .ee, .aa, .bb, .cc, 3, 11⟩,
  ⟨.R3, .cc, .dd, .ee, .aa, .bb, 10, 13⟩,
  ⟨.R3, .bb, .cc, .dd, .ee, .aa, 14, 6⟩,
  ⟨.R3, .aa, .bb, .cc, .dd, .ee, 4, 7⟩,
  ⟨.R3, .ee, .aa, .bb, .cc, .dd, 9, 14⟩,
  ⟨.R3, .dd, .ee, .aa, .bb, .cc, 15, 9⟩,
  ⟨.R3, .cc, .dd, .ee, .aa, .bb, 8, 13⟩,
  ⟨.R3, .bb, .cc, .dd, .ee, .aa, 1, 15⟩,
  ⟨.R3, .aa, .bb, .cc, .dd, .ee, 2, 14⟩,
  ⟨.R3, .ee, .aa, .bb, .cc, .dd, 7, 8⟩,
  ⟨.R3, .dd, .ee, .aa, .bb, .cc, 0, 13⟩,
  ⟨.R3, .cc, .dd, .ee, .aa, .bb, 6, 6⟩,
  ⟨.R3, .bb, .cc, .dd, .ee, .aa, 13, 5⟩,
  ⟨.R3, .aa, .bb, .cc, .dd, .ee, 11, 12⟩,
  ⟨.R3, .ee, .aa, .bb, .cc, .dd, 5, 7⟩,
  ⟨.R3, .dd, .ee, .aa, .bb, .cc, 12, 5⟩,
  ⟨.RR3, .ddd, .eee, .aaa, .bbb, .ccc, 15, 9⟩,
  ⟨.RR3, .ccc, .ddd, .eee, .aaa, .bbb, 5, 7⟩,
  ⟨.RR3, .bbb, .ccc, .ddd, .eee, .aaa, 1, 15⟩,
  ⟨.RR3, .aaa, .bbb, .ccc, .ddd, .eee, 3, 11⟩,
  ⟨.RR3, .eee, .aaa, .bbb, .ccc, .ddd, 7, 8⟩,
  ⟨.RR3, .ddd, .eee, .aaa, .bbb, .ccc, 14, 6⟩,
  ⟨.RR3, .ccc, .ddd, .eee, .aaa, .bbb, 6, 6⟩,
  ⟨.RR3, .bbb, .ccc, .ddd, .eee, .aaa, 9, 14⟩,
  ⟨.RR3, .aaa, .bbb, .ccc, .ddd, .eee, 11, 12⟩,
  ⟨.RR3, .eee, .aaa, .bbb, .ccc, .ddd, 8, 13⟩,
  ⟨.RR3, .ddd, .eee, .aaa, .bbb, .ccc, 12, 5⟩,
  ⟨.RR3, .ccc, .ddd, .eee, .aaa, .bbb, 2, 14⟩,
  ⟨.RR3, .bbb, .ccc, .ddd, .eee, .aaa, 10, 13⟩,
  ⟨.RR3, .aaa, .bbb, .ccc, .ddd, .eee, 0, 13⟩,
  ⟨.RR3, .eee, .aaa, .bbb, .ccc, .ddd, 4, 7⟩,
  ⟨.RR3, .ddd, .eee, .aaa, .bbb, .ccc, 13, 5⟩,
  ⟨.R4, .cc, .dd, .ee, .aa, .bb, 1, 11⟩,
  ⟨.R4, .bb, .cc, .dd, .ee, .aa, 9, 12⟩,
  ⟨.R4, .aa, .bb, .cc, .dd, .ee, 11, 14⟩,
  ⟨.R4, .ee, .aa, .bb, .cc, .dd, 10, 15⟩,
  ⟨.R4, .dd, .ee, .aa, .bb, .cc, 0, 14⟩,
  ⟨.R4, .cc, .dd, .ee, .aa, .bb, 8, 15⟩,
  ⟨.R4, .bb, .cc, .dd, .ee, .aa, 12, 9⟩,
  ⟨.R4, .aa, .bb, .cc, .dd, .ee, 4, 8⟩,
  ⟨.R4, .ee, .aa, .bb, .cc, .dd, 13, 9⟩,
  ⟨.R4, .dd, .ee, .aa, .bb, .cc, 3, 14⟩,
  ⟨.R4, .cc, .dd, .ee, .aa, .bb, 7, 5⟩,
  ⟨.R4, .bb, .cc, .dd, .ee, .aa, 15, 6⟩,
  ⟨.R4, .aa, .bb, .cc, .dd, .ee, 14, 8⟩,
  ⟨.R4, .ee, .aa, .bb, .cc, .dd, 5, 6⟩,
  ⟨.R4, .dd, .ee, .aa, .bb, .cc, 6, 5⟩,
  ⟨.R4, .cc, .dd, .ee, .aa, .bb, 2, 12⟩,
  ⟨.RR4, .ccc, .ddd, .eee, .aaa, .bbb, 8, 15⟩,
  ⟨.RR4, .bbb, .ccc, .ddd, .eee, .aaa, 6, 5⟩,
  ⟨.RR4, .aaa, .bbb, .ccc, .ddd, .eee, 4, 8⟩,
  ⟨.RR4, .eee, .aaa, .bbb, .ccc, .ddd, 1, 11⟩,
  ⟨.RR4, .ddd, .eee, .aaa, .bbb, .ccc, 3, 14⟩,
  ⟨.RR4, .ccc, .ddd, .eee, .aaa, .bbb, 11, 14⟩,
  ⟨.RR4, .bbb, .ccc, .ddd, .eee, .aaa, 15, 6⟩,
  ⟨.RR4, .aaa, .bbb, .ccc, .ddd, .eee, 0, 14⟩,
  ⟨.RR4, .eee, .aaa, .bbb, .ccc, .ddd, 5, 6⟩,
  ⟨.RR4, .ddd, .eee, .aaa, .bbb, .ccc, 12, 9⟩,
  ⟨.RR4, .ccc, .ddd, .eee, .aaa, .bbb, 2, 12⟩,
  ⟨.RR4, .bbb, .ccc, .ddd, .eee, .aaa, 13, 9⟩,
  ⟨.RR4, .aaa, .bbb, .ccc, .ddd, .eee, 9, 12⟩,
  ⟨.RR4, .eee, .aaa, .bbb, .ccc, .ddd, 7, 5⟩,
  ⟨.RR4, .ddd, .eee, .aaa, .bbb, .ccc, 10, 15⟩,
  ⟨.RR4, .ccc, .ddd, .eee, .aaa, .bbb, 14, 8⟩,
  ⟨.R5, .bb, .cc, .dd, .ee, .aa, 4, 9⟩,
  ⟨.R5, .aa, .bb, .cc, .dd, .ee, 0, 15⟩,
  ⟨.R5, .ee, .aa, .bb, .cc, .dd, 5, 5⟩,
  ⟨.R5, .dd, .ee, .aa, .bb, .cc, 9, 11⟩,
  ⟨.R5, .cc, .dd, .ee, .aa, .bb, 7, 6⟩,
  ⟨.R5, .bb, .cc, .dd, .ee, .aa, 12, 8⟩,
  ⟨.R5, .aa, .bb, .cc, .dd, .ee, 2, 13⟩,
  ⟨.R5, .ee, .aa, .bb, .cc, .dd, 10, 12⟩,
  ⟨.R5, .dd, .ee, .aa, .bb, .cc, 14, 5⟩,
  ⟨.R5, .cc, .dd, .ee, .aa, .bb, 1, 12⟩,
  ⟨.R5, .bb, .cc, .dd, .ee, .aa, 3, 13⟩,
  ⟨.R5, .aa, .bb, .cc, .dd, .ee, 8, 14⟩,
  ⟨.R5, .ee, .aa, .bb, .cc, .dd, 11, 11⟩,
  ⟨.R5, .dd, .ee, .aa, .bb, .cc, 6, 8⟩,
  ⟨.R5, .cc, .dd, .ee, .aa, .bb, 15, 5⟩,
  ⟨.R5, .bb, .cc, .dd, .ee, .aa, 13, 6⟩,
  ⟨.RR5, .bbb, .ccc, .ddd, .eee, .aaa, 12, 8⟩,
  ⟨.RR5, .aaa, .bbb, .ccc, .ddd, .eee, 15, 5⟩,
  ⟨.RR5, .eee, .aaa, .bbb, .ccc, .ddd, 10, 12⟩,
  ⟨.RR5, .ddd, .eee, .aaa, .bbb, .ccc, 4, 9⟩,
  ⟨.RR5, .ccc, .ddd, .eee, .aaa, .bbb, 1, 12⟩,
  ⟨.RR5, .bbb, .ccc, .ddd, .eee, .aaa, 5, 5⟩,
  ⟨.RR5, .aaa, .bbb, .ccc, .ddd, .eee, 8, 14⟩,
  ⟨.RR5, .eee, .aaa, .bbb, .ccc, .ddd, 7, 6⟩,
  ⟨.RR5, .ddd, .eee, .aaa, .bbb, .ccc, 6, 8⟩,
  ⟨.RR5, .ccc, .ddd, .eee, .aaa, .bbb, 2, 13⟩,
  ⟨.RR5, .bbb, .ccc, .ddd, .eee, .aaa, 13, 6⟩,
  ⟨.RR5, .aaa, .bbb, .ccc, .ddd, .eee, 14, 5⟩,
  ⟨.RR5, .eee, .aaa, .bbb, .ccc, .ddd, 0, 15⟩,
  ⟨.RR5, .ddd, .eee, .aaa, .bbb, .ccc, 3, 13⟩,
  ⟨.RR5, .ccc, .ddd, .eee, .aaa, .bbb, 9, 11⟩,
  ⟨.RR5, .bbb, .ccc, .ddd, .eee, .aaa, 11, 11⟩
]

/-- void transform( unsigned char const block[ 64 ] ), ripemd.hpp:473-682 -/
def transform (env : Env) (block : Ptr) (st : Q5 W32) : M (Q5 W32) := do
  let x ← forLoop (fun i x => do
    let p ← block.add (i * 4)
    let v ← read32le env p
    aset x i v) 0 16 (List.replicate 16 0)
  let q ← rows.foldlM (fun q r => exec x r q) ⟨st, st⟩
  let ddd := q.R.d + (q.L.c + st.b)
  let s1 := st.c + q.L.d + q.R.e
  let s2 := st.d + q.L.e + q.R.a
  let s3 := st.e + q.L.a + q.R.b
  let s4 := st.a + q.L.b + q.R.c
  return ⟨ddd, s1, s2, s3, s4⟩

/-- update(), ripemd.hpp:713-765 -/
def cfg (env : Env) : BlockCfg (Q5 W32) :=
  { N := 64, ctrBits := 64, early := true, clear := true, whileLoop := true, transform := transform env }

/-- ripemd.hpp:777-785 -/
def pad : PadCfg :=
  { bitsLen := 8, writeBits := fun env d v => write64le env d 0 v, thr := 56, over := 120, padLen := 64,
    assertFirst := true }

/-- ripemd.hpp:386 -/
def iv : Q5 W32 := ⟨0x67452301#32, 0xefcdab89#32, 0x98badcfe#32, 0x10325476#32, 0xc3d2e1f0#32⟩

/-- ripemd.hpp:791-798 -/
def out (env : Env) (st : Q5 W32) : M (List Byte) :=
  forLoop (fun i d => do
    let v ← st.get i
    write32le env d (i * 4) v) 0 5 (List.replicate 20 0)

/-- what the class ripemd_160 is made of, ripemd.hpp:382-800 -/
def md : MdCfg (Q5 W32) := { cfg := cfg, pad := pad, iv := iv, out := out }

/-- class ripemd_160, ripemd.hpp:382-800 -/
def ripemd_160 : DigestAlg := md.alg 64

end Hash2.Rip160

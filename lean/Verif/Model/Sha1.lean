import Verif.Model.Digest
/-
Model of include/boost/hash2/sha1.hpp.
-/
namespace Hash2.Sha1

/-- the local variables a, b, c, d, e of transform(), sha1.hpp:93-97 -/
inductive Reg | a | b | c | d | e
  deriving DecidableEq, Repr

/-- the value of a local variable of transform(), sha1.hpp:93-97 -/
def get (q : Q5 W32) : Reg → W32
  | .a => q.a | .b => q.b | .c => q.c | .d => q.d | .e => q.e

/-- assignment to a local variable of transform(), sha1.hpp:93-97 -/
def set (q : Q5 W32) (r : Reg) (v : W32) : Q5 W32 :=
  match r with
  | .a => { q with a := v } | .b => { q with b := v } | .c => { q with c := v } | .d => { q with d := v }
  | .e => { q with e := v }

/-- the five step functions, sha1.hpp:44-89 -/
inductive Fn | R1 | R2 | R3 | R4 | R5
  deriving DecidableEq, Repr

/-- one call R1( a, b, c, d, e, w, block, i ) or R2( a, b, c, d, e, w, i ), sha1.hpp:101-184 -/
structure Row where
  (fn : Fn) (ra rb rc rd re : Reg) (i : Nat)
  deriving DecidableEq, Repr

/-- `f` of R1..R5, sha1.hpp:48, 61, 69, 77, 85 -/
def Fn.f : Fn → W32 → W32 → W32 → W32
  | .R1 => fun b c d => (b &&& c) ||| (~~~b &&& d)
  | .R2 => fun b c d => (b &&& c) ||| (~~~b &&& d)
  | .R3 => fun b c d => b ^^^ c ^^^ d
  | .R4 => fun b c d => (b &&& c) ||| (b &&& d) ||| (c &&& d)
  | .R5 => fun b c d => b ^^^ c ^^^ d

/-- the constant of R1..R5, sha1.hpp:50, 63, 71, 79, 87 -/
def Fn.const : Fn → W32
  | .R1 => 0x5A827999#32
  | .R2 => 0x5A827999#32
  | .R3 => 0x6ED9EBA1#32
  | .R4 => 0x8F1BBCDC#32
  | .R5 => 0xCA62C1D6#32

/-- static std::uint32_t W( std::uint32_t w[], int i ), sha1.hpp:54-57 -/
def W (w : List W32) (i : Nat) : M (List W32 × W32) := do
  let w3 ← aget w (← csub i 3)
  let w8 ← aget w (← csub i 8)
  let w14 ← aget w (← csub i 14)
  let w16 ← aget w (← csub i 16)
  let v := rotl (w3 ^^^ w8 ^^^ w14 ^^^ w16) 1
  let w ← aset w i v
  return (w, v)

/-- the word a step uses: R1 reads it from the block (sha1.hpp:46), the others compute it by W (sha1.hpp:59-89) -/
def fetch (block : Ptr) (fn : Fn) (w : List W32) (i : Nat) : M (List W32 × W32) :=
  match fn with
  | .R1 => do
    let p ← block.add (i * 4)
    let v ← read32be p
    let w ← aset w i v
    return (w, v)
  | _ => W w i

/-- bodies of R1..R5, sha1.hpp:44-89 -/
def exec (block : Ptr) (r : Row) (s : Q5 W32 × List W32) : M (Q5 W32 × List W32) := do
  let q := s.1
  let (w, wi) ← fetch block r.fn s.2 r.i
  let f := r.fn.f (get q r.rb) (get q r.rc) (get q r.rd)
  let q := set q r.re (get q r.re + (rotl (get q r.ra) 5 + f + r.fn.const + wi))
  let q := set q r.rb (rotl (get q r.rb) 30)
  return (q, w)

/-- the calls of transform(), one row per source line, sha1.hpp:101-184 -/
def rows : List Row := [
  ⟨.R1, .a, .b, .c, .d, .e, 0⟩,
  ⟨.R1, .e, .a, .b, .c, .d, 1⟩,
  ⟨.R1, .d, .e, .a, .b, .c, 2⟩,
  ⟨.R1, .c, .d, .e, .a, .b, 3⟩,
  ⟨.R1, .b, .c, .d, .e, .a, 4⟩,
  ⟨.R1, .a, .b, .c, .d, .e, 5⟩,
  ⟨.R1, .e, .a, .b, .c, .d, 6⟩,
  ⟨.R1, .d, .e, .a, .b, .c, 7⟩,
  ⟨.R1, .c, .d, .e, .a, .b, 8⟩,
  ⟨.R1, .b, .c, .d, .e, .a, 9⟩,
  ⟨.R1, .a, .b, .c, .d, .e, 10⟩,
  ⟨.R1, .e, .a, .b, .c, .d, 11⟩,
  ⟨.R1, .d, .e, .a, .b, .c, 12⟩,
  ⟨.R1, .c, .d, .e, .a, .b, 13⟩,
  ⟨.R1, .b, .c, .d, .e, .a, 14⟩,
  ⟨.R1, .a, .b, .c, .d, .e, 15⟩,
  ⟨.R2, .e, .a, .b, .c, .d, 16⟩,
  ⟨.R2, .d, .e, .a, .b, .c, 17⟩,
  ⟨.R2, .c, .d, .e, .a, .b, 18⟩,
  ⟨.R2, .b, .c, .d, .e, .a, 19⟩,
  ⟨.R3, .a, .b, .c, .d, .e, 20⟩,
  ⟨.R3, .e, .a, .b, .c, .d, 21⟩,
  ⟨.R3, .d, .e, .a, .b, .c, 22⟩,
  ⟨.R3, .c, .d, .e, .a, .b, 23⟩,
  ⟨.R3, .b, .c, .d, .e, .a, 24⟩,
  ⟨.R3, .a, .b, .c, .d, .e, 25⟩,
  ⟨.R3, .e, .a, .b, .c, .d, 26⟩,
  ⟨.R3, .d, .e, .a, .b, .c, 27⟩,
  ⟨.R3, .c, .d, .e, .a, .b, 28⟩,
  ⟨.R3, .b, .c, .d, .e, .a, 29⟩,
  ⟨.R3, .a, .b, .c, .d, .e, 30⟩,
  ⟨.R3, .e, .a, .b, .c, .d, 31⟩,
  ⟨.R3, .d, .e, .a, .b, .c, 32⟩,
  ⟨.R3, .c, .d, .e, .a, .b, 33⟩,
  ⟨.R3, .b, .c, .d, .e, .a, 34⟩,
  ⟨.R3, .a, .b, .c, .d, .e, 35⟩,
  ⟨.R3, .e, .a, .b, .c, .d, 36⟩,
  ⟨.R3, .d, .e, .a, .b, .c, 37⟩,
  ⟨.R3, .c, .d, .e, .a, .b, 38⟩,
  ⟨.R3, .b, .c, .d, .e, .a, 39⟩,
  ⟨.R4, .a, .b, .c, .d, .e, 40⟩,
  ⟨.R4, .e, .a, .b, .c, .d, 41⟩,
  ⟨.R4, .d, .e, .a, .b, .c, 42⟩,
  ⟨.R4, .c, .d, .e, .a, .b, 43⟩,
  ⟨.R4, .b, .c, .d, .e, .a, 44⟩,
  ⟨.R4, .a, .b, .c, .d, .e, 45⟩,
  ⟨.R4, .e, .a, .b, .c, .d, 46⟩,
  ⟨.R4, .d, .e, .a, .b, .c, 47⟩,
  ⟨.R4, .c, .d, .e, .a, .b, 48⟩,
  ⟨.R4, .b, .c, .d, .e, .a, 49⟩,
  ⟨.R4, .a, .b, .c, .d, .e, 50⟩,
  ⟨.R4, .e, .a, .b, .c, .d, 51⟩,
  ⟨.R4, .d, .e, .a, .b, .c, 52⟩,
  ⟨.R4, .c, .d, .e, .a, .b, 53⟩,
  ⟨.R4, .b, .c, .d, .e, .a, 54⟩,
  ⟨.R4, .a, .b, .c, .d, .e, 55⟩,
  ⟨.R4, .e, .a, .b, .c, .d, 56⟩,
  ⟨.R4, .d, .e, .a, .b, .c, 57⟩,
  ⟨.R4, .c, .d, .e, .a, .b, 58⟩,
  ⟨.R4, .b, .c, .d, .e, .a, 59⟩,
  ⟨.R5, .a, .b, .c, .d, .e, 60⟩,
  ⟨.R5, .e, .a, .b, .c, .d, 61⟩,
  ⟨.R5, .d, .e, .a, .b, .c, 62⟩,
  ⟨.R5, .c, .d, .e, .a, .b, 63⟩,
  ⟨.R5, .b, .c, .d, .e, .a, 64⟩,
  ⟨.R5, .a, .b, .c, .d, .e, 65⟩,
  ⟨.R5, .e, .a, .b, .c, .d, 66⟩,
  ⟨.R5, .d, .e, .a, .b, .c, 67⟩,
  ⟨.R5, .c, .d, .e, .a, .b, 68⟩,
  ⟨.R5, .b, .c, .d, .e, .a, 69⟩,
  ⟨.R5, .a, .b, .c, .d, .e, 70⟩,
  ⟨.R5, .e, .a, .b, .c, .d, 71⟩,
  ⟨.R5, .d, .e, .a, .b, .c, 72⟩,
  ⟨.R5, .c, .d, .e, .a, .b, 73⟩,
  ⟨.R5, .b, .c, .d, .e, .a, 74⟩,
  ⟨.R5, .a, .b, .c, .d, .e, 75⟩,
  ⟨.R5, .e, .a, .b, .c, .d, 76⟩,
  ⟨.R5, .d, .e, .a, .b, .c, 77⟩,
  ⟨.R5, .c, .d, .e, .a, .b, 78⟩,
  ⟨.R5, .b, .c, .d, .e, .a, 79⟩]

/-- void transform( unsigned char const block[ 64 ] ), sha1.hpp:91-191 -/
def transform (block : Ptr) (st : Q5 W32) : M (Q5 W32) := do
  let (q, _) ← rows.foldlM (fun s r => exec block r s) (st, List.replicate 80 0)
  return ⟨st.a + q.a, st.b + q.b, st.c + q.c, st.d + q.d, st.e + q.e⟩

/-- update(), sha1.hpp:222-274 -/
def cfg (_env : Env) : BlockCfg (Q5 W32) :=
  { N := 64, ctrBits := 64, early := true, clear := true, whileLoop := true, transform := transform }

/-- sha1.hpp:286-294 -/
def pad : PadCfg :=
  { bitsLen := 8, writeBits := fun _ d v => write64be d 0 v, thr := 56, over := 120, padLen := 64,
    assertFirst := true }

/-- sha1.hpp:33 -/
def iv : Q5 W32 := ⟨0x67452301#32, 0xefcdab89#32, 0x98badcfe#32, 0x10325476#32, 0xc3d2e1f0#32⟩

/-- sha1.hpp:300-307 -/
def out (_env : Env) (st : Q5 W32) : M (List Byte) :=
  forLoop (fun i d => do
    let v ← st.get i
    write32be d (i * 4) v) 0 5 (List.replicate 20 0)

/-- what the class sha1_160 is made of, sha1.hpp:29-309 -/
def md : MdCfg (Q5 W32) := { cfg := cfg, pad := pad, iv := iv, out := out }

/-- class sha1_160, sha1.hpp:29-309 -/
def sha1_160 : DigestAlg := md.alg 64

end Hash2.Sha1

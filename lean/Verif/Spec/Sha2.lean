import Verif.Spec.Md
import Verif.Spec.Roots
/-
SHA-224, SHA-256, SHA-384, SHA-512, SHA-512/t, FIPS 180-4 sections 4.1.2, 4.1.3, 4.2.2, 4.2.3, 5.3, 6.2 .. 6.7.
Nothing here refers to the code.
-/
namespace Hash2.Spec.SHA2

structure St (w : Nat) where
  (a b c d e f g h : BitVec w)
  deriving DecidableEq, Repr

/-- what distinguishes the functions on 32-bit words from those on 64-bit words -/
structure Variant (w : Nat) where
  /-- number of rounds -/
  rounds : Nat
  (S0 S1 s0 s1 : BitVec w → BitVec w)

/-- FIPS 180-4 section 4.1.2 -/
def v256 : Variant 32 where
  rounds := 64
  S0 x := x.rotateRight 2 ^^^ x.rotateRight 13 ^^^ x.rotateRight 22
  S1 x := x.rotateRight 6 ^^^ x.rotateRight 11 ^^^ x.rotateRight 25
  s0 x := x.rotateRight 7 ^^^ x.rotateRight 18 ^^^ (x >>> 3)
  s1 x := x.rotateRight 17 ^^^ x.rotateRight 19 ^^^ (x >>> 10)

/-- FIPS 180-4 section 4.1.3 -/
def v512 : Variant 64 where
  rounds := 80
  S0 x := x.rotateRight 28 ^^^ x.rotateRight 34 ^^^ x.rotateRight 39
  S1 x := x.rotateRight 14 ^^^ x.rotateRight 18 ^^^ x.rotateRight 41
  s0 x := x.rotateRight 1 ^^^ x.rotateRight 8 ^^^ (x >>> 7)
  s1 x := x.rotateRight 19 ^^^ x.rotateRight 61 ^^^ (x >>> 6)

def Ch {w : Nat} (x y z : BitVec w) : BitVec w := (x &&& y) ^^^ (~~~x &&& z)
def Maj {w : Nat} (x y z : BitVec w) : BitVec w := (x &&& y) ^^^ (x &&& z) ^^^ (y &&& z)

/-- "the first w bits of the fractional parts of the cube roots of the first 64 (80) prime numbers" -/
def K (w : Nat) (t : Nat) : BitVec w := fracCbrt w (prime t)

/-- word i of a block, most significant byte first -/
def word (w : Nat) (blk : List Byte) (i : Nat) : BitVec w := beWord w ((blk.drop (w / 8 * i)).take (w / 8))

/-- the message schedule -/
def W {w : Nat} (V : Variant w) (blk : List Byte) (t : Nat) : BitVec w :=
  if t < 16 then word w blk t
  else V.s1 (W V blk (t - 2)) + W V blk (t - 7) + V.s0 (W V blk (t - 15)) + W V blk (t - 16)
termination_by t

def step {w : Nat} (V : Variant w) (blk : List Byte) (t : Nat) (q : St w) : St w :=
  let T1 := q.h + V.S1 q.e + Ch q.e q.f q.g + K w t + W V blk t
  let T2 := V.S0 q.a + Maj q.a q.b q.c
  { h := q.g, g := q.f, f := q.e, e := q.d + T1, d := q.c, c := q.b, b := q.a, a := T1 + T2 }

def compress {w : Nat} (V : Variant w) (h : St w) (blk : List Byte) : St w :=
  let q := (List.range V.rounds).foldl (fun q t => step V blk t q) h
  { a := q.a + h.a, b := q.b + h.b, c := q.c + h.c, d := q.d + h.d,
    e := q.e + h.e, f := q.f + h.f, g := q.g + h.g, h := q.h + h.h }

/-- the words of a chaining value, most significant byte first -/
def encode {w : Nat} (q : St w) : List Byte :=
  [q.a, q.b, q.c, q.d, q.e, q.f, q.g, q.h].flatMap fun x => natBE (w / 8) x.toNat

/-- an initial value from eight words -/
def ofFn {w : Nat} (x : Nat → BitVec w) : St w := ⟨x 0, x 1, x 2, x 3, x 4, x 5, x 6, x 7⟩

/-- the functions on 32-bit words; `outLen` is the length of the digest in bytes -/
def md32 (iv : St 32) (outLen : Nat) : Md (St 32) where
  N := 64
  L := 8
  encLen bits := natBE 8 bits
  iv := iv
  compress := compress v256
  out h := (encode h).take outLen

/-- the functions on 64-bit words -/
def md64 (iv : St 64) (outLen : Nat) : Md (St 64) where
  N := 128
  L := 16
  encLen bits := natBE 16 bits
  iv := iv
  compress := compress v512
  out h := (encode h).take outLen

/-- "the first 32 bits of the fractional parts of the square roots of the first eight prime numbers" -/
def iv256 : St 32 := ofFn fun i => fracSqrt 32 (prime i)

/-- SHA-224: the second 32 bits of the fractional parts of the square roots of the ninth through sixteenth primes -/
def iv224 : St 32 := ofFn fun i => (fracSqrt 64 (prime (8 + i))).truncate 32

/-- "the first 64 bits of the fractional parts of the square roots of the first eight prime numbers" -/
def iv512 : St 64 := ofFn fun i => fracSqrt 64 (prime i)

/-- "the first 64 bits of the fractional parts of the square roots of the ninth through sixteenth prime numbers" -/
def iv384 : St 64 := ofFn fun i => fracSqrt 64 (prime (8 + i))

/-- the modified initial value of the SHA-512/t IV generation function, section 5.3.6 -/
def ivGen : St 64 := ofFn fun i => fracSqrt 64 (prime i) ^^^ 0xa5a5a5a5a5a5a5a5

/-- SHA-512/t IV generation function, section 5.3.6: the hash of the ASCII string "SHA-512/t" under the modified initial value -/
def ivT (name : List Byte) : St 64 :=
  (md64 ivGen 64).chain (name ++ (md64 ivGen 64).pad name.length)

/-- "SHA-512/224" -/
def name224 : List Byte := [0x53, 0x48, 0x41, 0x2d, 0x35, 0x31, 0x32, 0x2f, 0x32, 0x32, 0x34]
/-- "SHA-512/256" -/
def name256 : List Byte := [0x53, 0x48, 0x41, 0x2d, 0x35, 0x31, 0x32, 0x2f, 0x32, 0x35, 0x36]

def sha256 : Md (St 32) := md32 iv256 32
def sha224 : Md (St 32) := md32 iv224 28
def sha512 : Md (St 64) := md64 iv512 64
def sha384 : Md (St 64) := md64 iv384 48
def sha512_224 : Md (St 64) := md64 (ivT name224) 28
def sha512_256 : Md (St 64) := md64 (ivT name256) 32

end Hash2.Spec.SHA2

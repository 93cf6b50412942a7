import Verif.Spec.Md
import Verif.Spec.Roots
/-
SHA-1, FIPS 180-4 sections 4.1.1, 4.2.1, 5.3.1, 6.1.2. Nothing here refers to the code.
-/
namespace Hash2.Spec.SHA1

structure St where
  (a b c d e : BitVec 32)
  deriving DecidableEq, Repr

/-- word i of a block, most significant byte first -/
def word (blk : List Byte) (i : Nat) : BitVec 32 := beWord 32 ((blk.drop (4 * i)).take 4)

/-- the message schedule -/
def W (blk : List Byte) (t : Nat) : BitVec 32 :=
  if t < 16 then word blk t
  else (W blk (t - 3) ^^^ W blk (t - 8) ^^^ W blk (t - 14) ^^^ W blk (t - 16)).rotateLeft 1
termination_by t

/-- Ch, Parity, Maj, Parity -/
def f (t : Nat) (x y z : BitVec 32) : BitVec 32 :=
  match t / 20 with
  | 0 => (x &&& y) ^^^ (~~~x &&& z)
  | 2 => (x &&& y) ^^^ (x &&& z) ^^^ (y &&& z)
  | _ => x ^^^ y ^^^ z

/-- the constants: integer parts of 2^30 times the square roots of 2, 3, 5, 10 -/
def K (t : Nat) : BitVec 32 := BitVec.ofNat 32 (root 2 ([2, 3, 5, 10].getD (t / 20) 0 * 2 ^ 60))

def step (blk : List Byte) (t : Nat) (q : St) : St :=
  let T := q.a.rotateLeft 5 + f t q.b q.c q.d + q.e + K t + W blk t
  { a := T, b := q.a, c := q.b.rotateLeft 30, d := q.c, e := q.d }

def compress (h : St) (blk : List Byte) : St :=
  let q := (List.range 80).foldl (fun q t => step blk t q) h
  { a := q.a + h.a, b := q.b + h.b, c := q.c + h.c, d := q.d + h.d, e := q.e + h.e }

def sha1 : Md St where
  N := 64
  L := 8
  encLen bits := natBE 8 bits
  iv := ⟨0x67452301, 0xefcdab89, 0x98badcfe, 0x10325476, 0xc3d2e1f0⟩
  compress := compress
  out h := natBE 4 h.a.toNat ++ natBE 4 h.b.toNat ++ natBE 4 h.c.toNat ++ natBE 4 h.d.toNat ++ natBE 4 h.e.toNat

end Hash2.Spec.SHA1

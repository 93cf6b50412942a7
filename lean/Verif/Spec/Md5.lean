import Verif.Spec.Md
/-
MD5, RFC 1321, in the form of a single loop of 64 steps. Nothing here refers to the code.
-/
namespace Hash2.Spec.MD5

structure St where
  (A B C D : BitVec 32)
  deriving DecidableEq, Repr

/-- word i of a block: RFC 1321 section 2, "the low-order byte given first" -/
def word (blk : List Byte) (i : Nat) : BitVec 32 := leWord 32 ((blk.drop (4 * i)).take 4)

/-- the auxiliary functions F, G, H, I, RFC 1321 section 3.4 -/
def aux (round : Nat) (X Y Z : BitVec 32) : BitVec 32 :=
  match round with
  | 0 => (X &&& Y) ||| (~~~X &&& Z)
  | 1 => (X &&& Z) ||| (Y &&& ~~~Z)
  | 2 => X ^^^ Y ^^^ Z
  | _ => Y ^^^ (X ||| ~~~Z)

/-- index of the message word used in step i -/
def idx (i : Nat) : Nat :=
  match i / 16 with
  | 0 => i % 16
  | 1 => (5 * i + 1) % 16
  | 2 => (3 * i + 5) % 16
  | _ => (7 * i) % 16

/-- amount of the rotation in step i -/
def shift (i : Nat) : Nat :=
  (([[7, 12, 17, 22], [5, 9, 14, 20], [4, 11, 16, 23], [6, 10, 15, 21]].getD (i / 16) []).getD (i % 4) 0)

/-- T[i+1], the integer part of 4294967296 times abs(sin(i+1)), RFC 1321 section 3.4 -/
def T : List (BitVec 32) := [
  0xd76aa478, 0xe8c7b756, 0x242070db, 0xc1bdceee, 0xf57c0faf, 0x4787c62a, 0xa8304613, 0xfd469501,
  0x698098d8, 0x8b44f7af, 0xffff5bb1, 0x895cd7be, 0x6b901122, 0xfd987193, 0xa679438e, 0x49b40821,
  0xf61e2562, 0xc040b340, 0x265e5a51, 0xe9b6c7aa, 0xd62f105d, 0x02441453, 0xd8a1e681, 0xe7d3fbc8,
  0x21e1cde6, 0xc33707d6, 0xf4d50d87, 0x455a14ed, 0xa9e3e905, 0xfcefa3f8, 0x676f02d9, 0x8d2a4c8a,
  0xfffa3942, 0x8771f681, 0x6d9d6122, 0xfde5380c, 0xa4beea44, 0x4bdecfa9, 0xf6bb4b60, 0xbebfbc70,
  0x289b7ec6, 0xeaa127fa, 0xd4ef3085, 0x04881d05, 0xd9d4d039, 0xe6db99e5, 0x1fa27cf8, 0xc4ac5665,
  0xf4292244, 0x432aff97, 0xab9423a7, 0xfc93a039, 0x655b59c3, 0x8f0ccc92, 0xffeff47d, 0x85845dd1,
  0x6fa87e4f, 0xfe2ce6e0, 0xa3014314, 0x4e0811a1, 0xf7537e82, 0xbd3af235, 0x2ad7d2bb, 0xeb86d391]

/-- step i: a = b + ((a + f(b,c,d) + X[k] + T[i]) <<< s), after which the registers change roles -/
def step (blk : List Byte) (i : Nat) (q : St) : St :=
  { A := q.D
    B := q.B + (q.A + aux (i / 16) q.B q.C q.D + word blk (idx i) + T.getD i 0).rotateLeft (shift i)
    C := q.B
    D := q.C }

/-- RFC 1321 section 3.4 -/
def compress (h : St) (blk : List Byte) : St :=
  let q := (List.range 64).foldl (fun q i => step blk i q) h
  { A := h.A + q.A, B := h.B + q.B, C := h.C + q.C, D := h.D + q.D }

/-- MD5. The length is 64 bits, low-order byte first; "in the unlikely event that b is greater than 2^64, then only the
low-order 64 bits of b are used" -/
def md5 : Md St where
  N := 64
  L := 8
  encLen bits := natLE 8 bits
  iv := ⟨0x67452301, 0xefcdab89, 0x98badcfe, 0x10325476⟩
  compress := compress
  out h := natLE 4 h.A.toNat ++ natLE 4 h.B.toNat ++ natLE 4 h.C.toNat ++ natLE 4 h.D.toNat

end Hash2.Spec.MD5

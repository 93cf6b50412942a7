import Verif.Spec.Md
import Verif.Spec.Roots
/-
RIPEMD-160 and RIPEMD-128: H. Dobbertin, A. Bosselaers, B. Preneel, "RIPEMD-160: A Strengthened Version of RIPEMD", 1996,
sections 2 and 3 and appendices A and B. Nothing here refers to the code.
-/
namespace Hash2.Spec.RIPEMD

/-- word i of a block, least significant byte first -/
def word (blk : List Byte) (i : Nat) : BitVec 32 := leWord 32 ((blk.drop (4 * i)).take 4)

/-- nonlinear functions at bit level: f(j, x, y, z), by round j / 16 -/
def f (round : Nat) (x y z : BitVec 32) : BitVec 32 :=
  match round with
  | 0 => x ^^^ y ^^^ z
  | 1 => (x &&& y) ||| (~~~x &&& z)
  | 2 => (x ||| ~~~y) ^^^ z
  | 3 => (x &&& z) ||| (y &&& ~~~z)
  | _ => x ^^^ (y ||| ~~~z)

/-- added constants of the left line: 0, then integer parts of 2^30 times the square roots of 2, 3, 5, 7 -/
def K (round : Nat) : BitVec 32 :=
  if round = 0 then 0 else BitVec.ofNat 32 (root 2 ([2, 3, 5, 7].getD (round - 1) 0 * 2 ^ 60))

/-- added constants of the right line: integer parts of 2^30 times the cube roots of 2, 3, 5, 7, and 0 in the last round -/
def K' (last round : Nat) : BitVec 32 :=
  if round = last then 0 else BitVec.ofNat 32 (root 3 ([2, 3, 5, 7].getD round 0 * 2 ^ 90))

/-- selection of message word, left line -/
def r : List Nat := [
  0, 1, 2, 3, 4, 5, 6, 7, 8, 9, 10, 11, 12, 13, 14, 15,
  7, 4, 13, 1, 10, 6, 15, 3, 12, 0, 9, 5, 2, 14, 11, 8,
  3, 10, 14, 4, 9, 15, 8, 1, 2, 7, 0, 6, 13, 11, 5, 12,
  1, 9, 11, 10, 0, 8, 12, 4, 13, 3, 7, 15, 14, 5, 6, 2,
  4, 0, 5, 9, 7, 12, 2, 10, 14, 1, 3, 8, 11, 6, 15, 13]

/-- selection of message word, right line -/
def r' : List Nat := [
  5, 14, 7, 0, 9, 2, 11, 4, 13, 6, 15, 8, 1, 10, 3, 12,
  6, 11, 3, 7, 0, 13, 5, 10, 14, 15, 8, 12, 4, 9, 1, 2,
  15, 5, 1, 3, 7, 14, 6, 9, 11, 8, 12, 2, 10, 0, 4, 13,
  8, 6, 4, 1, 3, 11, 15, 0, 5, 12, 2, 13, 9, 7, 10, 14,
  12, 15, 10, 4, 1, 5, 8, 7, 6, 2, 13, 14, 0, 3, 9, 11]

/-- amount for rotate left, left line -/
def s : List Nat := [
  11, 14, 15, 12, 5, 8, 7, 9, 11, 13, 14, 15, 6, 7, 9, 8,
  7, 6, 8, 13, 11, 9, 7, 15, 7, 12, 15, 9, 11, 7, 13, 12,
  11, 13, 6, 7, 14, 9, 13, 15, 14, 8, 13, 6, 5, 12, 7, 5,
  11, 12, 14, 15, 14, 15, 9, 8, 9, 14, 5, 6, 8, 6, 5, 12,
  9, 15, 5, 11, 6, 8, 13, 12, 5, 12, 13, 14, 11, 8, 5, 6]

/-- amount for rotate left, right line -/
def s' : List Nat := [
  8, 9, 9, 11, 13, 15, 15, 5, 7, 7, 8, 11, 14, 14, 12, 6,
  9, 13, 15, 7, 12, 8, 9, 11, 7, 7, 12, 7, 6, 15, 13, 11,
  9, 7, 15, 11, 8, 6, 6, 14, 12, 13, 5, 14, 13, 13, 7, 5,
  15, 5, 8, 11, 14, 14, 6, 14, 6, 9, 12, 9, 12, 5, 15, 8,
  8, 5, 12, 9, 12, 5, 14, 6, 8, 13, 6, 5, 15, 13, 11, 11]

/-! ### RIPEMD-160 -/

structure St5 where
  (A B C D E : BitVec 32)
  deriving DecidableEq, Repr

/-- one step of a line -/
def step5 (F : BitVec 32 → BitVec 32 → BitVec 32 → BitVec 32) (X Kj : BitVec 32) (sj : Nat) (q : St5) : St5 :=
  let T := (q.A + F q.B q.C q.D + X + Kj).rotateLeft sj + q.E
  { A := q.E, E := q.D, D := q.C.rotateLeft 10, C := q.B, B := T }

def left160 (blk : List Byte) (j : Nat) : St5 → St5 :=
  step5 (f (j / 16)) (word blk (r.getD j 0)) (K (j / 16)) (s.getD j 0)

def right160 (blk : List Byte) (j : Nat) : St5 → St5 :=
  step5 (f ((79 - j) / 16)) (word blk (r'.getD j 0)) (K' 4 (j / 16)) (s'.getD j 0)

def compress160 (h : St5) (blk : List Byte) : St5 :=
  let q := (List.range 80).foldl (fun q j => left160 blk j q) h
  let q' := (List.range 80).foldl (fun q j => right160 blk j q) h
  { A := h.B + q.C + q'.D
    B := h.C + q.D + q'.E
    C := h.D + q.E + q'.A
    D := h.E + q.A + q'.B
    E := h.A + q.B + q'.C }

def ripemd160 : Md St5 where
  N := 64
  L := 8
  encLen bits := natLE 8 bits
  iv := ⟨0x67452301, 0xEFCDAB89, 0x98BADCFE, 0x10325476, 0xC3D2E1F0⟩
  compress := compress160
  out h := natLE 4 h.A.toNat ++ natLE 4 h.B.toNat ++ natLE 4 h.C.toNat ++ natLE 4 h.D.toNat ++ natLE 4 h.E.toNat

/-! ### RIPEMD-128 -/

structure St4 where
  (A B C D : BitVec 32)
  deriving DecidableEq, Repr

/-- one step of a line -/
def step4 (F : BitVec 32 → BitVec 32 → BitVec 32 → BitVec 32) (X Kj : BitVec 32) (sj : Nat) (q : St4) : St4 :=
  let T := (q.A + F q.B q.C q.D + X + Kj).rotateLeft sj
  { A := q.D, D := q.C, C := q.B, B := T }

def left128 (blk : List Byte) (j : Nat) : St4 → St4 :=
  step4 (f (j / 16)) (word blk (r.getD j 0)) (K (j / 16)) (s.getD j 0)

def right128 (blk : List Byte) (j : Nat) : St4 → St4 :=
  step4 (f ((63 - j) / 16)) (word blk (r'.getD j 0)) (K' 3 (j / 16)) (s'.getD j 0)

def compress128 (h : St4) (blk : List Byte) : St4 :=
  let q := (List.range 64).foldl (fun q j => left128 blk j q) h
  let q' := (List.range 64).foldl (fun q j => right128 blk j q) h
  { A := h.B + q.C + q'.D
    B := h.C + q.D + q'.A
    C := h.D + q.A + q'.B
    D := h.A + q.B + q'.C }

def ripemd128 : Md St4 where
  N := 64
  L := 8
  encLen bits := natLE 8 bits
  iv := ⟨0x67452301, 0xEFCDAB89, 0x98BADCFE, 0x10325476⟩
  compress := compress128
  out h := natLE 4 h.A.toNat ++ natLE 4 h.B.toNat ++ natLE 4 h.C.toNat ++ natLE 4 h.D.toNat

end Hash2.Spec.RIPEMD

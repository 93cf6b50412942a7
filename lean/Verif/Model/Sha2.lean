import Verif.Model.Digest
/-
Model of include/boost/hash2/sha2.hpp.
-/
namespace Hash2.Sha2

/-- sha2_256_constants<>::K, sha2.hpp:106-119 -/
def K256 : List W32 := [
  0x428a2f98#32, 0x71374491#32, 0xb5c0fbcf#32, 0xe9b5dba5#32,
  0x3956c25b#32, 0x59f111f1#32, 0x923f82a4#32, 0xab1c5ed5#32,
  0xd807aa98#32, 0x12835b01#32, 0x243185be#32, 0x550c7dc3#32,
  0x72be5d74#32, 0x80deb1fe#32, 0x9bdc06a7#32, 0xc19bf174#32,
  0xe49b69c1#32, 0xefbe4786#32, 0x0fc19dc6#32, 0x240ca1cc#32,
  0x2de92c6f#32, 0x4a7484aa#32, 0x5cb0a9dc#32, 0x76f988da#32,
  0x983e5152#32, 0xa831c66d#32, 0xb00327c8#32, 0xbf597fc7#32,
  0xc6e00bf3#32, 0xd5a79147#32, 0x06ca6351#32, 0x14292967#32,
  0x27b70a85#32, 0x2e1b2138#32, 0x4d2c6dfc#32, 0x53380d13#32,
  0x650a7354#32, 0x766a0abb#32, 0x81c2c92e#32, 0x92722c85#32,
  0xa2bfe8a1#32, 0xa81a664b#32, 0xc24b8b70#32, 0xc76c51a3#32,
  0xd192e819#32, 0xd6990624#32, 0xf40e3585#32, 0x106aa070#32,
  0x19a4c116#32, 0x1e376c08#32, 0x2748774c#32, 0x34b0bcb5#32,
  0x391c0cb3#32, 0x4ed8aa4a#32, 0x5b9cca4f#32, 0x682e6ff3#32,
  0x748f82ee#32, 0x78a5636f#32, 0x84c87814#32, 0x8cc70208#32,
  0x90befffa#32, 0xa4506ceb#32, 0xbef9a3f7#32, 0xc67178f2#32
]

/-- sha2_512_constants<>::K, sha2.hpp:125-147 -/
def K512 : List W64 := [
  0x428a2f98d728ae22#64, 0x7137449123ef65cd#64,
  0xb5c0fbcfec4d3b2f#64, 0xe9b5dba58189dbbc#64,
  0x3956c25bf348b538#64, 0x59f111f1b605d019#64,
  0x923f82a4af194f9b#64, 0xab1c5ed5da6d8118#64,
  0xd807aa98a3030242#64, 0x12835b0145706fbe#64,
  0x243185be4ee4b28c#64, 0x550c7dc3d5ffb4e2#64,
  0x72be5d74f27b896f#64, 0x80deb1fe3b1696b1#64,
  0x9bdc06a725c71235#64, 0xc19bf174cf692694#64,
  0xe49b69c19ef14ad2#64, 0xefbe4786384f25e3#64,
  0x0fc19dc68b8cd5b5#64, 0x240ca1cc77ac9c65#64,
  0x2de92c6f592b0275#64, 0x4a7484aa6ea6e483#64,
  0x5cb0a9dcbd41fbd4#64, 0x76f988da831153b5#64,
  0x983e5152ee66dfab#64, 0xa831c66d2db43210#64,
  0xb00327c898fb213f#64, 0xbf597fc7beef0ee4#64,
  0xc6e00bf33da88fc2#64, 0xd5a79147930aa725#64,
  0x06ca6351e003826f#64, 0x142929670a0e6e70#64,
  0x27b70a8546d22ffc#64, 0x2e1b21385c26c926#64,
  0x4d2c6dfc5ac42aed#64, 0x53380d139d95b3df#64,
  0x650a73548baf63de#64, 0x766a0abb3c77b2a8#64,
  0x81c2c92e47edaee6#64, 0x92722c851482353b#64,
  0xa2bfe8a14cf10364#64, 0xa81a664bbc423001#64,
  0xc24b8b70d0f89791#64, 0xc76c51a30654be30#64,
  0xd192e819d6ef5218#64, 0xd69906245565a910#64,
  0xf40e35855771202a#64, 0x106aa07032bbd1b8#64,
  0x19a4c116b8d2d0c8#64, 0x1e376c085141ab53#64,
  0x2748774cdf8eeb99#64, 0x34b0bcb5e19b48a8#64,
  0x391c0cb3c5c95a63#64, 0x4ed8aa4ae3418acb#64,
  0x5b9cca4f7763e373#64, 0x682e6ff3d6b2b8a3#64,
  0x748f82ee5defb2fc#64, 0x78a5636f43172f60#64,
  0x84c87814a1f0ab72#64, 0x8cc702081a6439ec#64,
  0x90befffa23631e28#64, 0xa4506cebde82bde9#64,
  0xbef9a3f7b2c67915#64, 0xc67178f2e372532b#64,
  0xca273eceea26619c#64, 0xd186b8c721c0c207#64,
  0xeada7dd6cde0eb1e#64, 0xf57d4f7fee6ed178#64,
  0x06f067aa72176fba#64, 0x0a637dc5a2c898a6#64,
  0x113f9804bef90dae#64, 0x1b710b35131c471b#64,
  0x28db77f523047d84#64, 0x32caab7b40c72493#64,
  0x3c9ebe0a15c9bebc#64, 0x431d67c49c100d4c#64,
  0x4cc5d4becb3e42b6#64, 0x597f299cfc657e2a#64,
  0x5fcb6fab3ad6faec#64, 0x6c44198c4a475817#64
]

namespace S256
/-- sha2.hpp:169-172 -/
def Sigma0 (x : W32) : W32 := rotr x 2 ^^^ rotr x 13 ^^^ rotr x 22
/-- sha2.hpp:174-177 -/
def Sigma1 (x : W32) : W32 := rotr x 6 ^^^ rotr x 11 ^^^ rotr x 25
/-- sha2.hpp:179-182 -/
def sigma0 (x : W32) : W32 := rotr x 7 ^^^ rotr x 18 ^^^ (x >>> 3)
/-- sha2.hpp:184-187 -/
def sigma1 (x : W32) : W32 := rotr x 17 ^^^ rotr x 19 ^^^ (x >>> 10)
/-- sha2.hpp:189-192 -/
def Ch (x y z : W32) : W32 := (x &&& y) ^^^ (~~~x &&& z)
/-- sha2.hpp:194-197 -/
def Maj (x y z : W32) : W32 := (x &&& y) ^^^ (x &&& z) ^^^ (y &&& z)
end S256

namespace S512
/-- sha2.hpp:252-255 -/
def Ch (x y z : W64) : W64 := (x &&& y) ^^^ (~~~x &&& z)
/-- sha2.hpp:257-260 -/
def Maj (x y z : W64) : W64 := (x &&& y) ^^^ (x &&& z) ^^^ (y &&& z)
/-- sha2.hpp:262-265 -/
def Sigma0 (x : W64) : W64 := rotr x 28 ^^^ rotr x 34 ^^^ rotr x 39
/-- sha2.hpp:267-270 -/
def Sigma1 (x : W64) : W64 := rotr x 14 ^^^ rotr x 18 ^^^ rotr x 41
/-- sha2.hpp:272-275 -/
def sigma0 (x : W64) : W64 := rotr x 1 ^^^ rotr x 8 ^^^ (x >>> 7)
/-- sha2.hpp:277-280 -/
def sigma1 (x : W64) : W64 := rotr x 19 ^^^ rotr x 61 ^^^ (x >>> 6)
end S512

/-- for( int t = 0; t < 64; ++t ) body, sha2.hpp:224-237 -/
def round256 (W : List W32) (t : Nat) (q : Q8 W32) : M (Q8 W32) := do
  let Kt ← aget K256 t
  let Wt ← aget W t
  let T1 := q.h + S256.Sigma1 q.e + S256.Ch q.e q.f q.g + Kt + Wt
  let T2 := S256.Sigma0 q.a + S256.Maj q.a q.b q.c
  let h := q.g
  let g := q.f
  let f := q.e
  let e := q.d + T1
  let d := q.c
  let c := q.b
  let b := q.a
  let a := T1 + T2
  return ⟨a, b, c, d, e, f, g, h⟩

/-- for( int t = 16; t < 64; ++t ) body, sha2.hpp:210-213 -/
def sched256 (t : Nat) (W : List W32) : M (List W32) := do
  let w2 ← aget W (← csub t 2)
  let w7 ← aget W (← csub t 7)
  let w15 ← aget W (← csub t 15)
  let w16 ← aget W (← csub t 16)
  aset W t (S256.sigma1 w2 + w7 + S256.sigma0 w15 + w16)

/-- static void transform( unsigned char const block[ 64 ], state ), sha2.hpp:199-247 -/
def transform256 (block : Ptr) (st : Q8 W32) : M (Q8 W32) := do
  let W ← forLoop (fun t W => do
    let p ← block.add (t * 4)
    let v ← read32be p
    aset W t v) 0 16 (List.replicate 64 0)
  let W ← forLoop sched256 16 48 W
  let q ← forLoop (round256 W) 0 64 st
  return ⟨st.a + q.a, st.b + q.b, st.c + q.c, st.d + q.d, st.e + q.e, st.f + q.f, st.g + q.g, st.h + q.h⟩

/-- for( int t = 0; t < 80; ++t ) body, sha2.hpp:307-320 -/
def round512 (W : List W64) (t : Nat) (q : Q8 W64) : M (Q8 W64) := do
  let Kt ← aget K512 t
  let Wt ← aget W t
  let T1 := q.h + S512.Sigma1 q.e + S512.Ch q.e q.f q.g + Kt + Wt
  let T2 := S512.Sigma0 q.a + S512.Maj q.a q.b q.c
  let h := q.g
  let g := q.f
  let f := q.e
  let e := q.d + T1
  let d := q.c
  let c := q.b
  let b := q.a
  let a := T1 + T2
  return ⟨a, b, c, d, e, f, g, h⟩

/-- for( int t = 16; t < 80; ++t ) body, sha2.hpp:293-296 -/
def sched512 (t : Nat) (W : List W64) : M (List W64) := do
  let w2 ← aget W (← csub t 2)
  let w7 ← aget W (← csub t 7)
  let w15 ← aget W (← csub t 15)
  let w16 ← aget W (← csub t 16)
  aset W t (S512.sigma1 w2 + w7 + S512.sigma0 w15 + w16)

/-- static void transform( unsigned char const block[ 128 ], state ), sha2.hpp:282-330 -/
def transform512 (block : Ptr) (st : Q8 W64) : M (Q8 W64) := do
  let W ← forLoop (fun t W => do
    let p ← block.add (t * 8)
    let v ← read64be p
    aset W t v) 0 16 (List.replicate 80 0)
  let W ← forLoop sched512 16 64 W
  let q ← forLoop (round512 W) 0 80 st
  return ⟨st.a + q.a, st.b + q.b, st.c + q.c, st.d + q.d, st.e + q.e, st.f + q.f, st.g + q.g, st.h + q.h⟩

/-- sha2_base<std::uint32_t, sha2_256_base, 64>::update, sha2.hpp:52-103: there is no `if( n == 0 ) return`; the class and the overload
for void const*, which casts the pointer and calls it, sha2.hpp:33-50 -/
def cfg256 (_env : Env) : BlockCfg (Q8 W32) :=
  { N := 64, ctrBits := 64, early := false, clear := true, whileLoop := true, transform := transform256 }

/-- sha2_base<std::uint64_t, sha2_512_base, 128>::update, sha2.hpp:52-103 -/
def cfg512 (_env : Env) : BlockCfg (Q8 W64) :=
  { N := 128, ctrBits := 64, early := false, clear := true, whileLoop := true, transform := transform512 }

/-- sha2.hpp:391-399, 468-476 -/
def pad256 : PadCfg :=
  { bitsLen := 8, writeBits := fun _ d v => write64be d 0 v, thr := 56, over := 64 + 56, padLen := 64,
    assertFirst := false }

/-- sha2.hpp:543-551, 619-627, 696-704, 773-781: the 16 byte length field gets the 64-bit count in its second half -/
def pad512 : PadCfg :=
  { bitsLen := 16, writeBits := fun _ d v => write64be d 8 v, thr := 112, over := 128 + 112, padLen := 128,
    assertFirst := false }

/-- init(), sha2.hpp:339-349 -/
def sha256IV : Q8 W32 :=
  ⟨0x6a09e667#32, 0xbb67ae85#32, 0x3c6ef372#32, 0xa54ff53a#32, 0x510e527f#32, 0x9b05688c#32, 0x1f83d9ab#32, 0x5be0cd19#32⟩

/-- the digest part of result(), sha2.hpp:401-407 -/
def sha256Out (_env : Env) (st : Q8 W32) : M (List Byte) :=
  forLoop (fun i d => do
    let v ← st.get i
    write32be d (i * 4) v) 0 8 (List.replicate 32 0)

/-- what the class sha2_256 is made of, sha2.hpp:335-409 -/
def sha256Md : MdCfg (Q8 W32) := { cfg := cfg256, pad := pad256, iv := sha256IV, out := sha256Out }

/-- class sha2_256, sha2.hpp:335-409 -/
def sha2_256 : DigestAlg := sha256Md.alg 64

/-- init(), sha2.hpp:415-425 -/
def sha224IV : Q8 W32 :=
  ⟨0xc1059ed8#32, 0x367cd507#32, 0x3070dd17#32, 0xf70e5939#32, 0xffc00b31#32, 0x68581511#32, 0x64f98fa7#32, 0xbefa4fa4#32⟩

/-- the digest part of result(), sha2.hpp:478-483 -/
def sha224Out (_env : Env) (st : Q8 W32) : M (List Byte) :=
  forLoop (fun i d => do
    let v ← st.get i
    write32be d (i * 4) v) 0 7 (List.replicate 28 0)

/-- what the class sha2_224 is made of, sha2.hpp:411-485 -/
def sha224Md : MdCfg (Q8 W32) := { cfg := cfg256, pad := pad256, iv := sha224IV, out := sha224Out }

/-- class sha2_224, sha2.hpp:411-485 -/
def sha2_224 : DigestAlg := sha224Md.alg 64

/-- init(), sha2.hpp:491-501 -/
def sha512IV : Q8 W64 :=
  ⟨0x6a09e667f3bcc908#64, 0xbb67ae8584caa73b#64, 0x3c6ef372fe94f82b#64, 0xa54ff53a5f1d36f1#64, 0x510e527fade682d1#64, 0x9b05688c2b3e6c1f#64, 0x1f83d9abfb41bd6b#64, 0x5be0cd19137e2179#64⟩

/-- the digest part of result(), sha2.hpp:553-559 -/
def sha512Out (_env : Env) (st : Q8 W64) : M (List Byte) :=
  forLoop (fun i d => do
    let v ← st.get i
    write64be d (i * 8) v) 0 8 (List.replicate 64 0)

/-- what the class sha2_512 is made of, sha2.hpp:487-561 -/
def sha512Md : MdCfg (Q8 W64) := { cfg := cfg512, pad := pad512, iv := sha512IV, out := sha512Out }

/-- class sha2_512, sha2.hpp:487-561 -/
def sha2_512 : DigestAlg := sha512Md.alg 128

/-- init(), sha2.hpp:567-577 -/
def sha384IV : Q8 W64 :=
  ⟨0xcbbb9d5dc1059ed8#64, 0x629a292a367cd507#64, 0x9159015a3070dd17#64, 0x152fecd8f70e5939#64, 0x67332667ffc00b31#64, 0x8eb44a8768581511#64, 0xdb0c2e0d64f98fa7#64, 0x47b5481dbefa4fa4#64⟩

/-- the digest part of result(), sha2.hpp:629-635 -/
def sha384Out (_env : Env) (st : Q8 W64) : M (List Byte) :=
  forLoop (fun i d => do
    let v ← st.get i
    write64be d (i * 8) v) 0 6 (List.replicate 48 0)

/-- what the class sha2_384 is made of, sha2.hpp:563-637 -/
def sha384Md : MdCfg (Q8 W64) := { cfg := cfg512, pad := pad512, iv := sha384IV, out := sha384Out }

/-- class sha2_384, sha2.hpp:563-637 -/
def sha2_384 : DigestAlg := sha384Md.alg 128

/-- init(), sha2.hpp:643-653 -/
def sha512_224IV : Q8 W64 :=
  ⟨0x8c3d37c819544da2#64, 0x73e1996689dcd4d6#64, 0x1dfab7ae32ff9c82#64, 0x679dd514582f9fcf#64, 0x0f6d2b697bd44da8#64, 0x77e36f7304c48942#64, 0x3f9d85a86a1d36c8#64, 0x1112e6ad91d692a1#64⟩

/-- the digest part of result(), sha2.hpp:706-713 -/
def sha512_224Out (_env : Env) (st : Q8 W64) : M (List Byte) := do
  let d ← forLoop (fun i d => do
    let v ← st.get i
    write64be d (i * 8) v) 0 3 (List.replicate 28 0)
  let v ← st.get 3
  write32be d (3 * 8) ((v >>> 32).truncate 32)

/-- what the class sha2_512_224 is made of, sha2.hpp:639-715 -/
def sha512_224Md : MdCfg (Q8 W64) := { cfg := cfg512, pad := pad512, iv := sha512_224IV, out := sha512_224Out }

/-- class sha2_512_224, sha2.hpp:639-715 -/
def sha2_512_224 : DigestAlg := sha512_224Md.alg 128

/-- init(), sha2.hpp:721-731 -/
def sha512_256IV : Q8 W64 :=
  ⟨0x22312194fc2bf72c#64, 0x9f555fa3c84c64c2#64, 0x2393b86b6f53b151#64, 0x963877195940eabd#64, 0x96283ee2a88effe3#64, 0xbe5e1e2553863992#64, 0x2b0199fc2c85b8aa#64, 0x0eb72ddc81c52ca2#64⟩

/-- the digest part of result(), sha2.hpp:783-789 -/
def sha512_256Out (_env : Env) (st : Q8 W64) : M (List Byte) :=
  forLoop (fun i d => do
    let v ← st.get i
    write64be d (i * 8) v) 0 4 (List.replicate 32 0)

/-- what the class sha2_512_256 is made of, sha2.hpp:717-791 -/
def sha512_256Md : MdCfg (Q8 W64) := { cfg := cfg512, pad := pad512, iv := sha512_256IV, out := sha512_256Out }

/-- class sha2_512_256, sha2.hpp:717-791 -/
def sha2_512_256 : DigestAlg := sha512_256Md.alg 128

end Hash2.Sha2

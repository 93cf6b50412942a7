import Verif.Spec.Md5
import Verif.Spec.Sha1
import Verif.Spec.Sha2
import Verif.Spec.Ripemd
/-
What the example program hash2sum is to print. Nothing here refers to the code.
-/
namespace Hash2.Spec

/-- the bytes of a file of which std::fread has delivered these pieces: up to the first empty one, which means the end of the file -/
def fileContents (reads : List (List Byte)) : List Byte := (reads.takeWhile fun bs => !bs.isEmpty).flatten

/-- the hash functions by the names the program knows -/
def sumFunctions : List (String × (List Byte → List Byte)) := [
  ("md5_128", MD5.md5.hash),
  ("sha1_160", SHA1.sha1.hash),
  ("sha2_256", SHA2.sha256.hash),
  ("sha2_224", SHA2.sha224.hash),
  ("sha2_512", SHA2.sha512.hash),
  ("sha2_384", SHA2.sha384.hash),
  ("sha2_512_224", SHA2.sha512_224.hash),
  ("sha2_512_256", SHA2.sha512_256.hash),
  ("ripemd_128", RIPEMD.ripemd128.hash),
  ("ripemd_160", RIPEMD.ripemd160.hash)]

end Hash2.Spec

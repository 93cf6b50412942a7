import Verif.Model.Alg
import Verif.Spec.Platforms
/-
The test vectors of /repo/test, evaluated in the model by the kernel: tests of the model, not proofs of properties. Long messages
(a million letters) are left out, and only some of the hundreds of HMAC vectors are here.
Generated from the sources of the tests.
-/
namespace Hash2.Tests

/-- the n bytes of a hexadecimal literal -/
def bs (n x : Nat) : List Byte := (List.range n).map fun i => BitVec.ofNat 8 (x >>> (8 * (n - 1 - i)))
/-- 0, 1, 2, ... -/
def iota (n : Nat) : List Byte := (List.range n).map (BitVec.ofNat 8)
def w32 (m : M (List W32)) : Nat := match m with | .ok [r] => r.toNat | _ => 2 ^ 64
def w64 (m : M (List W64)) : Nat := match m with | .ok [r] => r.toNat | _ => 2 ^ 64
def b128 (m : M (List (List Byte))) : List Byte := match m with | .ok [r] => r | _ => []
/-- get_integral_result<std::uint32_t> -/
def firstWord : List Byte → Nat
  | a :: b :: c :: d :: _ => a.toNat + 256 * b.toNat + 65536 * c.toNat + 16777216 * d.toNat
  | _ => 2 ^ 64
def dig (d : DigestName) (m r : List Byte) : Bool :=
  b128 (d.impl.toHash.exec le64 .default [.update (.mem m) m.length, .result]) == r
def mac (d : DigestName) (k m r : List Byte) : Bool :=
  b128 ((DigestName.hmac d).impl.toHash.exec le64 (.bytes (.mem k) k.length) [.update (.mem m) m.length, .result]) == r

-- md5.cpp
example : ([dig .md5_128 (bs 0 0) (bs 16 0xd41d8cd98f00b204e9800998ecf8427e), dig .md5_128 (bs 1 0x61) (bs 16 0x0cc175b9c0f1b6a831c399e269772661), dig .md5_128 (bs 3 0x616263) (bs 16 0x900150983cd24fb0d6963f7d28e17f72), dig .md5_128 (bs 14 0x6d65737361676520646967657374) (bs 16 0xf96b697d7cb7938d525a2f31aaf161d0)] : List Bool).all id = true := by decide +kernel
-- md5.cpp
example : ([dig .md5_128 (bs 26 0x6162636465666768696a6b6c6d6e6f707172737475767778797a) (bs 16 0xc3fcd3d76192e4007dfb496cca67e13b), dig .md5_128 (bs 62 0x4142434445464748494a4b4c4d4e4f505152535455565758595a6162636465666768696a6b6c6d6e6f707172737475767778797a30313233343536373839) (bs 16 0xd174ab98d277d9f5a5611c2c9f419d9f), dig .md5_128 (bs 80 0x3132333435363738393031323334353637383930313233343536373839303132333435363738393031323334353637383930313233343536373839303132333435363738393031323334353637383930) (bs 16 0x57edf4a22be3c955ac49da2e2107b67a)] : List Bool).all id = true := by decide +kernel
-- sha1.cpp
example : ([dig .sha1_160 (bs 0 0) (bs 20 0xda39a3ee5e6b4b0d3255bfef95601890afd80709), dig .sha1_160 (bs 43 0x54686520717569636b2062726f776e20666f78206a756d7073206f76657220746865206c617a7920646f67) (bs 20 0x2fd4e1c67a2d28fced849ee1bb76e7391b93eb12), dig .sha1_160 (bs 43 0x54686520717569636b2062726f776e20666f78206a756d7073206f76657220746865206c617a7920636f67) (bs 20 0xde9f2c7fd25e1b3afad3e85a0bd17d9b100db4b3), dig .sha1_160 (bs 3 0x616263) (bs 20 0xa9993e364706816aba3e25717850c26c9cd0d89d)] : List Bool).all id = true := by decide +kernel
-- sha1.cpp
example : ([dig .sha1_160 (bs 56 0x6162636462636465636465666465666765666768666768696768696a68696a6b696a6b6c6a6b6c6d6b6c6d6e6c6d6e6f6d6e6f706e6f7071) (bs 20 0x84983e441c3bd26ebaae4aa1f95129e5e54670f1)] : List Bool).all id = true := by decide +kernel
-- sha2.cpp
example : ([dig .sha2_256 (bs 0 0) (bs 32 0xe3b0c44298fc1c149afbf4c8996fb92427ae41e4649b934ca495991b7852b855), dig .sha2_256 (bs 3 0x616263) (bs 32 0xba7816bf8f01cfea414140de5dae2223b00361a396177a9cb410ff61f20015ad), dig .sha2_256 (bs 56 0x6162636462636465636465666465666765666768666768696768696a68696a6b696a6b6c6a6b6c6d6b6c6d6e6c6d6e6f6d6e6f706e6f7071) (bs 32 0x248d6a61d20638b8e5c026930c3e6039a33ce45964ff2167f6ecedd419db06c1)] : List Bool).all id = true := by decide +kernel
-- sha2.cpp
example : ([dig .sha2_224 (bs 0 0) (bs 28 0xd14a028c2a3a2bc9476102bb288234c415a2b01f828ea62ac5b3e42f), dig .sha2_224 (bs 3 0x616263) (bs 28 0x23097d223405d8228642a477bda255b32aadbce4bda0b3f7e36c9da7), dig .sha2_224 (bs 56 0x6162636462636465636465666465666765666768666768696768696a68696a6b696a6b6c6a6b6c6d6b6c6d6e6c6d6e6f6d6e6f706e6f7071) (bs 28 0x75388b16512776cc5dba5da1fd890150b0c6455cb4f58b1952522525)] : List Bool).all id = true := by decide +kernel
-- sha2.cpp
example : ([dig .sha2_512 (bs 0 0) (bs 64 0xcf83e1357eefb8bdf1542850d66d8007d620e4050b5715dc83f4a921d36ce9ce47d0d13c5d85f2b0ff8318d2877eec2f63b931bd47417a81a538327af927da3e), dig .sha2_512 (bs 3 0x616263) (bs 64 0xddaf35a193617abacc417349ae20413112e6fa4e89a97ea20a9eeee64b55d39a2192992a274fc1a836ba3c23a3feebbd454d4423643ce80e2a9ac94fa54ca49f), dig .sha2_512 (bs 112 0x61626364656667686263646566676869636465666768696a6465666768696a6b65666768696a6b6c666768696a6b6c6d6768696a6b6c6d6e68696a6b6c6d6e6f696a6b6c6d6e6f706a6b6c6d6e6f70716b6c6d6e6f7071726c6d6e6f707172736d6e6f70717273746e6f707172737475) (bs 64 0x8e959b75dae313da8cf4f72814fc143f8f7779c6eb9f7fa17299aeadb6889018501d289e4900f7e4331b99dec4b5433ac7d329eeb6dd26545e96e55b874be909)] : List Bool).all id = true := by decide +kernel
-- sha2.cpp
example : ([dig .sha2_384 (bs 0 0) (bs 48 0x38b060a751ac96384cd9327eb1b1e36a21fdb71114be07434c0cc7bf63f6e1da274edebfe76f65fbd51ad2f14898b95b), dig .sha2_384 (bs 3 0x616263) (bs 48 0xcb00753f45a35e8bb5a03d699ac65007272c32ab0eded1631a8b605a43ff5bed8086072ba1e7cc2358baeca134c825a7), dig .sha2_384 (bs 112 0x61626364656667686263646566676869636465666768696a6465666768696a6b65666768696a6b6c666768696a6b6c6d6768696a6b6c6d6e68696a6b6c6d6e6f696a6b6c6d6e6f706a6b6c6d6e6f70716b6c6d6e6f7071726c6d6e6f707172736d6e6f70717273746e6f707172737475) (bs 48 0x09330c33f71147e83d192fc782cd1b4753111b173b3b05d22fa08086e3b0f712fcc7c71a557e2db966c3e9fa91746039)] : List Bool).all id = true := by decide +kernel
-- sha2.cpp
example : ([dig .sha2_512_224 (bs 0 0) (bs 28 0x6ed0dd02806fa89e25de060c19d3ac86cabb87d6a0ddd05c333b84f4), dig .sha2_512_224 (bs 3 0x616263) (bs 28 0x4634270f707b6a54daae7530460842e20e37ed265ceee9a43e8924aa), dig .sha2_512_224 (bs 112 0x61626364656667686263646566676869636465666768696a6465666768696a6b65666768696a6b6c666768696a6b6c6d6768696a6b6c6d6e68696a6b6c6d6e6f696a6b6c6d6e6f706a6b6c6d6e6f70716b6c6d6e6f7071726c6d6e6f707172736d6e6f70717273746e6f707172737475) (bs 28 0x23fec5bb94d60b23308192640b0c453335d664734fe40e7268674af9)] : List Bool).all id = true := by decide +kernel
-- sha2.cpp
example : ([dig .sha2_512_256 (bs 0 0) (bs 32 0xc672b8d1ef56ed28ab87c3622c5114069bdd3ad7b8f9737498d0c01ecef0967a), dig .sha2_512_256 (bs 3 0x616263) (bs 32 0x53048e2681941ef99b2e29b76b4c7dabe4c2d0c634fc6d46e0e2f13107e7af23), dig .sha2_512_256 (bs 112 0x61626364656667686263646566676869636465666768696a6465666768696a6b65666768696a6b6c666768696a6b6c6d6768696a6b6c6d6e68696a6b6c6d6e6f696a6b6c6d6e6f706a6b6c6d6e6f70716b6c6d6e6f7071726c6d6e6f707172736d6e6f70717273746e6f707172737475) (bs 32 0x3928e184fb8690f840da3988121d31be65cb9d3ef83ee6146feac861e19b563a)] : List Bool).all id = true := by decide +kernel
-- ripemd.cpp
example : ([dig .ripemd_160 (bs 0 0) (bs 20 0x9c1185a5c5e9fc54612808977ee8f548b2258d31), dig .ripemd_160 (bs 43 0x54686520717569636b2062726f776e20666f78206a756d7073206f76657220746865206c617a7920646f67) (bs 20 0x37f332f68db77bd9d7edd4969571ad671cf9dd3b), dig .ripemd_160 (bs 43 0x54686520717569636b2062726f776e20666f78206a756d7073206f76657220746865206c617a7920636f67) (bs 20 0x132072df690933835eb8b6ad0b77e7b6f14acad7), dig .ripemd_160 (bs 1 0x61) (bs 20 0x0bdc9d2d256b3ee9daae347be6f4dc835a467ffe)] : List Bool).all id = true := by decide +kernel
-- ripemd.cpp
example : ([dig .ripemd_160 (bs 3 0x616263) (bs 20 0x8eb208f7e05d987a9b044a8e98c6b087f15a0bfc), dig .ripemd_160 (bs 14 0x6d65737361676520646967657374) (bs 20 0x5d0689ef49d2fae572b881b123a85ffa21595f36), dig .ripemd_160 (bs 26 0x6162636465666768696a6b6c6d6e6f707172737475767778797a) (bs 20 0xf71c27109c692c1b56bbdceb5b9d2865b3708dbc), dig .ripemd_160 (bs 56 0x6162636462636465636465666465666765666768666768696768696a68696a6b696a6b6c6a6b6c6d6b6c6d6e6c6d6e6f6d6e6f706e6f7071) (bs 20 0x12a053384a9c0c88e405a06c27dcf49ada62eb2b)] : List Bool).all id = true := by decide +kernel
-- ripemd.cpp
example : ([dig .ripemd_160 (bs 62 0x4142434445464748494a4b4c4d4e4f505152535455565758595a6162636465666768696a6b6c6d6e6f707172737475767778797a30313233343536373839) (bs 20 0xb0e20b6e3116640286ed3a87a5713079b21f5189), dig .ripemd_160 (bs 80 0x3132333435363738393031323334353637383930313233343536373839303132333435363738393031323334353637383930313233343536373839303132333435363738393031323334353637383930) (bs 20 0x9b752e45573d4b39f4dbd3323cab82bf63326bfb)] : List Bool).all id = true := by decide +kernel
-- ripemd.cpp
example : ([dig .ripemd_128 (bs 0 0) (bs 16 0xcdf26213a150dc3ecb610f18f6b38b46), dig .ripemd_128 (bs 1 0x61) (bs 16 0x86be7afa339d0fc7cfc785e72f578d33), dig .ripemd_128 (bs 3 0x616263) (bs 16 0xc14a12199c66e4ba84636b0f69144c77), dig .ripemd_128 (bs 14 0x6d65737361676520646967657374) (bs 16 0x9e327b3d6e523062afc1132d7df9d1b8)] : List Bool).all id = true := by decide +kernel
-- ripemd.cpp
example : ([dig .ripemd_128 (bs 26 0x6162636465666768696a6b6c6d6e6f707172737475767778797a) (bs 16 0xfd2aa607f71dc8f510714922b371834e), dig .ripemd_128 (bs 56 0x6162636462636465636465666465666765666768666768696768696a68696a6b696a6b6c6a6b6c6d6b6c6d6e6c6d6e6f6d6e6f706e6f7071) (bs 16 0xa1aa0689d0fafa2ddc22e88b49133a06), dig .ripemd_128 (bs 62 0x4142434445464748494a4b4c4d4e4f505152535455565758595a6162636465666768696a6b6c6d6e6f707172737475767778797a30313233343536373839) (bs 16 0xd1e959eb179c911faea4624c60c5c702), dig .ripemd_128 (bs 80 0x3132333435363738393031323334353637383930313233343536373839303132333435363738393031323334353637383930313233343536373839303132333435363738393031323334353637383930) (bs 16 0x3f45ef194732c2dbb2c4a2c769795fa3)] : List Bool).all id = true := by decide +kernel
-- hmac_md5.cpp
example : ([mac .md5_128 (bs 0 0) (bs 0 0) (bs 16 0x74e6f7298a9c2d168935f58c001bad88), mac .md5_128 (bs 3 0x6b6579) (bs 43 0x54686520717569636b2062726f776e20666f78206a756d7073206f76657220746865206c617a7920646f67) (bs 16 0x80070713463e7749b90c2dc24911e275)] : List Bool).all id = true := by decide +kernel
-- hmac_md5.cpp
example : ([mac .md5_128 (bs 16 0x0b0b0b0b0b0b0b0b0b0b0b0b0b0b0b0b) (bs 8 0x4869205468657265) (bs 16 0x9294727a3638bb1c13f48ef8158bfc9d), mac .md5_128 (bs 4 0x4a656665) (bs 28 0x7768617420646f2079612077616e7420666f72206e6f7468696e673f) (bs 16 0x750c783e6ab0b503eaa86e310a5db738)] : List Bool).all id = true := by decide +kernel
-- hmac_sha1.cpp
example : ([mac .sha1_160 (bs 0 0) (bs 0 0) (bs 20 0xfbdb1d1b18aa6c08324b7d64b71fb76370690e1d), mac .sha1_160 (bs 3 0x6b6579) (bs 43 0x54686520717569636b2062726f776e20666f78206a756d7073206f76657220746865206c617a7920646f67) (bs 20 0xde7c9b85b8b78aa6bc8a7a36f70a90701c9db4d9)] : List Bool).all id = true := by decide +kernel
-- hmac_sha2.cpp
example : ([mac .sha2_256 (bs 3 0x6b6579) (bs 43 0x54686520717569636b2062726f776e20666f78206a756d7073206f76657220746865206c617a7920646f67) (bs 32 0xf7bc83f430538424b13298e6aa6fb143ef4d59a14946175997479dbc2d1a3cd8)] : List Bool).all id = true := by decide +kernel
-- hmac_sha2.cpp
example : ([mac .sha2_512 (bs 3 0x6b6579) (bs 43 0x54686520717569636b2062726f776e20666f78206a756d7073206f76657220746865206c617a7920646f67) (bs 64 0xb42af09057bac1e2d41708e48a902e09b5ff7f12ab428a4fe86653c73dd248fb82f948a549f7b791a5b41915ee4d1ec3935357e4e2317250d0372afa2ebeeb3a)] : List Bool).all id = true := by decide +kernel
-- hmac_sha2.cpp
example : ([mac .sha2_384 (bs 20 0x0b0b0b0b0b0b0b0b0b0b0b0b0b0b0b0b0b0b0b0b) (bs 8 0x4869205468657265) (bs 48 0xafd03944d84895626b0825f4ab46907f15f9dadbe4101ec682aa034c7cebc59cfaea9ea9076ede7f4af152e8b2fa9cb6)] : List Bool).all id = true := by decide +kernel
-- hmac_ripemd.cpp
example : ([mac .ripemd_160 (bs 20 0x0b0b0b0b0b0b0b0b0b0b0b0b0b0b0b0b0b0b0b0b) (bs 8 0x4869205468657265) (bs 20 0x24cb4bd67d20fc1a5d2ed7732dcc39377f0a5668), mac .ripemd_160 (bs 4 0x4a656665) (bs 28 0x7768617420646f2079612077616e7420666f72206e6f7468696e673f) (bs 20 0xdda6c0213a485a9e24f4742064a7f033b43c4069)] : List Bool).all id = true := by decide +kernel
-- hmac_ripemd.cpp
example : ([mac .ripemd_128 (bs 16 0x00112233445566778899aabbccddeeff) (bs 0 0) (bs 16 0xad9db2c1e22af9ab5ca9dbe5a86f67dc), mac .ripemd_128 (bs 16 0x0123456789abcdeffedcba9876543210) (bs 0 0) (bs 16 0x8931eeee56a6b257fd1ab5418183d826)] : List Bool).all id = true := by decide +kernel
-- hmac_sha2.cpp
example : ([mac .sha2_224 (bs 50 0x82a289b0911f55c532e2571866fa354d973948ec7b899d573b833f00d53eb8d8bf65d50bcd8daaea54c5d628906e084a434d) (bs 128 0xd06d296cad7d428b56b25c53fdfcf558b5bc4211ed31cfe63732678a4f23338b582225286881986247793056741c08c9698c0c05206ba3e4d692922a0f061d17da276e3d562b3b9075cba4bc003c5abbdc6106a68b3fe9cbf5b1bf01695dea38dfe6cc548064753c68117e2daa44345594a4fa9d3595e8c61df7b8b76410e315) (bs 28 0x5507c4c7c127046c04d161fdc75ec2f5122ed44e86679c39c69c5ae8)] : List Bool).all id = true := by decide +kernel
-- hmac_sha2.cpp
example : ([mac .sha2_512 (bs 100 0x57c2eb677b5093b9e829ea4babb50bde55d0ad59fec34a618973802b2ad9b78e26b2045dda784df3ff90ae0f2cc51ce39cf54867320ac6f3ba2c6f0d72360480c96614ae66581f266c35fb79fd28774afd113fa5187eff9206d7cbe90dd8bf67c844e202) (bs 128 0x2423dff48b312be864cb3490641f793d2b9fb68a7763b8e298c86f42245e4540eb01ae4d2d4500370b1886f23ca2cf9701704cad5bd21ba87b811daf7a854ea24a56565ced425b35e40e1acbebe03603e35dcf4a100e57218408a1d8dbcc3b99296cfea931efe3ebd8f719a6d9a15487b9ad67eafedf15559ca42445b0f9b42e) (bs 64 0x33c511e9bc2307c62758df61125a980ee64cefebd90931cb91c13742d4714c06de4003faf3c41c06aefc638ad47b21906e6b104816b72de6269e045a1f4429d4)] : List Bool).all id = true := by decide +kernel
-- hmac_sha2.cpp
example : ([mac .sha2_384 (bs 50 0x5eab0dfa27311260d7bddcf77112b23d8b42eb7a5d72a5a318e1ba7e7927f0079dbb701317b87a3340e156dbcee28ec3a8d9) (bs 128 0xf41380123ccbec4c527b425652641191e90a17d45e2f6206cf01b5edbe932d41cc8a2405c3195617da2f420535eed422ac6040d9cd65314224f023f3ba730d19db9844c71c329c8d9d73d04d8c5f244aea80488292dc803e772402e72d2e9f1baba5a6004f0006d822b0b2d65e9e4a302dd4f776b47a972250051a701fab2b70) (bs 48 0x7cf5a06156ad3de5405a5d261de90275f9bb36de45667f84d08fbcb308ca8f53a419b07deab3b5f8ea231c5b036f8875)] : List Bool).all id = true := by decide +kernel
-- hmac_sha2.cpp
example : ([mac .sha2_512_224 (bs 50 0x5eab0dfa27311260d7bddcf77112b23d8b42eb7a5d72a5a318e1ba7e7927f0079dbb701317b87a3340e156dbcee28ec3a8d9) (bs 128 0xf41380123ccbec4c527b425652641191e90a17d45e2f6206cf01b5edbe932d41cc8a2405c3195617da2f420535eed422ac6040d9cd65314224f023f3ba730d19db9844c71c329c8d9d73d04d8c5f244aea80488292dc803e772402e72d2e9f1baba5a6004f0006d822b0b2d65e9e4a302dd4f776b47a972250051a701fab2b70) (bs 28 0xd523897bf108288df23d9ee48a48dea0532c65aa828b65c692997345)] : List Bool).all id = true := by decide +kernel
-- hmac_sha2.cpp
example : ([mac .sha2_512_256 (bs 50 0x5eab0dfa27311260d7bddcf77112b23d8b42eb7a5d72a5a318e1ba7e7927f0079dbb701317b87a3340e156dbcee28ec3a8d9) (bs 128 0xf41380123ccbec4c527b425652641191e90a17d45e2f6206cf01b5edbe932d41cc8a2405c3195617da2f420535eed422ac6040d9cd65314224f023f3ba730d19db9844c71c329c8d9d73d04d8c5f244aea80488292dc803e772402e72d2e9f1baba5a6004f0006d822b0b2d65e9e4a302dd4f776b47a972250051a701fab2b70) (bs 32 0x4a29f173a92ce52d31b808b136390659ce647b628161aff06ba944914a4685d0)] : List Bool).all id = true := by decide +kernel
-- siphash64.cpp: all 64 vectors
def sip64 : List Nat := [0x726fdb47dd0e0e31, 0x74f839c593dc67fd, 0xd6c8009d9a94f5a, 0x85676696d7fb7e2d, 0xcf2794e0277187b7, 0x18765564cd99a68d, 0xcbc9466e58fee3ce, 0xab0200f58b01d137, 0x93f5f5799a932462, 0x9e0082df0ba9e4b0, 0x7a5dbbc594ddb9f3, 0xf4b32f46226bada7, 0x751e8fbc860ee5fb, 0x14ea5627c0843d90, 0xf723ca908e7af2ee, 0xa129ca6149be45e5, 0x3f2acc7f57c29bdb, 0x699ae9f52cbe4794, 0x4bc1b3f0968dd39c, 0xbb6dc91da77961bd, 0xbed65cf21aa2ee98, 0xd0f2cbb02e3b67c7, 0x93536795e3a33e88, 0xa80c038ccd5ccec8, 0xb8ad50c6f649af94, 0xbce192de8a85b8ea, 0x17d835b85bbb15f3, 0x2f2e6163076bcfad, 0xde4daaaca71dc9a5, 0xa6a2506687956571, 0xad87a3535c49ef28, 0x32d892fad841c342, 0x7127512f72f27cce, 0xa7f32346f95978e3, 0x12e0b01abb051238, 0x15e034d40fa197ae, 0x314dffbe0815a3b4, 0x27990f029623981, 0xcadcd4e59ef40c4d, 0x9abfd8766a33735c, 0xe3ea96b5304a7d0, 0xad0c42d6fc585992, 0x187306c89bc215a9, 0xd4a60abcf3792b95, 0xf935451de4f21df2, 0xa9538f0419755787, 0xdb9acddff56ca510, 0xd06c98cd5c0975eb, 0xe612a3cb9ecba951, 0xc766e62cfcadaf96, 0xee64435a9752fe72, 0xa192d576b245165a, 0xa8787bf8ecb74b2, 0x81b3e73d20b49b6f, 0x7fa8220ba3b2ecea, 0x245731c13ca42499, 0xb78dbfaf3a8d83bd, 0xea1ad565322a1a0b, 0x60e61c23a3795013, 0x6606d7e446282b93, 0x6ca4ecb15c5f91e1, 0x9f626da15c9625f3, 0xe51b38608ef25f57, 0x958a324ceb064572]
example : ((List.range 64).all fun i => w64 (Hash2.siphash_64.exec le64 (.bytes (.mem (iota 16)) 16) [.update (.mem (iota 64)) i, .result]) == sip64.getD i 0) = true := by decide +kernel
-- siphash32.cpp: all 64 vectors
def sip32 : List Nat := [0x5b9f35a9, 0xb85a4727, 0x3a662fa, 0x4e7fe8a, 0x89466e2a, 0x69b6fac5, 0x23fc6358, 0xc563cf8b, 0x8f84b8d0, 0x79e706f8, 0x3479b094, 0x50300808, 0x2f87f057, 0xff63e677, 0x7cf8ffd6, 0x972bfe74, 0x84acb5d9, 0x5b6474c4, 0x9b8d5b46, 0x87e3ef7b, 0x45104de3, 0xb3623f61, 0xfe67f370, 0xbdb8ade6, 0x630c4027, 0x75787826, 0x5f7b564f, 0x69e6b03a, 0x4064b0, 0xb40f67ff, 0x8b339e50, 0x1a9f585d, 0x1221e7fe, 0x59327533, 0x8c4f436a, 0x29b728fe, 0xecc65ce7, 0x548d7e69, 0xf8b6863, 0xb4620b65, 0x4018bcb6, 0x545075d, 0x2efd4224, 0x3a86b77b, 0x48d50577, 0xb10852d7, 0xc899d4b6, 0x2e209208, 0xe32ce169, 0xe580b58d, 0xc6649736, 0x4026e01, 0xd4f3853b, 0xbe66dbfe, 0x3a2a691e, 0xc08489c6, 0x40b9c5a5, 0x8ce8e99b, 0x4081bc7d, 0xc58e077c, 0x736ce7d4, 0xb9cb8f42, 0x7a9983bd, 0x744aea59]
example : ((List.range 64).all fun i => w32 (Hash2.siphash_32.exec le64 (.bytes (.mem (iota 8)) 8) [.update (.mem (iota 64)) i, .result]) == sip32.getD i 0) = true := by decide +kernel
-- xxhash.cpp
example : ([w32 (Hash2.xxhash_32.exec le64 (.seed 0) [.update (.mem (bs 0 0)) 0, .result]) == 0x2cc5d05, w32 (Hash2.xxhash_32.exec le64 (.seed 43) [.update (.mem (bs 43 0x54686520717569636b2062726f776e20666f78206a756d7073206f76657220746865206c617a7920646f67)) 43, .result]) == 0x752cd1b8, w64 (Hash2.xxhash_64.exec le64 (.seed 0) [.update (.mem (bs 0 0)) 0, .result]) == 0xef46db3751d8e999, w64 (Hash2.xxhash_64.exec le64 (.seed 43) [.update (.mem (bs 43 0x54686520717569636b2062726f776e20666f78206a756d7073206f76657220746865206c617a7920646f67)) 43, .result]) == 0x9a11f5e9468d7425, w32 (Hash2.xxhash_32.exec le64 (.seed 0) [.update (.mem (bs 4 0x74657374)) 4, .result]) == 1042293711, w32 (Hash2.xxhash_32.exec le64 (.seed 123) [.update (.mem (bs 4 0x74657374)) 4, .result]) == 2758658570, w64 (Hash2.xxhash_64.exec le64 (.seed 0) [.update (.mem (bs 4 0x74657374)) 4, .result]) == 5754696928334414137, w64 (Hash2.xxhash_64.exec le64 (.seed 123) [.update (.mem (bs 4 0x74657374)) 4, .result]) == 3134990500624303823] : List Bool).all id = true := by decide +kernel
-- xxhash_2.cpp (on a big endian platform)
example : ([w32 (Hash2.xxhash_32.exec be32 (.seed 0) [.update (.mem (bs 0 0)) 0, .result]) == 46947589, w32 (Hash2.xxhash_32.exec be32 (.seed 2654435761) [.update (.mem (bs 0 0)) 0, .result]) == 917998311, w32 (Hash2.xxhash_32.exec be32 (.seed 0) [.update (.mem (bs 1 0x00)) 1, .result]) == 3479547966, w32 (Hash2.xxhash_32.exec be32 (.seed 2654435761) [.update (.mem (bs 1 0x00)) 1, .result]) == 3025427108, w32 (Hash2.xxhash_32.exec be32 (.seed 0) [.update (.mem (bs 14 0x0052929bb732a3242d00af950eec)) 14, .result]) == 302573538, w32 (Hash2.xxhash_32.exec be32 (.seed 2654435761) [.update (.mem (bs 14 0x0052929bb732a3242d00af950eec)) 14, .result]) == 1794232830, w32 (Hash2.xxhash_32.exec be32 (.seed 0) [.update (.mem (bs 222 0x0052929bb732a3242d00af950eecb893e3dfef93aad6cd2a538b5c3f545a6fd559c0fffc8f85b9331dab74f7b6059327b07084b3677c9f76480072ed7b9817e8dd485e0c0ccbd0653fadb28f11b06ce88db0f186086159566c8e4e781363bdab9d327309ea712fd97a9d55f0ca8ad0e95e1a36b36b0fca51ef8ba2c462ed0096f33449eb0fd13b92a1a963dbaaed3dcff10942cdf9b321a2ebf2c8f4e42f48d14b10f4c2efecf84ab53874c3a4a6620ebffd633741e386981aeb4cba56036687ed004559c18544b6c368f941a9eaf987e09f12d0d51454485d444051e338)) 222, .result]) == 1540431293, w32 (Hash2.xxhash_32.exec be32 (.seed 2654435761) [.update (.mem (bs 222 0x0052929bb732a3242d00af950eecb893e3dfef93aad6cd2a538b5c3f545a6fd559c0fffc8f85b9331dab74f7b6059327b07084b3677c9f76480072ed7b9817e8dd485e0c0ccbd0653fadb28f11b06ce88db0f186086159566c8e4e781363bdab9d327309ea712fd97a9d55f0ca8ad0e95e1a36b36b0fca51ef8ba2c462ed0096f33449eb0fd13b92a1a963dbaaed3dcff10942cdf9b321a2ebf2c8f4e42f48d14b10f4c2efecf84ab53874c3a4a6620ebffd633741e386981aeb4cba56036687ed004559c18544b6c368f941a9eaf987e09f12d0d51454485d444051e338)) 222, .result]) == 1484799071] : List Bool).all id = true := by decide +kernel
-- xxhash_2.cpp (on a big endian platform)
example : ([w64 (Hash2.xxhash_64.exec be32 (.seed 0) [.update (.mem (bs 0 0)) 0, .result]) == 17241709254077376921, w64 (Hash2.xxhash_64.exec be32 (.seed 2654435761) [.update (.mem (bs 0 0)) 0, .result]) == 12427117621484918767, w64 (Hash2.xxhash_64.exec be32 (.seed 0) [.update (.mem (bs 1 0x00)) 1, .result]) == 16804241149081757544, w64 (Hash2.xxhash_64.exec be32 (.seed 2654435761) [.update (.mem (bs 1 0x00)) 1, .result]) == 5770343083626050755, w64 (Hash2.xxhash_64.exec be32 (.seed 0) [.update (.mem (bs 4 0x0052929b)) 4, .result]) == 10463727653771040750, w64 (Hash2.xxhash_64.exec be32 (.seed 0) [.update (.mem (bs 14 0x0052929bb732a3242d00af950eec)) 14, .result]) == 9404321708846757320, w64 (Hash2.xxhash_64.exec be32 (.seed 2654435761) [.update (.mem (bs 14 0x0052929bb732a3242d00af950eec)) 14, .result]) == 14104548313339227632, w64 (Hash2.xxhash_64.exec be32 (.seed 0) [.update (.mem (bs 222 0x0052929bb732a3242d00af950eecb893e3dfef93aad6cd2a538b5c3f545a6fd559c0fffc8f85b9331dab74f7b6059327b07084b3677c9f76480072ed7b9817e8dd485e0c0ccbd0653fadb28f11b06ce88db0f186086159566c8e4e781363bdab9d327309ea712fd97a9d55f0ca8ad0e95e1a36b36b0fca51ef8ba2c462ed0096f33449eb0fd13b92a1a963dbaaed3dcff10942cdf9b321a2ebf2c8f4e42f48d14b10f4c2efecf84ab53874c3a4a6620ebffd633741e386981aeb4cba56036687ed004559c18544b6c368f941a9eaf987e09f12d0d51454485d444051e338)) 222, .result]) == 13132969907770737012] : List Bool).all id = true := by decide +kernel
-- xxhash_2.cpp (on a big endian platform)
example : ([w64 (Hash2.xxhash_64.exec be32 (.seed 2654435761) [.update (.mem (bs 222 0x0052929bb732a3242d00af950eecb893e3dfef93aad6cd2a538b5c3f545a6fd559c0fffc8f85b9331dab74f7b6059327b07084b3677c9f76480072ed7b9817e8dd485e0c0ccbd0653fadb28f11b06ce88db0f186086159566c8e4e781363bdab9d327309ea712fd97a9d55f0ca8ad0e95e1a36b36b0fca51ef8ba2c462ed0096f33449eb0fd13b92a1a963dbaaed3dcff10942cdf9b321a2ebf2c8f4e42f48d14b10f4c2efecf84ab53874c3a4a6620ebffd633741e386981aeb4cba56036687ed004559c18544b6c368f941a9eaf987e09f12d0d51454485d444051e338)) 222, .result]) == 2363134950989939018] : List Bool).all id = true := by decide +kernel
-- fnv1a.cpp
example : ([w32 (Hash2.fnv1a_32.exec le64 .default [.update (.mem (bs 0 0)) 0, .result]) == 0x811c9dc5, w32 (Hash2.fnv1a_32.exec le64 .default [.update (.mem (bs 1 0x61)) 1, .result]) == 0xe40c292c, w32 (Hash2.fnv1a_32.exec le64 .default [.update (.mem (bs 6 0x666f6f626172)) 6, .result]) == 0xbf9cf968, w64 (Hash2.fnv1a_64.exec le64 .default [.update (.mem (bs 0 0)) 0, .result]) == 0xcbf29ce484222325, w64 (Hash2.fnv1a_64.exec le64 .default [.update (.mem (bs 1 0x61)) 1, .result]) == 0xaf63dc4c8601ec8c, w64 (Hash2.fnv1a_64.exec le64 .default [.update (.mem (bs 6 0x666f6f626172)) 6, .result]) == 0x85944171f73967e8] : List Bool).all id = true := by decide +kernel
-- legacy/murmur3_32.cpp
example : ([w32 (Hash2.murmur3_32.exec le64 (.seed 0) [.update (.mem (bs 0 0)) 0, .result]) == 0, w32 (Hash2.murmur3_32.exec le64 (.seed 1) [.update (.mem (bs 0 0)) 0, .result]) == 0x514E28B7, w32 (Hash2.murmur3_32.exec le64 (.seed 0xFFFFFFFF) [.update (.mem (bs 0 0)) 0, .result]) == 0x81F16F39, w32 (Hash2.murmur3_32.exec le64 (.seed 0) [.update (.mem (bs 4 0xffffffff)) 4, .result]) == 0x76293B50, w32 (Hash2.murmur3_32.exec le64 (.seed 0) [.update (.mem (bs 4 0x21436587)) 4, .result]) == 0xF55B516B, w32 (Hash2.murmur3_32.exec le64 (.seed 0x5082EDEE) [.update (.mem (bs 4 0x21436587)) 4, .result]) == 0x2362F9DE, w32 (Hash2.murmur3_32.exec le64 (.seed 0) [.update (.mem (bs 3 0x214365)) 3, .result]) == 0x7E4A8634, w32 (Hash2.murmur3_32.exec le64 (.seed 0) [.update (.mem (bs 2 0x2143)) 2, .result]) == 0xA0F7B07A] : List Bool).all id = true := by decide +kernel
-- legacy/murmur3_32.cpp
example : ([w32 (Hash2.murmur3_32.exec le64 (.seed 0) [.update (.mem (bs 1 0x21)) 1, .result]) == 0x72661CF4, w32 (Hash2.murmur3_32.exec le64 (.seed 0) [.update (.mem (bs 4 0x00000000)) 4, .result]) == 0x2362F9DE, w32 (Hash2.murmur3_32.exec le64 (.seed 0) [.update (.mem (bs 3 0x000000)) 3, .result]) == 0x85F0B427, w32 (Hash2.murmur3_32.exec le64 (.seed 0) [.update (.mem (bs 2 0x0000)) 2, .result]) == 0x30F4C306, w32 (Hash2.murmur3_32.exec le64 (.seed 0) [.update (.mem (bs 1 0x00)) 1, .result]) == 0x514E28B7, w32 (Hash2.murmur3_32.exec le64 (.seed 0) [.update (.mem (bs 3 0x616263)) 3, .result]) == 0xB3DD93FA, w32 (Hash2.murmur3_32.exec le64 (.seed 0) [.update (.mem (bs 56 0x6162636462636465636465666465666765666768666768696768696a68696a6b696a6b6c6a6b6c6d6b6c6d6e6c6d6e6f6d6e6f706e6f7071)) 56, .result]) == 0xEE925B90, w32 (Hash2.murmur3_32.exec le64 (.seed 0x9747B28C) [.update (.mem (bs 43 0x54686520717569636b2062726f776e20666f78206a756d7073206f76657220746865206c617a7920646f67)) 43, .result]) == 0x2FA826CD] : List Bool).all id = true := by decide +kernel
-- legacy/murmur3_128.cpp
example : ([b128 (Hash2.murmur3_128.exec le64 (.seed 0) [.update (.mem (bs 43 0x54686520717569636b2062726f776e20666f78206a756d7073206f76657220746865206c617a7920646f67)) 43, .result]) == (bs 16 0x6c1b07bc7bbc4be347939ac4a93c437a), b128 (Hash2.murmur3_128.exec le64 (.seed 0) [.update (.mem (bs 43 0x54686520717569636b2062726f776e20666f78206a756d7073206f76657220746865206c617a7920636f67)) 43, .result]) == (bs 16 0x9a2685ff70a98c653e5c8ea6eae3fe43), b128 (Hash2.murmur3_128.exec le64 (.seed 0x9747B28C) [.update (.mem (bs 43 0x54686520717569636b2062726f776e20666f78206a756d7073206f76657220746865206c617a7920646f67)) 43, .result]) == (bs 16 0x213163d23b7f8a73e516c07e727345f9), b128 (Hash2.murmur3_128.exec le64 (.seed 0x9747B28C) [.update (.mem (bs 43 0x54686520717569636b2062726f776e20666f78206a756d7073206f76657220746865206c617a7920636f67)) 43, .result]) == (bs 16 0x94618270b057cdb83cf873585b456f55), b128 (Hash2.murmur3_128.exec le64 (.seed 0xC58F1A7B) [.update (.mem (bs 43 0x54686520717569636b2062726f776e20666f78206a756d7073206f76657220746865206c617a7920646f67)) 43, .result]) == (bs 16 0xff9d0cd2ee401fac26f5efde525c9338), b128 (Hash2.murmur3_128.exec le64 (.seed 0xC58F1A7B) [.update (.mem (bs 43 0x54686520717569636b2062726f776e20666f78206a756d7073206f76657220746865206c617a7920636f67)) 43, .result]) == (bs 16 0x8c935c5b843839f964b24f7ad58bbccd)] : List Bool).all id = true := by decide +kernel
-- legacy/spooky2.cpp
example : ([(0, 0x6bf50919), (1, 0x70de1d26), (7, 0xf9f1a233), (8, 0xee193982), (15, 0x83ec01f9), (16, 0xf274736c), (31, 0x27bca7c), (32, 0xe5cfc8b6), (33, 0xce01d9d7), (64, 0x69c8bb7), (95, 0x3abae1cb), (96, 0x1499b81a), (97, 0xa2993951), (191, 0xe13d9e19), (192, 0x77e012bd), (193, 0x2d05114c), (385, 0xae70edfc)] : List (Nat × Nat)).all (fun p => firstWord (b128 (Hash2.spooky2_128.exec le64 .default [.update (.mem ((iota 640).drop 128)) p.1, .result])) == p.2) = true := by decide +kernel

end Hash2.Tests

import Verif.StdPrims
/-
Validation of `stdPrims` and of the model against published test vectors and against the expected values in the unit tests of
/repo (kerberos_crypto). These are tests on literals, not proofs of any property: they show that the definitions in `Std*.lean`
are the algorithms meant, and that the model computes what /repo's tests say the code computes. For passwords, the PBKDF2
value with 4096 iterations is a literal here, computed outside Lean (the kernel would need minutes); PBKDF2 itself is checked
with few iterations (RFC 3962 appendix B). This file is generated from the test sources; of the
cipher tests it keeps those with key usages 1, 3 and 4 to keep the build short.
-/
namespace Verif.Crypto
open Verif.Std (hmac sha1 md5 md4 rc4 pbkdf2HmacSha1 encBlock decBlock roundKeys)
set_option maxRecDepth 100000

/-- `n` bytes written as a number, first byte most significant -/
def hex (n : Nat) (v : Nat) : Bytes := ((List.range n).map fun i => UInt8.ofNat (v / 256 ^ i)).reverse

/-- "kerberos" -/
def kerberosName : Bytes := utf8 "kerberos".toList

/-! ### The standards: FIPS 180, RFC 1321, RFC 1320, RFC 2202, FIPS 197, RFC 3962 -/
example : sha1 [0x61,0x62,0x63] = hex 20 0xa9993e364706816aba3e25717850c26c9cd0d89d := by decide +kernel
example : sha1 (utf8 "abcdbcdecdefdefgefghfghighijhijkijkljklmklmnlmnomnopnopq".toList) = hex 20 0x84983e441c3bd26ebaae4aa1f95129e5e54670f1 :=
  by decide +kernel
example : md5 [] = hex 16 0xd41d8cd98f00b204e9800998ecf8427e := by decide +kernel
example : md5 (utf8 "12345678901234567890123456789012345678901234567890123456789012345678901234567890".toList) = hex 16 0x57edf4a22be3c955ac49da2e2107b67a :=
  by decide +kernel
example : md4 [] = hex 16 0x31d6cfe0d16ae931b73c59d7e0c089c0 := by decide +kernel
example : md4 (utf8 "abc".toList) = hex 16 0xa448017aaf21d8525fc10ae87aa6729d := by decide +kernel
example : md4 (utf8 "12345678901234567890123456789012345678901234567890123456789012345678901234567890".toList) = hex 16 0xe33b4ddc9c38f2199c3e7b164fcc0536 :=
  by decide +kernel
example : hmac md5 [0x61, 0x64, 0x6d, 0x69, 0x6e] [0x61, 0x62, 0x63, 0x64] = hex 16 0x9a0698f1b48bc64c95cff74bf4691639 :=
  by decide +kernel
example : rc4 (hex 16 0x9a0698f1b48bc64c95cff74bf4691639) [0x61, 0x62, 0x63, 0x64] = hex 4 0xc254b74f := by decide +kernel
example : hmac sha1 (List.replicate 80 0xaa) (utf8 "Test Using Larger Than Block-Size Key - Hash Key First".toList) = hex 20 0xaa4ae5e15272d00e95705637ce8a3b55ed402112 :=
  by decide +kernel
example : pbkdf2HmacSha1 (utf8 "password".toList) (utf8 "ATHENA.MIT.EDUraeburn".toList) 1 32 = hex 32 0xcdedb5281bb2f801565a1122b25635150ad1f7a04bb9f3a333ecc0e2e1f70837 :=
  by decide +kernel
example : pbkdf2HmacSha1 (utf8 "password".toList) (utf8 "ATHENA.MIT.EDUraeburn".toList) 2 32 = hex 32 0x01dbee7f4a9e243e988b62c73cda935da05378b93244ec8f48a99e61ad799d86 :=
  by decide +kernel
example : encBlock (roundKeys 4 10 (hex 16 0x000102030405060708090a0b0c0d0e0f)) (hex 16 0x00112233445566778899aabbccddeeff) = hex 16 0x69c4e0d86a7b0430d8cdb78070b4c55a :=
  by decide +kernel
example : encBlock (roundKeys 8 14 (hex 32 0x000102030405060708090a0b0c0d0e0f101112131415161718191a1b1c1d1e1f)) (hex 16 0x00112233445566778899aabbccddeeff) = hex 16 0x8ea2b7ca516745bfeafc49904b496089 :=
  by decide +kernel
example : decBlock (roundKeys 4 10 (hex 16 0x000102030405060708090a0b0c0d0e0f)) (hex 16 0x69c4e0d86a7b0430d8cdb78070b4c55a) = hex 16 0x00112233445566778899aabbccddeeff :=
  by decide +kernel
example : decBlock (roundKeys 8 14 (hex 32 0x000102030405060708090a0b0c0d0e0f101112131415161718191a1b1c1d1e1f)) (hex 16 0x8ea2b7ca516745bfeafc49904b496089) = hex 16 0x00112233445566778899aabbccddeeff :=
  by decide +kernel
example : dk stdPrims .aes128 (pbkdf2HmacSha1 (utf8 "password".toList) (utf8 "ATHENA.MIT.EDUraeburn".toList) 1 16) kerberosName = .ok (hex 16 0x42263c6e89f4fc28b8df68ee09799f15) :=
  by decide +kernel
example : dk stdPrims .aes256 (pbkdf2HmacSha1 (utf8 "password".toList) (utf8 "ATHENA.MIT.EDUraeburn".toList) 1 32) kerberosName = .ok (hex 32 0xfe697b52bc0d3ce14432ba036a92e65bbb52280990a2fa27883998d72af30161) :=
  by decide +kernel

/-! ### kerberos_crypto/src/cryptography/nfold_dk.rs:119-202 -/
example : nFold (utf8 "012345".toList) 8 = some (hex 8 0xbe072631276b1955) := by decide +kernel
example : nFold (utf8 "password".toList) 7 = some (hex 7 0x78a07b6caf85fa) := by decide +kernel
example : nFold (utf8 "Rough Consensus, and Running Code".toList) 8 = some (hex 8 0xbb6ed30870b7f0e0) := by decide +kernel
example : nFold (utf8 "password".toList) 21 = some (hex 21 0x59e4a8ca7c0385c3c37b3f6d2000247cb6e6bd5b3e) := by decide +kernel
example : nFold (utf8 "MASSACHVSETTS INSTITVTE OF TECHNOLOGY".toList) 24 = some (hex 24 0xdb3b0d8f0b061e603282b308a50841229ad798fab9540c1b) := by decide +kernel
example : nFold (utf8 "Q".toList) 21 = some (hex 21 0x518a54a215a8452a518a54a215a8452a518a54a215) := by decide +kernel
example : nFold (utf8 "ba".toList) 21 = some (hex 21 0xfb25d531ae8974499f52fd92ea9857c4ba24cf297e) := by decide +kernel
example : nFold (utf8 "kerberos".toList) 8 = some (hex 8 0x6b65726265726f73) := by decide +kernel
example : nFold (utf8 "kerberos".toList) 16 = some (hex 16 0x6b65726265726f737b9b5b2b93132b93) := by decide +kernel
example : nFold (utf8 "kerberos".toList) 21 = some (hex 21 0x8372c236344e5f1550cd0747e15d62ca7a5a3bcea4) := by decide +kernel
example : nFold (utf8 "kerberos".toList) 32 = some (hex 32 0x6b65726265726f737b9b5b2b93132b935c9bdcdad95c9899c4cae4dee6d6cae4) := by decide +kernel

/-! ### kerberos_crypto/src/checksum.rs:39-103 -/
example : checksumHmacMd5 stdPrims (hex 32 0x72c390c65d7189ab9a39c3fbfcba41b85a5f726ed64c0c8a5cab5beb648cb874) 17 (hex 39 0x0100000061646d696e6973747261646f726b696e67646f6d2e6865617274734b65726265726f73) =
    (hex 16 0x85bfbd75ee4a87929c28bc0724952f8d) := by decide +kernel
example : checksumShaAes stdPrims .aes256 (hex 32 0x25b2076cda3bfd6209161a6c78a69c1c25b2076cda3bfd6209161a6c78a69c1c) 17 (hex 17 0xffffff7f8023b8a31031d6010000000045) =
    .ok (hex 12 0xa84d321d2324ffa06244b787) := by decide +kernel
example : checksumShaAes stdPrims .aes128 (hex 16 0x25b2076cda3bfd6209161a6c78a69c1c) 17 (hex 17 0xffffff7f8023b8a31031d6010000000045) =
    .ok (hex 12 0xf05fef821ecd6d62ad3a3894) := by decide +kernel

/-! ### kerberos_crypto/src/algorithms/rc4_hmac_md5/key.rs:25-70 -/
example : Cipher.rc4.generateKeyFromString stdPrims "admin".toList [] = .ok (hex 16 0x209c6174da490caeb422f3fa5a7ae634) := by decide +kernel
example : Cipher.rc4.generateKeyFromString stdPrims "test".toList [] = .ok (hex 16 0x0cb6948805f797bf2a82807973b89537) := by decide +kernel
example : Cipher.rc4.generateKeyFromString stdPrims "1337".toList [] = .ok (hex 16 0x2fd6bde7db0681887498914cb2d201ef) := by decide +kernel
example : Cipher.rc4.generateKeyFromString stdPrims "".toList [] = .ok (hex 16 0x31d6cfe0d16ae931b73c59d7e0c089c0) := by decide +kernel
example : Cipher.rc4.generateKeyFromString stdPrims "12345678".toList [] = .ok (hex 16 0x259745cb123a52aa2e693aaacca2db52) := by decide +kernel
example : Cipher.rc4.generateKeyFromString stdPrims "123456789".toList [] = .ok (hex 16 0xc22b315c040ae6e0efee3518d830362b) := by decide +kernel

/-! ### kerberos_crypto/src/algorithms/aes_hmac_sha1/keys.rs:34-121 -/
-- password "Minnie1234", salt "KINGDOM.HEARTSmickey"
example : dk stdPrims .aes128 (hex 16 0x2c6c4766c25666826a02f7b7e5ecb007) kerberosName =
    .ok (hex 16 0x617f72fdbc851c459a1c39bf83235609) := by decide +kernel
-- password "Sora1234", salt "KINGDOM.HEARTSroxas"
example : dk stdPrims .aes128 (hex 16 0x3cd2ac732ae3a9e3de22da1f1d0c0124) kerberosName =
    .ok (hex 16 0x19a9b7c087f8fd3df594afd2c7f66473) := by decide +kernel
-- password "Kairi1234", salt "KINGDOM.HEARTSnamine"
example : dk stdPrims .aes128 (hex 16 0x9ee56e3cf44fb9b903e041348f88b043) kerberosName =
    .ok (hex 16 0x839103345b8b0169b6ff47e614e6ceec) := by decide +kernel
-- password "Roxas1234", salt "KINGDOM.HEARTSxion"
example : dk stdPrims .aes128 (hex 16 0x6368b555a78596bd6e52aa06f88d17c0) kerberosName =
    .ok (hex 16 0x666b33754d8bdd0ed2589993cbcc778e) := by decide +kernel
-- password "Minnie1234", salt "KINGDOM.HEARTSmickey"
example : dk stdPrims .aes256 (hex 32 0x2c6c4766c25666826a02f7b7e5ecb007004ae8a738898a866218deeea32fc81d) kerberosName =
    .ok (hex 32 0xd3301f0f2539cc4026a569f8b7c36715c8daef109fa3d8b2e14616aacab549fd) := by decide +kernel
-- password "Sora1234", salt "KINGDOM.HEARTSroxas"
example : dk stdPrims .aes256 (hex 32 0x3cd2ac732ae3a9e3de22da1f1d0c0124e741f68d4d60103c4d9927cb1bac8a59) kerberosName =
    .ok (hex 32 0x99c89ed5121984c8e412c1a7c134690f61c95548388bba208fd9d9986c8f77d6) := by decide +kernel
-- password "Kairi1234", salt "KINGDOM.HEARTSnamine"
example : dk stdPrims .aes256 (hex 32 0x9ee56e3cf44fb9b903e041348f88b04332709dd9b94f50df99841f4e021bd4fa) kerberosName =
    .ok (hex 32 0x8695f82e920e0ace429b8d9ef619670d0367430c12b3233f32c5c89fb7d604ff) := by decide +kernel
-- password "Roxas1234", salt "KINGDOM.HEARTSxion"
example : dk stdPrims .aes256 (hex 32 0x6368b555a78596bd6e52aa06f88d17c013b5aecb4757d72aee6dff55df1fe6a0) kerberosName =
    .ok (hex 32 0xd652f85d865d92e347f6a56b635d31023b92651a002c059d8db8ee2a06d2650f) := by decide +kernel

/-! ### kerberos_crypto/src/ciphers/aes.rs:105-621 and ciphers/rc4.rs:99-358 -/
-- ciphers/aes.rs:110, password "admin", salt "admin1234"
example : (dk stdPrims .aes256 (hex 32 0xa3770a7a84eab2854914049c886e8e73334920e1b5aaa7c2b9f0975f3dfa0f07) kerberosName).toOption.bind (fun k => ((Cipher.aes .aes256).encrypt stdPrims k 1 (hex 25 0x336168777a74394d473957564575425643356a306f69367349) (List.replicate 16 0)).toOption) =
    some (hex 53 0x29737f3db6bcdfe9990fb2136d3efe6f2100e6c4ac75824299d8d3702f5a2e31c7a336747dfd734a1ea0165ebb27c0d7ce9b5aec7a) := by decide +kernel
-- ciphers/aes.rs:169, password "", salt "1234"
example : (dk stdPrims .aes256 (hex 32 0x5c9bb670d9bbe87fe51ab9c8a7ef0981434d5743ea1e705e7e7a9e2de6f0cede) kerberosName).toOption.bind (fun k => ((Cipher.aes .aes256).encrypt stdPrims k 4 (hex 11 0x644d61727a4b434f455437) (List.replicate 16 0)).toOption) =
    some (hex 39 0xffb5a2aae1aa260badcf5dcbe43cdc30002e3d970522f1839518bf6246bbec0d4c89b0c5b581ae) := by decide +kernel
-- ciphers/aes.rs:368, password "admin", salt "admin1234"
example : (dk stdPrims .aes128 (hex 16 0xa3770a7a84eab2854914049c886e8e73) kerberosName).toOption.bind (fun k => ((Cipher.aes .aes128).encrypt stdPrims k 1 (hex 13 0x6c38387053786b4d7978776867) (List.replicate 16 0)).toOption) =
    some (hex 41 0xded4d3bfd788a4b5ec6b0d9c8f2400ea044794a5ea27ecd03f8cf42b58008ccd27f4277819a26b27d9) := by decide +kernel
-- ciphers/aes.rs:421, password "", salt "1234"
example : (dk stdPrims .aes128 (hex 16 0x5c9bb670d9bbe87fe51ab9c8a7ef0981) kerberosName).toOption.bind (fun k => ((Cipher.aes .aes128).encrypt stdPrims k 4 (hex 31 0x624a71705a4969434544686f78517647587430436c6250303666514f56366b) (List.replicate 16 0)).toOption) =
    some (hex 59 0x6b17240a56d6d1f51b7376fa54d8b04314e31b1f05da5b74eac84b429c8d41fa469e6576a162e2defb57b101a12fdec956767ae23c5671d7f09180) := by decide +kernel
-- ciphers/aes.rs:232, password "admin", salt "admin1234"
example : (dk stdPrims .aes256 (hex 32 0xa3770a7a84eab2854914049c886e8e73334920e1b5aaa7c2b9f0975f3dfa0f07) kerberosName).toOption.bind (fun k => ((Cipher.aes .aes256).decrypt stdPrims k 1 (hex 53 0x29737f3db6bcdfe9990fb2136d3efe6f2100e6c4ac75824299d8d3702f5a2e31c7a336747dfd734a1ea0165ebb27c0d7ce9b5aec7a)).toOption) =
    some (hex 25 0x336168777a74394d473957564575425643356a306f69367349) := by decide +kernel
-- ciphers/aes.rs:297, password "", salt "1234"
example : (dk stdPrims .aes256 (hex 32 0x5c9bb670d9bbe87fe51ab9c8a7ef0981434d5743ea1e705e7e7a9e2de6f0cede) kerberosName).toOption.bind (fun k => ((Cipher.aes .aes256).decrypt stdPrims k 4 (hex 39 0xffb5a2aae1aa260badcf5dcbe43cdc30002e3d970522f1839518bf6246bbec0d4c89b0c5b581ae)).toOption) =
    some (hex 11 0x644d61727a4b434f455437) := by decide +kernel
-- ciphers/aes.rs:490, password "admin", salt "admin1234"
example : (dk stdPrims .aes128 (hex 16 0xa3770a7a84eab2854914049c886e8e73) kerberosName).toOption.bind (fun k => ((Cipher.aes .aes128).decrypt stdPrims k 1 (hex 41 0xded4d3bfd788a4b5ec6b0d9c8f2400ea044794a5ea27ecd03f8cf42b58008ccd27f4277819a26b27d9)).toOption) =
    some (hex 13 0x6c38387053786b4d7978776867) := by decide +kernel
-- ciphers/aes.rs:550, password "", salt "1234"
example : (dk stdPrims .aes128 (hex 16 0x5c9bb670d9bbe87fe51ab9c8a7ef0981) kerberosName).toOption.bind (fun k => ((Cipher.aes .aes128).decrypt stdPrims k 4 (hex 59 0x6b17240a56d6d1f51b7376fa54d8b04314e31b1f05da5b74eac84b429c8d41fa469e6576a162e2defb57b101a12fdec956767ae23c5671d7f09180)).toOption) =
    some (hex 31 0x624a71705a4969434544686f78517647587430436c6250303666514f56366b) := by decide +kernel
-- ciphers/rc4.rs:105
example : Cipher.rc4.generateKeyFromStringAndEncrypt stdPrims "admin".toList [] 1 (hex 22 0x5a676559305a49654164567572544b396273356b6247) (hex 8 0x3132333435363738) =
    .ok (hex 46 0x9dc24787cb4fea5967ac2b7f2e39b62aea6ffef208cf5d6ef42bb9294a6cc2eaa4f90bc9145a188c85ed0bfa0f00) := by decide +kernel
-- ciphers/rc4.rs:144
example : Cipher.rc4.generateKeyFromStringAndEncrypt stdPrims "1337".toList [] 3 (hex 21 0x4c4859623142776a53507954596e5a43784f656e63) (hex 8 0x3132333435363738) =
    .ok (hex 45 0xeeac19f0e03dd41e84aaa8339790d439a6699691dbf69ea75781d8092251546158fceea893d3b86ec75af6f0db) := by decide +kernel
-- ciphers/rc4.rs:164
example : Cipher.rc4.generateKeyFromStringAndEncrypt stdPrims "".toList [] 4 (hex 15 0x6d5577474f49615969793152446675) (hex 8 0x3132333435363738) =
    .ok (hex 39 0x23b693903f073930cc9862f80fec5e3850cf2a301c1f076e9845652cbfe729132fb6659bf28911) := by decide +kernel
-- ciphers/rc4.rs:228
example : Cipher.rc4.generateKeyFromStringAndDecrypt stdPrims "admin".toList [] 1 (hex 46 0x9dc24787cb4fea5967ac2b7f2e39b62aea6ffef208cf5d6ef42bb9294a6cc2eaa4f90bc9145a188c85ed0bfa0f00) =
    .ok (hex 22 0x5a676559305a49654164567572544b396273356b6247) := by decide +kernel
-- ciphers/rc4.rs:272
example : Cipher.rc4.generateKeyFromStringAndDecrypt stdPrims "1337".toList [] 3 (hex 45 0xeeac19f0e03dd41e84aaa8339790d439a6699691dbf69ea75781d8092251546158fceea893d3b86ec75af6f0db) =
    .ok (hex 21 0x4c4859623142776a53507954596e5a43784f656e63) := by decide +kernel
-- ciphers/rc4.rs:294
example : Cipher.rc4.generateKeyFromStringAndDecrypt stdPrims "".toList [] 4 (hex 39 0x23b693903f073930cc9862f80fec5e3850cf2a301c1f076e9845652cbfe729132fb6659bf28911) =
    .ok (hex 15 0x6d5577474f49615969793152446675) := by decide +kernel

end Verif.Crypto

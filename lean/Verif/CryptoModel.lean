import Verif.NFoldModel
import Verif.Utf8
/-
Model of kerberos_crypto/src: the AES-CTS-HMAC-SHA1 and RC4-HMAC-MD5 encryption schemes, key derivation,
checksums, ciphers and cipher selection.

The external primitives (crates `aes`, `hmac`, `sha1`, `md5`, `md4`, `rc4`, `pbkdf2`) are a parameter
`Prims`; the laws used about them are collected in `Prims.Lawful`. Random confounders ("preamble") are
explicit arguments: a theorem for all preambles covers every random choice.

A Rust panic is the result `.error .panic`.
-/
namespace Verif.Crypto

/-- kerberos_crypto/src/error.rs:9-27, plus `panic` (a Rust panic) and `diverge` (a loop that has not
ended within its bound; proved unreachable). -/
inductive CErr where
  | decryption (msg : String)
  | unsupported (etype : Int32)
  | invalidKeyCharset
  | invalidKeyLength (n : Nat)
  | panic
  | diverge
deriving DecidableEq, Repr

/-- cryptography/aes.rs:22-25 -/
inductive AesSizes where
  | aes128
  | aes256
deriving DecidableEq, Repr

/-- aes.rs:12-13,28-33 -/
def AesSizes.seedSize : AesSizes → Nat
  | .aes128 => 16
  | .aes256 => 32

/-- aes.rs:16-19,39-44 (`aes::Aes128::key_size()` is 16, `aes::Aes256::key_size()` is 32) -/
def AesSizes.keySize : AesSizes → Nat
  | .aes128 => 16
  | .aes256 => 32

/-- aes.rs:10,35-37 -/
def blockSize : Nat := 16

/-- aes.rs:11,46-48 -/
def macSize : Nat := 12

/-- The external primitives behind cryptography/hmac.rs:7-19, md5.rs:4-8, md4lib.rs:3-5, rc4.rs:6-20 and aes.rs:51-91
(`Hmac::new_from_slice` accepts keys of every length). `aesEnc`/`aesDec` work on one block, with a key of the right size. -/
structure Prims where
  aesEnc : AesSizes → Bytes → Bytes → Bytes
  aesDec : AesSizes → Bytes → Bytes → Bytes
  hmacSha1 : Bytes → Bytes → Bytes
  hmacMd5 : Bytes → Bytes → Bytes
  md5 : Bytes → Bytes
  md4 : Bytes → Bytes
  rc4 : Bytes → Bytes → Bytes
  /-- password, salt, iterations, length -/
  pbkdf2 : Bytes → Bytes → Nat → Nat → Bytes

/-- Laws assumed of the primitives. -/
structure Prims.Lawful (P : Prims) : Prop where
  enc_length : ∀ sz k b, k.length = sz.keySize → b.length = 16 → (P.aesEnc sz k b).length = 16
  dec_length : ∀ sz k b, k.length = sz.keySize → b.length = 16 → (P.aesDec sz k b).length = 16
  dec_enc : ∀ sz k b, k.length = sz.keySize → b.length = 16 → P.aesDec sz k (P.aesEnc sz k b) = b
  enc_dec : ∀ sz k b, k.length = sz.keySize → b.length = 16 → P.aesEnc sz k (P.aesDec sz k b) = b
  hmacSha1_length : ∀ k d, (P.hmacSha1 k d).length = 20
  hmacMd5_length : ∀ k d, (P.hmacMd5 k d).length = 16
  md5_length : ∀ d, (P.md5 d).length = 16
  md4_length : ∀ d, (P.md4 d).length = 16
  rc4_length : ∀ k d, k.length = 16 → (P.rc4 k d).length = d.length
  rc4_invol : ∀ k d, k.length = 16 → P.rc4 k (P.rc4 k d) = d
  pbkdf2_length : ∀ p s c n, (P.pbkdf2 p s c n).length = n

/-- utils.rs:15-23 `xorbytes`: indexing panics if the second argument is shorter. -/
def xorBytes (a b : Bytes) : Except CErr Bytes :=
  if a.length ≤ b.length then .ok (List.zipWith (· ^^^ ·) a b) else .error .panic

/-- CBC over consecutive 16-byte blocks (crate `cbc`). Used at cryptography/aes.rs:79-91. -/
def cbcBlocks (E : Bytes → Bytes) (prev pt : Bytes) : Bytes :=
  if pt.length < 16 then []
  else
    let c := E (List.zipWith (· ^^^ ·) (pt.take 16) prev)
    c ++ cbcBlocks E c (pt.drop 16)
termination_by pt.length
decreasing_by simp only [List.length_drop]; omega

/-- ECB over consecutive 16-byte blocks (crate `ecb`). Used at cryptography/aes.rs:61-74. -/
def ecbBlocks (D : Bytes → Bytes) (ct : Bytes) : Bytes :=
  if ct.length < 16 then []
  else D (ct.take 16) ++ ecbBlocks D (ct.drop 16)
termination_by ct.length
decreasing_by simp only [List.length_drop]; omega

/-- aes.rs:61-74: `key.into()` panics on a wrong key size, `unwrap` on a partial last block. -/
def decryptAesEcb (P : Prims) (sz : AesSizes) (key ct : Bytes) : Except CErr Bytes :=
  if key.length ≠ sz.keySize then .error .panic
  else if ct.length % 16 ≠ 0 then .error .panic
  else .ok (ecbBlocks (P.aesDec sz key) ct)

/-- aes.rs:79-91, zero IV, no padding (a partial last block panics). -/
def encryptAesCbc (P : Prims) (sz : AesSizes) (key pt : Bytes) : Except CErr Bytes :=
  if key.length ≠ sz.keySize then .error .panic
  else if pt.length % 16 ≠ 0 then .error .panic
  else .ok (cbcBlocks (P.aesEnc sz key) (List.replicate 16 0) pt)

/-- nfold_dk.rs:8-11, the loop of `dk`. -/
def dkLoop (P : Prims) (sz : AesSizes) (key : Bytes) : Nat → Bytes → Bytes → Except CErr Bytes
  | 0, _, result => if result.length < sz.seedSize then .error .diverge else .ok result
  | n + 1, plaintext, result =>
    if result.length < sz.seedSize then
      match encryptAesCbc P sz key plaintext with
      | .error e => .error e
      | .ok p => dkLoop P sz key n p (result ++ p)
    else .ok result

/-- nfold_dk.rs:4-14 `dk`. -/
def dk (P : Prims) (sz : AesSizes) (key const : Bytes) : Except CErr Bytes :=
  match nFold const blockSize with
  | none => .error .panic
  | some plaintext => dkLoop P sz key sz.seedSize plaintext []

/-- `i32::to_be_bytes`. decrypt.rs:136, checksum.rs:25. -/
def usageBE (u : Int32) : Bytes := be32 u.toUInt32
/-- `i32::to_le_bytes`. rc4_hmac_md5/encrypt.rs:15,38, checksum.rs:12. -/
def usageLE (u : Int32) : Bytes := le32 u.toUInt32

/-- aes_hmac_sha1/decrypt.rs:138-142 and checksum.rs:25-26: derivation constants. -/
def usageConst (u : Int32) (purpose : UInt8) : Bytes := usageBE u ++ [purpose]

/-- aes_hmac_sha1/decrypt.rs:131-148 -/
def generateKiKe (P : Prims) (sz : AesSizes) (key : Bytes) (usage : Int32) : Except CErr (Bytes × Bytes) :=
  match dk P sz key (usageConst usage 0x55) with
  | .error e => .error e
  | .ok ki => match dk P sz key (usageConst usage 0xaa) with
    | .error e => .error e
    | .ok ke => .ok (ki, ke)

/-- aes_hmac_sha1/decrypt.rs:28-69 `basic_encrypt` (CBC with ciphertext stealing). -/
def basicEncrypt (P : Prims) (sz : AesSizes) (key plaintext : Bytes) : Except CErr Bytes :=
  let pad := (blockSize - plaintext.length % blockSize) % blockSize
  match encryptAesCbc P sz key (plaintext ++ List.replicate pad 0) with
  | .error e => .error e
  | .ok c =>
    if c.length ≤ blockSize then .ok c
    else
      let start := if c.length > blockSize * 2 then c.length - blockSize * 2 else 0
      let secondLast := (c.drop start).take blockSize
      let last := c.drop (start + blockSize)
      .ok (c.take start ++ last ++ secondLast.take (blockSize - pad))

/-- aes_hmac_sha1/decrypt.rs:8-26 `encrypt`. -/
def aesEncrypt (P : Prims) (sz : AesSizes) (key : Bytes) (usage : Int32) (plaintext preamble : Bytes) :
    Except CErr Bytes :=
  match generateKiKe P sz key usage with
  | .error e => .error e
  | .ok (ki, ke) =>
    match basicEncrypt P sz ke (preamble ++ plaintext) with
    | .error e => .error e
    | .ok c =>
      let mac := P.hmacSha1 ki (preamble ++ plaintext)
      if mac.length < macSize then .error .panic else .ok (c ++ mac.take macSize)

/-- aes_hmac_sha1/decrypt.rs:150-165 `divide_in_n_bytes_blocks`, with `nbytes = 16`. -/
def divideBlocks (v : Bytes) : List Bytes :=
  if v = [] then [] else v.take 16 :: divideBlocks (v.drop 16)
termination_by v.length
decreasing_by
  have : v ≠ [] := by assumption
  have := List.length_pos_iff.mpr this
  simp only [List.length_drop]; omega

/-- aes_hmac_sha1/decrypt.rs:175-181, the loop; returns the plaintext and the last block. -/
def decryptSeveral (P : Prims) (sz : AesSizes) (key : Bytes) :
    Bytes → List Bytes → Except CErr (Bytes × Bytes)
  | prev, [] => .ok ([], prev)
  | prev, b :: bs =>
    match decryptAesEcb P sz key b with
    | .error e => .error e
    | .ok d => match xorBytes d prev with
      | .error e => .error e
      | .ok x => match decryptSeveral P sz key b bs with
        | .error e => .error e
        | .ok (rest, prev') => .ok (x ++ rest, prev')

/-- aes_hmac_sha1/decrypt.rs:186-214 `decrypt_last_two_blocks`. -/
def decryptLastTwo (P : Prims) (sz : AesSizes) (key b0 b1 prev : Bytes) : Except CErr Bytes :=
  match decryptAesEcb P sz key b0 with
  | .error e => .error e
  | .ok d =>
    if d.length < b1.length then .error .panic          -- slice at line 199
    else match xorBytes (d.take b1.length) b1 with
      | .error e => .error e
      | .ok lastPlain => match decryptAesEcb P sz key (b1 ++ d.drop b1.length) with
        | .error e => .error e
        | .ok d2 => match xorBytes d2 prev with
          | .error e => .error e
          | .ok x => .ok (x ++ lastPlain)

/-- aes_hmac_sha1/decrypt.rs:99-129 `basic_decrypt`; `blocks.len() - 2` underflows for fewer than two
blocks (a panic in both profiles: the range that follows is out of bounds). -/
def basicDecrypt (P : Prims) (sz : AesSizes) (key ct : Bytes) : Except CErr Bytes :=
  if ct.length = blockSize then decryptAesEcb P sz key ct
  else
    let blocks := divideBlocks ct
    if blocks.length < 2 then .error .panic
    else
      let n := blocks.length - 2
      match decryptSeveral P sz key (List.replicate 16 0) (blocks.take n) with
      | .error e => .error e
      | .ok (plaintext, prev) =>
        match blocks.drop n with
        | [b0, b1] => match decryptLastTwo P sz key b0 b1 prev with
          | .error e => .error e
          | .ok last => .ok (plaintext ++ last)
        | _ => .error .panic

/-- aes_hmac_sha1/decrypt.rs:72-97 `decrypt`. -/
def aesDecrypt (P : Prims) (sz : AesSizes) (key : Bytes) (usage : Int32) (ct : Bytes) : Except CErr Bytes :=
  match generateKiKe P sz key usage with
  | .error e => .error e
  | .ok (ki, ke) =>
    if ct.length < blockSize + macSize then .error (.decryption "Ciphertext too short")
    else
      let stop := ct.length - macSize
      match basicDecrypt P sz ke (ct.take stop) with
      | .error e => .error e
      | .ok plaintext =>
        let mac := P.hmacSha1 ki plaintext
        if mac.length < macSize then .error .panic
        else if mac.take macSize ≠ ct.drop stop then .error (.decryption "Hmac integrity failure")
        else if plaintext.length < blockSize then .error .panic
        else .ok (plaintext.drop blockSize)

/-- cryptography/aes.rs:51-56 `pbkdf2_sha1`: always 0x1000 iterations. -/
def pbkdf2Sha1 (P : Prims) (key salt : Bytes) (seedSize : Nat) : Bytes := P.pbkdf2 key salt 0x1000 seedSize

/-- aes_hmac_sha1/keys.rs:4-11 `generate_key`; the constant is the bytes of "kerberos". -/
def aesGenerateKey (P : Prims) (sz : AesSizes) (passphrase salt : Bytes) : Except CErr Bytes :=
  dk P sz (pbkdf2Sha1 P passphrase salt sz.seedSize) [0x6b, 0x65, 0x72, 0x62, 0x65, 0x72, 0x6f, 0x73]

/-- cryptography/rc4.rs:6-16 (`Key::<U16>::from_slice` panics unless the key has 16 bytes). -/
def rc4Apply (P : Prims) (key data : Bytes) : Except CErr Bytes :=
  if key.length ≠ 16 then .error .panic else .ok (P.rc4 key data)

/-- rc4_hmac_md5/encrypt.rs:5-24 -/
def rc4Encrypt (P : Prims) (key : Bytes) (usage : Int32) (plaintext preamble : Bytes) : Except CErr Bytes :=
  let pt := preamble ++ plaintext
  let ki := P.hmacMd5 key (usageLE usage)
  let cksum := P.hmacMd5 ki pt
  let ke := P.hmacMd5 ki cksum
  match rc4Apply P ke pt with
  | .error e => .error e
  | .ok enc => .ok (cksum ++ enc)

/-- rc4_hmac_md5/encrypt.rs:27-49 -/
def rc4Decrypt (P : Prims) (key : Bytes) (usage : Int32) (ct : Bytes) : Except CErr Bytes :=
  if ct.length < 24 then .error (.decryption "Ciphertext too short")
  else
    let cksum := ct.take 16
    let ki := P.hmacMd5 key (usageLE usage)
    let ke := P.hmacMd5 ki cksum
    match rc4Apply P ke (ct.drop 16) with
    | .error e => .error e
    | .ok plaintext =>
      if cksum ≠ P.hmacMd5 ki plaintext then .error (.decryption "Hmac integrity failure")
      else if plaintext.length < 8 then .error .panic
      else .ok (plaintext.drop 8)

/-- ciphers/rc4.rs:71-75,81-85: key usage translation of both `encrypt` and `decrypt`. -/
def rc4Usage (u : Int32) : Int32 := if u = 3 then 8 else u

/-- The two `KerberosCipher` implementations (ciphers/aes.rs:40-51, ciphers/rc4.rs:32-49) behind `Box<dyn …>`. -/
inductive Cipher where
  | aes (sz : AesSizes)
  | rc4
deriving DecidableEq, Repr

/-- ciphers/aes.rs:51-57 and ciphers/rc4.rs `etype`. -/
def Cipher.etype : Cipher → Int32
  | .aes .aes128 => 17
  | .aes .aes256 => 18
  | .rc4 => 23

/-- number of random bytes taken by `encrypt` (aes_hmac_sha1/preamble.rs:6-8, rc4_hmac_md5/preamble.rs:5-7). -/
def Cipher.preambleSize : Cipher → Nat
  | .aes _ => 16
  | .rc4 => 8

/-- ciphers/*.rs `encrypt`, with the random confounder as an argument. ciphers/aes.rs:89-98, ciphers/rc4.rs:79-92. -/
def Cipher.encrypt (P : Prims) (c : Cipher) (key : Bytes) (usage : Int32) (plaintext preamble : Bytes) :
    Except CErr Bytes :=
  match c with
  | .aes sz => aesEncrypt P sz key usage plaintext preamble
  | .rc4 => rc4Encrypt P key (rc4Usage usage) plaintext preamble

/-- ciphers/*.rs `decrypt`. ciphers/aes.rs:75-87, ciphers/rc4.rs:65-77. -/
def Cipher.decrypt (P : Prims) (c : Cipher) (key : Bytes) (usage : Int32) (ct : Bytes) : Except CErr Bytes :=
  match c with
  | .aes sz => aesDecrypt P sz key usage ct
  | .rc4 => rc4Decrypt P key (rc4Usage usage) ct

/-- ciphers/*.rs `generate_key`. ciphers/aes.rs:63-65, ciphers/rc4.rs:57-59. -/
def Cipher.generateKey (P : Prims) (c : Cipher) (rawKey salt : Bytes) : Except CErr Bytes :=
  match c with
  | .aes sz => aesGenerateKey P sz rawKey salt
  | .rc4 => .ok (P.md4 rawKey)

/-- cipher_trait.rs:16-25 `generate_key_and_decrypt`. -/
def Cipher.generateKeyAndDecrypt (P : Prims) (c : Cipher) (rawKey salt : Bytes) (usage : Int32) (ct : Bytes) :
    Except CErr Bytes :=
  match c.generateKey P rawKey salt with
  | .error e => .error e
  | .ok key => c.decrypt P key usage ct

/-- cipher_trait.rs:40-49 `generate_key_and_encrypt`. -/
def Cipher.generateKeyAndEncrypt (P : Prims) (c : Cipher) (rawKey salt : Bytes) (usage : Int32)
    (pt preamble : Bytes) : Except CErr Bytes :=
  match c.generateKey P rawKey salt with
  | .error e => .error e
  | .ok key => c.encrypt P key usage pt preamble

/-- the key size a cipher's `encrypt`/`decrypt` needs (`none`: any) -/
def Cipher.keyOk (c : Cipher) (key : Bytes) : Prop :=
  match c with
  | .aes sz => key.length = sz.keySize
  | .rc4 => True

/-- UTF-16 code units of a scalar value (`str::encode_utf16`). Used at utils.rs:26. -/
def utf16Char (c : Char) : List UInt16 :=
  let n := c.val.toNat
  if n < 0x10000 then [UInt16.ofNat n]
  else [UInt16.ofNat (0xd800 + (n - 0x10000) / 0x400), UInt16.ofNat (0xdc00 + (n - 0x10000) % 0x400)]

/-- utils.rs:25-42 `string_unicode_bytes` (low byte first). -/
def stringUnicodeBytes (s : List Char) : Bytes :=
  (s.flatMap utf16Char).flatMap fun (u : UInt16) => [u.toUInt8, (u >>> 8).toUInt8]

/-- ciphers/*.rs `generate_key_from_string`: aes_hmac_sha1/keys.rs:14-20, rc4_hmac_md5/key.rs:12-15. -/
def Cipher.generateKeyFromString (P : Prims) (c : Cipher) (password : List Char) (salt : Bytes) :
    Except CErr Bytes :=
  match c with
  | .aes sz => aesGenerateKey P sz (utf8 password) salt
  | .rc4 => .ok (P.md4 (stringUnicodeBytes password))

/-- cipher_trait.rs:27-36 -/
def Cipher.generateKeyFromStringAndDecrypt (P : Prims) (c : Cipher) (password : List Char) (salt : Bytes)
    (usage : Int32) (ct : Bytes) : Except CErr Bytes :=
  match c.generateKeyFromString P password salt with
  | .error e => .error e
  | .ok key => c.decrypt P key usage ct

/-- cipher_trait.rs:51-60 -/
def Cipher.generateKeyFromStringAndEncrypt (P : Prims) (c : Cipher) (password : List Char) (salt : Bytes)
    (usage : Int32) (pt preamble : Bytes) : Except CErr Bytes :=
  match c.generateKeyFromString P password salt with
  | .error e => .error e
  | .ok key => c.encrypt P key usage pt preamble

/-- ciphers/factory.rs:9-24 -/
def newKerberosCipher (etype : Int32) : Except CErr Cipher :=
  if etype = 18 then .ok (.aes .aes256)
  else if etype = 17 then .ok (.aes .aes128)
  else if etype = 23 then .ok .rc4
  else .error (.unsupported etype)

/-- helpers.rs:14-16 -/
def supportedEtypes : List Int32 := [18, 17, 23]
/-- helpers.rs:8-10 -/
def isSupportedEtype (e : Int32) : Bool := supportedEtypes.contains e

/-- checksum.rs:3-17; the keyword is the bytes of "signaturekey" and a zero byte. -/
def checksumHmacMd5 (P : Prims) (key : Bytes) (usage : Int32) (pt : Bytes) : Bytes :=
  let ksign := P.hmacMd5 key
    [0x73, 0x69, 0x67, 0x6e, 0x61, 0x74, 0x75, 0x72, 0x65, 0x6b, 0x65, 0x79, 0]
  P.hmacMd5 ksign (P.md5 (usageLE usage ++ pt))

/-- checksum.rs:19-33 -/
def checksumShaAes (P : Prims) (sz : AesSizes) (key : Bytes) (usage : Int32) (pt : Bytes) : Except CErr Bytes :=
  match dk P sz key (usageConst usage 0x99) with
  | .error e => .error e
  | .ok kc =>
    let mac := P.hmacSha1 kc pt
    if mac.length < 12 then .error .panic else .ok (mac.take 12)

/-- Case mappings of `str` (`to_uppercase`, `to_lowercase`), left as parameters: no property below depends on
their exact tables. Used at aes_hmac_sha1/salt.rs:3-12. -/
structure CaseMap where
  upper : List Char → List Char
  lower : List Char → List Char

/-- aes_hmac_sha1/salt.rs:2-18 `generate_salt` -/
def aesSalt (M : CaseMap) (realm client : List Char) : Bytes :=
  let name := M.lower client
  if name.getLast? = some '$' then
    utf8 (M.upper realm ++ "host".toList ++ name.dropLast ++ ['.'] ++ M.lower realm)
  else utf8 (M.upper realm ++ name)

/-- ciphers/*.rs `generate_salt`. ciphers/aes.rs:59-61, ciphers/rc4.rs:53-55. -/
def Cipher.generateSalt (M : CaseMap) (c : Cipher) (realm client : List Char) : Bytes :=
  match c with
  | .aes _ => aesSalt M realm client
  | .rc4 => []

end Verif.Crypto

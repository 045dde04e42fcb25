import Verif.ClientModel
/-
The cryptographic operations once more, with the calls they make of the cryptographic primitives: which one, on how many bytes, in
which order. What happens between two calls (copying, comparing lengths, xor) is a bounded amount of work for each byte of these
calls. `nFold` is a call with its argument, which is public; comparing two checksums is a call, too.
-/
namespace Verif.Crypto

/-- A call of a primitive, with the lengths of its arguments (crates `aes`, `hmac`, `sha1`, `md5`, `md4`, `rc4`, `pbkdf2`, n-fold of
nfold_dk.rs:16-20, and `!=` on two checksums). -/
inductive Prim where
  /-- one block -/
  | aesEnc (sz : AesSizes)
  /-- one block -/
  | aesDec (sz : AesSizes)
  | hmacSha1 (key data : Nat)
  | hmacMd5 (key data : Nat)
  | md5 (data : Nat)
  | md4 (data : Nat)
  | rc4 (key data : Nat)
  | pbkdf2 (password salt iterations size : Nat)
  | nFold (data : Bytes) (size : Nat)
  | compare (size : Nat)
deriving DecidableEq, Repr

/-- A computation with the calls it has made. -/
structure Traced (ε α : Type) where
  calls : List Prim
  result : Except ε α

namespace Traced
/-- a value, no call -/
def pure {ε α} (a : α) : Traced ε α := ⟨[], .ok a⟩
/-- Rust's `?`: the calls made so far stay -/
def bind {ε α β} (x : Traced ε α) (f : α → Traced ε β) : Traced ε β :=
  match x with
  | ⟨l, .error e⟩ => ⟨l, .error e⟩
  | ⟨l, .ok a⟩ => ⟨l ++ (f a).calls, (f a).result⟩
/-- sequencing -/
instance {ε} : Monad (Traced ε) where
  pure := Traced.pure
  bind := Traced.bind
/-- an error, no call -/
def fail {ε α} (e : ε) : Traced ε α := ⟨[], .error e⟩
/-- one call -/
def call {ε α} (c : Prim) (a : α) : Traced ε α := ⟨[c], .ok a⟩
/-- something without a call -/
def plain {ε α} (r : Except ε α) : Traced ε α := ⟨[], r⟩
/-- change of the error type, as `liftX` -/
def mapResult {ε δ α} (f : Except ε α → Except δ α) (x : Traced ε α) : Traced δ α := ⟨x.calls, f x.result⟩
end Traced
open Traced

/-- cryptography/aes.rs:79-91, as `cbcBlocks` -/
def tCbcBlocks (P : Prims) (sz : AesSizes) (key prev pt : Bytes) : Traced CErr Bytes :=
  if pt.length < 16 then Traced.pure []
  else Traced.bind (call (.aesEnc sz) (P.aesEnc sz key (List.zipWith (· ^^^ ·) (pt.take 16) prev))) fun c =>
    Traced.bind (tCbcBlocks P sz key c (pt.drop 16)) fun r => Traced.pure (c ++ r)
termination_by pt.length
decreasing_by simp only [List.length_drop]; omega

/-- cryptography/aes.rs:61-74, as `ecbBlocks` -/
def tEcbBlocks (P : Prims) (sz : AesSizes) (key ct : Bytes) : Traced CErr Bytes :=
  if ct.length < 16 then Traced.pure []
  else Traced.bind (call (.aesDec sz) (P.aesDec sz key (ct.take 16))) fun d =>
    Traced.bind (tEcbBlocks P sz key (ct.drop 16)) fun r => Traced.pure (d ++ r)
termination_by ct.length
decreasing_by simp only [List.length_drop]; omega

/-- aes.rs:61-74, as `decryptAesEcb` -/
def tDecryptAesEcb (P : Prims) (sz : AesSizes) (key ct : Bytes) : Traced CErr Bytes :=
  if key.length ≠ sz.keySize then fail .panic
  else if ct.length % 16 ≠ 0 then fail .panic
  else tEcbBlocks P sz key ct

/-- aes.rs:79-91, as `encryptAesCbc` -/
def tEncryptAesCbc (P : Prims) (sz : AesSizes) (key pt : Bytes) : Traced CErr Bytes :=
  if key.length ≠ sz.keySize then fail .panic
  else if pt.length % 16 ≠ 0 then fail .panic
  else tCbcBlocks P sz key (List.replicate 16 0) pt

/-- nfold_dk.rs:8-11, as `dkLoop` -/
def tDkLoop (P : Prims) (sz : AesSizes) (key : Bytes) : Nat → Bytes → Bytes → Traced CErr Bytes
  | 0, _, result => if result.length < sz.seedSize then fail .diverge else Traced.pure result
  | n + 1, plaintext, result =>
    if result.length < sz.seedSize then
      Traced.bind (tEncryptAesCbc P sz key plaintext) fun p => tDkLoop P sz key n p (result ++ p)
    else Traced.pure result

/-- nfold_dk.rs:4-14, as `dk` -/
def tDk (P : Prims) (sz : AesSizes) (key const : Bytes) : Traced CErr Bytes :=
  Traced.bind (call (.nFold const blockSize) (nFold const blockSize)) fun folded =>
    match folded with
    | none => fail .panic
    | some plaintext => tDkLoop P sz key sz.seedSize plaintext []

/-- aes_hmac_sha1/decrypt.rs:131-148, as `generateKiKe` -/
def tGenerateKiKe (P : Prims) (sz : AesSizes) (key : Bytes) (usage : Int32) : Traced CErr (Bytes × Bytes) := do
  let ki ← tDk P sz key (usageConst usage 0x55)
  let ke ← tDk P sz key (usageConst usage 0xaa)
  return (ki, ke)

/-- aes_hmac_sha1/decrypt.rs:28-69, as `basicEncrypt` -/
def tBasicEncrypt (P : Prims) (sz : AesSizes) (key plaintext : Bytes) : Traced CErr Bytes := do
  let pad := (blockSize - plaintext.length % blockSize) % blockSize
  let c ← tEncryptAesCbc P sz key (plaintext ++ List.replicate pad 0)
  if c.length ≤ blockSize then return c
  else
    let start := if c.length > blockSize * 2 then c.length - blockSize * 2 else 0
    let secondLast := (c.drop start).take blockSize
    let last := c.drop (start + blockSize)
    return c.take start ++ last ++ secondLast.take (blockSize - pad)

/-- cryptography/hmac.rs:15-19 -/
def tHmacSha1 (P : Prims) (key data : Bytes) : Traced CErr Bytes :=
  call (.hmacSha1 key.length data.length) (P.hmacSha1 key data)

/-- cryptography/hmac.rs:7-11 -/
def tHmacMd5 (P : Prims) (key data : Bytes) : Traced CErr Bytes :=
  call (.hmacMd5 key.length data.length) (P.hmacMd5 key data)

/-- aes_hmac_sha1/decrypt.rs:8-26, as `aesEncrypt` -/
def tAesEncrypt (P : Prims) (sz : AesSizes) (key : Bytes) (usage : Int32) (plaintext preamble : Bytes) :
    Traced CErr Bytes := do
  let (ki, ke) ← tGenerateKiKe P sz key usage
  let c ← tBasicEncrypt P sz ke (preamble ++ plaintext)
  let mac ← tHmacSha1 P ki (preamble ++ plaintext)
  if mac.length < macSize then fail .panic else return c ++ mac.take macSize

/-- aes_hmac_sha1/decrypt.rs:175-181, as `decryptSeveral` -/
def tDecryptSeveral (P : Prims) (sz : AesSizes) (key : Bytes) : Bytes → List Bytes → Traced CErr (Bytes × Bytes)
  | prev, [] => return ([], prev)
  | prev, b :: bs => do
    let d ← tDecryptAesEcb P sz key b
    let x ← plain (xorBytes d prev)
    let (rest, prev') ← tDecryptSeveral P sz key b bs
    return (x ++ rest, prev')

/-- aes_hmac_sha1/decrypt.rs:186-214, as `decryptLastTwo` -/
def tDecryptLastTwo (P : Prims) (sz : AesSizes) (key b0 b1 prev : Bytes) : Traced CErr Bytes := do
  let d ← tDecryptAesEcb P sz key b0
  if d.length < b1.length then fail .panic
  else
    let lastPlain ← plain (xorBytes (d.take b1.length) b1)
    let d2 ← tDecryptAesEcb P sz key (b1 ++ d.drop b1.length)
    let x ← plain (xorBytes d2 prev)
    return x ++ lastPlain

/-- aes_hmac_sha1/decrypt.rs:99-129, as `basicDecrypt` -/
def tBasicDecrypt (P : Prims) (sz : AesSizes) (key ct : Bytes) : Traced CErr Bytes :=
  if ct.length = blockSize then tDecryptAesEcb P sz key ct
  else
    let blocks := divideBlocks ct
    if blocks.length < 2 then fail .panic
    else do
      let n := blocks.length - 2
      let (plaintext, prev) ← tDecryptSeveral P sz key (List.replicate 16 0) (blocks.take n)
      match blocks.drop n with
      | [b0, b1] => do
        let last ← tDecryptLastTwo P sz key b0 b1 prev
        return plaintext ++ last
      | _ => fail .panic

/-- aes_hmac_sha1/decrypt.rs:72-97, as `aesDecrypt`; the comparison at line 92 -/
def tAesDecrypt (P : Prims) (sz : AesSizes) (key : Bytes) (usage : Int32) (ct : Bytes) : Traced CErr Bytes := do
  let (ki, ke) ← tGenerateKiKe P sz key usage
  if ct.length < blockSize + macSize then fail (.decryption "Ciphertext too short")
  else
    let stop := ct.length - macSize
    let plaintext ← tBasicDecrypt P sz ke (ct.take stop)
    let mac ← tHmacSha1 P ki plaintext
    if mac.length < macSize then fail .panic
    else
      let equal ← call (.compare macSize) (decide (mac.take macSize = ct.drop stop))
      if !equal then fail (.decryption "Hmac integrity failure")
      else if plaintext.length < blockSize then fail .panic
      else return plaintext.drop blockSize

/-- aes_hmac_sha1/keys.rs:4-11, as `aesGenerateKey` -/
def tAesGenerateKey (P : Prims) (sz : AesSizes) (passphrase salt : Bytes) : Traced CErr Bytes := do
  let seed ← call (.pbkdf2 passphrase.length salt.length 0x1000 sz.seedSize) (pbkdf2Sha1 P passphrase salt sz.seedSize)
  tDk P sz seed [0x6b, 0x65, 0x72, 0x62, 0x65, 0x72, 0x6f, 0x73]

/-- cryptography/rc4.rs:6-16, as `rc4Apply` -/
def tRc4Apply (P : Prims) (key data : Bytes) : Traced CErr Bytes :=
  if key.length ≠ 16 then fail .panic else call (.rc4 key.length data.length) (P.rc4 key data)

/-- rc4_hmac_md5/encrypt.rs:5-24, as `rc4Encrypt` -/
def tRc4Encrypt (P : Prims) (key : Bytes) (usage : Int32) (plaintext preamble : Bytes) : Traced CErr Bytes := do
  let pt := preamble ++ plaintext
  let ki ← tHmacMd5 P key (usageLE usage)
  let cksum ← tHmacMd5 P ki pt
  let ke ← tHmacMd5 P ki cksum
  let enc ← tRc4Apply P ke pt
  return cksum ++ enc

/-- rc4_hmac_md5/encrypt.rs:27-49, as `rc4Decrypt`; the comparison at line 44 -/
def tRc4Decrypt (P : Prims) (key : Bytes) (usage : Int32) (ct : Bytes) : Traced CErr Bytes :=
  if ct.length < 24 then fail (.decryption "Ciphertext too short")
  else do
    let cksum := ct.take 16
    let ki ← tHmacMd5 P key (usageLE usage)
    let ke ← tHmacMd5 P ki cksum
    let plaintext ← tRc4Apply P ke (ct.drop 16)
    let mac ← tHmacMd5 P ki plaintext
    let equal ← call (.compare 16) (decide (cksum = mac))
    if !equal then fail (.decryption "Hmac integrity failure")
    else if plaintext.length < 8 then fail .panic
    else return plaintext.drop 8

/-- ciphers/aes.rs:89-98, ciphers/rc4.rs:79-92, as `Cipher.encrypt` -/
def Cipher.tEncrypt (P : Prims) (c : Cipher) (key : Bytes) (usage : Int32) (plaintext preamble : Bytes) : Traced CErr Bytes :=
  match c with
  | .aes sz => tAesEncrypt P sz key usage plaintext preamble
  | .rc4 => tRc4Encrypt P key (rc4Usage usage) plaintext preamble

/-- ciphers/aes.rs:75-87, ciphers/rc4.rs:65-77, as `Cipher.decrypt` -/
def Cipher.tDecrypt (P : Prims) (c : Cipher) (key : Bytes) (usage : Int32) (ct : Bytes) : Traced CErr Bytes :=
  match c with
  | .aes sz => tAesDecrypt P sz key usage ct
  | .rc4 => tRc4Decrypt P key (rc4Usage usage) ct

/-- md4lib.rs:3-5 -/
def tMd4 (P : Prims) (data : Bytes) : Traced CErr Bytes := call (.md4 data.length) (P.md4 data)

/-- ciphers/aes.rs:63-65, ciphers/rc4.rs:57-59, as `Cipher.generateKey` -/
def Cipher.tGenerateKey (P : Prims) (c : Cipher) (rawKey salt : Bytes) : Traced CErr Bytes :=
  match c with
  | .aes sz => tAesGenerateKey P sz rawKey salt
  | .rc4 => tMd4 P rawKey

/-- aes_hmac_sha1/keys.rs:14-20, rc4_hmac_md5/key.rs:12-15, as `Cipher.generateKeyFromString` -/
def Cipher.tGenerateKeyFromString (P : Prims) (c : Cipher) (password : List Char) (salt : Bytes) : Traced CErr Bytes :=
  match c with
  | .aes sz => tAesGenerateKey P sz (utf8 password) salt
  | .rc4 => tMd4 P (stringUnicodeBytes password)

/-- cipher_trait.rs:27-36 -/
def Cipher.tGenerateKeyFromStringAndDecrypt (P : Prims) (c : Cipher) (password : List Char) (salt : Bytes)
    (usage : Int32) (ct : Bytes) : Traced CErr Bytes := do
  let key ← c.tGenerateKeyFromString P password salt
  c.tDecrypt P key usage ct

/-- cipher_trait.rs:51-60 -/
def Cipher.tGenerateKeyFromStringAndEncrypt (P : Prims) (c : Cipher) (password : List Char) (salt : Bytes)
    (usage : Int32) (pt preamble : Bytes) : Traced CErr Bytes := do
  let key ← c.tGenerateKeyFromString P password salt
  c.tEncrypt P key usage pt preamble

/-- cipher_trait.rs:16-25 -/
def Cipher.tGenerateKeyAndDecrypt (P : Prims) (c : Cipher) (rawKey salt : Bytes) (usage : Int32) (ct : Bytes) :
    Traced CErr Bytes := do
  let key ← c.tGenerateKey P rawKey salt
  c.tDecrypt P key usage ct

/-- cipher_trait.rs:40-49 -/
def Cipher.tGenerateKeyAndEncrypt (P : Prims) (c : Cipher) (rawKey salt : Bytes) (usage : Int32)
    (pt preamble : Bytes) : Traced CErr Bytes := do
  let key ← c.tGenerateKey P rawKey salt
  c.tEncrypt P key usage pt preamble

/-- checksum.rs:3-17, as `checksumHmacMd5` -/
def tChecksumHmacMd5 (P : Prims) (key : Bytes) (usage : Int32) (pt : Bytes) : Traced CErr Bytes := do
  let ksign ← tHmacMd5 P key [0x73, 0x69, 0x67, 0x6e, 0x61, 0x74, 0x75, 0x72, 0x65, 0x6b, 0x65, 0x79, 0]
  let digest ← call (.md5 (usageLE usage ++ pt).length) (P.md5 (usageLE usage ++ pt))
  tHmacMd5 P ksign digest

/-- checksum.rs:19-33, as `checksumShaAes` -/
def tChecksumShaAes (P : Prims) (sz : AesSizes) (key : Bytes) (usage : Int32) (pt : Bytes) : Traced CErr Bytes := do
  let kc ← tDk P sz key (usageConst usage 0x99)
  let mac ← tHmacSha1 P kc pt
  if mac.length < 12 then fail .panic else return mac.take 12

end Verif.Crypto

namespace Verif.Kb
open Verif.Asn1
open Verif.Crypto (CErr Prims Prim Key Cipher CaseMap newKerberosCipher calculateAesSalt Traced)
open Verif.Crypto.Traced

/-- messages/asreq/timestamp_cipher.rs:101-115, as `encryptTimestampWithKey` -/
def tEncryptTimestampWithKey (P : Prims) (g : Cfg) (e : Env) (etype : Int32) (key : Bytes) : Traced KErr (Int32 × Bytes) := do
  let cipher ← plain (liftX (newKerberosCipher etype))
  let data ← mapResult liftX (cipher.tEncrypt P key 1 (rawTimestamp g e) (e.confounder cipher.preambleSize))
  return (etype, data)

/-- timestamp_cipher.rs:117-133, as `encryptTimestampWithPassword` -/
def tEncryptTimestampWithPassword (P : Prims) (g : Cfg) (e : Env) (etype : Int32) (password : List Char) (salt : Bytes) :
    Traced KErr (Int32 × Bytes) := do
  let cipher ← plain (liftX (newKerberosCipher etype))
  let data ← mapResult liftX (cipher.tGenerateKeyFromStringAndEncrypt P password salt 1 (rawTimestamp g e)
    (e.confounder cipher.preambleSize))
  return (etype, data)

/-- timestamp_cipher.rs:21-29,51-99, as `encryptedTimestamp` -/
def tEncryptedTimestamp (P : Prims) (M : CaseMap) (g : Cfg) (e : Env) (realm username : List Char) (key : Key)
    (etypes : List Int32) : Traced KErr (Int32 × Bytes) :=
  match key with
  | .secret password =>
    if etypes.contains 18 then tEncryptTimestampWithPassword P g e 18 password (calculateAesSalt M realm username)
    else if etypes.contains 17 then tEncryptTimestampWithPassword P g e 17 password (calculateAesSalt M realm username)
    else if etypes.contains 23 then tEncryptTimestampWithPassword P g e 23 password []
    else fail .noProvidedSupportedCipherAlgorithm
  | .rc4Key k => tEncryptTimestampWithKey P g e 23 k
  | .aes128Key k => tEncryptTimestampWithKey P g e 17 k
  | .aes256Key k => tEncryptTimestampWithKey P g e 18 k

/-- credentials/mappers/credential_krb_info.rs:71-82, as `decryptWithPassword` -/
def tDecryptWithPassword (P : Prims) (g : Cfg) (password : List Char) (r : AsRep) : Traced KErr Bytes := do
  let cipher ← plain (liftX (newKerberosCipher r.enc_part.etype))
  let salt ← plain (asRepSalt g r)
  mapResult liftX (cipher.tGenerateKeyFromStringAndDecrypt P password salt 3 r.enc_part.cipher)

/-- credential_krb_info.rs:127-137, as `tryDecryptWithKey` -/
def tTryDecryptWithKey (P : Prims) (k : Key) (r : AsRep) : Traced KErr Bytes :=
  match newKerberosCipher (firstEtype k) with
  | .error _ => fail .panic
  | .ok cipher => mapResult liftX (cipher.tDecrypt P k.asBytes 3 r.enc_part.cipher)

/-- credential_krb_info.rs:103-125, as `decryptWithKey` -/
def tDecryptWithKey (P : Prims) (k : Key) (r : AsRep) : Traced KErr Bytes :=
  match tTryDecryptWithKey P k r with
  | ⟨l, .ok b⟩ => ⟨l, .ok b⟩
  | ⟨l, .error .panic⟩ => ⟨l, .error .panic⟩
  | ⟨l, .error e⟩ =>
    if firstEtype k ≠ r.enc_part.etype then
      ⟨l, .error (.crypto (.decryption
        s!"Key etype = {(firstEtype k).toInt} doesn't match with message etype = {r.enc_part.etype.toInt}"))⟩
    else ⟨l, .error e⟩

/-- credential_krb_info.rs:50-59, as `decryptRep` -/
def tDecryptRep (P : Prims) (g : Cfg) (k : Key) (r : AsRep) : Traced KErr Bytes :=
  match k with
  | .secret password => tDecryptWithPassword P g password r
  | k => tDecryptWithKey P k r

/-- messages/asreq/builder.rs:48-108, as `createAsReq` -/
def tCreateAsReq (P : Prims) (M : CaseMap) (g : Cfg) (e : Env) (username : List Char) (key : Option Key) (o : Options) :
    Traced KErr AsReq := do
  let req := AsReq.default
  let body := { req.req_body with
    cname := some (PrincipalName.new 1 username)
    realm := o.realm
    kdc_options := o.kdc_options
    sname := some ⟨2, ["krbtgt".toList, o.realm]⟩ }
  let rtime ← plain (addTwentyYears e.rtimeNow)
  let till ← plain (addTwentyYears e.tillNow)
  let body := { body with rtime := some rtime, till := till, nonce := e.nonce }
  let padata := if o.pac then some [⟨128, (kerbPaPacRequestC g).enc ⟨true⟩⟩] else req.padata
  match key with
  | some k =>
    let (etype, data) ← tEncryptedTimestamp P M g e o.realm username k o.sortedEtypes
    let pa : PaData := ⟨2, (encryptedDataC g).enc (EncryptedData.new etype none data)⟩
    let padata := match padata with
      | some l => some (l ++ [pa])
      | none => some [pa]
    return { req with padata := padata, req_body := { body with etypes := body.etypes ++ [etype] } }
  | none =>
    return { req with padata := padata, req_body := { body with etypes := body.etypes ++ o.sortedEtypes } }

/-- builder.rs:38-46, as `buildAsReq` -/
def tBuildAsReq (P : Prims) (M : CaseMap) (g : Cfg) (e : Env) (username : List Char) (key : Option Key) (o : Options) :
    Traced KErr Bytes := do
  let req ← tCreateAsReq P M g e username key o
  return (asReqC g).enc req

/-- as_requester.rs:118-128, as `asRequest` -/
def tAsRequest (P : Prims) (M : CaseMap) (g : Cfg) (net : Net) (e : Env) (username : List Char) (key : Option Key)
    (o : Options) (sent : List Bytes) : Traced KErr AsReqResponse × List Bytes :=
  match tBuildAsReq P M g e username key o with
  | ⟨l, .error _⟩ => (⟨l, .error .panic⟩, sent)
  | ⟨l, .ok raw⟩ =>
    match net (sent ++ [raw]) with
    | none => (⟨l, .error .network⟩, sent ++ [raw])
    | some answer => (⟨l, parseResponse g answer⟩, sent ++ [raw])

/-- credential_krb_info.rs:46-69, as `kdcRepToCredential` -/
def tKdcRepToCredential (P : Prims) (g : Cfg) (k : Key) (r : AsRep) : Traced KErr Credential := do
  let plaintext ← tDecryptRep P g k r
  let part ← plain (liftP ((encAsRepPartC g).dec g plaintext))
  return ⟨r.crealm, r.cname, r.ticket, part⟩

/-- tgt_requester.rs:145-174, as `extractCredential` -/
def tExtractCredential (P : Prims) (g : Cfg) (key : Option Key) (r : AsRep) : Traced KErr Credential :=
  match key with
  | none => fail (.parseAsRep r .noKeyProvided)
  | some k => match tKdcRepToCredential P g k r with
    | ⟨l, .ok c⟩ => ⟨l, .ok c⟩
    | ⟨l, .error .panic⟩ => ⟨l, .error .panic⟩
    | ⟨l, .error e⟩ => ⟨l, .error (.parseAsRep r e)⟩

/-- tgt_requester.rs:134-143, as `secondRequest` -/
def tSecondRequest (P : Prims) (M : CaseMap) (g : Cfg) (net : Net) (e : Env) (username : List Char) (key : Key)
    (o : Options) (sent : List Bytes) : Traced KErr Credential × List Bytes :=
  match tAsRequest P M g net e username (some key) o sent with
  | (⟨l, .error err⟩, s) => (⟨l, .error err⟩, s)
  | (⟨l, .ok (.krbError err)⟩, s) => (⟨l, .error (.krbErrorResponse err)⟩, s)
  | (⟨l, .ok (.asRep r)⟩, s) =>
    let x := tExtractCredential P g (some key) r
    (⟨l ++ x.calls, x.result⟩, s)

/-- tgt_requester.rs:98-132, as `tgtRequest` -/
def tTgtRequest (P : Prims) (M : CaseMap) (g : Cfg) (net : Net) (e1 e2 : Env) (username : List Char) (key : Option Key)
    (o : Options) : Traced KErr Credential × List Bytes :=
  match tAsRequest P M g net e1 username none o [] with
  | (⟨l, .error err⟩, s) => (⟨l, .error err⟩, s)
  | (⟨l, .ok (.krbError err)⟩, s) =>
    if err.error_code ≠ 25 then (⟨l, .error (.krbErrorResponse err)⟩, s)
    else match key with
      | some k =>
        let x := tSecondRequest P M g net e2 username k o s
        (⟨l ++ x.1.calls, x.1.result⟩, x.2)
      | none => (⟨l, .error (.krbErrorResponse err)⟩, s)
  | (⟨l, .ok (.asRep r)⟩, s) =>
    let x := tExtractCredential P g key r
    (⟨l ++ x.calls, x.result⟩, s)

end Verif.Kb

import Verif.StdPrims
import Verif.Props.Rfc
/-
C69: the cryptographic properties with the real algorithms, and nothing assumed of them. The other theorems take the primitives as
a parameter with laws; here the parameter is AES (FIPS 197), HMAC-SHA-1, HMAC-MD5, MD5, MD4, RC4 and PBKDF2 as defined in
`Verif/StdHash.lean` and `Verif/StdAes.lean`, for which the laws are proved.
-/
namespace Verif.Crypto
open Rfc

/-- C69. AES decrypts what it encrypted, for every key and block, and conversely; so encryption under a key permutes blocks. -/
theorem c69_aes (sz : AesSizes) (key block : Bytes) (hk : key.length = sz.keySize) (hb : block.length = 16) :
    stdPrims.aesDec sz key (stdPrims.aesEnc sz key block) = block ∧
    stdPrims.aesEnc sz key (stdPrims.aesDec sz key block) = block ∧ (stdPrims.aesEnc sz key block).length = 16 :=
  have h := std_block sz key block hk hb
  ⟨h.2.2.1, h.2.2.2, h.1⟩

/-- C69. With the real algorithms every cipher decrypts what it encrypted, for every key, usage, plaintext and confounder. -/
theorem c69_roundtrip (c : Cipher) (key : Bytes) (hk : c.keyOk key) (usage : Int32) (pt conf : Bytes)
    (hc : conf.length = c.preambleSize) :
    ∃ ct, c.encrypt stdPrims key usage pt conf = .ok ct ∧ c.decrypt stdPrims key usage ct = .ok pt :=
  c26_cipher_roundtrip stdPrims stdPrims_lawful c key hk usage pt conf hc

/-- C69. The same with passwords: no password, salt or text makes this fail. -/
theorem c69_password_roundtrip (c : Cipher) (password : List Char) (salt : Bytes) (usage : Int32) (pt conf : Bytes)
    (hc : conf.length = c.preambleSize) :
    ∃ ct, c.generateKeyFromStringAndEncrypt stdPrims password salt usage pt conf = .ok ct ∧
      c.generateKeyFromStringAndDecrypt stdPrims password salt usage ct = .ok pt :=
  c26_password_roundtrip stdPrims stdPrims_lawful c password salt usage pt conf hc

/-- C69. What is accepted is exactly what can have been produced, and anything else gives one of the two errors. -/
theorem c69_decrypt (c : Cipher) (key : Bytes) (hk : c.keyOk key) (usage : Int32) (ct : Bytes) :
    (∃ pt conf, conf.length = c.preambleSize ∧ c.encrypt stdPrims key usage pt conf = .ok ct ∧
      c.decrypt stdPrims key usage ct = .ok pt) ∨
    (∀ pt conf, conf.length = c.preambleSize → c.encrypt stdPrims key usage pt conf ≠ .ok ct) ∧
      (c.decrypt stdPrims key usage ct = .error (.decryption "Hmac integrity failure") ∨
        c.decrypt stdPrims key usage ct = .error (.decryption "Ciphertext too short")) := by
  have key1 := c28_accepts_iff stdPrims stdPrims_lawful c key hk usage ct
  rcases (c29_no_panic stdPrims stdPrims_lawful c key hk usage ct).1 with ⟨pt, h⟩ | h | h
  · obtain ⟨conf, h1, h2⟩ := (key1 pt).1 h
    exact .inl ⟨pt, conf, h1, h2, h⟩
  · refine .inr ⟨fun pt conf h1 h2 => ?_, .inl h⟩
    have := (key1 pt).2 ⟨conf, h1, h2⟩
    rw [h] at this; cases this
  · refine .inr ⟨fun pt conf h1 h2 => ?_, .inr h⟩
    have := (key1 pt).2 ⟨conf, h1, h2⟩
    rw [h] at this; cases this

/-- C69. AES keys from passwords are DK(PBKDF2-HMAC-SHA1(password, salt, 4096), "kerberos") of RFC 3962 and RC4 keys the MD4
of the UTF-16 password, with the algorithms of the standards. -/
theorem c69_string_to_key (password : List Char) (salt : Bytes) :
    (Cipher.aes .aes128).generateKeyFromString stdPrims password salt =
      .ok (DK (Std.encBlock (Std.roundKeys 4 10 (Std.pbkdf2HmacSha1 (utf8 password) salt 4096 16))) 16 (utf8 "kerberos".toList)) ∧
    (Cipher.aes .aes256).generateKeyFromString stdPrims password salt =
      .ok (DK (Std.encBlock (Std.roundKeys 8 14 (Std.pbkdf2HmacSha1 (utf8 password) salt 4096 32))) 32 (utf8 "kerberos".toList)) ∧
    ∀ u, Utf16LE password u → Cipher.rc4.generateKeyFromString stdPrims password salt = .ok (Std.md4 u) := by
  have h := c68_string_to_key stdPrims stdPrims_lawful password salt
  have e1 : ∀ k, Std.encBlock (Std.roundKeys 4 10 k) = stdPrims.aesEnc .aes128 k := fun _ => rfl
  have e2 : ∀ k, Std.encBlock (Std.roundKeys 8 14 k) = stdPrims.aesEnc .aes256 k := fun _ => rfl
  have e3 : Std.pbkdf2HmacSha1 = stdPrims.pbkdf2 := rfl
  have e4 : Std.md4 = stdPrims.md4 := rfl
  rw [e1, e2, e3, e4]
  exact ⟨h.1 .aes128, h.1 .aes256, h.2⟩

/-- C69. AES ciphertexts are those of RFC 3962 with AES of FIPS 197 and HMAC-SHA-1. -/
theorem c69_aes_ciphertext (sz : AesSizes) (key : Bytes) (hk : key.length = sz.keySize) (usage : Int32) (plain conf ct : Bytes)
    (hc : conf.length = 16) :
    (Cipher.aes sz).encrypt stdPrims key usage plain conf = .ok ct ↔
      AesCiphertext (stdPrims.aesEnc sz) (Std.hmac Std.sha1) sz.keySize key usage conf plain ct :=
  c68_aes_ciphertext stdPrims stdPrims_lawful sz key hk usage plain conf ct hc

/-- C69. RC4 ciphertexts are those of RFC 4757 with HMAC-MD5 and RC4 (but for usages 9 and 23, see C68). -/
theorem c69_rc4_ciphertext (key : Bytes) (usage : Int32) (plain conf : Bytes) (hu : usage ≠ 9 ∧ usage ≠ 23) :
    Cipher.rc4.encrypt stdPrims key usage plain conf =
      .ok (rc4Ciphertext (Std.hmac Std.md5) Std.rc4 key (rc4MessageType usage) conf plain) :=
  c68_rc4_ciphertext stdPrims stdPrims_lawful key usage plain conf hu

/-- hypotheses met: a key and a confounder of each size -/
example : (Cipher.aes .aes256).keyOk (List.replicate 32 7) ∧ (List.replicate 16 (1 : UInt8)).length = (Cipher.aes .aes256).preambleSize ∧
    Cipher.rc4.keyOk [1, 2] ∧ (List.replicate 8 (1 : UInt8)).length = Cipher.rc4.preambleSize := ⟨rfl, rfl, trivial, rfl⟩

set_option maxRecDepth 100000 in
/-- a change of one bit in a real AES-128 ciphertext is noticed -/
example : ∃ ct, (Cipher.aes .aes128).encrypt stdPrims (List.replicate 16 7) 3 [1, 2, 3] (List.replicate 16 1) = .ok ct ∧
    (Cipher.aes .aes128).decrypt stdPrims (List.replicate 16 7) 3 (ct.set 17 (ct.getD 17 0 ^^^ 1)) =
      .error (.decryption "Hmac integrity failure") := by
  obtain ⟨ct, h⟩ : ∃ ct, (Cipher.aes .aes128).encrypt stdPrims (List.replicate 16 7) 3 [1, 2, 3] (List.replicate 16 1) = .ok ct :=
    let ⟨ct, h, _⟩ := c69_roundtrip (.aes .aes128) (List.replicate 16 7) rfl 3 [1, 2, 3] (List.replicate 16 1) rfl
    ⟨ct, h⟩
  refine ⟨ct, h, ?_⟩
  have e : ((Cipher.aes .aes128).encrypt stdPrims (List.replicate 16 7) 3 [1, 2, 3] (List.replicate 16 1)).toOption = some ct := by
    rw [h]; rfl
  have : ((Cipher.aes .aes128).encrypt stdPrims (List.replicate 16 7) 3 [1, 2, 3] (List.replicate 16 1)).toOption.map (fun ct =>
      (Cipher.aes .aes128).decrypt stdPrims (List.replicate 16 7) 3 (ct.set 17 (ct.getD 17 0 ^^^ 1))) =
      some (.error (.decryption "Hmac integrity failure")) := by decide +kernel
  rw [e] at this
  injection this

end Verif.Crypto

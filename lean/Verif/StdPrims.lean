import Verif.StdAes
import Verif.CryptoModel
/-
The primitives /repo links (crates `aes`, `hmac`, `sha1`, `md5`, `md4`, `rc4`, `pbkdf2`), as the standards define them, put
together as an instance of the parameter `Prims` of the model. They meet the laws the theorems assume, so those theorems hold
of the real algorithms and not only of some algorithms. Not part of /repo.
-/
namespace Verif.Crypto

/-- AES of FIPS 197 with the key schedule of the size; HMAC of RFC 2104; RC4; PBKDF2 of RFC 8018 -/
def stdPrims : Prims where
  aesEnc sz k b := match sz with
    | .aes128 => Std.encBlock (Std.roundKeys 4 10 k) b
    | .aes256 => Std.encBlock (Std.roundKeys 8 14 k) b
  aesDec sz k b := match sz with
    | .aes128 => Std.decBlock (Std.roundKeys 4 10 k) b
    | .aes256 => Std.decBlock (Std.roundKeys 8 14 k) b
  hmacSha1 := Std.hmac Std.sha1
  hmacMd5 := Std.hmac Std.md5
  md5 := Std.md5
  md4 := Std.md4
  rc4 := Std.rc4
  pbkdf2 := Std.pbkdf2HmacSha1

theorem std_block (sz : AesSizes) (k b : Bytes) (hk : k.length = sz.keySize) (hb : b.length = 16) :
    (stdPrims.aesEnc sz k b).length = 16 ∧ (stdPrims.aesDec sz k b).length = 16 ∧
    stdPrims.aesDec sz k (stdPrims.aesEnc sz k b) = b ∧ stdPrims.aesEnc sz k (stdPrims.aesDec sz k b) = b := by
  cases sz with
  | aes128 => exact Std.block_spec _ (Std.roundKeys_spec 4 10 (by omega) (by omega) k hk).2 b hb
  | aes256 => exact Std.block_spec _ (Std.roundKeys_spec 8 14 (by omega) (by omega) k hk).2 b hb

/-- The real algorithms meet every law assumed of the primitives. -/
theorem stdPrims_lawful : stdPrims.Lawful where
  enc_length sz k b hk hb := (std_block sz k b hk hb).1
  dec_length sz k b hk hb := (std_block sz k b hk hb).2.1
  dec_enc sz k b hk hb := (std_block sz k b hk hb).2.2.1
  enc_dec sz k b hk hb := (std_block sz k b hk hb).2.2.2
  hmacSha1_length k d := Std.hmac_length Std.sha1_length k d
  hmacMd5_length k d := Std.hmac_length Std.md5_length k d
  md5_length := Std.md5_length
  md4_length := Std.md4_length
  rc4_length k d _ := Std.rc4_length k d
  rc4_invol k d _ := Std.rc4_invol k d
  pbkdf2_length p s c n := Std.pbkdf2_length p s c n

end Verif.Crypto

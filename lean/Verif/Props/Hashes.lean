import Verif.HashSame
import Verif.HashSines
import Verif.StdPrims
import Verif.Props.Std
import Verif.Props.Fips
/-
C69, continued: the hash functions, HMAC, PBKDF2 and RC4 that the instance `stdPrims` uses are those of their standards.
-/
namespace Verif.Crypto
open Verif.HashSpec

/-- C69. HMAC-SHA-1 is HMAC (RFC 2104) with SHA-1 (FIPS 180-4), for every key and text, and nothing else is. -/
theorem c69_hmac_sha1 : ∃ sha1 : Bytes → Bytes, (∀ m d, IsSha1 m d ↔ d = sha1 m) ∧
    ∀ key text out, IsHmac sha1 key text out ↔ out = stdPrims.hmacSha1 key text := by
  refine ⟨Std.sha1, fun m d => ⟨fun h => isSha1_unique h (sha1_same m), fun h => h ▸ sha1_same m⟩, fun key text out => ?_⟩
  have h : IsHmac Std.sha1 key text (stdPrims.hmacSha1 key text) := hmac_same Std.sha1 (fun m => by rw [Std.sha1_length]; omega) key text
  exact ⟨fun h' => isHmac_unique h' h, fun e => e ▸ h⟩

/-- C69. MD4 is that of RFC 1320. -/
theorem c69_md4 (m out : Bytes) : IsMd4 m out ↔ out = stdPrims.md4 m :=
  ⟨fun h => isMd_unique h (md4_same m), fun h => h ▸ md4_same m⟩

/-- RFC 1321 section 3.4: T[i] is the integer part of 4294967296 times abs(sin(i)), i in radians -/
def SineTable (T : Nat → Word) : Prop := ∀ i : Nat, 1 ≤ i → i ≤ 64 → (T i).toNat = ⌊4294967296 * |Real.sin i|⌋₊

theorem sineTable_table {T : Nat → Word} (hT : SineTable T) (t : Nat) (ht : t < 64) : (T (t + 1)).toNat = Std.md5T.getD t 0 := by
  rw [table_sine t ht, hT (t + 1) (by omega) (by omega)]

/-- there is such a table: the sines are less than 1 -/
theorem sineTable_exists : ∃ T, SineTable T := by
  have hlt : ∀ t : Fin 64, Std.md5T.getD t.1 0 < 2 ^ 32 := by decide +kernel
  refine ⟨fun i => BitVec.ofNat 32 (Std.md5T.getD (i - 1) 0), fun i h1 h2 => ?_⟩
  obtain ⟨t, rfl⟩ : ∃ t, i = t + 1 := ⟨i - 1, by omega⟩
  rw [BitVec.toNat_ofNat, Nat.add_sub_cancel, Nat.mod_eq_of_lt (hlt ⟨t, by omega⟩)]
  exact table_sine t (by omega)

/-- C69. MD5 is that of RFC 1321, with the table of sines. -/
theorem c69_md5 : (∃ T, SineTable T) ∧ ∀ T, SineTable T → ∀ m out, IsMd5 T m out ↔ out = stdPrims.md5 m := by
  refine ⟨sineTable_exists, fun T hT m out => ?_⟩
  have h : IsMd5 T m (stdPrims.md5 m) := md5_same T (sineTable_table hT) m
  exact ⟨fun h' => isMd_unique h' h, fun e => e ▸ h⟩

/-- C69. HMAC-MD5 is HMAC (RFC 2104) with MD5. -/
theorem c69_hmac_md5 (key text out : Bytes) : IsHmac stdPrims.md5 key text out ↔ out = stdPrims.hmacMd5 key text := by
  have h : IsHmac Std.md5 key text (stdPrims.hmacMd5 key text) := hmac_same Std.md5 (fun m => by rw [Std.md5_length]; omega) key text
  exact ⟨fun h' => isHmac_unique h' h, fun e => e ▸ h⟩

/-- C69. Key derivation from passwords is PBKDF2 (RFC 8018) with HMAC-SHA-1, for any password, salt, count and length. -/
theorem c69_pbkdf2 (password salt : Bytes) (count n : Nat) (hc : 0 < count) (key : Bytes) :
    key.length = n ∧ IsPbkdf2 (stdPrims.hmacSha1 password) 20 salt count key ↔ key = stdPrims.pbkdf2 password salt count n := by
  have h : IsPbkdf2 (stdPrims.hmacSha1 password) 20 salt count (stdPrims.pbkdf2 password salt count n) :=
    pbkdf2_same password salt count n hc
  have hl : (stdPrims.pbkdf2 password salt count n).length = n := Std.pbkdf2_length password salt count n
  exact ⟨fun h' => isPbkdf2_unique (by rw [h'.1, hl]) h'.2 h, fun e => e ▸ ⟨hl, h⟩⟩

/-- C69. RC4 is the usual one: key scheduling of 256 steps, then a byte of key stream for each byte of data. -/
theorem c69_rc4 (key data out : Bytes) : IsRc4 key data out ↔ out = stdPrims.rc4 key data :=
  ⟨fun h => isRc4_unique h (rc4_same key data), fun h => h ▸ rc4_same key data⟩

/-- C69. Keys from passwords, all of it as in the standards: PBKDF2 with 4096 iterations, then DK (RFC 3961) with AES of FIPS 197 and
"kerberos"; for RC4 the MD4 of the password in UTF-16. -/
theorem c69_password_key (password : List Char) (salt : Bytes) :
    (∃ seed E, seed.length = 16 ∧ IsPbkdf2 (stdPrims.hmacSha1 (utf8 password)) 20 salt 4096 seed ∧
      (∀ b : Bytes, b.length = 16 → Fips197.IsEncryption 4 10 seed b (E b)) ∧
      (Cipher.aes .aes128).generateKeyFromString stdPrims password salt = .ok (Rfc.DK E 16 (utf8 "kerberos".toList))) ∧
    (∃ seed E, seed.length = 32 ∧ IsPbkdf2 (stdPrims.hmacSha1 (utf8 password)) 20 salt 4096 seed ∧
      (∀ b : Bytes, b.length = 16 → Fips197.IsEncryption 8 14 seed b (E b)) ∧
      (Cipher.aes .aes256).generateKeyFromString stdPrims password salt = .ok (Rfc.DK E 32 (utf8 "kerberos".toList))) ∧
    ∀ u key, Rfc.Utf16LE password u → IsMd4 u key → Cipher.rc4.generateKeyFromString stdPrims password salt = .ok key := by
  obtain ⟨h1, h2, h3⟩ := c69_string_to_key password salt
  have l1 := Std.pbkdf2_length (utf8 password) salt 4096 16
  have l2 := Std.pbkdf2_length (utf8 password) salt 4096 32
  have p1 := pbkdf2_same (utf8 password) salt 4096 16 (by omega)
  have p2 := pbkdf2_same (utf8 password) salt 4096 32 (by omega)
  generalize Std.pbkdf2HmacSha1 (utf8 password) salt 4096 16 = s1 at h1 l1 p1
  generalize Std.pbkdf2HmacSha1 (utf8 password) salt 4096 32 = s2 at h2 l2 p2
  refine ⟨⟨s1, Std.encBlock (Std.roundKeys 4 10 s1), l1, p1, fun b hb => ?_, h1⟩,
    ⟨s2, Std.encBlock (Std.roundKeys 8 14 s2), l2, p2, fun b hb => ?_, h2⟩, fun u key hu hk => ?_⟩
  · exact (c69_fips197 _ b hb).1 l1
  · exact (c69_fips197 _ b hb).2 l2
  · rw [(c69_md4 u key).1 hk]
    exact h3 u hu

/-- the hypotheses are met, and the specifications computed: "abc" with the 160 bits of RFC 3174, a table of sines, RC4 of one byte -/
example : IsSha1 [0x61, 0x62, 0x63] [0xa9, 0x99, 0x3e, 0x36, 0x47, 0x06, 0x81, 0x6a, 0xba, 0x3e, 0x25, 0x71, 0x78, 0x50, 0xc2, 0x6c,
      0x9c, 0xd0, 0xd8, 0x9d] ∧
    IsMd4 [0x61] [0xbd, 0xe5, 0x2c, 0xb3, 0x1d, 0xe3, 0x3e, 0x46, 0x24, 0x5e, 0x05, 0xfb, 0xdb, 0xd6, 0xfb, 0x24] ∧
    ¬ IsMd4 [0x61] [] ∧ 0 < 4096 := by
  refine ⟨?_, ?_, ?_, by omega⟩
  · have e : Std.sha1 [0x61, 0x62, 0x63] = [0xa9, 0x99, 0x3e, 0x36, 0x47, 0x06, 0x81, 0x6a, 0xba, 0x3e, 0x25, 0x71, 0x78, 0x50, 0xc2,
        0x6c, 0x9c, 0xd0, 0xd8, 0x9d] := by decide +kernel
    exact e ▸ sha1_same _
  · have e : Std.md4 [0x61] = [0xbd, 0xe5, 0x2c, 0xb3, 0x1d, 0xe3, 0x3e, 0x46, 0x24, 0x5e, 0x05, 0xfb, 0xdb, 0xd6, 0xfb, 0x24] := by
      decide +kernel
    exact e ▸ md4_same _
  · intro h
    have := (c69_md4 _ _).1 h
    have := congrArg List.length this
    have hl : (stdPrims.md4 [0x61]).length = 16 := Std.md4_length _
    rw [hl] at this
    cases this

end Verif.Crypto

import Verif.RfcSpec
import Verif.Props.Crypto
import Verif.Props.NFold
import Verif.KeyModel
import Verif.ToyPrims
/-
Property theorems C68: ciphertexts, derived keys and checksums are those of RFC 3961, RFC 3962 and RFC 4757
(specification in `Verif/RfcSpec.lean`), over any block cipher, hashes and stream cipher with the right sizes.
-/
set_option linter.unusedSimpArgs false
namespace Verif.Crypto
open Verif.Rfc (bytesOf bytesOfLE usageNumber DK wellKnown Cts AesCiphertext aesChecksum rc4MessageType rc4Ciphertext
  rc4Checksum Utf16 Utf16LE)
open Verif.NFoldSpec (natOf nFoldValue)

/-! ### Numbers as bytes -/

theorem bytesOf_succ (n v : Nat) : bytesOf (n + 1) v = bytesOf n (v / 256) ++ [UInt8.ofNat v] := by
  unfold bytesOf
  rw [List.range_succ, List.map_append]
  congr 1
  · apply List.map_congr_left
    intro i hi
    have hi := List.mem_range.1 hi
    rw [Nat.div_div_eq_div_mul, show n + 1 - 1 - i = (n - 1 - i) + 1 from by omega, Nat.pow_succ, Nat.mul_comm]
  · simp

theorem bytesOf_natOf (f : Bytes) : bytesOf f.length (natOf f) = f := by
  suffices H : ∀ n (f : Bytes), f.length = n → bytesOf n (natOf f) = f from H _ f rfl
  intro n
  induction n with
  | zero => intro f h; rw [List.length_eq_zero_iff.1 h]; rfl
  | succ n ih =>
    intro f h
    obtain ⟨w, b, rfl⟩ : ∃ w b, f = w ++ [b] :=
      ⟨f.dropLast, f.getLast (by intro h'; simp [h'] at h), (List.dropLast_concat_getLast _).symm⟩
    have hw : w.length = n := by simpa using h
    have hb := b.toNat_lt
    rw [natOf_append, bytesOf_succ, show (256 * natOf w + b.toNat) / 256 = natOf w from by omega, ih w hw]
    congr 2
    apply UInt8.toNat.inj
    rw [u8_toNat_ofNat]
    omega

theorem usageNumber_eq (u : Int32) : usageNumber u = u.toUInt32.toNat := by
  unfold usageNumber
  show (u.toBitVec.toInt % _).toNat = u.toBitVec.toNat
  have h := Int.bmod_emod (x := (u.toBitVec.toNat : Int)) (m := 2 ^ 32)
  have := u.toBitVec.isLt
  rw [BitVec.toInt_eq_toNat_bmod]
  generalize (u.toBitVec.toNat : Int).bmod (2 ^ 32) = z at h ⊢
  omega

theorem usageBE_eq (u : Int32) : usageBE u = bytesOf 4 (usageNumber u) := by
  rw [usageNumber_eq]
  simp [usageBE, be32, bytesOf, List.range_succ]

theorem usageLE_eq (u : Int32) : usageLE u = bytesOfLE 4 (usageNumber u) := by
  rw [usageNumber_eq]
  simp [usageLE, le32, be32, bytesOfLE, List.range_succ]

/-! ### Key derivation -/

theorem encryptAesCbc_block {P : Prims} {sz : AesSizes} {k x : Bytes} (hk : k.length = sz.keySize) (hx : x.length = 16) :
    encryptAesCbc P sz k x = .ok (P.aesEnc sz k x) := by
  have e := cbc_step (P.aesEnc sz k) (List.replicate 16 0) x [] hx
  rw [List.append_nil, cbc_nil, List.append_nil] at e
  rw [encryptAesCbc_ok hk (by omega), e, xr_zero_right x 16 hx]

/-- C68. The key derivation function is DK of RFC 3961: for every key of the right size and every non-empty constant. -/
theorem c68_dk (P : Prims) (hP : P.Lawful) (sz : AesSizes) (key const : Bytes) (hk : key.length = sz.keySize)
    (hc : const ≠ []) : dk P sz key const = .ok (DK (P.aesEnc sz key) sz.keySize const) := by
  obtain ⟨f, hf, hfl, hv⟩ := nFold_spec const 16 hc (by omega)
  have h := hP.perm hk
  have hf0 : bytesOf 16 (nFoldValue const 16) = f := by rw [← hv, ← hfl, bytesOf_natOf]
  have hK0 : Rfc.K (P.aesEnc sz key) const 0 = P.aesEnc sz key f := by unfold Rfc.K; rw [hf0]
  have hK1 : Rfc.K (P.aesEnc sz key) const 1 = P.aesEnc sz key (P.aesEnc sz key f) := by
    show P.aesEnc sz key (Rfc.K _ const 0) = _; rw [hK0]
  have hy := h.el f hfl
  have hz := h.el _ hy
  have e1 := encryptAesCbc_block (P := P) hk hfl
  have e2 := encryptAesCbc_block (P := P) hk hy
  unfold dk
  simp only [blockSize, hf]
  unfold DK
  cases sz with
  | aes128 =>
    rw [show AesSizes.keySize .aes128 = 15 + 1 from rfl, List.range_succ_eq_map, List.flatMap_cons, hK0,
      List.take_left' hy]
    show dkLoop P .aes128 key 16 f [] = _
    rw [dkLoop]
    simp only [AesSizes.seedSize, List.length_nil, e1]
    rw [if_pos (by omega), dkLoop]
    simp [AesSizes.seedSize, hy]
  | aes256 =>
    have : List.range (AesSizes.keySize .aes256) = 0 :: 1 :: (List.range 30).map (· + 2) := by decide +kernel
    rw [this, List.flatMap_cons, List.flatMap_cons, hK0, hK1, ← List.append_assoc,
      List.take_left' (by rw [List.length_append, hy, hz]; rfl)]
    show dkLoop P .aes256 key 32 f [] = _
    rw [dkLoop]
    simp only [AesSizes.seedSize, List.length_nil, e1]
    rw [if_pos (by omega), dkLoop]
    simp only [AesSizes.seedSize, List.nil_append, hy, e2]
    rw [if_pos (by omega), dkLoop]
    simp [AesSizes.seedSize, hy, hz]

theorem wellKnown_eq (u : Int32) (b : UInt8) : usageConst u b = wellKnown u b := by
  unfold usageConst wellKnown
  rw [usageBE_eq]

/-! ### Ciphertext stealing -/

theorem cbc_eq (E : Bytes → Bytes) (bs : List Bytes) : ∀ iv, Rfc.cbc E iv bs = cbcList E iv bs := by
  induction bs with
  | nil => intro _; rfl
  | cons b bs ih => intro iv; unfold Rfc.cbc cbcList; rw [ih]; rfl

theorem cbcList_append (E : Bytes → Bytes) (as bs : List Bytes) : ∀ iv,
    cbcList E iv (as ++ bs) = cbcList E iv as ++ cbcList E (cbcLast E iv as) bs := by
  induction as with
  | nil => intro _; rfl
  | cons a as ih => intro iv; rw [List.cons_append, cbcList, cbcList, cbcLast, ih]; rfl

theorem basicEncrypt_cts {P : Prims} (hP : P.Lawful) {sz : AesSizes} {k : Bytes} (hk : k.length = sz.keySize)
    (p : Bytes) (hp : 16 ≤ p.length) : ∃ c, basicEncrypt P sz k p = .ok c ∧ Cts (P.aesEnc sz k) p c := by
  by_cases h16 : p.length = 16
  · exact ⟨_, basicEncrypt_block hP hk h16, .inl ⟨h16, rfl⟩⟩
  · obtain ⟨bs, a, b, rfl, hbs, ha, hb0, hb1⟩ := split_cts p (by omega)
    refine ⟨_, basicEncrypt_form hP hk hbs ha hb0 hb1, .inr ⟨bs ++ [a], b,
      cbcList (P.aesEnc sz k) (List.replicate 16 0) bs,
      P.aesEnc sz k (xr a (cbcLast (P.aesEnc sz k) (List.replicate 16 0) bs)),
      P.aesEnc sz k (xr (b ++ List.replicate (16 - b.length) 0)
        (P.aesEnc sz k (xr a (cbcLast (P.aesEnc sz k) (List.replicate 16 0) bs)))), ?_, ?_, hb0, hb1, ?_, ?_, ?_⟩⟩
    · exact List.append_ne_nil_of_right_ne_nil _ (List.cons_ne_nil _ _)
    · intro x hx
      rcases List.mem_append.1 hx with hx | hx
      · exact hbs x hx
      · rw [List.mem_singleton.1 hx]; exact ha
    · rw [List.flatten_append, List.flatten_singleton, List.append_assoc]
    · rw [cbc_eq, List.append_assoc, cbcList_append]
      rfl
    · rw [List.append_assoc]

/-- The specification determines the ciphertext. -/
theorem cts_unique {E : Bytes → Bytes} {p c c' : Bytes} (h : Cts E p c) (h' : Cts E p c') : c = c' := by
  have len : ∀ (ps : List Bytes) (l : Bytes), (∀ b ∈ ps, b.length = 16) → (ps.flatten ++ l).length = 16 * ps.length + l.length := by
    intro ps l hb
    rw [List.length_append, Blocks.flatten_length hb]
  rcases h with ⟨h1, rfl⟩ | ⟨ps, l, cs, c1, c2, hne, hb, h0, h1, hp, hc, rfl⟩
  · rcases h' with ⟨-, rfl⟩ | ⟨ps, l, cs, c1, c2, hne, hb, h0, -, hp, -, -⟩
    · rfl
    · have := List.length_pos_iff.2 hne
      rw [hp, len ps l hb] at h1
      omega
  · rcases h' with ⟨h2, rfl⟩ | ⟨ps', l', cs', c1', c2', hne', hb', h0', h1', hp', hc', rfl⟩
    · have := List.length_pos_iff.2 hne
      rw [hp, len ps l hb] at h2
      omega
    · have hl := congrArg List.length (hp.symm.trans hp')
      rw [len ps l hb, len ps' l' hb'] at hl
      have hn : ps.length = ps'.length := by omega
      have e := hp.symm.trans hp'
      obtain ⟨e1, e2⟩ := List.append_inj e (by rw [Blocks.flatten_length hb, Blocks.flatten_length hb', hn])
      subst e2
      have e3 : ps = ps' := by
        have hdiv : ∀ bs : List Bytes, Blocks bs → divideBlocks bs.flatten = bs := by
          intro bs hbs
          have := divideBlocks_append bs hbs []
          rw [List.append_nil] at this
          rw [this, show divideBlocks [] = [] from by rw [divideBlocks, if_pos rfl], List.append_nil]
        rw [← hdiv ps hb, ← hdiv ps' hb', e1]
      subst e3
      have e4 := hc.symm.trans hc'
      have hlen : cs.length = cs'.length := by
        have := congrArg List.length e4
        simp at this
        omega
      obtain ⟨e5, e6⟩ := List.append_inj e4 hlen
      subst e5
      injection e6 with e6 e7
      injection e7 with e7
      subst e6 e7
      rfl

/-! ### C68 -/

/-- C68. AES encryption: exactly the ciphertext of RFC 3961/3962, for every key of the right size, usage, message and
confounder. The specification has one ciphertext for them. -/
theorem c68_aes_ciphertext (P : Prims) (hP : P.Lawful) (sz : AesSizes) (key : Bytes) (hk : key.length = sz.keySize)
    (usage : Int32) (plain conf ct : Bytes) (hc : conf.length = 16) :
    aesEncrypt P sz key usage plain conf = .ok ct ↔
      AesCiphertext (P.aesEnc sz) P.hmacSha1 sz.keySize key usage conf plain ct := by
  obtain ⟨ki, ke, h1, h2, h3, h4, h5⟩ := kike_ok hP usage hk
  have e2 := c68_dk P hP sz key _ hk (usageConst_ne usage 0x55)
  have e3 := c68_dk P hP sz key _ hk (usageConst_ne usage 0xaa)
  rw [h2, wellKnown_eq] at e2
  rw [h3, wellKnown_eq] at e3
  injection e2 with e2
  injection e3 with e3
  obtain ⟨c, h6, h7⟩ := basicEncrypt_cts hP h5 (conf ++ plain) (by rw [List.length_append]; omega)
  have henc : aesEncrypt P sz key usage plain conf = .ok (c ++ (P.hmacSha1 ki (conf ++ plain)).take 12) := by
    unfold aesEncrypt
    rw [h1]
    simp only [h6]
    rw [if_neg (by rw [hP.hmacSha1_length]; simp [macSize])]
    rfl
  rw [henc]
  subst e2 e3
  constructor
  · intro h
    injection h with h
    exact ⟨c, h7, h.symm⟩
  · rintro ⟨c', h8, rfl⟩
    rw [cts_unique h7 h8]

/-- C68. RC4 encryption is the ciphertext of RFC 4757 for the message type of the usage, except for the usages 9 and 23. -/
theorem c68_rc4_ciphertext (P : Prims) (hP : P.Lawful) (key : Bytes) (usage : Int32) (plain conf : Bytes)
    (hu : usage ≠ 9 ∧ usage ≠ 23) :
    Cipher.rc4.encrypt P key usage plain conf = .ok (rc4Ciphertext P.hmacMd5 P.rc4 key (rc4MessageType usage) conf plain) := by
  have hT : rc4MessageType usage = rc4Usage usage := by
    unfold rc4MessageType rc4Usage
    rw [if_neg hu.1, if_neg hu.2]
  show rc4Encrypt P key (rc4Usage usage) plain conf = _
  unfold rc4Encrypt rc4Apply rc4Ciphertext
  simp only [hP.hmacMd5_length, ne_eq, not_true_eq_false, if_false, usageLE_eq, hT]

/-- C68, the violation: for the usages 9 (reply to a ticket request with a subkey) and 23 the code uses the number itself
where RFC 4757 prescribes 8 and 13. -/
theorem c68_rc4_untranslated (P : Prims) (hP : P.Lawful) (key : Bytes) (plain conf : Bytes) :
    Cipher.rc4.encrypt P key 9 plain conf = .ok (rc4Ciphertext P.hmacMd5 P.rc4 key 9 conf plain) ∧ rc4MessageType 9 = 8 ∧
    Cipher.rc4.encrypt P key 23 plain conf = .ok (rc4Ciphertext P.hmacMd5 P.rc4 key 23 conf plain) ∧ rc4MessageType 23 = 13 := by
  refine ⟨?_, by decide, ?_, by decide⟩
  · show rc4Encrypt P key 9 plain conf = _
    unfold rc4Encrypt rc4Apply rc4Ciphertext
    simp only [hP.hmacMd5_length, ne_eq, not_true_eq_false, if_false, usageLE_eq]
  · show rc4Encrypt P key 23 plain conf = _
    unfold rc4Encrypt rc4Apply rc4Ciphertext
    simp only [hP.hmacMd5_length, ne_eq, not_true_eq_false, if_false, usageLE_eq]

/-- C68. Checksums. -/
theorem c68_checksums (P : Prims) (hP : P.Lawful) (key : Bytes) (usage : Int32) (msg : Bytes) :
    (∀ sz, key.length = sz.keySize → checksumShaAes P sz key usage msg =
      .ok (aesChecksum (P.aesEnc sz) P.hmacSha1 sz.keySize key usage msg)) ∧
    checksumHmacMd5 P key usage msg = rc4Checksum P.hmacMd5 P.md5 key usage msg := by
  constructor
  · intro sz hk
    unfold checksumShaAes aesChecksum
    rw [c68_dk P hP sz key _ hk (usageConst_ne usage 0x99), wellKnown_eq]
    simp only
    rw [if_neg (by rw [hP.hmacSha1_length]; omega)]
  · rw [c37_hmac_md5_construction]
    unfold rc4Checksum
    have e1 : utf8 ("signaturekey".toList ++ ['\x00']) = utf8 "signaturekey".toList ++ [0] := by decide +kernel
    rw [e1, ← usageLE_eq]
    rfl

theorem utf16Char_spec (c : Char) : Utf16 c (utf16Char c) := by
  have hv : c.val.toNat = c.toNat := rfl
  have hlt : c.toNat < 0x110000 := by
    rcases c.valid with h | ⟨_, h⟩
    · have : c.toNat < 0xd800 := h
      omega
    · exact h
  unfold utf16Char
  simp only [hv]
  by_cases h : c.toNat < 0x10000
  · rw [if_pos h]
    refine .inl ⟨h, _, rfl, ?_⟩
    simp; omega
  · rw [if_neg h]
    refine .inr ⟨by omega, _, _, rfl, ?_⟩
    simp only [UInt16.toNat_ofNat']
    generalize c.toNat = n at *
    omega

theorem u16_le (u : UInt16) : [u.toUInt8, (u >>> 8).toUInt8] = bytesOfLE 2 u.toNat := by
  have h2 : (u >>> 8).toUInt8 = UInt8.ofNat (u.toNat / 256) := by
    apply UInt8.toNat.inj
    rw [UInt16.toNat_toUInt8, UInt16.toNat_shiftRight, u8_toNat_ofNat, Nat.shiftRight_eq_div_pow]
    rfl
  have h1 : u.toUInt8 = UInt8.ofNat u.toNat := by
    apply UInt8.toNat.inj
    rw [UInt16.toNat_toUInt8, u8_toNat_ofNat]
  rw [h1, h2]
  simp [bytesOfLE, List.range_succ]

theorem stringUnicodeBytes_spec (s : List Char) : Utf16LE s (stringUnicodeBytes s) := by
  induction s with
  | nil => exact .nil
  | cons c cs ih =>
    have : stringUnicodeBytes (c :: cs) =
        (utf16Char c).flatMap (fun u => bytesOfLE 2 u.toNat) ++ stringUnicodeBytes cs := by
      unfold stringUnicodeBytes
      rw [List.flatMap_cons, List.flatMap_append]
      congr 1
      simp only [u16_le]
    rw [this]
    exact .cons c cs _ _ (utf16Char_spec c) ih

/-- UTF-16 is determined by the character. -/
theorem utf16_unique {c : Char} {a b : List UInt16} (h : Utf16 c a) (h' : Utf16 c b) : a = b := by
  rcases h with ⟨h1, u, rfl, h2⟩ | ⟨h1, x, y, rfl, h2, h3, h4, h5, h6⟩
  · rcases h' with ⟨-, v, rfl, h3⟩ | ⟨h3, -⟩
    · rw [UInt16.toNat.inj (h2.trans h3.symm)]
    · omega
  · rcases h' with ⟨h7, -⟩ | ⟨-, x', y', rfl, k2, k3, k4, k5, k6⟩
    · omega
    · rw [UInt16.toNat.inj (show x.toNat = x'.toNat by omega), UInt16.toNat.inj (show y.toNat = y'.toNat by omega)]

theorem utf16LE_unique {s : List Char} {a b : Bytes} (h : Utf16LE s a) (h' : Utf16LE s b) : a = b := by
  induction h generalizing b with
  | nil => cases h'; rfl
  | cons c cs units rest hu hr ih =>
    cases h' with
    | cons _ _ units' rest' hu' hr' => rw [ih hr', utf16_unique hu hu']

/-- C68. Keys from passwords: DK(PBKDF2(password in UTF-8, salt, 4096 iterations), "kerberos") for AES; MD4 of the password in
little-endian UTF-16 for RC4, without salt. -/
theorem c68_string_to_key (P : Prims) (hP : P.Lawful) (password : List Char) (salt : Bytes) :
    (∀ sz, (Cipher.aes sz).generateKeyFromString P password salt =
      .ok (DK (P.aesEnc sz (P.pbkdf2 (utf8 password) salt 4096 sz.keySize)) sz.keySize (utf8 "kerberos".toList))) ∧
    (∀ u, Utf16LE password u → Cipher.rc4.generateKeyFromString P password salt = .ok (P.md4 u)) := by
  constructor
  · intro sz
    have hs : sz.seedSize = sz.keySize := by cases sz <;> rfl
    show dk P sz (P.pbkdf2 (utf8 password) salt 4096 sz.seedSize) _ = _
    rw [hs, c68_dk P hP sz _ _ (hP.pbkdf2_length _ _ _ _) (List.cons_ne_nil _ _)]
    have : utf8 "kerberos".toList = [0x6b, 0x65, 0x72, 0x62, 0x65, 0x72, 0x6f, 0x73] := by decide +kernel
    rw [this]
  · intro u hu
    rw [utf16LE_unique hu (stringUnicodeBytes_spec password)]
    rfl

/-- C68. Every password has a UTF-16 form. -/
theorem c68_utf16_exists (password : List Char) : ∃ u, Utf16LE password u := ⟨_, stringUnicodeBytes_spec password⟩

/-- both kinds of characters -/
example : stringUnicodeBytes ['a', 'é', '𐐷'] = [0x61, 0, 0xe9, 0, 0x01, 0xd8, 0x37, 0xdc] := by decide +kernel

/-- hypotheses of `c68_aes_ciphertext` at a concrete key, confounder and usage: it has a ciphertext, of 16 + 3 + 12 bytes -/
example : ∃ ct, AesCiphertext (toyPrims.aesEnc .aes256) toyPrims.hmacSha1 32 (List.replicate 32 7) 3
    (List.replicate 16 1) [1, 2, 3] ct ∧ ct.length = 31 := by
  obtain ⟨ct, h, -⟩ := c26_aes_roundtrip toyPrims toyPrims_lawful .aes256 (List.replicate 32 7) rfl 3 [1, 2, 3]
    (List.replicate 16 1) rfl
  have hl := c27_encrypt_size toyPrims toyPrims_lawful (.aes .aes256) (List.replicate 32 7) rfl 3 [1, 2, 3]
    (List.replicate 16 1) ct rfl h
  exact ⟨ct, (c68_aes_ciphertext toyPrims toyPrims_lawful .aes256 _ rfl 3 _ _ ct rfl).1 h, hl⟩

end Verif.Crypto

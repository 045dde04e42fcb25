import Verif.CryptoLemmas
import Verif.ToyPrims
/-
Property theorems C26–C30, C33, C35, C37, C38: encryption schemes of kerberos_crypto.
All statements are for every primitive suite `P` satisfying `Prims.Lawful` (see `Verif/CryptoModel.lean`);
`Verif/ToyPrims.lean` provides one.
-/
namespace Verif.Crypto

/-- Specification: bytes added by encryption (confounder and MAC). -/
def overhead : Cipher → Nat
  | .aes _ => 28
  | .rc4 => 24

/-- Specification: key sizes. -/
def keyLength : Cipher → Nat
  | .aes .aes128 => 16
  | .aes .aes256 => 32
  | .rc4 => 16

theorem i32_toUInt32_inj {u v : Int32} (h : u.toUInt32 = v.toUInt32) : u = v := by
  have := congrArg UInt32.toInt32 h
  simpa using this

/-! ### AES -/

theorem aesEncrypt_ok {P : Prims} (hP : P.Lawful) {sz : AesSizes} {key : Bytes} (hk : key.length = sz.keySize)
    (u : Int32) (pt pre : Bytes) (hpre : pre.length = 16) :
    ∃ ki ke c, generateKiKe P sz key u = .ok (ki, ke) ∧ ke.length = sz.keySize ∧
      basicEncrypt P sz ke (pre ++ pt) = .ok c ∧ c.length = 16 + pt.length ∧
      basicDecrypt P sz ke c = .ok (pre ++ pt) ∧
      aesEncrypt P sz key u pt pre = .ok (c ++ (P.hmacSha1 ki (pre ++ pt)).take 12) := by
  obtain ⟨ki, ke, h1, _, _, _, h5⟩ := kike_ok hP u hk
  obtain ⟨c, h6, h7, h8⟩ := basic_roundtrip hP h5 (pre ++ pt) (by simp; omega)
  refine ⟨ki, ke, c, h1, h5, h6, by rw [h7]; simp [hpre], h8, ?_⟩
  unfold aesEncrypt
  rw [h1]
  simp only [h6]
  rw [if_neg (by rw [hP.hmacSha1_length]; simp [macSize])]
  rfl

/-- What AES decryption does on a long enough string: decrypt the body, compare the MAC. -/
theorem aesDecrypt_eq {P : Prims} (hP : P.Lawful) {sz : AesSizes} {key : Bytes} (hk : key.length = sz.keySize)
    (u : Int32) (body mac : Bytes) (hb : 16 ≤ body.length) (hm : mac.length = 12) :
    ∃ ki ke p, generateKiKe P sz key u = .ok (ki, ke) ∧ ke.length = sz.keySize ∧ p.length = body.length ∧
      basicDecrypt P sz ke body = .ok p ∧ basicEncrypt P sz ke p = .ok body ∧
      aesDecrypt P sz key u (body ++ mac) =
        if (P.hmacSha1 ki p).take 12 ≠ mac then .error (.decryption "Hmac integrity failure")
        else .ok (p.drop 16) := by
  obtain ⟨ki, ke, h1, _, _, _, h5⟩ := kike_ok hP u hk
  obtain ⟨p, h6, h7, h8⟩ := basic_surj hP h5 body hb
  refine ⟨ki, ke, p, h1, h5, h6, h7, h8, ?_⟩
  unfold aesDecrypt
  rw [h1]
  simp only
  rw [if_neg (by simp [blockSize, macSize]; omega)]
  have hstop : (body ++ mac).length - macSize = body.length := by simp [macSize, hm]
  simp only [hstop, List.take_left', List.drop_left', h7]
  rw [if_neg (by rw [hP.hmacSha1_length]; simp [macSize])]
  have hbs : ¬ p.length < blockSize := by simp [blockSize]; omega
  simp only [macSize]
  rw [if_neg hbs]
  rfl

theorem split_mac (ct : Bytes) (h : 28 ≤ ct.length) :
    ∃ body mac, ct = body ++ mac ∧ 16 ≤ body.length ∧ mac.length = 12 :=
  ⟨ct.take (ct.length - 12), ct.drop (ct.length - 12), (List.take_append_drop _ _).symm,
    by simp; omega, by simp; omega⟩

/-- C26: AES decryption of an AES encryption is the plaintext, for every key of the right size, usage,
confounder and plaintext. -/
theorem c26_aes_roundtrip (P : Prims) (hP : P.Lawful) (sz : AesSizes) (key : Bytes) (hk : key.length = sz.keySize)
    (usage : Int32) (pt conf : Bytes) (hc : conf.length = 16) :
    ∃ ct, aesEncrypt P sz key usage pt conf = .ok ct ∧ aesDecrypt P sz key usage ct = .ok pt := by
  obtain ⟨ki, ke, c, h1, h2, h3, h4, h5, h6⟩ := aesEncrypt_ok hP hk usage pt conf hc
  refine ⟨_, h6, ?_⟩
  obtain ⟨ki', ke', p, g1, g2, g3, g4, g5, g6⟩ :=
    aesDecrypt_eq hP hk usage c ((P.hmacSha1 ki (conf ++ pt)).take 12) (by omega)
      (by rw [List.length_take, hP.hmacSha1_length]; rfl)
  rw [h1] at g1
  injection g1 with g1
  injection g1 with e1 e2
  subst e1; subst e2
  rw [h5] at g4
  injection g4 with e3
  subst e3
  rw [g6, if_neg (by simp)]
  congr 1
  rw [← hc, List.drop_left']
  rfl

/-! ### RC4 -/

/-- C30: RC4-HMAC round-trip, for every key (of any size), usage, confounder and plaintext. -/
theorem c30_rc4_roundtrip (P : Prims) (hP : P.Lawful) (key : Bytes) (usage : Int32) (pt conf : Bytes)
    (hc : conf.length = 8) :
    ∃ ct, rc4Encrypt P key usage pt conf = .ok ct ∧ rc4Decrypt P key usage ct = .ok pt := by
  have hke : (P.hmacMd5 (P.hmacMd5 key (usageLE usage))
      (P.hmacMd5 (P.hmacMd5 key (usageLE usage)) (conf ++ pt))).length = 16 := hP.hmacMd5_length _ _
  have hcs : (P.hmacMd5 (P.hmacMd5 key (usageLE usage)) (conf ++ pt)).length = 16 := hP.hmacMd5_length _ _
  refine ⟨_, by simp only [rc4Encrypt, rc4Apply, hke]; rfl, ?_⟩
  generalize hck : P.hmacMd5 (P.hmacMd5 key (usageLE usage)) (conf ++ pt) = cks at *
  unfold rc4Decrypt
  have hl := hP.rc4_length _ (conf ++ pt) hke
  rw [if_neg (by simp [hcs, hl]; omega)]
  have e1 : (cks ++ P.rc4 (P.hmacMd5 (P.hmacMd5 key (usageLE usage)) cks) (conf ++ pt)).take 16 = cks := by
    rw [← hcs]; simp
  have e2 : (cks ++ P.rc4 (P.hmacMd5 (P.hmacMd5 key (usageLE usage)) cks) (conf ++ pt)).drop 16
      = P.rc4 (P.hmacMd5 (P.hmacMd5 key (usageLE usage)) cks) (conf ++ pt) := by
    rw [← hcs]; simp
  simp only [e1, e2, rc4Apply, hke, hP.rc4_invol _ _ hke, ne_eq, not_true_eq_false, if_false]
  rw [if_neg (show ¬ ¬ cks = _ by rw [hck]; simp)]
  rw [if_neg (by rw [List.length_append]; omega)]
  have : (conf ++ pt).drop 8 = pt := by rw [← hc]; simp
  rw [this]

/-- C30: the cipher treats usage 3 exactly as usage 8 when encrypting and when decrypting, and keeps the key
derivation inputs of all other usages distinct. -/
theorem c30_usage (P : Prims) (key pt conf ct : Bytes) :
    Cipher.rc4.encrypt P key 3 pt conf = Cipher.rc4.encrypt P key 8 pt conf ∧
    Cipher.rc4.decrypt P key 3 ct = Cipher.rc4.decrypt P key 8 ct ∧
    ∀ u v : Int32, u ≠ 3 → v ≠ 3 → usageLE (rc4Usage u) = usageLE (rc4Usage v) → u = v := by
  refine ⟨rfl, rfl, ?_⟩
  intro u v hu hv h
  simp only [rc4Usage, hu, hv, if_false] at h
  exact i32_toUInt32_inj (le32_inj h)

/-! ### all ciphers -/

/-- C26/C30 through the public interface: every cipher, every suitable key. -/
theorem c26_cipher_roundtrip (P : Prims) (hP : P.Lawful) (c : Cipher) (key : Bytes) (hk : c.keyOk key)
    (usage : Int32) (pt conf : Bytes) (hc : conf.length = c.preambleSize) :
    ∃ ct, c.encrypt P key usage pt conf = .ok ct ∧ c.decrypt P key usage ct = .ok pt := by
  cases c with
  | aes sz => exact c26_aes_roundtrip P hP sz key hk usage pt conf hc
  | rc4 => exact c30_rc4_roundtrip P hP key (rc4Usage usage) pt conf hc

/-- C27: ciphertext sizes: 28 bytes (AES) or 24 bytes (RC4) more than the plaintext. -/
theorem c27_encrypt_size (P : Prims) (hP : P.Lawful) (c : Cipher) (key : Bytes) (hk : c.keyOk key)
    (usage : Int32) (pt conf ct : Bytes) (hc : conf.length = c.preambleSize)
    (h : c.encrypt P key usage pt conf = .ok ct) :
    ct.length = pt.length + overhead c := by
  cases c with
  | aes sz =>
    obtain ⟨ki, ke, b, h1, h2, h3, h4, h5, h6⟩ := aesEncrypt_ok hP hk usage pt conf hc
    simp only [Cipher.encrypt] at h
    rw [h6] at h
    injection h with h
    rw [← h]
    simp only [List.length_append, List.length_take, hP.hmacSha1_length, h4, overhead]
    omega
  | rc4 =>
    simp only [Cipher.preambleSize] at hc
    simp only [Cipher.encrypt, rc4Encrypt, rc4Apply] at h
    split at h
    · cases h
    · rename_i x enc hx
      split at hx
      · cases hx
      · injection hx with hx
        injection h with h
        rw [← h, ← hx]
        rw [List.length_append, hP.rc4_length _ _ (hP.hmacMd5_length _ _), hP.hmacMd5_length]
        simp [hc, overhead]; omega

/-- C29: for a suitable key, decryption of every byte string ends with a plaintext or one of the two
decryption errors — never a panic; strings below the minimum size always give the "too short" error. -/
theorem c29_no_panic (P : Prims) (hP : P.Lawful) (c : Cipher) (key : Bytes) (hk : c.keyOk key) (usage : Int32)
    (ct : Bytes) :
    ((∃ pt, c.decrypt P key usage ct = .ok pt) ∨
      c.decrypt P key usage ct = .error (.decryption "Hmac integrity failure") ∨
      c.decrypt P key usage ct = .error (.decryption "Ciphertext too short")) ∧
    (c.decrypt P key usage ct = .error (.decryption "Ciphertext too short") ↔
      ct.length < overhead c) := by
  cases c with
  | aes sz =>
    simp only [Cipher.decrypt, overhead]
    by_cases hs : ct.length < 28
    · have : aesDecrypt P sz key usage ct = .error (.decryption "Ciphertext too short") := by
        obtain ⟨ki, ke, h1, _⟩ := kike_ok hP usage hk
        unfold aesDecrypt
        rw [h1]
        simp only
        rw [if_pos (by simp [blockSize, macSize]; omega)]
      exact ⟨Or.inr (Or.inr this), fun _ => hs, fun _ => this⟩
    · obtain ⟨body, mac, rfl, hb, hm⟩ := split_mac ct (by omega)
      obtain ⟨ki, ke, p, _, _, _, _, _, h6⟩ := aesDecrypt_eq hP hk usage body mac hb hm
      rw [h6]
      split
      · refine ⟨Or.inr (Or.inl rfl), fun h => ?_, fun h => absurd h hs⟩
        injection h with h; injection h with h; exact absurd h (by decide)
      · exact ⟨Or.inl ⟨_, rfl⟩, ⟨fun h => (by cases h), fun h => absurd h hs⟩⟩
  | rc4 =>
    simp only [Cipher.decrypt, overhead]
    by_cases hs : ct.length < 24
    · have : rc4Decrypt P key (rc4Usage usage) ct = .error (.decryption "Ciphertext too short") := by
        unfold rc4Decrypt; rw [if_pos hs]
      exact ⟨Or.inr (Or.inr this), fun _ => hs, fun _ => this⟩
    · have hke : ∀ x y, (P.hmacMd5 x y).length = 16 := hP.hmacMd5_length
      unfold rc4Decrypt
      rw [if_neg hs]
      simp only [rc4Apply, hke, ne_eq, not_true_eq_false, if_false]
      split
      · refine ⟨Or.inr (Or.inl rfl), fun h => ?_, fun h => absurd h hs⟩
        injection h with h; injection h with h; exact absurd h (by decide)
      · rw [if_neg (by rw [hP.rc4_length _ _ (hke _ _)]; simp; omega)]
        exact ⟨Or.inl ⟨_, rfl⟩, ⟨fun h => (by cases h), fun h => absurd h hs⟩⟩

/-- C29: a wrong-sized AES key panics, on encryption and on decryption of anything. -/
theorem c29_wrong_key_panics (P : Prims) (sz : AesSizes) (key : Bytes) (hk : key.length ≠ sz.keySize)
    (usage : Int32) (pt conf ct : Bytes) :
    aesEncrypt P sz key usage pt conf = .error .panic ∧ aesDecrypt P sz key usage ct = .error .panic := by
  have : generateKiKe P sz key usage = .error .panic := by
    unfold generateKiKe; rw [dk_panic hk]
  constructor
  · unfold aesEncrypt; rw [this]
  · unfold aesDecrypt; rw [this]

/-- C28: a byte string is accepted with result `pt` iff it is an encryption of `pt` under that key and usage
for some confounder. -/
theorem c28_accepts_iff (P : Prims) (hP : P.Lawful) (c : Cipher) (key : Bytes) (hk : c.keyOk key)
    (usage : Int32) (ct pt : Bytes) :
    c.decrypt P key usage ct = .ok pt ↔
      ∃ conf, conf.length = c.preambleSize ∧ c.encrypt P key usage pt conf = .ok ct := by
  constructor
  · intro h
    cases c with
    | aes sz =>
      have hs : ¬ ct.length < 28 := by
        intro hs
        have := ((c29_no_panic P hP (.aes sz) key hk usage ct).2).mpr hs
        rw [this] at h; cases h
      obtain ⟨body, mac, rfl, hb, hm⟩ := split_mac ct (by omega)
      obtain ⟨ki, ke, p, h1, h2, h3, h4, h5, h6⟩ := aesDecrypt_eq hP hk usage body mac hb hm
      simp only [Cipher.decrypt] at h
      rw [h6] at h
      split at h
      · cases h
      · rename_i hmac
        simp only [ne_eq, Decidable.not_not] at hmac
        injection h with h
        refine ⟨p.take 16, by simp [Cipher.preambleSize]; omega, ?_⟩
        simp only [Cipher.encrypt, aesEncrypt, h1]
        rw [← h, List.take_append_drop, h5]
        simp only
        rw [if_neg (by rw [hP.hmacSha1_length]; simp [macSize])]
        simp only [macSize, hmac]
    | rc4 =>
      have hs : ¬ ct.length < 24 := by
        intro hs
        have := ((c29_no_panic P hP .rc4 key hk usage ct).2).mpr hs
        rw [this] at h; cases h
      have hke : ∀ x y, (P.hmacMd5 x y).length = 16 := hP.hmacMd5_length
      simp only [Cipher.decrypt] at h
      unfold rc4Decrypt at h
      rw [if_neg hs] at h
      simp only [rc4Apply, hke, ne_eq, not_true_eq_false, if_false] at h
      split at h
      · cases h
      · rename_i hck
        simp only [Decidable.not_not] at hck
        split at h
        · cases h
        · rename_i h8
          injection h with h
          refine ⟨(P.rc4 (P.hmacMd5 (P.hmacMd5 key (usageLE (rc4Usage usage))) (ct.take 16)) (ct.drop 16)).take 8, ?_, ?_⟩
          · simp only [List.length_take, Cipher.preambleSize]; omega
          · simp only [Cipher.encrypt, rc4Encrypt, rc4Apply, hke]
            rw [← h, List.take_append_drop, ← hck, hP.rc4_invol _ _ (hke _ _)]
            simp
  · rintro ⟨conf, hc, h⟩
    obtain ⟨ct', h1, h2⟩ := c26_cipher_roundtrip P hP c key hk usage pt conf hc
    rw [h] at h1
    injection h1 with h1
    rw [h1]; exact h2

/-- C28: two different ciphertexts accepted with the same plaintext come from different confounders, and a
confounder and plaintext determine the ciphertext. -/
theorem c28_confounder (P : Prims) (hP : P.Lawful) (c : Cipher) (key : Bytes) (hk : c.keyOk key)
    (usage : Int32) (ct ct' pt : Bytes) (h : c.decrypt P key usage ct = .ok pt)
    (h' : c.decrypt P key usage ct' = .ok pt) (hne : ct ≠ ct') :
    ∃ conf conf', conf ≠ conf' ∧ c.encrypt P key usage pt conf = .ok ct ∧
      c.encrypt P key usage pt conf' = .ok ct' := by
  obtain ⟨a, _, ha⟩ := (c28_accepts_iff P hP c key hk usage ct pt).mp h
  obtain ⟨b, _, hb⟩ := (c28_accepts_iff P hP c key hk usage ct' pt).mp h'
  refine ⟨a, b, ?_, ha, hb⟩
  rintro rfl
  rw [ha] at hb
  injection hb with hb
  exact hne hb

/-- C28: everything else of at least the minimum size is refused with the integrity error. -/
theorem c28_refused (P : Prims) (hP : P.Lawful) (c : Cipher) (key : Bytes) (hk : c.keyOk key)
    (usage : Int32) (ct : Bytes) (hl : overhead c ≤ ct.length)
    (h : ¬ ∃ pt conf, conf.length = c.preambleSize ∧ c.encrypt P key usage pt conf = .ok ct) :
    c.decrypt P key usage ct = .error (.decryption "Hmac integrity failure") := by
  obtain ⟨h1, h2⟩ := c29_no_panic P hP c key hk usage ct
  rcases h1 with ⟨pt, h1⟩ | h1 | h1
  · obtain ⟨conf, a, b⟩ := (c28_accepts_iff P hP c key hk usage ct pt).mp h1
    exact absurd ⟨pt, conf, a, b⟩ h
  · exact h1
  · have := h2.mp h1
    omega

/-- C27: an accepted ciphertext is exactly 28 (24) bytes longer than the returned plaintext. -/
theorem c27_decrypt_size (P : Prims) (hP : P.Lawful) (c : Cipher) (key : Bytes) (hk : c.keyOk key)
    (usage : Int32) (pt ct : Bytes) (h : c.decrypt P key usage ct = .ok pt) :
    ct.length = pt.length + overhead c := by
  obtain ⟨conf, hc, he⟩ := (c28_accepts_iff P hP c key hk usage ct pt).mp h
  exact c27_encrypt_size P hP c key hk usage pt conf ct hc he

/-- C28. Different plaintexts or confounders give different ciphertexts. -/
theorem c28_encrypt_injective (P : Prims) (hP : P.Lawful) (c : Cipher) (key : Bytes) (hk : c.keyOk key)
    (usage : Int32) (pt pt' conf conf' ct : Bytes) (hc : conf.length = c.preambleSize)
    (hc' : conf'.length = c.preambleSize) (h : c.encrypt P key usage pt conf = .ok ct)
    (h' : c.encrypt P key usage pt' conf' = .ok ct) : pt = pt' ∧ conf = conf' := by
  have a := (c28_accepts_iff P hP c key hk usage ct pt).mpr ⟨conf, hc, h⟩
  have b := (c28_accepts_iff P hP c key hk usage ct pt').mpr ⟨conf', hc', h'⟩
  rw [a] at b
  injection b with e
  subst e
  refine ⟨rfl, ?_⟩
  cases c with
  | aes sz =>
    obtain ⟨ki, ke, x, h1, _, _, h4, h5, h6⟩ := aesEncrypt_ok hP hk usage pt conf hc
    obtain ⟨ki', ke', x', g1, _, _, g4, g5, g6⟩ := aesEncrypt_ok hP hk usage pt conf' hc'
    simp only [Cipher.encrypt] at h h'
    rw [h1] at g1
    injection g1 with g1
    injection g1 with e1 e2
    subst e1 e2
    rw [h6] at h; rw [g6] at h'
    injection h with h; injection h' with h'
    have hx := (List.append_inj (h.trans h'.symm) (by rw [h4, g4])).1
    rw [hx, g5] at h5
    injection h5 with h5
    exact (List.append_inj h5 (by rw [hc, hc'])).1.symm
  | rc4 =>
    have hke : ∀ x y, (P.hmacMd5 x y).length = 16 := hP.hmacMd5_length
    simp only [Cipher.encrypt, rc4Encrypt, rc4Apply, hke, ne_eq, not_true_eq_false, if_false] at h h'
    injection h with h; injection h' with h'
    have hx := List.append_inj (h.trans h'.symm) (by rw [hke, hke])
    rw [hx.1] at hx
    have e := congrArg (P.rc4 (P.hmacMd5 (P.hmacMd5 key (usageLE (rc4Usage usage)))
      (P.hmacMd5 (P.hmacMd5 key (usageLE (rc4Usage usage))) (conf' ++ pt)))) hx.2
    rw [hP.rc4_invol _ _ (hke _ _), hP.rc4_invol _ _ (hke _ _)] at e
    exact (List.append_inj e (by rw [hc, hc'])).1

/-! ### C33 -/

/-- C33: key generation always ends normally and the key has the size the cipher needs, for every password and
salt; so a generated key can never trigger the wrong-size panic. -/
theorem c33_generated_key (P : Prims) (hP : P.Lawful) (c : Cipher) (rawKey salt : Bytes) :
    ∃ k, c.generateKey P rawKey salt = .ok k ∧ c.keyOk k ∧
      k.length = keyLength c := by
  cases c with
  | aes sz =>
    obtain ⟨k, h1, h2⟩ := dk_ok hP (sz := sz) (k := pbkdf2Sha1 P rawKey salt sz.seedSize)
      (c := [0x6b, 0x65, 0x72, 0x62, 0x65, 0x72, 0x6f, 0x73])
      (by rw [pbkdf2Sha1, hP.pbkdf2_length]; cases sz <;> rfl) (by simp)
    refine ⟨k, h1, h2, ?_⟩
    cases sz <;> exact h2
  | rc4 => exact ⟨_, rfl, trivial, hP.md4_length _⟩

/-- C33: the same from a password string. -/
theorem c33_generated_key_from_string (P : Prims) (hP : P.Lawful) (c : Cipher) (password : List Char) (salt : Bytes) :
    ∃ k, c.generateKeyFromString P password salt = .ok k ∧ c.keyOk k ∧
      k.length = keyLength c := by
  cases c with
  | aes sz => exact c33_generated_key P hP (.aes sz) (utf8 password) salt
  | rc4 => exact ⟨_, rfl, trivial, hP.md4_length _⟩

/-- C33: key derivation terminates with exactly the key size for every right-sized key and non-empty
constant. -/
theorem c33_dk (P : Prims) (hP : P.Lawful) (sz : AesSizes) (key const : Bytes) (hk : key.length = sz.keySize)
    (hc : const ≠ []) : ∃ r, dk P sz key const = .ok r ∧ r.length = sz.keySize := dk_ok hP hk hc

/-- C26+C33: what is encrypted under a password is decrypted by the same password and salt; no input at all
makes this panic. -/
theorem c26_password_roundtrip (P : Prims) (hP : P.Lawful) (c : Cipher) (password : List Char) (salt : Bytes)
    (usage : Int32) (pt conf : Bytes) (hc : conf.length = c.preambleSize) :
    ∃ ct, c.generateKeyFromStringAndEncrypt P password salt usage pt conf = .ok ct ∧
      c.generateKeyFromStringAndDecrypt P password salt usage ct = .ok pt := by
  obtain ⟨k, h1, h2, _⟩ := c33_generated_key_from_string P hP c password salt
  obtain ⟨ct, h3, h4⟩ := c26_cipher_roundtrip P hP c k h2 usage pt conf hc
  exact ⟨ct, by simp [Cipher.generateKeyFromStringAndEncrypt, h1, h3],
    by simp [Cipher.generateKeyFromStringAndDecrypt, h1, h4]⟩

/-! ### C35 -/

/-- C35: a cipher is returned exactly for 18, 17 and 23, it reports the requested type, and every other type
is refused by name. -/
theorem c35_factory (etype : Int32) :
    (∀ c, newKerberosCipher etype = .ok c → c.etype = etype) ∧
    ((∃ c, newKerberosCipher etype = .ok c) ↔ etype = 18 ∨ etype = 17 ∨ etype = 23) ∧
    (¬ (etype = 18 ∨ etype = 17 ∨ etype = 23) → newKerberosCipher etype = .error (.unsupported etype)) ∧
    (isSupportedEtype etype = true ↔ etype = 18 ∨ etype = 17 ∨ etype = 23) := by
  unfold newKerberosCipher
  refine ⟨?_, ?_, ?_, by simp [isSupportedEtype, supportedEtypes]⟩
  · intro c
    split
    · rename_i h; intro hc; injection hc with hc; rw [← hc, h]; rfl
    · split
      · rename_i h; intro hc; injection hc with hc; rw [← hc, h]; rfl
      · split
        · rename_i h; intro hc; injection hc with hc; rw [← hc, h]; rfl
        · intro hc; cases hc
  · by_cases h1 : etype = 18
    · simp [h1]
    · by_cases h2 : etype = 17
      · simp [h2]
      · by_cases h3 : etype = 23
        · simp [h3]
        · simp [h1, h2, h3]
  · intro h
    have h1 : etype ≠ 18 := fun e => h (Or.inl e)
    have h2 : etype ≠ 17 := fun e => h (Or.inr (Or.inl e))
    have h3 : etype ≠ 23 := fun e => h (Or.inr (Or.inr e))
    simp [h1, h2, h3]

/-- C35: each of the three ciphers is obtainable. -/
theorem c35_factory_complete (c : Cipher) : newKerberosCipher c.etype = .ok c := by
  cases c with
  | aes sz => cases sz <;> decide
  | rc4 => decide

/-! ### C37 -/

/-- C37: AES checksums exist and have 12 bytes for every right-sized key, RC4 checksums have 16. -/
theorem c37_checksum_sizes (P : Prims) (hP : P.Lawful) (sz : AesSizes) (key : Bytes) (usage : Int32) (data : Bytes) :
    (key.length = sz.keySize → ∃ m, checksumShaAes P sz key usage data = .ok m ∧ m.length = 12) ∧
    (checksumHmacMd5 P key usage data).length = 16 := by
  constructor
  · intro hk
    obtain ⟨kc, h1, _⟩ := dk_ok hP hk (usageConst_ne usage 0x99)
    refine ⟨(P.hmacSha1 kc data).take 12, ?_, by rw [List.length_take, hP.hmacSha1_length]; rfl⟩
    unfold checksumShaAes
    rw [h1]
    simp only
    rw [if_neg (by rw [hP.hmacSha1_length]; omega)]
  · exact hP.hmacMd5_length _ _

/-- C37: the RC4 checksum is the RFC 4757 construction: the usage enters only as its four bytes, least
significant first, in front of the data. -/
theorem c37_hmac_md5_construction (P : Prims) (key : Bytes) (usage : Int32) (data : Bytes) :
    checksumHmacMd5 P key usage data =
      P.hmacMd5 (P.hmacMd5 key (utf8 ("signaturekey".toList ++ ['\x00'])))
        (P.md5 ((be32 usage.toUInt32).reverse ++ data)) := by
  have : utf8 ("signaturekey".toList ++ ['\x00'])
      = [0x73, 0x69, 0x67, 0x6e, 0x61, 0x74, 0x75, 0x72, 0x65, 0x6b, 0x65, 0x79, 0] := by decide +kernel
  rw [this]; rfl

/-- C37: the AES checksum is the first 12 bytes of HMAC-SHA1 under the key derived from
usage (most significant byte first) followed by 0x99. -/
theorem c37_aes_construction (P : Prims) (hP : P.Lawful) (sz : AesSizes) (key : Bytes) (hk : key.length = sz.keySize)
    (usage : Int32) (data : Bytes) :
    ∃ kc, dk P sz key (be32 usage.toUInt32 ++ [0x99]) = .ok kc ∧
      checksumShaAes P sz key usage data = .ok ((P.hmacSha1 kc data).take 12) := by
  obtain ⟨kc, h1, _⟩ := dk_ok hP hk (usageConst_ne usage 0x99)
  refine ⟨kc, h1, ?_⟩
  unfold checksumShaAes
  rw [h1]
  simp only
  rw [if_neg (by rw [hP.hmacSha1_length]; omega)]

/-! ### C38 -/

/-- C38: derivation constants of different (usage, purpose) pairs differ. -/
theorem c38_constants_injective (u v : Int32) (p q : UInt8) (h : usageConst u p = usageConst v q) :
    u = v ∧ p = q := by
  unfold usageConst at h
  have h' := List.append_inj h (by simp [usageBE])
  refine ⟨i32_toUInt32_inj (be32_inj h'.1), ?_⟩
  simpa using h'.2

/-- C38: an AES ciphertext made for usage `u` and accepted under usage `v` forces the truncated HMACs under
the two integrity keys to coincide, on the plaintexts that the two encryption keys give. -/
theorem c38_cross_usage (P : Prims) (hP : P.Lawful) (sz : AesSizes) (key : Bytes) (hk : key.length = sz.keySize)
    (u v : Int32) (pt conf ct pt' : Bytes) (hc : conf.length = 16)
    (he : aesEncrypt P sz key u pt conf = .ok ct) (hd : aesDecrypt P sz key v ct = .ok pt') :
    ∃ kiu keu kiv kev conf' body,
      dk P sz key (usageConst u 0x55) = .ok kiu ∧ dk P sz key (usageConst u 0xaa) = .ok keu ∧
      dk P sz key (usageConst v 0x55) = .ok kiv ∧ dk P sz key (usageConst v 0xaa) = .ok kev ∧
      basicEncrypt P sz keu (conf ++ pt) = .ok body ∧ basicEncrypt P sz kev (conf' ++ pt') = .ok body ∧
      (P.hmacSha1 kiu (conf ++ pt)).take 12 = (P.hmacSha1 kiv (conf' ++ pt')).take 12 := by
  obtain ⟨kiu, keu, g1, g2, g3, _, g5⟩ := kike_ok hP u hk
  obtain ⟨kiv, kev, f1, f2, f3, _, f5⟩ := kike_ok hP v hk
  obtain ⟨conf', hc', he'⟩ := (c28_accepts_iff P hP (.aes sz) key hk v ct pt').mp hd
  obtain ⟨ki, ke, c, a1, a2, a3, a4, a5, a6⟩ := aesEncrypt_ok hP hk u pt conf hc
  obtain ⟨ki', ke', c', b1, b2, b3, b4, b5, b6⟩ := aesEncrypt_ok hP hk v pt' conf' hc'
  rw [g1] at a1; rw [f1] at b1
  injection a1 with a1; injection a1 with e1 e2; subst e1; subst e2
  injection b1 with b1; injection b1 with e1 e2; subst e1; subst e2
  simp only [Cipher.encrypt] at he'
  rw [a6] at he; rw [b6] at he'
  injection he with he; injection he' with he'
  have hlen : ((P.hmacSha1 kiu (conf ++ pt)).take 12).length = ((P.hmacSha1 kiv (conf' ++ pt')).take 12).length := by
    simp [hP.hmacSha1_length]
  have := List.append_inj' (he.trans he'.symm) hlen
  exact ⟨kiu, keu, kiv, kev, conf', c, g2, g3, f2, f3, a3, by rw [this.1]; exact b3, this.2⟩

/-- C38, RC4: acceptance under another usage forces the two checksums to coincide. -/
theorem c38_cross_usage_rc4 (P : Prims) (hP : P.Lawful) (key : Bytes) (u v : Int32) (pt conf ct pt' : Bytes)
    (he : rc4Encrypt P key u pt conf = .ok ct) (hd : rc4Decrypt P key v ct = .ok pt') :
    ∃ conf', P.hmacMd5 (P.hmacMd5 key (usageLE u)) (conf ++ pt) =
      P.hmacMd5 (P.hmacMd5 key (usageLE v)) (conf' ++ pt') := by
  have hke : ∀ x y, (P.hmacMd5 x y).length = 16 := hP.hmacMd5_length
  simp only [rc4Encrypt, rc4Apply, hke, ne_eq, not_true_eq_false, if_false] at he
  injection he with he
  unfold rc4Decrypt at hd
  split at hd
  · cases hd
  · simp only [rc4Apply, hke, ne_eq, not_true_eq_false, if_false] at hd
    split at hd
    · cases hd
    · rename_i hck
      simp only [Decidable.not_not] at hck
      split at hd
      · cases hd
      · injection hd with hd
        refine ⟨(P.rc4 (P.hmacMd5 (P.hmacMd5 key (usageLE v)) (ct.take 16)) (ct.drop 16)).take 8, ?_⟩
        · rw [← hd, List.take_append_drop, ← hck, ← he, ← hke (P.hmacMd5 key (usageLE u)) (conf ++ pt),
            List.take_left']
          rfl

/-! ### the hypotheses are met -/

/-- a 16-byte key, a 16-byte and an 8-byte confounder, a plaintext that is no multiple of the block -/
def exKey16 : Bytes := (List.range 16).map UInt8.ofNat
def exConf16 : Bytes := (List.range 16).map fun n => UInt8.ofNat (200 + n)
def exConf8 : Bytes := exConf16.take 8
def exPlain : Bytes := (List.range 21).map fun n => UInt8.ofNat (3 * n + 1)

/-- the bytes of a result that is not an error -/
def okBytes (r : Except CErr Bytes) : Bytes := r.toOption.getD []

/-- `exPlain` encrypted twice, under two confounders, and once with RC4 -/
def exCt1 : Bytes := okBytes ((Cipher.aes .aes128).encrypt toyPrims exKey16 3 exPlain exConf16)
def exCt2 : Bytes := okBytes ((Cipher.aes .aes128).encrypt toyPrims exKey16 3 exPlain exConf16.reverse)
def exCt3 : Bytes := okBytes (Cipher.rc4.encrypt toyPrims exKey16 3 exPlain exConf8)

/-- C26, C27, C28: a lawful suite, a key and a confounder of the right sizes; the ciphertext is the plaintext's size
plus 28, decryption gives the plaintext back, another confounder gives another ciphertext with the same plaintext, and
one changed byte or another usage gives the integrity error. -/
example : toyPrims.Lawful ∧ (Cipher.aes .aes128).keyOk exKey16 ∧ exConf16.length = (Cipher.aes .aes128).preambleSize ∧
    (Cipher.aes .aes128).encrypt toyPrims exKey16 3 exPlain exConf16 = .ok exCt1 ∧
    (Cipher.aes .aes128).encrypt toyPrims exKey16 3 exPlain exConf16.reverse = .ok exCt2 ∧
    exCt1 ≠ exCt2 ∧ exCt1.length = 49 ∧
    (Cipher.aes .aes128).decrypt toyPrims exKey16 3 exCt1 = .ok exPlain ∧
    (Cipher.aes .aes128).decrypt toyPrims exKey16 3 exCt2 = .ok exPlain ∧
    (Cipher.aes .aes128).decrypt toyPrims exKey16 8 exCt1 = .error (.decryption "Hmac integrity failure") ∧
    (Cipher.aes .aes128).decrypt toyPrims exKey16 3 (exCt1.set 20 0) = .error (.decryption "Hmac integrity failure") :=
  ⟨toyPrims_lawful, rfl, by decide +kernel⟩

/-- C30, C38: the same with RC4, whose usages 3 and 8 are one. -/
example : exConf8.length = Cipher.rc4.preambleSize ∧ Cipher.rc4.encrypt toyPrims exKey16 3 exPlain exConf8 = .ok exCt3 ∧
    exCt3.length = 45 ∧
    Cipher.rc4.decrypt toyPrims exKey16 3 exCt3 = .ok exPlain ∧ Cipher.rc4.decrypt toyPrims exKey16 8 exCt3 = .ok exPlain ∧
    Cipher.rc4.decrypt toyPrims exKey16 7 exCt3 = .error (.decryption "Hmac integrity failure") := by decide +kernel

/-- C29, C33, C37: the wrong size of key ends the program, the right one derives a key and a checksum. -/
example : exKey16.length ≠ AesSizes.aes256.keySize ∧
    aesEncrypt toyPrims .aes256 exKey16 3 exPlain exConf16 = .error .panic ∧
    (okBytes (dk toyPrims .aes128 exKey16 [1])).length = 16 ∧
    (okBytes (checksumShaAes toyPrims .aes128 exKey16 6 exPlain)).length = 12 ∧
    ((Cipher.aes .aes256).generateKeyFromString toyPrims "contraseña".toList [1]).toOption.isSome = true := by
  decide +kernel

end Verif.Crypto

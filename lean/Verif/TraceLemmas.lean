import Verif.TraceModel
import Verif.Props.Crypto
/-
Lemmas about `TraceModel`: leaving out the calls gives the operations of the model; the calls of each operation.
-/
namespace Verif.Crypto
open Traced

theorem tb_fst {ε α β} (x : Traced ε α) (f : α → Traced ε β) :
    (Traced.bind x f).calls = match x.result with | .error _ => x.calls | .ok a => x.calls ++ (f a).calls := by
  rcases x with ⟨l, r | r⟩ <;> rfl
theorem tb_snd {ε α β} (x : Traced ε α) (f : α → Traced ε β) :
    (Traced.bind x f).result = match x.result with | .error e => .error e | .ok a => (f a).result := by
  rcases x with ⟨l, r | r⟩ <;> rfl
theorem tb_do {ε α β} (x : Traced ε α) (f : α → Traced ε β) : (x >>= f) = Traced.bind x f := rfl
theorem tp_do {ε α} (a : α) : (Pure.pure a : Traced ε α) = Traced.pure a := rfl
theorem tp_eq {ε α} (a : α) : (Traced.pure a : Traced ε α) = ⟨[], .ok a⟩ := rfl
theorem tf_eq {ε α} (e : ε) : (Traced.fail e : Traced ε α) = ⟨[], .error e⟩ := rfl
theorem tc_eq {ε α} (c : Prim) (a : α) : (Traced.call c a : Traced ε α) = ⟨[c], .ok a⟩ := rfl
theorem tl_eq {ε α} (r : Except ε α) : (Traced.plain r : Traced ε α) = ⟨[], r⟩ := rfl
theorem tm_eq {ε δ α} (f : Except ε α → Except δ α) (x : Traced ε α) : Traced.mapResult f x = ⟨x.calls, f x.result⟩ := rfl

/-- a traced `if`, projected -/
theorem ite_snd {ε α} (c : Prop) [Decidable c] (x y : Traced ε α) :
    (if c then x else y).result = if c then x.result else y.result := by
  split <;> rfl

theorem tCbcBlocks_eq (P : Prims) (sz : AesSizes) (key : Bytes) : ∀ n : Nat, ∀ prev pt : Bytes, pt.length < 16 * (n + 1) → 16 * n ≤ pt.length →
    tCbcBlocks P sz key prev pt = ⟨List.replicate n (.aesEnc sz), .ok (cbcBlocks (P.aesEnc sz key) prev pt)⟩ := by
  intro n
  induction n with
  | zero =>
    intro prev pt h _
    rw [tCbcBlocks, cbcBlocks, if_pos (by omega), if_pos (by omega)]; rfl
  | succ n ih =>
    intro prev pt h1 h2
    rw [tCbcBlocks, cbcBlocks, if_neg (by omega), if_neg (by omega)]
    have h := ih (P.aesEnc sz key (List.zipWith (· ^^^ ·) (pt.take 16) prev)) (pt.drop 16)
      (by simp only [List.length_drop]; omega) (by simp only [List.length_drop]; omega)
    simp only [tc_eq, Traced.bind, h, tp_eq, List.append_nil, List.replicate_succ, List.singleton_append]

theorem tEcbBlocks_eq (P : Prims) (sz : AesSizes) (key : Bytes) : ∀ n : Nat, ∀ ct : Bytes, ct.length < 16 * (n + 1) → 16 * n ≤ ct.length →
    tEcbBlocks P sz key ct = ⟨List.replicate n (.aesDec sz), .ok (ecbBlocks (P.aesDec sz key) ct)⟩ := by
  intro n
  induction n with
  | zero =>
    intro ct h _
    rw [tEcbBlocks, ecbBlocks, if_pos (by omega), if_pos (by omega)]; rfl
  | succ n ih =>
    intro ct h1 h2
    rw [tEcbBlocks, ecbBlocks, if_neg (by omega), if_neg (by omega)]
    have h := ih (ct.drop 16)
      (by simp only [List.length_drop]; omega) (by simp only [List.length_drop]; omega)
    simp only [tc_eq, Traced.bind, h, tp_eq, List.append_nil, List.replicate_succ, List.singleton_append]

theorem tDecryptAesEcb_eq (P : Prims) (sz : AesSizes) (key ct : Bytes) :
    tDecryptAesEcb P sz key ct =
      ⟨if key.length = sz.keySize ∧ ct.length % 16 = 0 then List.replicate (ct.length / 16) (.aesDec sz) else [],
        decryptAesEcb P sz key ct⟩ := by
  unfold tDecryptAesEcb decryptAesEcb
  by_cases h : key.length = sz.keySize
  · by_cases h2 : ct.length % 16 = 0
    · simp only [h, h2, ne_eq, not_true_eq_false, if_false, and_self, if_true]
      exact tEcbBlocks_eq P sz key (ct.length / 16) ct (by omega) (by omega)
    · simp [h, h2, tf_eq]
  · simp [h, tf_eq]

theorem tEncryptAesCbc_eq (P : Prims) (sz : AesSizes) (key pt : Bytes) :
    tEncryptAesCbc P sz key pt =
      ⟨if key.length = sz.keySize ∧ pt.length % 16 = 0 then List.replicate (pt.length / 16) (.aesEnc sz) else [],
        encryptAesCbc P sz key pt⟩ := by
  unfold tEncryptAesCbc encryptAesCbc
  by_cases h : key.length = sz.keySize
  · by_cases h2 : pt.length % 16 = 0
    · simp only [h, h2, ne_eq, not_true_eq_false, if_false, and_self, if_true]
      exact tCbcBlocks_eq P sz key (pt.length / 16) _ pt (by omega) (by omega)
    · simp [h, h2, tf_eq]
  · simp [h, tf_eq]

theorem tDkLoop_snd (P : Prims) (sz : AesSizes) (key : Bytes) : ∀ (n : Nat) (pt r : Bytes),
    (tDkLoop P sz key n pt r).result = dkLoop P sz key n pt r := by
  intro n
  induction n with
  | zero => intro pt r; unfold tDkLoop dkLoop; split <;> rfl
  | succ n ih =>
    intro pt r
    unfold tDkLoop dkLoop
    split
    · rw [tb_snd, tEncryptAesCbc_eq]
      dsimp only
      cases encryptAesCbc P sz key pt with
      | error e => rfl
      | ok p => exact ih _ _
    · rfl

theorem tDk_snd (P : Prims) (sz : AesSizes) (key const : Bytes) : (tDk P sz key const).result = dk P sz key const := by
  unfold tDk dk
  rw [tb_snd, tc_eq]
  dsimp only
  cases nFold const blockSize with
  | none => rfl
  | some p => exact tDkLoop_snd P sz key _ _ _

theorem tGenerateKiKe_snd (P : Prims) (sz : AesSizes) (key : Bytes) (u : Int32) :
    (tGenerateKiKe P sz key u).result = generateKiKe P sz key u := by
  unfold tGenerateKiKe generateKiKe
  simp only [tb_do, tb_snd, tDk_snd, tp_do, tp_eq]
  generalize dk P sz key (usageConst u 85) = r1
  generalize dk P sz key (usageConst u 170) = r2
  rcases r1 with e | a
  · rfl
  · rcases r2 with e | b <;> rfl

theorem tBasicEncrypt_snd (P : Prims) (sz : AesSizes) (key pt : Bytes) :
    (tBasicEncrypt P sz key pt).result = basicEncrypt P sz key pt := by
  unfold tBasicEncrypt basicEncrypt
  simp only [tb_do, tb_snd, tEncryptAesCbc_eq, tp_do, tp_eq, ite_snd]
  generalize encryptAesCbc P sz key _ = r
  rcases r with e | c <;> rfl

theorem tAesEncrypt_snd (P : Prims) (sz : AesSizes) (key : Bytes) (u : Int32) (pt pre : Bytes) :
    (tAesEncrypt P sz key u pt pre).result = aesEncrypt P sz key u pt pre := by
  unfold tAesEncrypt aesEncrypt
  simp only [tb_do, tb_snd, tGenerateKiKe_snd, tp_do, tp_eq, tBasicEncrypt_snd, tHmacSha1, tc_eq, tf_eq]
  generalize generateKiKe P sz key u = r
  rcases r with e | ⟨ki, ke⟩
  · rfl
  · dsimp only
    generalize basicEncrypt P sz ke _ = r
    rcases r with e | c
    · rfl
    · dsimp only
      split <;> rfl

theorem tDecryptSeveral_snd (P : Prims) (sz : AesSizes) (key : Bytes) : ∀ (bs : List Bytes) (prev : Bytes),
    (tDecryptSeveral P sz key prev bs).result = decryptSeveral P sz key prev bs := by
  intro bs
  induction bs with
  | nil => intro prev; rfl
  | cons b bs ih =>
    intro prev
    simp only [tDecryptSeveral, decryptSeveral, tb_do, tb_snd, tDecryptAesEcb_eq, tl_eq, tp_do, tp_eq, ih]
    generalize decryptAesEcb P sz key b = r
    rcases r with e | d
    · rfl
    · dsimp only
      generalize xorBytes d prev = r
      rcases r with e | x
      · rfl
      · dsimp only
        generalize decryptSeveral P sz key b bs = r
        rcases r with e | ⟨p, q⟩ <;> rfl

theorem tDecryptLastTwo_snd (P : Prims) (sz : AesSizes) (key b0 b1 prev : Bytes) :
    (tDecryptLastTwo P sz key b0 b1 prev).result = decryptLastTwo P sz key b0 b1 prev := by
  simp only [tDecryptLastTwo, decryptLastTwo, tb_do, tb_snd, tDecryptAesEcb_eq, tl_eq, tp_do, tp_eq, tf_eq, ite_snd]
  generalize decryptAesEcb P sz key b0 = r
  rcases r with e | d
  · rfl
  · dsimp only
    split
    · rfl
    · generalize xorBytes (d.take b1.length) b1 = r
      rcases r with e | x
      · rfl
      · dsimp only
        generalize decryptAesEcb P sz key (b1 ++ d.drop b1.length) = r
        rcases r with e | d2
        · rfl
        · dsimp only
          generalize xorBytes d2 prev = r
          rcases r with e | y <;> rfl

theorem tBasicDecrypt_snd (P : Prims) (sz : AesSizes) (key ct : Bytes) :
    (tBasicDecrypt P sz key ct).result = basicDecrypt P sz key ct := by
  unfold tBasicDecrypt basicDecrypt
  rw [ite_snd, tDecryptAesEcb_eq]
  dsimp only
  rw [ite_snd]
  simp only [tb_do, tb_snd, tDecryptSeveral_snd, tf_eq]
  split
  · rfl
  · split
    · rfl
    · generalize decryptSeveral P sz key (List.replicate 16 0) _ = r
      rcases r with e | ⟨a, b⟩
      · rfl
      · dsimp only
        generalize List.drop ((divideBlocks ct).length - 2) (divideBlocks ct) = l
        rcases l with _ | ⟨b0, _ | ⟨b1, _ | ⟨b2, l⟩⟩⟩ <;> try rfl
        simp only [tb_snd, tDecryptLastTwo_snd, tp_do, tp_eq]
        generalize decryptLastTwo P sz key b0 b1 b = r
        rcases r with e | x <;> rfl

theorem tAesDecrypt_snd (P : Prims) (sz : AesSizes) (key : Bytes) (u : Int32) (ct : Bytes) :
    (tAesDecrypt P sz key u ct).result = aesDecrypt P sz key u ct := by
  unfold tAesDecrypt aesDecrypt
  simp only [tb_do, tb_snd, tGenerateKiKe_snd, tp_do, tp_eq, tf_eq]
  generalize generateKiKe P sz key u = r
  rcases r with e | ⟨ki, ke⟩
  · rfl
  · dsimp only
    rw [ite_snd]
    simp only [tb_snd, tBasicDecrypt_snd, tHmacSha1, tc_eq]
    split
    · rfl
    · generalize basicDecrypt P sz ke _ = r
      rcases r with e | p
      · rfl
      · dsimp only
        rw [ite_snd]
        simp only [tb_snd]
        by_cases h : List.take macSize (P.hmacSha1 ki p) = List.drop (ct.length - macSize) ct
        · simp only [h, decide_true, Bool.not_true, Bool.false_eq_true, if_false, ne_eq, not_true_eq_false, ite_snd]
        · simp only [h, decide_false, Bool.not_false, if_true, ne_eq, not_false_eq_true]

theorem tAesGenerateKey_snd (P : Prims) (sz : AesSizes) (p s : Bytes) :
    (tAesGenerateKey P sz p s).result = aesGenerateKey P sz p s := by
  simp only [tAesGenerateKey, aesGenerateKey, tb_do, tb_snd, tc_eq, tDk_snd]

theorem tRc4Apply_snd (P : Prims) (k d : Bytes) : (tRc4Apply P k d).result = rc4Apply P k d := by
  unfold tRc4Apply rc4Apply
  rw [ite_snd]; rfl

theorem tRc4Encrypt_snd (P : Prims) (key : Bytes) (u : Int32) (pt pre : Bytes) :
    (tRc4Encrypt P key u pt pre).result = rc4Encrypt P key u pt pre := by
  simp only [tRc4Encrypt, rc4Encrypt, tb_do, tb_snd, tHmacMd5, tc_eq, tRc4Apply_snd, tp_do, tp_eq]
  generalize rc4Apply P _ _ = r
  rcases r with e | x <;> rfl

theorem tRc4Decrypt_snd (P : Prims) (key : Bytes) (u : Int32) (ct : Bytes) :
    (tRc4Decrypt P key u ct).result = rc4Decrypt P key u ct := by
  unfold tRc4Decrypt rc4Decrypt
  rw [ite_snd]
  simp only [tb_do, tb_snd, tHmacMd5, tc_eq, tRc4Apply_snd, tp_do, tp_eq, tf_eq]
  split
  · rfl
  · generalize rc4Apply P _ _ = r
    rcases r with e | p
    · rfl
    · dsimp only
      by_cases h : List.take 16 ct = P.hmacMd5 (P.hmacMd5 key (usageLE u)) p
      · simp only [h, decide_true, Bool.not_true, Bool.false_eq_true, if_false, ne_eq, not_true_eq_false, ite_snd]
      · simp only [h, decide_false, Bool.not_false, if_true, ne_eq, not_false_eq_true]

theorem Cipher.tEncrypt_snd (P : Prims) (c : Cipher) (key : Bytes) (u : Int32) (pt pre : Bytes) :
    (c.tEncrypt P key u pt pre).result = c.encrypt P key u pt pre := by
  cases c
  · exact tAesEncrypt_snd ..
  · exact tRc4Encrypt_snd ..

theorem Cipher.tDecrypt_snd (P : Prims) (c : Cipher) (key : Bytes) (u : Int32) (ct : Bytes) :
    (c.tDecrypt P key u ct).result = c.decrypt P key u ct := by
  cases c
  · exact tAesDecrypt_snd ..
  · exact tRc4Decrypt_snd ..

theorem Cipher.tGenerateKey_snd (P : Prims) (c : Cipher) (p s : Bytes) :
    (c.tGenerateKey P p s).result = c.generateKey P p s := by
  cases c
  · exact tAesGenerateKey_snd ..
  · rfl

theorem Cipher.tGenerateKeyFromString_snd (P : Prims) (c : Cipher) (p : List Char) (s : Bytes) :
    (c.tGenerateKeyFromString P p s).result = c.generateKeyFromString P p s := by
  cases c
  · exact tAesGenerateKey_snd ..
  · rfl

theorem Cipher.tKeyDecrypt_snd (P : Prims) (c : Cipher) (p : List Char) (s : Bytes) (u : Int32) (ct : Bytes) :
    (c.tGenerateKeyFromStringAndDecrypt P p s u ct).result = c.generateKeyFromStringAndDecrypt P p s u ct := by
  simp only [Cipher.tGenerateKeyFromStringAndDecrypt, Cipher.generateKeyFromStringAndDecrypt, tb_do, tb_snd,
    Cipher.tGenerateKeyFromString_snd, Cipher.tDecrypt_snd]
  generalize c.generateKeyFromString P p s = r
  rcases r with e | x <;> rfl

theorem Cipher.tKeyEncrypt_snd (P : Prims) (c : Cipher) (p : List Char) (s : Bytes) (u : Int32) (pt pre : Bytes) :
    (c.tGenerateKeyFromStringAndEncrypt P p s u pt pre).result = c.generateKeyFromStringAndEncrypt P p s u pt pre := by
  simp only [Cipher.tGenerateKeyFromStringAndEncrypt, Cipher.generateKeyFromStringAndEncrypt, tb_do, tb_snd,
    Cipher.tGenerateKeyFromString_snd, Cipher.tEncrypt_snd]
  generalize c.generateKeyFromString P p s = r
  rcases r with e | x <;> rfl

theorem Cipher.tRawDecrypt_snd (P : Prims) (c : Cipher) (p s : Bytes) (u : Int32) (ct : Bytes) :
    (c.tGenerateKeyAndDecrypt P p s u ct).result = c.generateKeyAndDecrypt P p s u ct := by
  simp only [Cipher.tGenerateKeyAndDecrypt, Cipher.generateKeyAndDecrypt, tb_do, tb_snd,
    Cipher.tGenerateKey_snd, Cipher.tDecrypt_snd]
  generalize c.generateKey P p s = r
  rcases r with e | x <;> rfl

theorem Cipher.tRawEncrypt_snd (P : Prims) (c : Cipher) (p s : Bytes) (u : Int32) (pt pre : Bytes) :
    (c.tGenerateKeyAndEncrypt P p s u pt pre).result = c.generateKeyAndEncrypt P p s u pt pre := by
  simp only [Cipher.tGenerateKeyAndEncrypt, Cipher.generateKeyAndEncrypt, tb_do, tb_snd,
    Cipher.tGenerateKey_snd, Cipher.tEncrypt_snd]
  generalize c.generateKey P p s = r
  rcases r with e | x <;> rfl

theorem tChecksumHmacMd5_snd (P : Prims) (key : Bytes) (u : Int32) (pt : Bytes) :
    (tChecksumHmacMd5 P key u pt).result = .ok (checksumHmacMd5 P key u pt) := rfl

theorem tChecksumShaAes_snd (P : Prims) (sz : AesSizes) (key : Bytes) (u : Int32) (pt : Bytes) :
    (tChecksumShaAes P sz key u pt).result = checksumShaAes P sz key u pt := by
  simp only [tChecksumShaAes, checksumShaAes, tb_do, tb_snd, tDk_snd, tHmacSha1, tc_eq, tp_do, tp_eq, tf_eq, ite_snd]
  generalize dk P sz key _ = r
  rcases r with e | x <;> rfl

/-! ### What is called -/

/-- Specification: the calls of a key derivation. Blocks of 16 bytes until there is a key. -/
def callsDerive (sz : AesSizes) (const : Bytes) : List Prim :=
  match sz with
  | .aes128 => [.nFold const 16, .aesEnc .aes128]
  | .aes256 => [.nFold const 16, .aesEnc .aes256, .aesEnc .aes256]

theorem tEnc_block {P : Prims} {sz : AesSizes} {k x : Bytes} (hk : k.length = sz.keySize) (hx : x.length = 16) :
    tEncryptAesCbc P sz k x = ⟨[.aesEnc sz], encryptAesCbc P sz k x⟩ := by
  rw [tEncryptAesCbc_eq, if_pos ⟨hk, by omega⟩, hx]; rfl

theorem tDec_block {P : Prims} {sz : AesSizes} {k x : Bytes} (hk : k.length = sz.keySize) (hx : x.length = 16) :
    tDecryptAesEcb P sz k x = ⟨[.aesDec sz], .ok (P.aesDec sz k x)⟩ := by
  rw [tDecryptAesEcb_eq, if_pos ⟨hk, by omega⟩, hx, decryptAesEcb_block hk hx]; rfl

theorem enc_block_length {P : Prims} (hP : P.Lawful) {sz : AesSizes} {k x : Bytes} (hk : k.length = sz.keySize)
    (hx : x.length = 16) : ∃ y, encryptAesCbc P sz k x = .ok y ∧ y.length = 16 := by
  have e := cbc_step (P.aesEnc sz k) (List.replicate 16 0) x [] hx
  rw [List.append_nil, cbc_nil, List.append_nil] at e
  refine ⟨_, encryptAesCbc_ok hk (by omega), ?_⟩
  rw [e]
  exact (hP.perm hk).el _ (xr16 hx rfl)

theorem tDk_calls {P : Prims} (hP : P.Lawful) {sz : AesSizes} {k c : Bytes} (hk : k.length = sz.keySize) (hc : c ≠ []) :
    (tDk P sz k c).calls = callsDerive sz c := by
  obtain ⟨f, hf, hfl, _⟩ := nFold_spec c 16 hc (by omega)
  obtain ⟨y, hy, hyl⟩ := enc_block_length hP hk hfl
  obtain ⟨z, hz, hzl⟩ := enc_block_length hP hk hyl
  unfold tDk
  simp only [blockSize, hf, tb_fst, tc_eq]
  cases sz with
  | aes128 =>
    have h16 : AesSizes.aes128.seedSize = 14 + 1 + 1 := rfl
    rw [h16, tDkLoop, if_pos (by simp [AesSizes.seedSize]), tb_fst, tEnc_block hk hfl, hy]
    dsimp only
    rw [tDkLoop, if_neg (by simp [AesSizes.seedSize, hyl])]
    rfl
  | aes256 =>
    have h32 : AesSizes.aes256.seedSize = 29 + 1 + 1 + 1 := rfl
    rw [h32, tDkLoop, if_pos (by simp [AesSizes.seedSize]), tb_fst, tEnc_block hk hfl, hy]
    dsimp only
    rw [tDkLoop, if_pos (by simp [AesSizes.seedSize, hyl]), tb_fst, tEnc_block hk hyl, hz]
    dsimp only
    rw [tDkLoop, if_neg (by simp [AesSizes.seedSize, hyl, hzl])]
    rfl

theorem tKike_calls {P : Prims} (hP : P.Lawful) {sz : AesSizes} {k : Bytes} (u : Int32) (hk : k.length = sz.keySize) :
    (tGenerateKiKe P sz k u).calls = callsDerive sz (usageConst u 0x55) ++ callsDerive sz (usageConst u 0xaa) := by
  obtain ⟨ki, h1, _⟩ := dk_ok hP hk (usageConst_ne u 0x55)
  obtain ⟨ke, h2, _⟩ := dk_ok hP hk (usageConst_ne u 0xaa)
  simp only [tGenerateKiKe, tb_do, tb_fst, tDk_snd, h1, h2, tDk_calls hP hk (usageConst_ne _ _), tp_do, tp_eq, List.append_nil]

theorem tBasicEncrypt_calls {P : Prims} {sz : AesSizes} {k : Bytes} (hk : k.length = sz.keySize) (pt : Bytes) :
    (tBasicEncrypt P sz k pt).calls = List.replicate ((pt.length + 15) / 16) (.aesEnc sz) := by
  have hpad : (pt ++ List.replicate ((blockSize - pt.length % blockSize) % blockSize) 0).length % 16 = 0 := by
    simp only [List.length_append, List.length_replicate, blockSize]; omega
  have hn : (pt ++ List.replicate ((blockSize - pt.length % blockSize) % blockSize) 0).length / 16 = (pt.length + 15) / 16 := by
    simp only [List.length_append, List.length_replicate, blockSize]; omega
  simp only [tBasicEncrypt, tb_do, tb_fst, tEncryptAesCbc_eq]
  rw [if_pos ⟨hk, hpad⟩, encryptAesCbc_ok hk hpad, hn]
  dsimp only
  split <;> simp only [tp_do, tp_eq, List.append_nil]

theorem tDecryptSeveral_calls {P : Prims} (hP : P.Lawful) {sz : AesSizes} {k : Bytes} (hk : k.length = sz.keySize) :
    ∀ (bs : List Bytes) (prev : Bytes), Blocks bs → prev.length = 16 →
      (tDecryptSeveral P sz k prev bs).calls = List.replicate bs.length (.aesDec sz) ∧
      ∃ p q, decryptSeveral P sz k prev bs = .ok (p, q) ∧ q.length = 16 := by
  intro bs
  induction bs with
  | nil => intro prev _ h; exact ⟨rfl, [], prev, rfl, h⟩
  | cons b bs ih =>
    intro prev hb hp
    rw [Blocks.cons] at hb
    obtain ⟨h1, p, q, h2, h3⟩ := ih b hb.2 hb.1
    have hx := xorBytes_ok (a := P.aesDec sz k b) (b := prev) (by rw [hP.dec_length sz k b hk hb.1, hp]; exact Nat.le_refl _)
    constructor
    · simp only [tDecryptSeveral, tb_do, tb_fst, tDec_block hk hb.1, tl_eq, hx, h1, tDecryptSeveral_snd, h2, tp_do, tp_eq,
        List.append_nil, List.nil_append, List.length_cons, List.replicate_succ, List.singleton_append]
    · exact ⟨xr (P.aesDec sz k b) prev ++ p, q, by simp only [decryptSeveral, decryptAesEcb_block hk hb.1, hx, h2], h3⟩

theorem tDecryptLastTwo_calls {P : Prims} (hP : P.Lawful) {sz : AesSizes} {k b0 b1 prev : Bytes} (hk : k.length = sz.keySize)
    (h0 : b0.length = 16) (h1 : b1.length ≤ 16) (hp : prev.length = 16) :
    (tDecryptLastTwo P sz k b0 b1 prev).calls = [.aesDec sz, .aesDec sz] := by
  have hl := hP.dec_length sz k b0 hk h0
  have hx := xorBytes_ok (a := (P.aesDec sz k b0).take b1.length) (b := b1) (by simp; omega)
  have h2 : (b1 ++ (P.aesDec sz k b0).drop b1.length).length = 16 := by simp [hl]; omega
  have hl2 := hP.dec_length sz k _ hk h2
  have hx2 := xorBytes_ok (a := P.aesDec sz k (b1 ++ (P.aesDec sz k b0).drop b1.length)) (b := prev) (by rw [hl2, hp]; exact Nat.le_refl _)
  simp only [tDecryptLastTwo, tb_do, tb_fst, tDec_block hk h0]
  rw [if_neg (by rw [hl]; omega)]
  simp only [tb_fst, tl_eq, hx, tDec_block hk h2, hx2, tp_do, tp_eq, List.append_nil, List.nil_append, List.singleton_append]

theorem tBasicDecrypt_calls {P : Prims} (hP : P.Lawful) {sz : AesSizes} {k ct : Bytes} (hk : k.length = sz.keySize)
    (h : 16 ≤ ct.length) : (tBasicDecrypt P sz k ct).calls = List.replicate ((ct.length + 15) / 16) (.aesDec sz) := by
  unfold tBasicDecrypt
  by_cases h16 : ct.length = 16
  · rw [if_pos (show ct.length = blockSize from h16), tDec_block hk h16, h16]; rfl
  · rw [if_neg (show ¬ ct.length = blockSize from h16)]
    obtain ⟨bs, a, b, rfl, hb, ha, hb0, hb1⟩ := split_cts ct (by omega)
    have hd : divideBlocks (bs.flatten ++ (a ++ b)) = bs ++ [a, b] := by
      rw [divideBlocks_append bs hb]
      have := divideBlocks_append [a] (by simp [Blocks, ha]) b
      simp only [List.flatten_cons, List.flatten_nil, List.append_nil] at this
      rw [this, divideBlocks_short (by intro h; simp [h] at hb0) hb1]; rfl
    have hfl := hb.flatten_length
    obtain ⟨h1, p, q, h2, h3⟩ := tDecryptSeveral_calls hP hk bs (List.replicate 16 0) hb (by simp)
    simp only [hd]
    rw [if_neg (by simp)]
    have e1 : (bs ++ [a, b]).length - 2 = bs.length := by simp
    simp only [e1, List.take_left', List.drop_left', tb_do, tb_fst, tDecryptSeveral_snd, h1, h2, tDecryptLastTwo_calls hP hk ha hb1 h3]
    have hn : (((bs.flatten ++ (a ++ b)).length + 15) / 16) = bs.length + 2 := by
      simp only [List.length_append, hfl, ha]; omega
    rw [hn, ← List.replicate_append_replicate]
    congr 1
    generalize (tDecryptLastTwo P sz k a b q).result = r
    rcases r with e | x
    · rfl
    · rfl

theorem tAesEncrypt_calls {P : Prims} (hP : P.Lawful) {sz : AesSizes} {k : Bytes} (u : Int32) (hk : k.length = sz.keySize)
    (pt pre : Bytes) :
    (tAesEncrypt P sz k u pt pre).calls =
      callsDerive sz (usageConst u 0x55) ++ (callsDerive sz (usageConst u 0xaa) ++
      (List.replicate ((pre.length + pt.length + 15) / 16) (.aesEnc sz) ++ [.hmacSha1 sz.keySize (pre.length + pt.length)])) := by
  obtain ⟨ki, ke, h1, _, _, h4, h5⟩ := kike_ok hP u hk
  have hb : ∃ c, basicEncrypt P sz ke (pre ++ pt) = .ok c := by
    unfold basicEncrypt
    dsimp only
    rw [encryptAesCbc_ok h5 (by simp only [List.length_append, List.length_replicate, blockSize]; omega)]
    dsimp only
    split <;> exact ⟨_, rfl⟩
  obtain ⟨c, hc⟩ := hb
  simp only [tAesEncrypt, tb_do, tb_fst, tGenerateKiKe_snd, h1, tKike_calls hP u hk, tBasicEncrypt_snd, hc,
    tBasicEncrypt_calls h5, tHmacSha1, tc_eq, List.length_append, h4, List.append_assoc]
  split <;> simp only [tf_eq, tp_do, tp_eq, List.append_nil]

theorem tAesDecrypt_calls {P : Prims} (hP : P.Lawful) {sz : AesSizes} {k : Bytes} (u : Int32) (hk : k.length = sz.keySize)
    (ct : Bytes) :
    (tAesDecrypt P sz k u ct).calls =
      callsDerive sz (usageConst u 0x55) ++ (callsDerive sz (usageConst u 0xaa) ++
      (if ct.length < 28 then [] else
        List.replicate ((ct.length - 12 + 15) / 16) (.aesDec sz) ++ [.hmacSha1 sz.keySize (ct.length - 12), .compare 12])) := by
  obtain ⟨ki, ke, h1, _, _, h4, h5⟩ := kike_ok hP u hk
  simp only [tAesDecrypt, tb_do, tb_fst, tGenerateKiKe_snd, h1, tKike_calls hP u hk, List.append_assoc]
  by_cases h : ct.length < 28
  · rw [if_pos h, if_pos (show ct.length < blockSize + macSize from h)]; rfl
  · rw [if_neg h, if_neg (show ¬ ct.length < blockSize + macSize from h)]
    have hl : (ct.take (ct.length - macSize)).length = ct.length - 12 := by simp [macSize]
    obtain ⟨p, hp1, hp2, _⟩ := basic_surj hP h5 (ct.take (ct.length - macSize)) (by omega)
    simp only [tb_fst, tBasicDecrypt_snd, hp2, tBasicDecrypt_calls hP h5 (ct := ct.take (ct.length - macSize)) (by omega), hl, tHmacSha1, tc_eq,
      hp1, h4]
    rw [if_neg (by rw [hP.hmacSha1_length]; simp [macSize])]
    simp only [tb_fst]
    generalize decide (List.take macSize (P.hmacSha1 ki p) = List.drop (ct.length - macSize) ct) = d
    cases d
    · simp only [Bool.not_false, if_true, tf_eq, List.append_nil, List.singleton_append]; rfl
    · simp only [Bool.not_true, Bool.false_eq_true, if_false]
      split <;> simp only [tf_eq, tp_do, tp_eq, List.append_nil, List.singleton_append] <;> rfl

theorem tRc4Encrypt_calls {P : Prims} (hP : P.Lawful) (k : Bytes) (u : Int32) (pt pre : Bytes) :
    (tRc4Encrypt P k u pt pre).calls = [.hmacMd5 k.length 4, .hmacMd5 16 (pre.length + pt.length), .hmacMd5 16 16,
      .rc4 16 (pre.length + pt.length)] := by
  have hu : (usageLE u).length = 4 := rfl
  simp only [tRc4Encrypt, tb_do, tb_fst, tHmacMd5, tc_eq, hP.hmacMd5_length, hu, List.length_append, tRc4Apply]
  rw [if_neg (by simp)]
  rfl

theorem tRc4Decrypt_calls {P : Prims} (hP : P.Lawful) (k : Bytes) (u : Int32) (ct : Bytes) :
    (tRc4Decrypt P k u ct).calls = if ct.length < 24 then [] else
      [.hmacMd5 k.length 4, .hmacMd5 16 16, .rc4 16 (ct.length - 16), .hmacMd5 16 (ct.length - 16), .compare 16] := by
  have hu : (usageLE u).length = 4 := rfl
  unfold tRc4Decrypt
  by_cases h : ct.length < 24
  · rw [if_pos h, if_pos h]; rfl
  · rw [if_neg h, if_neg h]
    have ht : (ct.take 16).length = 16 := by simp; omega
    simp only [tb_do, tb_fst, tHmacMd5, tc_eq, hP.hmacMd5_length, hu, tRc4Apply, ht]
    rw [if_neg (by simp)]
    simp only [hP.rc4_length _ _ (hP.hmacMd5_length _ _), List.length_drop]
    generalize decide (List.take 16 ct = P.hmacMd5 (P.hmacMd5 k (usageLE u)) (P.rc4 (P.hmacMd5 (P.hmacMd5 k (usageLE u)) (ct.take 16)) (ct.drop 16))) = d
    cases d
    · rfl
    · simp only [Bool.not_true, Bool.false_eq_true, if_false]
      split <;> rfl

theorem tAesGenerateKey_calls {P : Prims} (hP : P.Lawful) (sz : AesSizes) (p s : Bytes) :
    (tAesGenerateKey P sz p s).calls = .pbkdf2 p.length s.length 4096 sz.keySize ::
      callsDerive sz [0x6b, 0x65, 0x72, 0x62, 0x65, 0x72, 0x6f, 0x73] := by
  have hs : sz.seedSize = sz.keySize := by cases sz <;> rfl
  simp only [tAesGenerateKey, tb_do, tb_fst, tc_eq]
  rw [tDk_calls hP (by unfold pbkdf2Sha1; rw [hP.pbkdf2_length, hs]) (by simp), hs]
  rfl

end Verif.Crypto

namespace Verif.Kb
open Verif.Asn1 Verif.Crypto

theorem ex_bind {ε α β : Type} (x : Except ε α) (f : α → Except ε β) :
    (x >>= f) = match x with | .error e => .error e | .ok a => f a := by cases x <;> rfl

theorem tEncTsKey_snd (P : Prims) (g : Cfg) (e : Env) (et : Int32) (key : Bytes) :
    (tEncryptTimestampWithKey P g e et key).result = encryptTimestampWithKey P g e et key := by
  unfold tEncryptTimestampWithKey encryptTimestampWithKey
  simp only [tb_do, tb_snd, tl_eq, tm_eq, Cipher.tEncrypt_snd, tp_do, tp_eq]
  generalize newKerberosCipher et = r
  rcases r with e' | c
  · rfl
  · have h : (liftX (Except.ok c) : Except KErr Cipher) = .ok c := rfl
    simp only [h, ex_bind]
    generalize liftX (c.encrypt P key 1 (rawTimestamp g e) (e.confounder c.preambleSize)) = r
    rcases r with e' | x <;> rfl

theorem tEncTsPw_snd (P : Prims) (g : Cfg) (e : Env) (et : Int32) (pw : List Char) (s : Bytes) :
    (tEncryptTimestampWithPassword P g e et pw s).result = encryptTimestampWithPassword P g e et pw s := by
  unfold tEncryptTimestampWithPassword encryptTimestampWithPassword
  simp only [tb_do, tb_snd, tl_eq, tm_eq, Cipher.tKeyEncrypt_snd, tp_do, tp_eq]
  generalize newKerberosCipher et = r
  rcases r with e' | c
  · rfl
  · have h : (liftX (Except.ok c) : Except KErr Cipher) = .ok c := rfl
    simp only [h, ex_bind]
    generalize liftX (c.generateKeyFromStringAndEncrypt P pw s 1 (rawTimestamp g e) (e.confounder c.preambleSize)) = r
    rcases r with e' | x <;> rfl

theorem tEncryptedTimestamp_snd (P : Prims) (M : CaseMap) (g : Cfg) (e : Env) (realm user : List Char) (key : Key) (ets : List Int32) :
    (tEncryptedTimestamp P M g e realm user key ets).result = encryptedTimestamp P M g e realm user key ets := by
  cases key with
  | secret pw => simp only [tEncryptedTimestamp, encryptedTimestamp, ite_snd, tEncTsPw_snd, tf_eq]
  | rc4Key k => exact tEncTsKey_snd ..
  | aes128Key k => exact tEncTsKey_snd ..
  | aes256Key k => exact tEncTsKey_snd ..

theorem tDecryptWithPassword_snd (P : Prims) (g : Cfg) (pw : List Char) (r : AsRep) :
    (tDecryptWithPassword P g pw r).result = decryptWithPassword P g pw r := by
  unfold tDecryptWithPassword decryptWithPassword
  simp only [tb_do, tb_snd, tl_eq, tm_eq, Cipher.tKeyDecrypt_snd]
  generalize newKerberosCipher r.enc_part.etype = x
  rcases x with e' | c
  · rfl
  · generalize asRepSalt g r = x
    rcases x with e' | s <;> rfl

theorem tTryDecryptWithKey_snd (P : Prims) (k : Key) (r : AsRep) : (tTryDecryptWithKey P k r).result = tryDecryptWithKey P k r := by
  unfold tTryDecryptWithKey tryDecryptWithKey
  generalize newKerberosCipher (firstEtype k) = x
  rcases x with e' | c
  · rfl
  · simp only [tm_eq, Cipher.tDecrypt_snd]

theorem tDecryptWithKey_snd (P : Prims) (k : Key) (r : AsRep) : (tDecryptWithKey P k r).result = decryptWithKey P k r := by
  unfold tDecryptWithKey decryptWithKey
  rw [← tTryDecryptWithKey_snd]
  generalize tTryDecryptWithKey P k r = x
  rcases x with ⟨l, e | b⟩
  · cases e <;> (dsimp only; try split) <;> rfl
  · rfl

theorem tDecryptWithKey_fst (P : Prims) (k : Key) (r : AsRep) : (tDecryptWithKey P k r).calls = (tTryDecryptWithKey P k r).calls := by
  unfold tDecryptWithKey
  generalize tTryDecryptWithKey P k r = x
  rcases x with ⟨l, e | b⟩
  · cases e <;> (dsimp only; try split) <;> rfl
  · rfl

theorem tDecryptRep_snd (P : Prims) (g : Cfg) (k : Key) (r : AsRep) : (tDecryptRep P g k r).result = decryptRep P g k r := by
  cases k with
  | secret pw => exact tDecryptWithPassword_snd ..
  | rc4Key k => exact tDecryptWithKey_snd ..
  | aes128Key k => exact tDecryptWithKey_snd ..
  | aes256Key k => exact tDecryptWithKey_snd ..

theorem tKdcRep_snd (P : Prims) (g : Cfg) (k : Key) (r : AsRep) :
    (tKdcRepToCredential P g k r).result = kdcRepToCredential P g k r := by
  unfold tKdcRepToCredential kdcRepToCredential
  simp only [tb_do, tb_snd, tl_eq, tDecryptRep_snd, tp_do, tp_eq]
  generalize decryptRep P g k r = x
  rcases x with e' | b
  · rfl
  · simp only [ex_bind]
    generalize liftP ((encAsRepPartC g).dec g b) = x
    rcases x with e' | c <;> rfl

theorem tKdcRep_fst (P : Prims) (g : Cfg) (k : Key) (r : AsRep) :
    (tKdcRepToCredential P g k r).calls = (tDecryptRep P g k r).calls := by
  unfold tKdcRepToCredential
  simp only [tb_do, tb_fst, tl_eq, tp_do, tp_eq]
  generalize (tDecryptRep P g k r).result = x
  rcases x with e' | b
  · rfl
  · dsimp only
    generalize liftP ((encAsRepPartC g).dec g b) = x
    rcases x with e' | c <;> simp

theorem tExtract_snd (P : Prims) (g : Cfg) (k : Option Key) (r : AsRep) :
    (tExtractCredential P g k r).result = extractCredential P g k r := by
  cases k with
  | none => rfl
  | some k =>
    simp only [tExtractCredential, extractCredential, ← tKdcRep_snd]
    generalize tKdcRepToCredential P g k r = x
    rcases x with ⟨l, e | b⟩
    · cases e <;> rfl
    · rfl

theorem tExtract_fst (P : Prims) (g : Cfg) (k : Option Key) (r : AsRep) :
    (tExtractCredential P g k r).calls = match k with | none => [] | some k => (tDecryptRep P g k r).calls := by
  cases k with
  | none => rfl
  | some k =>
    simp only [tExtractCredential, ← tKdcRep_fst]
    generalize tKdcRepToCredential P g k r = x
    rcases x with ⟨l, e | b⟩
    · cases e <;> rfl
    · rfl

theorem tCreateAsReq_snd (P : Prims) (M : CaseMap) (g : Cfg) (e : Env) (user : List Char) (key : Option Key) (o : Options) :
    (tCreateAsReq P M g e user key o).result = createAsReq P M g e user key o := by
  unfold tCreateAsReq createAsReq
  simp only [tb_do, tb_snd, tl_eq, tp_do, tp_eq]
  generalize addTwentyYears e.rtimeNow = x
  rcases x with e' | a
  · rfl
  · generalize addTwentyYears e.tillNow = x
    rcases x with e' | b
    · rfl
    · cases key with
      | none => rfl
      | some k =>
        simp only [tb_snd, tEncryptedTimestamp_snd]
        generalize encryptedTimestamp P M g e o.realm user k o.sortedEtypes = x
        rcases x with e' | ⟨c, d⟩ <;> rfl

theorem tCreateAsReq_fst (P : Prims) (M : CaseMap) (g : Cfg) (e : Env) (user : List Char) (key : Option Key) (o : Options) :
    (tCreateAsReq P M g e user key o).calls = [] ∨
    ∃ k, key = some k ∧ (tCreateAsReq P M g e user key o).calls = (tEncryptedTimestamp P M g e o.realm user k o.sortedEtypes).calls := by
  unfold tCreateAsReq
  simp only [tb_do, tb_fst, tl_eq, tp_do, tp_eq]
  generalize addTwentyYears e.rtimeNow = x
  rcases x with e' | a
  · exact .inl rfl
  · generalize addTwentyYears e.tillNow = x
    rcases x with e' | b
    · exact .inl rfl
    · cases key with
      | none => exact .inl rfl
      | some k =>
        refine .inr ⟨k, rfl, ?_⟩
        simp only [tb_fst]
        generalize (tEncryptedTimestamp P M g e o.realm user k o.sortedEtypes).result = x
        rcases x with e' | ⟨c, d⟩
        · rfl
        · simp

theorem tBuildAsReq_snd (P : Prims) (M : CaseMap) (g : Cfg) (e : Env) (user : List Char) (key : Option Key) (o : Options) :
    (tBuildAsReq P M g e user key o).result = buildAsReq P M g e user key o := by
  unfold tBuildAsReq buildAsReq
  simp only [tb_do, tb_snd, tCreateAsReq_snd, tp_do, tp_eq]
  generalize createAsReq P M g e user key o = x
  rcases x with e' | a <;> rfl

theorem tBuildAsReq_fst (P : Prims) (M : CaseMap) (g : Cfg) (e : Env) (user : List Char) (key : Option Key) (o : Options) :
    (tBuildAsReq P M g e user key o).calls = (tCreateAsReq P M g e user key o).calls := by
  unfold tBuildAsReq
  simp only [tb_do, tb_fst, tp_do, tp_eq]
  generalize (tCreateAsReq P M g e user key o).result = x
  rcases x with e' | a
  · rfl
  · simp

theorem tAsRequest_snd (P : Prims) (M : CaseMap) (g : Cfg) (net : Net) (e : Env) (user : List Char) (key : Option Key) (o : Options)
    (sent : List Bytes) :
    ((tAsRequest P M g net e user key o sent).1.result, (tAsRequest P M g net e user key o sent).2) =
      asRequest P M g net e user key o sent := by
  unfold tAsRequest asRequest
  rw [← tBuildAsReq_snd]
  generalize tBuildAsReq P M g e user key o = x
  rcases x with ⟨l, e' | raw⟩
  · rfl
  · dsimp only
    generalize net (sent ++ [raw]) = y
    cases y <;> rfl

theorem tAsRequest_fst (P : Prims) (M : CaseMap) (g : Cfg) (net : Net) (e : Env) (user : List Char) (key : Option Key) (o : Options)
    (sent : List Bytes) :
    (tAsRequest P M g net e user key o sent).1.calls = (tCreateAsReq P M g e user key o).calls := by
  unfold tAsRequest
  rw [← tBuildAsReq_fst]
  generalize tBuildAsReq P M g e user key o = x
  rcases x with ⟨l, e' | raw⟩
  · rfl
  · dsimp only
    generalize net (sent ++ [raw]) = y
    cases y <;> rfl

theorem tSecondRequest_snd (P : Prims) (M : CaseMap) (g : Cfg) (net : Net) (e : Env) (user : List Char) (key : Key) (o : Options)
    (sent : List Bytes) :
    ((tSecondRequest P M g net e user key o sent).1.result, (tSecondRequest P M g net e user key o sent).2) =
      secondRequest P M g net e user key o sent := by
  unfold tSecondRequest secondRequest
  rw [← tAsRequest_snd]
  generalize tAsRequest P M g net e user (some key) o sent = x
  rcases x with ⟨⟨l, e' | (m | m)⟩, s⟩
  · rfl
  · rfl
  · simp only [tExtract_snd]

theorem tTgtRequest_snd (P : Prims) (M : CaseMap) (g : Cfg) (net : Net) (e1 e2 : Env) (user : List Char) (key : Option Key) (o : Options) :
    ((tTgtRequest P M g net e1 e2 user key o).1.result, (tTgtRequest P M g net e1 e2 user key o).2) =
      tgtRequest P M g net e1 e2 user key o := by
  unfold tTgtRequest tgtRequest
  rw [← tAsRequest_snd]
  generalize tAsRequest P M g net e1 user none o [] = x
  rcases x with ⟨⟨l, e' | (m | m)⟩, s⟩
  · rfl
  · dsimp only
    split
    · rfl
    · cases key with
      | none => rfl
      | some k => exact tSecondRequest_snd P M g net e2 user k o s
  · simp only [tExtract_snd]

end Verif.Kb

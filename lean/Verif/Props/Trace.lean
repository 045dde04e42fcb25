import Verif.TraceLemmas
import Verif.StdPrims
import Verif.Props.Kdc
import Verif.Props.Size
import Verif.Asn1Growth
/-
Property C112: how much work the cryptographic operations do. The calls of primitives they make, with the lengths of the arguments,
are a function of the lengths of their own arguments, whether a message is accepted or refused.
-/
namespace Verif.Crypto
open Traced

/-! ### Specification -/

/-- The calls made by encrypting `n` bytes with a key of `key` bytes: the two derived keys and the padded blocks of confounder and
text, and the MAC (RFC 3962); checksum, key and keystream (RFC 4757). -/
def callsEncrypt (c : Cipher) (u : Int32) (key n : Nat) : List Prim :=
  match c with
  | .aes sz => callsDerive sz (be32 u.toUInt32 ++ [0x55]) ++ (callsDerive sz (be32 u.toUInt32 ++ [0xaa]) ++
      (List.replicate ((16 + n + 15) / 16) (.aesEnc sz) ++ [.hmacSha1 key (16 + n)]))
  | .rc4 => [.hmacMd5 key 4, .hmacMd5 16 (8 + n), .hmacMd5 16 16, .rc4 16 (8 + n)]

/-- The calls made by decrypting `n` bytes with a key of `key` bytes. -/
def callsDecrypt (c : Cipher) (u : Int32) (key n : Nat) : List Prim :=
  match c with
  | .aes sz => callsDerive sz (be32 u.toUInt32 ++ [0x55]) ++ (callsDerive sz (be32 u.toUInt32 ++ [0xaa]) ++
      (if n < 28 then []
       else List.replicate ((n - 12 + 15) / 16) (.aesDec sz) ++ [.hmacSha1 key (n - 12), .compare 12]))
  | .rc4 => if n < 24 then []
      else [.hmacMd5 key 4, .hmacMd5 16 16, .rc4 16 (n - 16), .hmacMd5 16 (n - 16), .compare 16]

/-- The calls made by a passphrase of `p` bytes and a salt of `s` bytes becoming a key: always 4096 iterations. -/
def callsKey (c : Cipher) (p s : Nat) : List Prim :=
  match c with
  | .aes sz => .pbkdf2 p s 4096 (keyLength (.aes sz)) :: callsDerive sz "kerberos".toUTF8.toList
  | .rc4 => [.md4 p]

/-- The bytes of a password: UTF-8 for AES, UTF-16 for RC4. -/
def passwordBytes (c : Cipher) (password : List Char) : Nat :=
  match c with
  | .aes _ => (utf8 password).length
  | .rc4 => (stringUnicodeBytes password).length

/-- The password stretchings among some calls: lengths of password and salt, iterations, bytes made. -/
def stretches (l : List Prim) : List (Nat × Nat × Nat × Nat) :=
  l.filterMap fun | .pbkdf2 p s i n => some (p, s, i, n) | _ => none

/-- The bytes given to the other primitives. n-fold works on as many bytes as the least common multiple of two lengths. -/
def bytesFed (l : List Prim) : Nat :=
  (l.map fun
    | .aesEnc _ | .aesDec _ => 16
    | .hmacSha1 k d | .hmacMd5 k d | .rc4 k d => k + d
    | .md5 d | .md4 d => d
    | .nFold d n => Nat.lcm d.length n
    | .compare n => 2 * n
    | .pbkdf2 .. => 0).sum

/-! ### Theorems -/

/-- C112. Leaving out the calls gives the operations of the model. -/
theorem c112_same (P : Prims) (c : Cipher) (key : Bytes) (u : Int32) (data pre salt : Bytes) (password : List Char) (sz : AesSizes) :
    (c.tEncrypt P key u data pre).result = c.encrypt P key u data pre ∧
    (c.tDecrypt P key u data).result = c.decrypt P key u data ∧
    (c.tGenerateKey P key salt).result = c.generateKey P key salt ∧
    (c.tGenerateKeyFromString P password salt).result = c.generateKeyFromString P password salt ∧
    (c.tGenerateKeyAndDecrypt P key salt u data).result = c.generateKeyAndDecrypt P key salt u data ∧
    (c.tGenerateKeyAndEncrypt P key salt u data pre).result = c.generateKeyAndEncrypt P key salt u data pre ∧
    (c.tGenerateKeyFromStringAndDecrypt P password salt u data).result =
      c.generateKeyFromStringAndDecrypt P password salt u data ∧
    (c.tGenerateKeyFromStringAndEncrypt P password salt u data pre).result =
      c.generateKeyFromStringAndEncrypt P password salt u data pre ∧
    (tChecksumHmacMd5 P key u data).result = .ok (checksumHmacMd5 P key u data) ∧
    (tChecksumShaAes P sz key u data).result = checksumShaAes P sz key u data :=
  ⟨c.tEncrypt_snd .., c.tDecrypt_snd .., c.tGenerateKey_snd .., c.tGenerateKeyFromString_snd .., c.tRawDecrypt_snd ..,
    c.tRawEncrypt_snd .., c.tKeyDecrypt_snd .., c.tKeyEncrypt_snd .., tChecksumHmacMd5_snd .., tChecksumShaAes_snd ..⟩

/-- C112. The calls of a decryption depend on the lengths of key and ciphertext and on nothing else. -/
theorem c112_decrypt (P : Prims) (hP : P.Lawful) (c : Cipher) (key : Bytes) (hk : c.keyOk key) (u : Int32) (ct : Bytes) :
    (c.tDecrypt P key u ct).calls = callsDecrypt c u key.length ct.length := by
  cases c with
  | aes sz =>
    have hk : key.length = sz.keySize := hk
    simp only [Cipher.tDecrypt, callsDecrypt, tAesDecrypt_calls hP u hk, hk]
    rfl
  | rc4 => exact tRc4Decrypt_calls hP key _ ct

/-- C112. So do those of an encryption, on the lengths of key and plaintext. -/
theorem c112_encrypt (P : Prims) (hP : P.Lawful) (c : Cipher) (key : Bytes) (hk : c.keyOk key) (u : Int32) (pt pre : Bytes)
    (hpre : pre.length = c.preambleSize) :
    (c.tEncrypt P key u pt pre).calls = callsEncrypt c u key.length pt.length := by
  cases c with
  | aes sz =>
    have hk : key.length = sz.keySize := hk
    have hpre : pre.length = 16 := hpre
    simp only [Cipher.tEncrypt, callsEncrypt, tAesEncrypt_calls hP u hk, hk, hpre]
    rfl
  | rc4 =>
    have hpre : pre.length = 8 := hpre
    simp only [Cipher.tEncrypt, callsEncrypt, tRc4Encrypt_calls hP, hpre]

theorem callsKey_aes (P : Prims) (hP : P.Lawful) (sz : AesSizes) (p s : Bytes) :
    (tAesGenerateKey P sz p s).calls = callsKey (.aes sz) p.length s.length := by
  have hs : keyLength (.aes sz) = sz.keySize := by cases sz <;> rfl
  have hk : "kerberos".toUTF8.toList = [0x6b, 0x65, 0x72, 0x62, 0x65, 0x72, 0x6f, 0x73] := by decide +kernel
  rw [tAesGenerateKey_calls hP, callsKey, hs, hk]

/-- C112. A passphrase and a password become a key by one stretching of 4096 iterations, or by one MD4. -/
theorem c112_key (P : Prims) (hP : P.Lawful) (c : Cipher) (raw salt : Bytes) (password : List Char) :
    (c.tGenerateKey P raw salt).calls = callsKey c raw.length salt.length ∧
    (c.tGenerateKeyFromString P password salt).calls = callsKey c (passwordBytes c password) salt.length := by
  cases c with
  | aes sz => exact ⟨callsKey_aes P hP sz _ _, callsKey_aes P hP sz _ _⟩
  | rc4 => exact ⟨rfl, rfl⟩

/-- C112. Decrypting and encrypting with a password: the calls for the key, then those of the operation with a key. -/
theorem c112_password (P : Prims) (hP : P.Lawful) (c : Cipher) (password : List Char) (salt : Bytes) (u : Int32) (data pre : Bytes)
    (hpre : pre.length = c.preambleSize) :
    (c.tGenerateKeyFromStringAndDecrypt P password salt u data).calls =
      callsKey c (passwordBytes c password) salt.length ++ callsDecrypt c u (keyLength c) data.length ∧
    (c.tGenerateKeyFromStringAndEncrypt P password salt u data pre).calls =
      callsKey c (passwordBytes c password) salt.length ++ callsEncrypt c u (keyLength c) data.length := by
  have hk : ∃ k, c.generateKeyFromString P password salt = .ok k ∧ k.length = keyLength c ∧ c.keyOk k := by
    cases c with
    | aes sz =>
      have hs : sz.seedSize = sz.keySize := by cases sz <;> rfl
      obtain ⟨k, h1, h2⟩ := dk_ok hP (sz := sz) (k := pbkdf2Sha1 P (utf8 password) salt sz.seedSize)
        (c := [0x6b, 0x65, 0x72, 0x62, 0x65, 0x72, 0x6f, 0x73]) (by unfold pbkdf2Sha1; rw [hP.pbkdf2_length, hs]) (by simp)
      exact ⟨k, h1, by cases sz <;> exact h2, h2⟩
    | rc4 => exact ⟨_, rfl, hP.md4_length _, trivial⟩
  obtain ⟨k, h1, h2, h3⟩ := hk
  constructor
  · simp only [Cipher.tGenerateKeyFromStringAndDecrypt, tb_do, tb_fst, Cipher.tGenerateKeyFromString_snd, h1,
      (c112_key P hP c [] salt password).2, c112_decrypt P hP c k h3, h2]
  · simp only [Cipher.tGenerateKeyFromStringAndEncrypt, tb_do, tb_fst, Cipher.tGenerateKeyFromString_snd, h1,
      (c112_key P hP c [] salt password).2, c112_encrypt P hP c k h3 u data pre hpre, h2]

/-- C112. Checksums: the calls depend on the lengths of key and text. -/
theorem c112_checksum (P : Prims) (hP : P.Lawful) (sz : AesSizes) (key : Bytes) (hk : key.length = sz.keySize) (key' : Bytes)
    (u : Int32) (text : Bytes) :
    (tChecksumShaAes P sz key u text).calls =
      callsDerive sz (be32 u.toUInt32 ++ [0x99]) ++ [.hmacSha1 key.length text.length] ∧
    (tChecksumHmacMd5 P key' u text).calls =
      [.hmacMd5 key'.length 13, .md5 (4 + text.length), .hmacMd5 16 16] := by
  constructor
  · obtain ⟨kc, h1, h2⟩ := dk_ok hP hk (usageConst_ne u 0x99)
    simp only [tChecksumShaAes, tb_do, tb_fst, tDk_snd, h1, tDk_calls hP hk (usageConst_ne u 0x99), tHmacSha1, tc_eq, h2, hk]
    rw [if_neg (by rw [hP.hmacSha1_length]; omega)]
    rfl
  · have hu : (usageLE u).length = 4 := rfl
    simp only [tChecksumHmacMd5, tb_do, tb_fst, tHmacMd5, tc_eq, List.length_append, hu, hP.hmacMd5_length, hP.md5_length]
    rfl

/-- C112. A ciphertext that is refused costs the calls of an accepted one of the same length, in the same order, and one key costs
those of any other of the same length. -/
theorem c112_alike (P : Prims) (hP : P.Lawful) (c : Cipher) (k k' : Bytes) (hk : c.keyOk k) (hk' : c.keyOk k')
    (hl : k.length = k'.length) (u : Int32) (a b : Bytes) (h : a.length = b.length) :
    (c.tDecrypt P k u a).calls = (c.tDecrypt P k' u b).calls := by
  rw [c112_decrypt P hP c k hk, c112_decrypt P hP c k' hk', hl, h]

theorem bytesFed_append (l m : List Prim) : bytesFed (l ++ m) = bytesFed l + bytesFed m := by
  simp [bytesFed]

theorem bytesFed_cons (x : Prim) (m : List Prim) : bytesFed (x :: m) = bytesFed [x] + bytesFed m :=
  bytesFed_append [x] m

theorem bytesFed_enc (sz : AesSizes) (n : Nat) : bytesFed (List.replicate n (.aesEnc sz)) = 16 * n := by
  simp [bytesFed, Nat.mul_comm]

theorem bytesFed_dec (sz : AesSizes) (n : Nat) : bytesFed (List.replicate n (.aesDec sz)) = 16 * n := by
  simp [bytesFed, Nat.mul_comm]

theorem bytesFed_derive (sz : AesSizes) (const : Bytes) (h : const.length = 5 ∨ const.length = 8) :
    bytesFed (callsDerive sz const) ≤ 112 := by
  have : Nat.lcm const.length 16 ≤ 80 := by rcases h with h | h <;> rw [h] <;> decide
  cases sz <;> simp [bytesFed, callsDerive] <;> omega

theorem stretches_append (l m : List Prim) : stretches (l ++ m) = stretches l ++ stretches m := by
  simp [stretches]

theorem stretches_derive (sz : AesSizes) (const : Bytes) : stretches (callsDerive sz const) = [] := by
  cases sz <;> rfl

theorem stretches_enc (sz : AesSizes) (n : Nat) : stretches (List.replicate n (.aesEnc sz)) = [] := by
  induction n with
  | zero => rfl
  | succ n ih => exact ih

theorem stretches_dec (sz : AesSizes) (n : Nat) : stretches (List.replicate n (.aesDec sz)) = [] := by
  induction n with
  | zero => rfl
  | succ n ih => exact ih

theorem keyLength_le (c : Cipher) : keyLength c ≤ 32 := by
  rcases c with (_ | _) | _ <;> decide

theorem callsDecrypt_cost (c : Cipher) (u : Int32) (k n : Nat) :
    stretches (callsDecrypt c u k n) = [] ∧ bytesFed (callsDecrypt c u k n) ≤ 2 * n + k + 252 := by
  cases c with
  | aes sz =>
    have h1 := bytesFed_derive sz (be32 u.toUInt32 ++ [0x55]) (.inl rfl)
    have h2 := bytesFed_derive sz (be32 u.toUInt32 ++ [0xaa]) (.inl rfl)
    simp only [callsDecrypt, bytesFed_append, stretches_append, stretches_derive, List.nil_append]
    split
    · exact ⟨rfl, by show _ + (_ + 0) ≤ _; omega⟩
    · simp only [bytesFed_append, stretches_append, stretches_dec, bytesFed_dec]
      have h3 : bytesFed [.hmacSha1 k (n - 12), .compare 12] = k + (n - 12) + 24 := by simp [bytesFed]
      exact ⟨rfl, by rw [h3]; omega⟩
  | rc4 =>
    simp only [callsDecrypt]
    split
    · exact ⟨rfl, Nat.zero_le _⟩
    · exact ⟨rfl, by simp [bytesFed]; omega⟩

theorem callsEncrypt_cost (c : Cipher) (u : Int32) (k n : Nat) :
    stretches (callsEncrypt c u k n) = [] ∧ bytesFed (callsEncrypt c u k n) ≤ 2 * n + k + 271 := by
  cases c with
  | aes sz =>
    have h1 := bytesFed_derive sz (be32 u.toUInt32 ++ [0x55]) (.inl rfl)
    have h2 := bytesFed_derive sz (be32 u.toUInt32 ++ [0xaa]) (.inl rfl)
    simp only [callsEncrypt, bytesFed_append, stretches_append, stretches_derive, stretches_enc, bytesFed_enc, List.nil_append]
    have h3 : bytesFed [.hmacSha1 k (16 + n)] = k + (16 + n) := by simp [bytesFed]
    exact ⟨rfl, by rw [h3]; omega⟩
  | rc4 => exact ⟨rfl, by simp [callsEncrypt, bytesFed]; omega⟩

theorem callsKey_cost (c : Cipher) (p s : Nat) :
    (∃ n ≤ 32, stretches (callsKey c p s) = [(p, s, 4096, n)] ∨ stretches (callsKey c p s) = []) ∧
    bytesFed (callsKey c p s) ≤ 112 + (if c = .rc4 then p else 0) := by
  cases c with
  | aes sz =>
    have h1 := bytesFed_derive sz "kerberos".toUTF8.toList (.inr (by decide +kernel))
    refine ⟨⟨_, keyLength_le (.aes sz), .inl ?_⟩, ?_⟩
    · show (p, s, 4096, keyLength (.aes sz)) :: stretches (callsDerive sz _) = _
      rw [stretches_derive]
    · rw [if_neg (fun h => nomatch h), callsKey, bytesFed_cons]
      show 0 + _ ≤ _
      omega
  | rc4 => exact ⟨⟨0, by omega, .inr rfl⟩, by simp [callsKey, bytesFed]⟩

/-- C112. The work is linear: an operation with a key gives the primitives at most twice the length of its text, the length of its
key and a constant, and it stretches no password. -/
theorem c112_linear (P : Prims) (hP : P.Lawful) (c : Cipher) (key : Bytes) (hk : c.keyOk key) (u : Int32) (data pre : Bytes)
    (hpre : pre.length = c.preambleSize) :
    (stretches (c.tDecrypt P key u data).calls = [] ∧
      bytesFed (c.tDecrypt P key u data).calls ≤ 2 * data.length + key.length + 252) ∧
    (stretches (c.tEncrypt P key u data pre).calls = [] ∧
      bytesFed (c.tEncrypt P key u data pre).calls ≤ 2 * data.length + key.length + 271) := by
  rw [c112_decrypt P hP c key hk, c112_encrypt P hP c key hk u data pre hpre]
  exact ⟨callsDecrypt_cost .., callsEncrypt_cost ..⟩

end Verif.Crypto

namespace Verif.Kb
open Verif.Asn1
open Verif.Crypto

/-! ### Specification -/

/-- The bytes of a key that are hashed once when it is used: of a password, its UTF-16 form with RC4. -/
def keyBytes : Key → Nat
  | .secret pw => (stringUnicodeBytes pw).length
  | k => k.asBytes.length

/-- The cipher that belongs to an encryption type: 17, 18, 23. -/
def cipherOf (et : Int32) : Option Cipher :=
  if et = 17 then some (.aes .aes128) else if et = 18 then some (.aes .aes256) else if et = 23 then some .rc4 else none

/-! ### Lemmas -/

theorem newCipher_of {et : Int32} : (∃ c, newKerberosCipher et = .ok c ∧ cipherOf et = some c) ∨
    (∃ e, newKerberosCipher et = .error e ∧ cipherOf et = none) := by
  unfold newKerberosCipher cipherOf
  by_cases h1 : et = 18
  · subst h1; exact .inl ⟨_, rfl, rfl⟩
  · by_cases h2 : et = 17
    · subst h2; exact .inl ⟨_, rfl, rfl⟩
    · by_cases h3 : et = 23
      · subst h3; exact .inl ⟨_, rfl, rfl⟩
      · rw [if_neg h1, if_neg h2, if_neg h3, if_neg h2, if_neg h1, if_neg h3]
        exact .inr ⟨_, rfl, rfl⟩

theorem factor_one : Factor 1 := .inl rfl

theorem firstSalt_mem {l : List EtypeInfo2Entry} {s} (h : firstSalt l = some s) : ∃ e ∈ l, e.salt = some s := by
  induction l with
  | nil => cases h
  | cons e es ih =>
    unfold firstSalt at h
    cases hs : e.salt with
    | some s' => rw [hs] at h; exact ⟨e, List.mem_cons_self, by rw [hs]; exact h⟩
    | none =>
      rw [hs] at h
      obtain ⟨e', h1, h2⟩ := ih h
      exact ⟨e', List.mem_cons_of_mem _ h1, h2⟩

theorem salt_in_info {g : Cfg} (hg : g.NoShort) {i : Bytes} {l r} (h : (seqOfC g (etypeInfo2EntryC g)).dec g i = .ok (l, r)) {s}
    (hs : firstSalt l = some s) : (utf8 s).length < i.length := by
  have h1 := (seqOfG factor_one (etypeInfo2EntryG factor_one hg)).dec factor_one h
  rw [seqOfC_der (etypeInfo2EntryC_der g)] at h1
  obtain ⟨e, he, h2⟩ := firstSalt_mem hs
  have a1 := Der.length_prim 0x1b (utf8 s)
  have a2 := Der.length_node (t := 0xa1) (List.mem_cons_self (a := dString s) (l := []))
  have a3 : (Der.node 0xa1 [dString s]).bytes.length < (EtypeInfo2Entry.der e).bytes.length := by
    apply Der.length_node
    simp only [List.mem_append, h2]
    exact .inr (.inl (List.mem_singleton.2 rfl))
  have a4 : (EtypeInfo2Entry.der e).bytes.length < (dSeqOf EtypeInfo2Entry.der l).bytes.length :=
    Der.length_node (List.mem_map.2 ⟨e, he, rfl⟩)
  have a5 : (dString s).bytes = (Der.prim 0x1b (utf8 s)).bytes := rfl
  rw [a5] at a2
  omega

theorem saltLoop_short {g : Cfg} (hg : g.NoShort) {n : Nat} {l : List PaData} (hl : ∀ p ∈ l, p.padata_value.length < n) {s : Bytes}
    (h : saltLoop g l = .ok s) : s.length ≤ n := by
  induction l with
  | nil => cases h; exact Nat.zero_le _
  | cons p ps ih =>
    have ih := ih fun q hq => hl q (List.mem_cons_of_mem _ hq)
    unfold saltLoop at h
    split at h
    · split at h
      · cases h
      · rename_i info r hd
        split at h
        · rename_i s' hs
          cases h
          have := salt_in_info hg hd hs
          have := hl p List.mem_cons_self
          omega
        · exact ih h
    · exact ih h

/-- the cipher text and the salt of a reply are shorter than the reply -/
theorem reply_parts {g : Cfg} (hg : g.NoShort) {raw : Bytes} {r : AsRep} {rest} (h : (asRepC g).dec g raw = .ok (r, rest)) :
    r.enc_part.cipher.length < raw.length ∧ ∀ s, asRepSalt g r = .ok s → s.length ≤ raw.length := by
  have h1 := (asRepG factor_one hg).dec factor_one h
  rw [asRepC_der] at h1
  refine ⟨?_, ?_⟩
  · have := cipher_in_reply (lib g) r; omega
  · intro s hs
    unfold asRepSalt at hs
    cases hp : r.padata with
    | none => rw [hp] at hs; cases hs; exact Nat.zero_le _
    | some l =>
      rw [hp] at hs
      exact saltLoop_short hg (fun p hp' => by
        have := padata_in_reply (lib g) r p (by rw [hp]; exact hp')
        omega) hs

theorem parseResponse_asRep {g : Cfg} {raw r} (h : parseResponse g raw = .ok (.asRep r)) : ∃ rest, (asRepC g).dec g raw = .ok (r, rest) := by
  unfold parseResponse at h
  split at h
  · cases h
  · cases h
  · generalize (asRepC g).dec g raw = x at h
    rcases x with e | ⟨r', rest⟩
    · cases e <;> cases h
    · injection h with h
      injection h with h
      exact ⟨rest, by rw [h]⟩

/-! ### Theorems -/

/-- C112. Leaving out the calls gives the request for a ticket of the model: same result, same messages. -/
theorem c112_same_request (P : Prims) (M : CaseMap) (g : Cfg) (net : Net) (e1 e2 : Env) (username : List Char) (key : Option Key)
    (o : Options) :
    ((tTgtRequest P M g net e1 e2 username key o).1.result, (tTgtRequest P M g net e1 e2 username key o).2) =
      tgtRequest P M g net e1 e2 username key o :=
  tTgtRequest_snd P M g net e1 e2 username key o

/-- C112. Opening a reply with a key costs one decryption with the cipher of the key, whatever the reply says its cipher is. -/
theorem c112_reply_key (P : Prims) (hP : P.Lawful) (g : Cfg) (r : AsRep) (k : Bytes) :
    (tDecryptRep P g (.rc4Key k) r).calls = callsDecrypt .rc4 3 k.length r.enc_part.cipher.length ∧
    (k.length = 16 → (tDecryptRep P g (.aes128Key k) r).calls = callsDecrypt (.aes .aes128) 3 16 r.enc_part.cipher.length) ∧
    (k.length = 32 → (tDecryptRep P g (.aes256Key k) r).calls = callsDecrypt (.aes .aes256) 3 32 r.enc_part.cipher.length) := by
  refine ⟨?_, fun h => ?_, fun h => ?_⟩
  · show (tDecryptWithKey P (.rc4Key k) r).calls = _
    rw [tDecryptWithKey_fst]
    exact c112_decrypt P hP .rc4 k trivial 3 _
  · show (tDecryptWithKey P (.aes128Key k) r).calls = _
    rw [tDecryptWithKey_fst]
    have := c112_decrypt P hP (.aes .aes128) k h 3 r.enc_part.cipher
    rw [h] at this
    exact this
  · show (tDecryptWithKey P (.aes256Key k) r).calls = _
    rw [tDecryptWithKey_fst]
    have := c112_decrypt P hP (.aes .aes256) k h 3 r.enc_part.cipher
    rw [h] at this
    exact this

/-- C112. Opening a reply with a password costs at most one password stretching, always of 4096 iterations whatever the reply asks
for, and one decryption; nothing if the encryption type is unknown or the salt cannot be read. -/
theorem c112_reply_password (P : Prims) (hP : P.Lawful) (g : Cfg) (r : AsRep) (pw : List Char) :
    (tDecryptRep P g (.secret pw) r).calls =
      match cipherOf r.enc_part.etype, asRepSalt g r with
      | some c, .ok salt => callsKey c (passwordBytes c pw) salt.length ++ callsDecrypt c 3 (keyLength c) r.enc_part.cipher.length
      | _, _ => [] := by
  show (tDecryptWithPassword P g pw r).calls = _
  simp only [tDecryptWithPassword, tb_do, tb_fst, tl_eq, tm_eq]
  rcases @newCipher_of r.enc_part.etype with ⟨c, h1, h2⟩ | ⟨e, h1, h2⟩
  · rw [h1, h2]
    generalize asRepSalt g r = x
    rcases x with e | s
    · rfl
    · exact (c112_password P hP c pw s 3 _ (List.replicate c.preambleSize 0) (by simp)).1
  · rw [h1, h2]
    cases e <;> rfl

theorem fromString_cost (c : Cipher) (pw : List Char) (s : Nat) :
    (stretches (callsKey c (passwordBytes c pw) s) = [] ∨
      ∃ n ≤ 32, stretches (callsKey c (passwordBytes c pw) s) = [((utf8 pw).length, s, 4096, n)]) ∧
    bytesFed (callsKey c (passwordBytes c pw) s) ≤ 112 + keyBytes (.secret pw) := by
  obtain ⟨⟨n, hn, h⟩, h2⟩ := callsKey_cost c (passwordBytes c pw) s
  cases c with
  | aes sz =>
    refine ⟨?_, Nat.le_trans h2 (by rw [if_neg (fun h => nomatch h)]; omega)⟩
    rcases h with h | h
    · exact .inr ⟨n, hn, h⟩
    · exact .inl h
  | rc4 => exact ⟨.inl rfl, h2⟩

theorem reply_cost (P : Prims) (hP : P.Lawful) (g : Cfg) (r : AsRep) (k : Key) (hk : k.WF) :
    (stretches (tDecryptRep P g k r).calls = [] ∨ ∃ pw s n, k = .secret pw ∧ asRepSalt g r = .ok s ∧ n ≤ 32 ∧
      stretches (tDecryptRep P g k r).calls = [((utf8 pw).length, s.length, 4096, n)]) ∧
    bytesFed (tDecryptRep P g k r).calls ≤ 2 * r.enc_part.cipher.length + keyBytes k + 396 := by
  cases k with
  | secret pw =>
    rw [c112_reply_password P hP]
    cases cipherOf r.enc_part.etype with
    | none => exact ⟨.inl rfl, Nat.zero_le _⟩
    | some c =>
      cases hs : asRepSalt g r with
      | error e => exact ⟨.inl rfl, Nat.zero_le _⟩
      | ok s =>
        dsimp only
        obtain ⟨a1, a2⟩ := fromString_cost c pw s.length
        obtain ⟨b1, b2⟩ := callsDecrypt_cost c 3 (keyLength c) r.enc_part.cipher.length
        have := keyLength_le c
        rw [stretches_append, bytesFed_append, b1, List.append_nil]
        refine ⟨?_, by omega⟩
        rcases a1 with h | ⟨n, hn, h⟩
        · exact .inl h
        · exact .inr ⟨pw, s, n, rfl, rfl, hn, h⟩
  | rc4Key k =>
    rw [(c112_reply_key P hP g r k).1]
    obtain ⟨b1, b2⟩ := callsDecrypt_cost .rc4 3 k.length r.enc_part.cipher.length
    exact ⟨.inl b1, by show _ ≤ _ + k.length + _; omega⟩
  | aes128Key k =>
    rw [(c112_reply_key P hP g r k).2.1 hk]
    obtain ⟨b1, b2⟩ := callsDecrypt_cost (.aes .aes128) 3 16 r.enc_part.cipher.length
    exact ⟨.inl b1, by show _ ≤ _ + k.length + _; omega⟩
  | aes256Key k =>
    rw [(c112_reply_key P hP g r k).2.2 hk]
    obtain ⟨b1, b2⟩ := callsDecrypt_cost (.aes .aes256) 3 32 r.enc_part.cipher.length
    exact ⟨.inl b1, by show _ ≤ _ + k.length + _; omega⟩

theorem tsKey_calls {P : Prims} (hP : P.Lawful) {g : Cfg} {e : Env} (hc : ∀ n, (e.confounder n).length = n) {et c key}
    (h : newKerberosCipher et = .ok c) (hk : c.keyOk key) :
    (tEncryptTimestampWithKey P g e et key).calls = callsEncrypt c 1 key.length (rawTimestamp g e).length := by
  have hx : (liftX (Except.ok c) : Except KErr Cipher) = .ok c := rfl
  simp only [tEncryptTimestampWithKey, tb_do, tb_fst, tl_eq, tm_eq, h, hx, c112_encrypt P hP c key hk 1 _ _ (hc _), List.nil_append]
  generalize liftX _ = x
  rcases x with e | b
  · rfl
  · simp [tp_do, tp_eq]

theorem tsPw_calls {P : Prims} (hP : P.Lawful) {g : Cfg} {e : Env} (hc : ∀ n, (e.confounder n).length = n) {et c} (pw : List Char) (s : Bytes)
    (h : newKerberosCipher et = .ok c) :
    (tEncryptTimestampWithPassword P g e et pw s).calls =
      callsKey c (passwordBytes c pw) s.length ++ callsEncrypt c 1 (keyLength c) (rawTimestamp g e).length := by
  have hx : (liftX (Except.ok c) : Except KErr Cipher) = .ok c := rfl
  simp only [tEncryptTimestampWithPassword, tb_do, tb_fst, tl_eq, tm_eq, h, hx, (c112_password P hP c pw s 1 _ _ (hc _)).2, List.nil_append]
  generalize liftX _ = x
  rcases x with e | b
  · rfl
  · simp [tp_do, tp_eq]

theorem tsPw_cost {P : Prims} (hP : P.Lawful) {g : Cfg} {e : Env} (hc : ∀ n, (e.confounder n).length = n) {et c} (pw : List Char) (s : Bytes)
    (h : newKerberosCipher et = .ok c) :
    (stretches (tEncryptTimestampWithPassword P g e et pw s).calls = [] ∨ ∃ n ≤ 32,
      stretches (tEncryptTimestampWithPassword P g e et pw s).calls = [((utf8 pw).length, s.length, 4096, n)]) ∧
    bytesFed (tEncryptTimestampWithPassword P g e et pw s).calls ≤ 2 * (rawTimestamp g e).length + keyBytes (.secret pw) + 415 := by
  rw [tsPw_calls hP hc pw s h, stretches_append, bytesFed_append]
  obtain ⟨a1, a2⟩ := fromString_cost c pw s.length
  obtain ⟨b1, b2⟩ := callsEncrypt_cost c 1 (keyLength c) (rawTimestamp g e).length
  have := keyLength_le c
  rw [b1, List.append_nil]
  exact ⟨a1, by omega⟩

/-- C112. Pre-authenticating costs at most one password stretching of 4096 iterations, with the salt made of realm and user name. -/
theorem c112_timestamp (P : Prims) (hP : P.Lawful) (M : CaseMap) (g : Cfg) (e : Env) (hc : ∀ n, (e.confounder n).length = n)
    (realm user : List Char) (k : Key) (hk : k.WF) (ets : List Int32) :
    (stretches (tEncryptedTimestamp P M g e realm user k ets).calls = [] ∨ ∃ pw n s, k = .secret pw ∧ n ≤ 32 ∧
      s ≤ (calculateAesSalt M realm user).length ∧
      stretches (tEncryptedTimestamp P M g e realm user k ets).calls = [((utf8 pw).length, s, 4096, n)]) ∧
    bytesFed (tEncryptedTimestamp P M g e realm user k ets).calls ≤ 2 * (rawTimestamp g e).length + keyBytes k + 415 := by
  cases k with
  | secret pw =>
    have step : ∀ et c s, newKerberosCipher et = .ok c → s.length ≤ (calculateAesSalt M realm user).length →
        (stretches (tEncryptTimestampWithPassword P g e et pw s).calls = [] ∨ ∃ pw' n s', Key.secret pw = .secret pw' ∧ n ≤ 32 ∧
          s' ≤ (calculateAesSalt M realm user).length ∧
          stretches (tEncryptTimestampWithPassword P g e et pw s).calls = [((utf8 pw').length, s', 4096, n)]) ∧
        bytesFed (tEncryptTimestampWithPassword P g e et pw s).calls ≤ 2 * (rawTimestamp g e).length + keyBytes (.secret pw) + 415 := by
      intro et c s h hs
      obtain ⟨a, b⟩ := tsPw_cost hP (g := g) hc pw s h
      refine ⟨?_, b⟩
      rcases a with a | ⟨n, hn, a⟩
      · exact .inl a
      · exact .inr ⟨pw, n, s.length, rfl, hn, hs, a⟩
    simp only [tEncryptedTimestamp]
    split
    · exact step 18 _ _ rfl (Nat.le_refl _)
    · split
      · exact step 17 _ _ rfl (Nat.le_refl _)
      · split
        · exact step 23 _ _ rfl (Nat.zero_le _)
        · exact ⟨.inl rfl, Nat.zero_le _⟩
  | rc4Key k =>
    simp only [tEncryptedTimestamp]
    rw [tsKey_calls hP hc (c := .rc4) rfl trivial]
    obtain ⟨b1, b2⟩ := callsEncrypt_cost .rc4 1 k.length (rawTimestamp g e).length
    exact ⟨.inl b1, by show _ ≤ _ + k.length + _; omega⟩
  | aes128Key k =>
    simp only [tEncryptedTimestamp]
    rw [tsKey_calls hP hc (c := .aes .aes128) rfl hk]
    obtain ⟨b1, b2⟩ := callsEncrypt_cost (.aes .aes128) 1 k.length (rawTimestamp g e).length
    exact ⟨.inl b1, by show _ ≤ _ + k.length + _; omega⟩
  | aes256Key k =>
    simp only [tEncryptedTimestamp]
    rw [tsKey_calls hP hc (c := .aes .aes256) rfl hk]
    obtain ⟨b1, b2⟩ := callsEncrypt_cost (.aes .aes256) 1 k.length (rawTimestamp g e).length
    exact ⟨.inl b1, by show _ ≤ _ + k.length + _; omega⟩

theorem tAsRequest_reply {P : Prims} {M : CaseMap} {g : Cfg} {net : Net} {e user key o sent r s l}
    (h : tAsRequest P M g net e user key o sent = (⟨l, .ok (.asRep r)⟩, s)) :
    ∃ sent' a, net sent' = some a ∧ parseResponse g a = .ok (.asRep r) := by
  unfold tAsRequest at h
  generalize tBuildAsReq P M g e user key o = x at h
  rcases x with ⟨l, e' | raw⟩
  · cases h
  · dsimp only at h
    cases hn : net (sent ++ [raw]) with
    | none => rw [hn] at h; cases h
    | some a =>
      rw [hn] at h
      injection h with h _
      injection h with _ h
      exact ⟨_, a, hn, h⟩

theorem tAsRequest_quiet (P : Prims) (M : CaseMap) (g : Cfg) (net : Net) (e : Env) (user : List Char) (o : Options) (sent : List Bytes) :
    (tAsRequest P M g net e user none o sent).1.calls = [] := by
  rw [tAsRequest_fst]
  rcases tCreateAsReq_fst P M g e user none o with h | ⟨k, h, _⟩
  · exact h
  · cases h

/-- the cost of one side of a request for a ticket -/
structure Cheap (M : CaseMap) (o : Options) (user : List Char) (k : Key) (L n b : Nat) (calls : List Prim) : Prop where
  count : (stretches calls).length ≤ n
  each : ∀ x ∈ stretches calls, ∃ pw, k = .secret pw ∧ x.1 = (utf8 pw).length ∧
    x.2.1 ≤ max L (calculateAesSalt M o.realm user).length ∧ x.2.2.1 = 4096 ∧ x.2.2.2 ≤ 32
  bytes : bytesFed calls ≤ b

theorem Cheap.nil (M : CaseMap) (o : Options) (user : List Char) (k : Key) (L n b : Nat) : Cheap M o user k L n b [] :=
  ⟨Nat.zero_le _, (fun _ h => nomatch h), Nat.zero_le _⟩

theorem Cheap.append {M : CaseMap} {o : Options} {user : List Char} {k : Key} {L n b m c : Nat} {l l' : List Prim}
    (h : Cheap M o user k L n b l) (h' : Cheap M o user k L m c l') : Cheap M o user k L (n + m) (b + c) (l ++ l') := by
  refine ⟨?_, ?_, ?_⟩
  · rw [stretches_append, List.length_append]; exact Nat.add_le_add h.count h'.count
  · intro x hx
    rw [stretches_append] at hx
    rcases List.mem_append.1 hx with hx | hx
    · exact h.each x hx
    · exact h'.each x hx
  · rw [bytesFed_append]; exact Nat.add_le_add h.bytes h'.bytes

theorem Cheap.mono {M : CaseMap} {o : Options} {user : List Char} {k : Key} {L n b m c : Nat} {l : List Prim}
    (h : Cheap M o user k L n b l) (hn : n ≤ m) (hb : b ≤ c) : Cheap M o user k L m c l :=
  ⟨Nat.le_trans h.count hn, h.each, Nat.le_trans h.bytes hb⟩

theorem extract_cheap {P : Prims} (hP : P.Lawful) (M : CaseMap) {g : Cfg} (hg : g.NoShort) (o : Options) (user : List Char) (k : Key)
    (hk : k.WF) {a : Bytes} {r : AsRep} (h : parseResponse g a = .ok (.asRep r)) {L : Nat} (hL : a.length ≤ L) :
    Cheap M o user k L 1 (2 * L + keyBytes k + 396) (tExtractCredential P g (some k) r).calls := by
  obtain ⟨rest, hd⟩ := parseResponse_asRep h
  obtain ⟨h1, h2⟩ := reply_parts hg hd
  rw [tExtract_fst]
  obtain ⟨h3, h4⟩ := reply_cost P hP g r k hk
  refine ⟨?_, ?_, by dsimp only; omega⟩
  · rcases h3 with h3 | ⟨pw, s, n, _, _, _, h3⟩ <;> (dsimp only; rw [h3]; simp)
  · intro x hx
    dsimp only at hx
    rcases h3 with h3 | ⟨pw, s, n, e1, e2, e3, h3⟩
    · rw [h3] at hx; cases hx
    · rw [h3] at hx
      rw [List.mem_singleton.1 hx]
      have := h2 s e2
      exact ⟨pw, e1, rfl, Nat.le_trans this (Nat.le_trans hL (Nat.le_max_left _ _)), rfl, e3⟩

theorem create_cheap {P : Prims} (hP : P.Lawful) (M : CaseMap) (g : Cfg) {e : Env} (he : ∀ n, (e.confounder n).length = n)
    (hy : FourDigits e) (o : Options) (user : List Char) (k : Key) (hk : k.WF) (L : Nat) :
    Cheap M o user k L 1 (keyBytes k + 473) (tCreateAsReq P M g e user (some k) o).calls := by
  rcases tCreateAsReq_fst P M g e user (some k) o with h | ⟨k', hk', h⟩
  · rw [h]; exact Cheap.nil ..
  · injection hk' with hk'
    subst hk'
    rw [h]
    obtain ⟨h3, h4⟩ := c112_timestamp P hP M g e he o.realm user k hk o.sortedEtypes
    have hs : (rawTimestamp g e).length ≤ 29 := stamp_le g e hy
    refine ⟨?_, ?_, by omega⟩
    · rcases h3 with h3 | ⟨pw, n, s, _, _, _, h3⟩ <;> (rw [h3]; simp)
    · intro x hx
      rcases h3 with h3 | ⟨pw, n, s, e1, e2, e3, h3⟩
      · rw [h3] at hx; cases hx
      · rw [h3] at hx
        rw [List.mem_singleton.1 hx]
        exact ⟨pw, e1, rfl, Nat.le_trans e3 (Nat.le_max_right _ _), rfl, e2⟩

/-- C112. Whatever a KDC answers, in messages of at most `L` bytes, asking for a ticket stretches the password at most twice, with
4096 iterations each time, and gives the other primitives at most `2 L` bytes, twice the password and a constant. -/
theorem c112_request (P : Prims) (hP : P.Lawful) (M : CaseMap) (g : Cfg) (hg : g.NoShort) (net : Net) (e1 e2 : Env)
    (he : ∀ n, (e2.confounder n).length = n) (hy : FourDigits e2) (username : List Char) (key : Key) (hk : key.WF) (o : Options) (L : Nat)
    (hL : ∀ sent a, net sent = some a → a.length ≤ L) :
    (stretches (tTgtRequest P M g net e1 e2 username (some key) o).1.calls).length ≤ 2 ∧
    (∀ x ∈ stretches (tTgtRequest P M g net e1 e2 username (some key) o).1.calls, ∃ pw, key = .secret pw ∧
      x.1 = (utf8 pw).length ∧ x.2.1 ≤ max L (calculateAesSalt M o.realm username).length ∧ x.2.2.1 = 4096 ∧ x.2.2.2 ≤ 32) ∧
    bytesFed (tTgtRequest P M g net e1 e2 username (some key) o).1.calls ≤ 2 * L + 2 * keyBytes key + 869 := by
  suffices h : Cheap M o username key L 2 (2 * L + 2 * keyBytes key + 869)
      (tTgtRequest P M g net e1 e2 username (some key) o).1.calls from ⟨h.count, h.each, h.bytes⟩
  have hq := tAsRequest_quiet P M g net e1 username o []
  have hr := @tAsRequest_reply P M g net e1 username none o []
  unfold tTgtRequest
  generalize tAsRequest P M g net e1 username none o [] = x at hq hr
  rcases x with ⟨⟨l, e' | (m | m)⟩, s⟩ <;> (have hq : l = [] := hq) <;> subst hq
  · exact Cheap.nil ..
  · dsimp only
    split
    · exact Cheap.nil ..
    · dsimp only
      rw [List.nil_append]
      unfold tSecondRequest
      have hf := tAsRequest_fst P M g net e2 username (some key) o s
      have hc := create_cheap hP M g he hy o username key hk L
      rw [← hf] at hc
      have hr2 := @tAsRequest_reply P M g net e2 username (some key) o s
      generalize tAsRequest P M g net e2 username (some key) o s = y at hc hr2
      rcases y with ⟨⟨l, e' | (m' | m')⟩, s'⟩
      · exact hc.mono (by omega) (by omega)
      · exact hc.mono (by omega) (by omega)
      · obtain ⟨s1, a, h1, h2⟩ := hr2 rfl
        exact (hc.append (extract_cheap hP M hg o username key hk h2 (hL s1 a h1))).mono (by omega) (by omega)
  · obtain ⟨s1, a, h1, h2⟩ := hr rfl
    dsimp only
    rw [List.nil_append]
    exact (extract_cheap hP M hg o username key hk h2 (hL s1 a h1)).mono (by omega) (by omega)

/-- C112. Without a key nothing is computed, whatever is answered. -/
theorem c112_no_key (P : Prims) (M : CaseMap) (g : Cfg) (net : Net) (e1 e2 : Env) (username : List Char) (o : Options) :
    (tTgtRequest P M g net e1 e2 username none o).1.calls = [] := by
  have hq := tAsRequest_quiet P M g net e1 username o []
  unfold tTgtRequest
  generalize tAsRequest P M g net e1 username none o [] = x at hq
  rcases x with ⟨⟨l, e' | (m | m)⟩, s⟩ <;> (have hq : l = [] := hq) <;> subst hq
  · rfl
  · dsimp only; split <;> rfl
  · rfl

/-- C112. Nor with one, before an answer has come that carries a ticket or asks for pre-authentication. -/
theorem c112_first_answer (P : Prims) (M : CaseMap) (g : Cfg) (net : Net) (e1 e2 : Env) (username : List Char) (key : Option Key)
    (o : Options) (h : (asRequest P M g net e1 username none o []).1 = .error .network ∨
      (∃ m, (asRequest P M g net e1 username none o []).1 = .ok (.krbError m) ∧ m.error_code ≠ 25) ∨
      (asRequest P M g net e1 username none o []).1 = .error .asn1) :
    (tTgtRequest P M g net e1 e2 username key o).1.calls = [] := by
  have hq := tAsRequest_quiet P M g net e1 username o []
  rw [← tAsRequest_snd] at h
  unfold tTgtRequest
  generalize tAsRequest P M g net e1 username none o [] = x at hq h
  rcases x with ⟨⟨l, e' | (m | m)⟩, s⟩ <;> (have hq : l = [] := hq) <;> subst hq
  · rfl
  · rcases h with h | ⟨m', h, hm⟩ | h
    · cases h
    · injection h with h
      injection h with h
      subst h
      dsimp only
      rw [if_pos hm]
    · cases h
  · rcases h with h | ⟨m', h, hm⟩ | h <;> cases h

/-! ### Examples -/

set_option maxRecDepth 100000

/-- a ciphertext of two and a half blocks, accepted with one key and refused with another: the same eleven calls -/
example :
    ((Cipher.aes .aes256).decrypt toyPrims (List.replicate 32 1) 3
      (((Cipher.aes .aes256).encrypt toyPrims (List.replicate 32 1) 3 (List.replicate 24 9) (List.replicate 16 5)).toOption.getD [])).isOk = true ∧
    ((Cipher.aes .aes256).decrypt toyPrims (List.replicate 32 2) 3
      (((Cipher.aes .aes256).encrypt toyPrims (List.replicate 32 1) 3 (List.replicate 24 9) (List.replicate 16 5)).toOption.getD [])).isOk = false ∧
    ((Cipher.aes .aes256).tDecrypt toyPrims (List.replicate 32 2) 3
      (((Cipher.aes .aes256).encrypt toyPrims (List.replicate 32 1) 3 (List.replicate 24 9) (List.replicate 16 5)).toOption.getD [])).calls =
      [.nFold [0, 0, 0, 3, 0x55] 16, .aesEnc .aes256, .aesEnc .aes256, .nFold [0, 0, 0, 3, 0xaa] 16, .aesEnc .aes256, .aesEnc .aes256,
        .aesDec .aes256, .aesDec .aes256, .aesDec .aes256, .hmacSha1 32 40, .compare 12] := by decide +kernel

/-- obtaining a ticket with a password: the password becomes an AES key for the pre-authenticator and an RC4 key for the reply -/
example : (stretches (tTgtRequest toyPrims asciiCase strictCfg (exNet exPassword) exEnv exEnv "mickey".toList (some exPassword)
    exOptions).1.calls) = [(9, 20, 4096, 32)] ∧
    (bytesFed (tTgtRequest toyPrims asciiCase strictCfg (exNet exPassword) exEnv exEnv "mickey".toList (some exPassword)
      exOptions).1.calls) = 984 := by decide +kernel

example (k : Key) : ∃ L, ∀ sent a, exNet k sent = some a → a.length ≤ L := by
  refine ⟨(MsgType.build strictCfg .krbError exPreauth).length + (MsgType.build strictCfg .asRep (exRep k)).length, fun sent a h => ?_⟩
  unfold exNet at h
  split at h <;> injection h with h <;> subst h <;> omega

end Verif.Kb

import Verif.Props.Interchange
import Verif.Props.Std
/-
Property theorems C121: which passwords have the same key.
-/
set_option linter.unusedSimpArgs false
namespace Verif.Kb
open Verif.Asn1
open Verif.Crypto

/-! ### Specification -/

/-- equal but for zero octets at the end -/
def UpToZeros (a b : Bytes) : Prop := ∃ s i j, a = s ++ List.replicate i 0 ∧ b = s ++ List.replicate j 0

/-- RFC 2104: the block that HMAC makes of its key. Keys of more than 64 octets are hashed first; zeros fill it up. -/
def hmacBlock (key : Bytes) : Bytes :=
  (if key.length ≤ 64 then key else Std.sha1 key) ++ List.replicate (64 - (if key.length ≤ 64 then key else Std.sha1 key).length) 0

/-! ### Lemmas -/

theorem hmacKey_block (key : Bytes) : Std.hmacKey Std.sha1 key = hmacBlock key := by
  unfold Std.hmacKey hmacBlock
  by_cases h : key.length ≤ 64
  · rw [if_neg (by omega), if_pos h]
  · rw [if_pos (by omega), if_neg h]

theorem hmac_block {a b : Bytes} (h : hmacBlock a = hmacBlock b) : Std.hmac Std.sha1 a = Std.hmac Std.sha1 b := by
  funext data
  unfold Std.hmac
  rw [hmacKey_block, hmacKey_block, h]

theorem pbkdf2_block {a b : Bytes} (h : hmacBlock a = hmacBlock b) (salt : Bytes) (count n : Nat) :
    Std.pbkdf2HmacSha1 a salt count n = Std.pbkdf2HmacSha1 b salt count n := by
  unfold Std.pbkdf2HmacSha1
  rw [hmac_block h]

theorem generate_block {pw pw' : List Char} (h : hmacBlock (utf8 pw) = hmacBlock (utf8 pw')) (sz : AesSizes) (salt : Bytes) :
    (Cipher.aes sz).generateKeyFromString stdPrims pw salt = (Cipher.aes sz).generateKeyFromString stdPrims pw' salt := by
  show aesGenerateKey stdPrims sz (utf8 pw) salt = aesGenerateKey stdPrims sz (utf8 pw') salt
  unfold aesGenerateKey pbkdf2Sha1
  rw [show stdPrims.pbkdf2 = Std.pbkdf2HmacSha1 from rfl, pbkdf2_block h]

theorem replicate_split (x y i j : Nat) (a b : Bytes) (hx : a.length = x) (hy : b.length = y) (hxy : x ≤ y)
    (h : a ++ List.replicate i 0 = b ++ List.replicate j 0) : b = a ++ List.replicate (y - x) 0 := by
  have h1 : (b ++ List.replicate j 0).take y = b := by rw [← hy]; simp
  rw [← h, List.take_append, hx] at h1
  rw [List.take_of_length_le (by omega), List.take_replicate] at h1
  rw [← h1]
  have hl := congrArg List.length h
  simp only [List.length_append, List.length_replicate] at hl
  congr 2
  omega

theorem block_iff {a b : Bytes} (ha : a.length ≤ 64) (hb : b.length ≤ 64) : hmacBlock a = hmacBlock b ↔ UpToZeros a b := by
  unfold hmacBlock
  rw [if_pos ha, if_pos hb]
  constructor
  · intro h
    by_cases hl : a.length ≤ b.length
    · exact ⟨a, 0, b.length - a.length, by simp, replicate_split _ _ _ _ a b rfl rfl hl h⟩
    · exact ⟨b, a.length - b.length, 0, replicate_split _ _ _ _ b a rfl rfl (by omega) h.symm, by simp⟩
  · rintro ⟨s, i, j, rfl, rfl⟩
    simp only [List.length_append, List.length_replicate] at ha hb
    simp only [List.append_assoc, List.replicate_append_replicate, List.length_append, List.length_replicate]
    congr 2
    omega

theorem utf8_nuls (n : Nat) : utf8 (List.replicate n '\x00') = List.replicate n 0 := by
  induction n with
  | zero => rfl
  | succ n ih =>
    rw [List.replicate_succ, List.replicate_succ, ← ih]
    rfl

theorem utf8_app (s t : List Char) : utf8 (s ++ t) = utf8 s ++ utf8 t := by simp [utf8]

theorem words_inj : ∀ {l l' : List UInt16},
    l.flatMap (fun (u : UInt16) => [u.toUInt8, (u >>> 8).toUInt8]) = l'.flatMap (fun (u : UInt16) => [u.toUInt8, (u >>> 8).toUInt8]) →
    l = l'
  | [], [], _ => rfl
  | [], _ :: _, h => by simp at h
  | _ :: _, [], h => by simp at h
  | u :: l, v :: l', h => by
    simp only [List.flatMap_cons, List.cons_append, List.nil_append, List.cons.injEq] at h
    obtain ⟨h1, h2, h3⟩ := h
    rw [words_inj h3]
    congr 1
    have e1 := congrArg UInt8.toNat h1
    have e2 := congrArg UInt8.toNat h2
    apply UInt16.toNat.inj
    have hu := u.toNat_lt
    have hv := v.toNat_lt
    simp [Nat.shiftRight_eq_div_pow] at e1 e2
    omega

theorem utf16_units_inj : ∀ {s t : List Char}, s.flatMap utf16Char = t.flatMap utf16Char → s = t
  | [], [], _ => rfl
  | [], c :: _, h => by
    simp only [List.flatMap_nil, List.flatMap_cons] at h
    unfold utf16Char at h
    dsimp only at h
    split at h <;> simp at h
  | c :: _, [], h => by
    simp only [List.flatMap_nil, List.flatMap_cons] at h
    unfold utf16Char at h
    dsimp only at h
    split at h <;> simp at h
  | c :: s, d :: t, h => by
    simp only [List.flatMap_cons] at h
    have key : c = d ∧ s.flatMap utf16Char = t.flatMap utf16Char := by
      have vc := c.valid
      have vd := d.valid
      have vc : c.val.toNat < 0xd800 ∨ (0xdfff < c.val.toNat ∧ c.val.toNat < 0x110000) := vc
      have vd : d.val.toNat < 0xd800 ∨ (0xdfff < d.val.toNat ∧ d.val.toNat < 0x110000) := vd
      have ec : c.toNat = c.val.toNat := rfl
      have ed : d.toNat = d.val.toNat := rfl
      have hcd : c.val.toNat = d.val.toNat → c = d := fun h => Char.ext (UInt32.toNat.inj h)
      by_cases hc : c.val.toNat < 0x10000 <;> by_cases hd : d.val.toNat < 0x10000
      · simp only [utf16Char, if_pos hc, if_pos hd, List.cons_append, List.nil_append, List.cons.injEq] at h
        refine ⟨hcd ?_, h.2⟩
        have := congrArg UInt16.toNat h.1
        simp at this
        omega
      · simp only [utf16Char, if_pos hc, if_neg hd, List.cons_append, List.nil_append, List.cons.injEq] at h
        have := congrArg UInt16.toNat h.1
        simp at this
        omega
      · simp only [utf16Char, if_neg hc, if_pos hd, List.cons_append, List.nil_append, List.cons.injEq] at h
        have := congrArg UInt16.toNat h.1
        simp at this
        omega
      · simp only [utf16Char, if_neg hc, if_neg hd, List.cons_append, List.nil_append, List.cons.injEq] at h
        refine ⟨hcd ?_, h.2.2⟩
        have h1 := congrArg UInt16.toNat h.1
        have h2 := congrArg UInt16.toNat h.2.1
        simp at h1 h2
        omega
    rw [key.1, utf16_units_inj key.2]

/-- primitives whose password functions tell one password from all others -/
def separating (pw : List Char) : Prims :=
  { toyPrims with
    pbkdf2 := fun p _ _ n => List.replicate n (if p = utf8 pw then 0 else 1)
    md4 := fun d => List.replicate 16 (if d = stringUnicodeBytes pw then 0 else 1) }

theorem separating_lawful (pw : List Char) : (separating pw).Lawful :=
  { toyPrims_lawful with
    md4_length := fun d => by simp [separating]
    pbkdf2_length := fun p s c n => by simp [separating] }

theorem separating_dk (pw : List Char) (sz : AesSizes) (key const : Bytes) : dk (separating pw) sz key const = dk toyPrims sz key const := by
  have loop : ∀ n plain result, dkLoop (separating pw) sz key n plain result = dkLoop toyPrims sz key n plain result := by
    intro n
    induction n with
    | zero => intro plain result; rfl
    | succ n ih =>
      intro plain result
      unfold dkLoop
      rw [show encryptAesCbc (separating pw) sz key plain = encryptAesCbc toyPrims sz key plain from rfl]
      split
      · split
        · rfl
        · exact ih _ _
      · rfl
  unfold dk
  split
  · rfl
  · exact loop _ _ _

theorem utf16_inj {s t : List Char} (h : stringUnicodeBytes s = stringUnicodeBytes t) : s = t := utf16_units_inj (words_inj h)

/-! ### C121 -/

/-- C121. The program itself keeps all passwords apart, for every type and salt: nothing is cut off, folded or replaced before the
password functions, since with password functions that tell them apart the keys are different. -/
theorem c121_kept (c : Cipher) (pw pw' : List Char) (salt : Bytes) (hne : pw ≠ pw') :
    ∃ P : Prims, P.Lawful ∧ c.generateKeyFromString P pw salt ≠ c.generateKeyFromString P pw' salt := by
  refine ⟨separating pw, separating_lawful pw, ?_⟩
  cases c with
  | rc4 =>
    show Except.ok ((separating pw).md4 (stringUnicodeBytes pw)) ≠ Except.ok ((separating pw).md4 (stringUnicodeBytes pw'))
    intro h
    have h := Except.ok.inj h
    have hne' : stringUnicodeBytes pw' ≠ stringUnicodeBytes pw := fun e => hne (utf16_inj e).symm
    simp [separating, hne'] at h
  | aes sz =>
    show aesGenerateKey _ sz (utf8 pw) salt ≠ aesGenerateKey _ sz (utf8 pw') salt
    unfold aesGenerateKey pbkdf2Sha1
    rw [separating_dk, separating_dk]
    have hne' : utf8 pw' ≠ utf8 pw := fun e => hne (utf8_inj e).symm
    have e1 : (separating pw).pbkdf2 (utf8 pw) salt 0x1000 sz.seedSize = List.replicate sz.seedSize 0 := by simp [separating]
    have e2 : (separating pw).pbkdf2 (utf8 pw') salt 0x1000 sz.seedSize = List.replicate sz.seedSize 1 := by simp [separating, hne']
    rw [e1, e2]
    cases sz
    · decide +kernel
    · decide +kernel

/-- C121. For the AES types a password counts only through its block: two passwords with the same block have the same key, for every
salt, and two passwords of at most 64 octets have the same block exactly if they are equal up to zero octets at the end. -/
theorem c121_aes (pw pw' : List Char) :
    (hmacBlock (utf8 pw) = hmacBlock (utf8 pw') → ∀ sz salt,
      (Cipher.aes sz).generateKeyFromString stdPrims pw salt = (Cipher.aes sz).generateKeyFromString stdPrims pw' salt) ∧
    ((utf8 pw).length ≤ 64 → (utf8 pw').length ≤ 64 →
      (hmacBlock (utf8 pw) = hmacBlock (utf8 pw') ↔ UpToZeros (utf8 pw) (utf8 pw'))) :=
  ⟨fun h sz salt => generate_block h sz salt, fun h h' => block_iff h h'⟩

/-- C121. So passwords of at most 64 octets without NUL characters at the end go into the AES derivation as different blocks if they
are different at all: in letter case, in blanks, in composed or decomposed accents. -/
theorem c121_aes_distinct (pw pw' : List Char) (h : (utf8 pw).length ≤ 64) (h' : (utf8 pw').length ≤ 64)
    (hz : pw.getLast? ≠ some '\x00') (hz' : pw'.getLast? ≠ some '\x00') (hne : pw ≠ pw') :
    hmacBlock (utf8 pw) ≠ hmacBlock (utf8 pw') := by
  have last : ∀ (q : List Char) (s : Bytes) (i : Nat), q.getLast? ≠ some '\x00' → utf8 q = s ++ List.replicate i 0 → i = 0 := by
    intro q s i hq he
    cases i with
    | zero => rfl
    | succ i =>
      exfalso
      rcases List.eq_nil_or_concat q with rfl | ⟨r, c, rfl⟩
      · have := congrArg List.length he
        simp [utf8] at this
      · rw [List.concat_eq_append] at he hq
        have ec : c.toNat = c.val.toNat := rfl
        have hl : (utf8 (r ++ [c])).getLast? = some 0 := by
          rw [he, List.replicate_succ', ← List.append_assoc, List.getLast?_concat]
        rw [utf8_app] at hl
        have hc : utf8 [c] = utf8Char c := by simp [utf8]
        rw [hc] at hl
        have hcn : c ≠ '\x00' := fun h => hq (by rw [h]; simp)
        have hval : c.val.toNat ≠ 0 := fun h => hcn (Char.ext (UInt32.toNat.inj h))
        have hlt : c.val.toNat < 0x110000 := by
          have vc : c.val.toNat < 0xd800 ∨ (0xdfff < c.val.toNat ∧ c.val.toNat < 0x110000) := c.valid
          omega
        unfold utf8Char at hl
        dsimp only at hl
        split at hl
        · simp at hl
          have := congrArg UInt8.toNat hl
          simp at this
          omega
        · split at hl
          · simp at hl
            have := congrArg UInt8.toNat hl
            simp at this
            omega
          · split at hl
            · simp at hl
              have := congrArg UInt8.toNat hl
              simp at this
              omega
            · simp at hl
              have := congrArg UInt8.toNat hl
              simp at this
              omega
  intro hb
  obtain ⟨s, i, j, h1, h2⟩ := (block_iff h h').1 hb
  have hi := last pw s i hz h1
  have hj := last pw' s j hz' h2
  subst hi; subst hj
  exact hne (utf8_inj (h1.trans h2.symm))

/-- C121, violated. NUL characters at the end do not count: with room in the 64 octets, the AES keys are the same, for every salt. -/
theorem c121_nul (pw : List Char) (n : Nat) (h : (utf8 pw).length + n ≤ 64) (sz : AesSizes) (salt : Bytes) :
    (Cipher.aes sz).generateKeyFromString stdPrims (pw ++ List.replicate n '\x00') salt =
      (Cipher.aes sz).generateKeyFromString stdPrims pw salt := by
  refine generate_block ?_ sz salt
  rw [utf8_app, utf8_nuls]
  exact (block_iff (by simp; omega) (by omega)).2 ⟨utf8 pw, n, 0, rfl, by simp⟩

/-- C121, violated. A password of more than 64 octets has the AES keys of the text (if it is one) that is its SHA-1 hash. -/
theorem c121_long (pw short : List Char) (h : 64 < (utf8 pw).length) (hs : utf8 short = Std.sha1 (utf8 pw)) (sz : AesSizes)
    (salt : Bytes) :
    (Cipher.aes sz).generateKeyFromString stdPrims pw salt = (Cipher.aes sz).generateKeyFromString stdPrims short salt := by
  refine generate_block ?_ sz salt
  have hl : (utf8 short).length = 20 := by rw [hs]; exact Std.sha1_length _
  unfold hmacBlock
  rw [if_neg (by omega), if_pos (by omega), hs]

/-- C121. What that means for a user who types a NUL too many: the request with pre-authentication is the same octet by octet, and
so is the whole dialogue, whatever KDC and network do, if the replies are encrypted with the strongest configured type (an AES type)
and announce the salt of the account. -/
theorem c121_nul_dialogue (M : CaseMap) (g : Cfg) (hg : g.Total) (net : Net) (e1 e2 : Env) (username pw : List Char) (n : Nat)
    (h : (utf8 pw).length + n ≤ 64) (o : Options) (et : Int32) (hne : et ≠ 23) (ho : Strongest o et)
    (hn : Announces g net et (calculateAesSalt M o.realm username)) :
    buildAsReq stdPrims M g e2 username (some (.secret (pw ++ List.replicate n '\x00'))) o =
      buildAsReq stdPrims M g e2 username (some (.secret pw)) o ∧
    tgtRequest stdPrims M g net e1 e2 username (some (.secret (pw ++ List.replicate n '\x00'))) o =
      tgtRequest stdPrims M g net e1 e2 username (some (.secret pw)) o := by
  have het : et = 18 ∨ et = 17 ∨ et = 23 := by
    rcases ho with ⟨rfl, -⟩ | ⟨rfl, -⟩ | ⟨rfl, -⟩ <;> simp
  obtain ⟨k, hkw, hk, -⟩ := c98_exists stdPrims stdPrims_lawful pw (calculateAesSalt M o.realm username) et het
  have hk' : DerivedKey stdPrims (pw ++ List.replicate n '\x00') (calculateAesSalt M o.realm username) et k := by
    obtain ⟨c, kb, h1, h2, h3⟩ := hk
    refine ⟨c, kb, h1, ?_, h3⟩
    cases c with
    | aes sz => rw [c121_nul pw n h]; exact h2
    | rc4 =>
      exfalso
      rcases het with rfl | rfl | rfl
      · exact absurd h1 (by decide)
      · exact absurd h1 (by decide)
      · exact hne rfl
  exact ⟨by rw [c98_request stdPrims M g e2 username o _ et _ k ho (.inr rfl) hk', c98_request stdPrims M g e2 username o pw et _ k ho (.inr rfl) hk],
    by rw [c98_dialogue stdPrims M g hg net e1 e2 username o _ et _ k ho (.inr rfl) hk' hn,
      c98_dialogue stdPrims M g hg net e1 e2 username o pw et _ k ho (.inr rfl) hk hn]⟩

/-- C121. For RC4 different passwords always differ in what is hashed: no character is dropped, folded or replaced. -/
theorem c121_rc4 (pw pw' : List Char) (u : Bytes) (h : Rfc.Utf16LE pw u) (h' : Rfc.Utf16LE pw' u) : pw = pw' := by
  have e1 := utf16LE_unique h (stringUnicodeBytes_spec pw)
  have e2 := utf16LE_unique h' (stringUnicodeBytes_spec pw')
  rw [e1] at e2
  exact utf16_inj e2

/-! ### Cases that meet the hypotheses -/

example : (utf8 "S3cr3t".toList).length + 5 ≤ 64 ∧ "S3cr3t".toList ++ List.replicate 5 '\x00' ≠ "S3cr3t".toList ∧
    Strongest exOptions 18 := by refine ⟨by decide +kernel, by decide, .inl ⟨rfl, by decide⟩⟩

/-- a password of 74 characters and one of 20 that have the same AES keys for every salt -/
example (sz : AesSizes) (salt : Bytes) :
    (Cipher.aes sz).generateKeyFromString stdPrims "correct horse battery staple, correct horse battery staple, number 3812684".toList salt =
      (Cipher.aes sz).generateKeyFromString stdPrims "\x02/B/\x1e\x10\x178dH\x0e1zkyHaDzm".toList salt :=
  c121_long _ _ (by decide +kernel) (by decide +kernel) sz salt

/-- a composed and a decomposed accent -/
example : hmacBlock (utf8 ['\u00e9']) ≠ hmacBlock (utf8 ['e', '\u0301']) :=
  c121_aes_distinct _ _ (by decide) (by decide) (by decide) (by decide) (by decide)

/-- HMAC does not see the NUL -/
example : Std.hmac Std.sha1 (utf8 "pw".toList) [1, 2, 3] = Std.hmac Std.sha1 (utf8 "pw\x00".toList) [1, 2, 3] ∧
    Std.hmac Std.sha1 (utf8 "pw".toList) [1, 2, 3] ≠ Std.hmac Std.sha1 (utf8 "pW".toList) [1, 2, 3] := by decide +kernel

end Verif.Kb

import Verif.Asn1Wf
/-
Laws of the ASN.1 codecs: round trip, locality, no panic; closed under the sequence constructions.
-/
namespace Verif.Asn1

/-! ### lengths -/

theorem beNat_append_one (b : Bytes) (x : UInt8) : beNat (b ++ [x]) = beNat b * 256 + x.toNat := by
  simp [beNat, List.foldl_append]

theorem beNat_natBytes : ∀ k n, n < 256^k → beNat (natBytes k n) = n := by
  intro k
  induction k with
  | zero => intro n h; simp at h; subst h; rfl
  | succ k ih =>
    intro n h
    unfold natBytes
    split
    · rename_i h0; subst h0; rfl
    · rw [beNat_append_one, ih (n / 256) (by rw [Nat.pow_succ] at h; omega), u8_toNat_ofNat]
      omega

theorem natBytes_length : ∀ k n m, n < 256^m → (natBytes k n).length ≤ m := by
  intro k
  induction k with
  | zero => intro n m _; simp [natBytes]
  | succ k ih =>
    intro n m h
    unfold natBytes
    split
    · simp
    · cases m with
      | zero => simp at h; omega
      | succ m =>
        have := ih (n / 256) m (by rw [Nat.pow_succ] at h; omega)
        simp; omega

theorem parseLen_reads (g : Cfg) (n : Nat) (h : n < 2^64) : Reads (parseLen g) (buildLen n) n := by
  intro rest
  unfold buildLen
  split
  · simp only [List.cons_append, List.nil_append, parseLen, u8_toNat_ofNat]
    rw [Nat.mod_eq_of_lt (by omega), if_pos (by assumption)]
  · rename_i hn
    have hl := natBytes_length n n 8 (by omega)
    have hv := beNat_natBytes n n (Nat.lt_pow_self (by decide))
    simp only [List.cons_append, parseLen, u8_toNat_ofNat]
    have hb : buildLen n = UInt8.ofNat (128 + (natBytes n n).length) :: natBytes n n := by
      unfold buildLen; rw [if_neg hn]
    generalize natBytes n n = l at *
    rw [show (128 + l.length) % 256 - 128 = l.length by omega, if_neg (by omega), if_neg (by simp)]
    simp only [List.take_left, List.drop_left]
    rw [hv, Nat.mod_eq_of_lt h, hb, if_neg (by simp)]

theorem parseLen_ok {g : Cfg} {i n r} (h : parseLen g i = .ok (n, r)) :
    ∃ c, i = c ++ r ∧ c ≠ [] ∧ ∀ x, parseLen g (c ++ x) = .ok (n, x) := by
  unfold parseLen at h
  split at h
  · simp at h
  · rename_i b r0
    split at h
    · rename_i hb
      simp only [Except.ok.injEq, Prod.mk.injEq] at h
      obtain ⟨rfl, rfl⟩ := h
      exact ⟨[b], rfl, by simp, fun x => by simp [parseLen, hb]⟩
    · rename_i hb
      dsimp only at h
      split at h
      · simp at h
      rename_i hl
      split at h
      · simp at h
      rename_i hm
      simp only [Except.ok.injEq, Prod.mk.injEq] at h
      obtain ⟨rfl, rfl⟩ := h
      refine ⟨b :: r0.take (b.toNat - 128), by simp, by simp, fun x => ?_⟩
      simp only [List.cons_append, parseLen]
      have hlen : (r0.take (b.toNat - 128)).length = b.toNat - 128 := by simp; omega
      rw [if_neg hb, if_neg (by simp; omega)]
      rw [show (r0.take (b.toNat - 128) ++ x).take (b.toNat - 128) = r0.take (b.toNat - 128) from
        by rw [List.take_append_of_le_length (by omega), List.take_of_length_le (by omega)]]
      rw [if_neg hm, List.drop_append_of_le_length (by omega), List.drop_of_length_le (by omega)]
      rfl

theorem parseLen_noPanic (g : Cfg) : NoPanic (parseLen g) := by
  intro i
  unfold parseLen
  split
  · simp
  · split
    · simp
    · dsimp only; split
      · simp
      · split <;> simp

/-! ### tag-length-value -/

theorem parseTlv_reads (g : Cfg) (tag : UInt8) (v : Bytes) (h : Fits v) : Reads (parseTlv g tag) (tlv tag v) v := by
  intro rest
  unfold tlv parseTlv
  simp only [List.cons_append, ne_eq, not_true_eq_false, if_false, List.append_assoc]
  rw [parseLen_reads g v.length h]
  simp only
  rw [if_neg (by simp)]
  simp

theorem parseTlv_ok {g : Cfg} {tag i v r} (h : parseTlv g tag i = .ok (v, r)) :
    ∃ c, i = c ++ r ∧ v.length < c.length ∧ c.head? = some tag ∧ ∀ x, parseTlv g tag (c ++ x) = .ok (v, x) := by
  unfold parseTlv at h
  split at h
  · simp at h
  rename_i t i0
  split at h
  · simp at h
  rename_i ht
  split at h
  · simp at h
  rename_i n r1 hp
  obtain ⟨c, rfl, hc, hx⟩ := parseLen_ok hp
  split at h
  · simp at h
  rename_i hl
  simp only [Except.ok.injEq, Prod.mk.injEq] at h
  obtain ⟨rfl, rfl⟩ := h
  simp only [ne_eq, Decidable.not_not] at ht
  refine ⟨t :: c ++ r1.take n, by simp, by simp; omega, by simp [ht], fun x => ?_⟩
  simp only [List.cons_append, List.append_assoc, parseTlv]
  rw [if_neg (by simp [ht]), hx]
  have hn : (r1.take n).length = n := by simp; omega
  simp only
  rw [if_neg (by simp; omega)]
  rw [List.take_append_of_le_length (by omega), List.drop_append_of_le_length (by omega),
    List.drop_of_length_le (by omega), List.take_of_length_le (by omega)]
  simp

theorem parseTlv_noPanic (g : Cfg) (tag : UInt8) : NoPanic (parseTlv g tag) := by
  intro i
  unfold parseTlv
  split
  · simp
  · split
    · simp
    · split
      · rename_i hp; intro h; simp only [Except.error.injEq] at h; subst h; exact parseLen_noPanic g _ hp
      · split <;> simp

theorem buildLen_length_pos (n) : 0 < (buildLen n).length := by unfold buildLen; split <;> simp
theorem tlv_length (tag v) : v.length < (tlv tag v).length := by
  have := buildLen_length_pos v.length
  simp [tlv]; omega
theorem tlv_fits {tag v} (h : Fits (tlv tag v)) : Fits v := by
  have := tlv_length tag v; unfold Fits at *; omega

/-! ### laws -/

/-- What is proved about every message type: values satisfying `wf` are read back, and no content makes the
parser panic. -/
structure Codec.Lawful {α} (g : Cfg) (c : Codec α) (wf : α → Prop) : Prop where
  rt : ∀ a, wf a → Fits (c.build a) → c.parse (c.build a) = .ok a
  np : g.Total → ∀ b, c.parse b ≠ .error .panic

theorem Codec.Lawful.reads {α} {g : Cfg} {c : Codec α} {wf} (h : c.Lawful g wf) {a} (hw : wf a)
    (hs : Fits (c.enc a)) : Reads (c.dec g) (c.enc a) a := by
  intro rest
  unfold Codec.dec
  have hf := tlv_fits hs
  unfold Codec.enc
  rw [parseTlv_reads g _ _ hf]
  simp only [h.rt a hw hf]

theorem Codec.Lawful.noPanic {α} {g : Cfg} {c : Codec α} {wf} (h : c.Lawful g wf) (hg : g.Total) :
    NoPanic (c.dec g) := by
  intro i
  unfold Codec.dec
  split
  · rename_i hp; intro h; simp only [Except.error.injEq] at h; subst h; exact parseTlv_noPanic g _ _ hp
  · split
    · rename_i hp; intro h'; simp only [Except.error.injEq] at h'; subst h'; exact h.np hg _ hp
    · simp

/-- A parse looks only at the bytes it consumes, whatever the codec. -/
theorem Codec.dec_local {α} {g : Cfg} {c : Codec α} {i a r} (h : c.dec g i = .ok (a, r)) :
    ∃ u, i = u ++ r ∧ u ≠ [] ∧ ∀ x, c.dec g (u ++ x) = .ok (a, x) := by
  unfold Codec.dec at h
  split at h
  · simp at h
  rename_i v r1 hp
  split at h
  · simp at h
  rename_i a' hc
  simp only [Except.ok.injEq, Prod.mk.injEq] at h
  obtain ⟨rfl, rfl⟩ := h
  obtain ⟨u, rfl, hl, -, hx⟩ := parseTlv_ok hp
  refine ⟨u, rfl, by intro h0; subst h0; simp at hl, fun x => ?_⟩
  unfold Codec.dec
  rw [hx]; simp only [hc]

theorem Codec.enc_ne_nil {α} (c : Codec α) (a : α) : c.enc a ≠ [] := by simp [Codec.enc, tlv]

/-- Messages whose values all round-trip have an injective encoding, even inside longer byte strings. -/
theorem Codec.Lawful.enc_append_inj {α} {g : Cfg} {c : Codec α} {wf} (h : c.Lawful g wf) {a b x y}
    (ha : wf a) (hb : wf b) (hs : Fits (c.enc a)) (hs' : Fits (c.enc b)) (e : c.enc a ++ x = c.enc b ++ y) :
    a = b ∧ x = y := by
  have h1 := h.reads ha hs x
  rw [e, h.reads hb hs' y] at h1
  simp only [Except.ok.injEq, Prod.mk.injEq] at h1
  exact ⟨h1.1.symm, h1.2.symm⟩

/-! ### basic types -/

theorem i32_eq_ofInt {x : Int32} {v : Int} (h : v = x.toInt) : Int32.ofInt v = x := by
  subst h; simp

theorem twos_intBytes (x : Int32) : Int32.ofInt (twosVal (intBytes x)) = x := by
  apply i32_eq_ofInt
  have hu := i32_toUInt32_toNat x
  have h1 := x.toInt_lt
  have h2 := x.le_toInt
  have h3 := x.toUInt32.toNat_lt
  unfold intBytes be32
  simp only
  generalize x.toUInt32.toNat = u at *
  generalize x.toInt = v at *
  have huv : (u : Int) = if v < 0 then v + 4294967296 else v := by split <;> omega
  have t0 := u8_toNat_ofNat u
  have t1 := u8_toNat_ofNat (u / 256)
  have t2 := u8_toNat_ofNat (u / 65536)
  have t3 := u8_toNat_ofNat (u / 16777216)
  generalize UInt8.ofNat u = b0 at *
  generalize UInt8.ofNat (u / 256) = b1 at *
  generalize UInt8.ofNat (u / 65536) = b2 at *
  generalize UInt8.ofNat (u / 16777216) = b3 at *
  split
  · simp only [List.drop, twosVal, beNat, List.foldl, List.length]
    split <;> split at huv <;> simp <;> omega
  · split
    · simp only [List.drop, twosVal, beNat, List.foldl, List.length]
      split <;> split at huv <;> simp <;> omega
    · split
      · simp only [List.drop, twosVal, beNat, List.foldl, List.length]
        split <;> split at huv <;> simp <;> omega
      · simp only [twosVal, beNat, List.foldl, List.length]
        split <;> split at huv <;> simp <;> omega

theorem intBytes_length (x : Int32) : 1 ≤ (intBytes x).length ∧ (intBytes x).length ≤ 4 := by
  unfold intBytes be32
  simp only
  split
  · simp
  · split
    · simp
    · split <;> simp

theorem int32C_lawful (g : Cfg) : (int32C g).Lawful g Any where
  rt a _ _ := by
    have := intBytes_length a
    simp only [int32C]
    rw [if_neg (by omega), if_neg (by omega), twos_intBytes]
  np hg b := by
    simp only [int32C]
    split
    · exact hg.emptyInt
    · split <;> simp

theorem uint32C_lawful (g : Cfg) : (uint32C g).Lawful g Any where
  rt a _ _ := by
    have := intBytes_length a.toInt32
    simp only [uint32C]
    rw [if_neg (by omega), twos_intBytes]
    simp
  np hg b := by
    simp only [uint32C]
    split
    · exact hg.u32Ext _
    · simp

theorem boolC_lawful (g : Cfg) : (boolC g).Lawful g Any where
  rt a _ _ := by cases a <;> simp [boolC]
  np hg b := by
    simp only [boolC]
    split
    · simp
    · exact hg.boolExt _

theorem octetsC_lawful (g : Cfg) : octetsC.Lawful g Any where
  rt _ _ _ := rfl
  np _ b := by simp [octetsC]

theorem stringC_lawful (g : Cfg) : stringC.Lawful g Any where
  rt a _ _ := by simp [stringC, utf8Dec_utf8]
  np _ b := by simp only [stringC]; split <;> simp

theorem bitStringC_lawful (g : Cfg) : bitStringC.Lawful g Any where
  rt a _ _ := by simp [bitStringC]
  np _ b := by simp only [bitStringC]; split <;> simp

theorem flagsC_parse_cons (p : UInt8) (b : Bytes) :
    ∃ w x y z t, b ++ List.replicate (4 - b.length) 0 = w :: x :: y :: z :: t ∧
      flagsC.parse (p :: b) = .ok (ofBe32 w x y z) := by
  have hl : 4 ≤ (b ++ List.replicate (4 - b.length) (0 : UInt8)).length := by simp; omega
  simp only [flagsC, bitStringC]
  generalize b ++ List.replicate (4 - b.length) (0 : UInt8) = l at hl
  match l, hl with
  | w :: x :: y :: z :: t, _ => exact ⟨w, x, y, z, t, rfl, rfl⟩

theorem flagsC_lawful (g : Cfg) : flagsC.Lawful g Any where
  rt a _ _ := by
    show Except.ok (ofBe32 _ _ _ _) = _
    rw [ofBe32_be32 a]
  np _ b := by
    cases b with
    | nil => simp [flagsC, bitStringC]
    | cons p b =>
      obtain ⟨w, x, y, z, t, -, h⟩ := flagsC_parse_cons p b
      rw [h]; simp

theorem digVal_dig (n : Nat) : digVal (dig n) = some (n % 10) := by
  unfold digVal dig
  simp only [u8_toNat_ofNat]
  rw [if_pos (by omega), show (0x30 + n % 10) % 256 - 0x30 = n % 10 by omega]

theorem genTimePlain_bytes (g : Cfg) (t : DateTime) (h0 : 0 ≤ t.date.year) (h1 : t.date.year ≤ 9999) :
    genTimePlain (genTimeBytes g t) = some ⟨t.secs, 0⟩ := by
  rw [← withYmdHms_fields t]
  have hv := Date.ofDays_valid (t.secs / 86400)
  have hd : t.date.day ≤ 31 := by
    have := hv.2.2.2
    unfold DateTime.date
    unfold daysInMonth at this
    split at this
    · split at this <;> omega
    · split at this <;> omega
  have hm : t.date.month ≤ 12 := hv.2.1
  have hh : t.hour < 24 := by unfold DateTime.hour; omega
  have hmi : t.minute < 60 := by unfold DateTime.minute; omega
  have hs : t.second < 60 := by unfold DateTime.second; omega
  unfold genTimeBytes yearBytes twoDigits
  rw [if_pos ⟨h0, h1⟩]
  simp only [List.cons_append, List.nil_append, genTimePlain]
  simp only [ne_eq, not_true_eq_false, if_false, digVal_dig, Option.bind_eq_bind, Option.bind_some]
  have two : ∀ n, n < 100 → n / 10 % 10 * 10 + n % 10 = n := by omega
  rw [two _ (by omega), two _ (by omega), two _ (by omega), two _ (by omega), two _ (by omega)]
  have four : ∀ n, n < 10000 → n / 1000 % 10 * 1000 + n / 100 % 10 * 100 + n / 10 % 10 * 10 + n % 10 = n := by omega
  generalize hD : t.date = D at *
  rw [four _ (by omega), Int.toNat_of_nonneg h0]

theorem kerberosTimeC_build (g : Cfg) (t : DateTime) :
    (kerberosTimeC g).build t = genTimeBytes g ⟨t.secs, 0⟩ := by
  simp only [kerberosTimeC, withYmdHms_fields]

theorem kerberosTimeC_lawful (g : Cfg) : (kerberosTimeC g).Lawful g TimeOk where
  rt t h _ := by
    obtain ⟨h0, h1, h2⟩ := h
    rw [kerberosTimeC_build]
    have := genTimePlain_bytes g ⟨t.secs, 0⟩ h1 h2
    simp only [kerberosTimeC, this]
    cases t; simp at h0; simp [h0]
  np hg b := by
    simp only [kerberosTimeC]
    split
    · simp
    · exact hg.timeExt _

/-! ### SEQUENCE OF -/

theorem seqOfLoop_enc {α} {g : Cfg} {c : Codec α} {wf} (h : c.Lawful g wf) :
    ∀ (l : List α) (n : Nat), AllOf wf l → Fits (l.flatMap c.enc) → l.length ≤ n →
      seqOfLoop g c n (l.flatMap c.enc) = .ok l := by
  intro l
  induction l with
  | nil => intro n _ _ _; cases n <;> rfl
  | cons a l ih =>
    intro n hw hs hn
    cases n with
    | zero => simp at hn
    | succ n =>
      simp only [List.flatMap_cons] at hs ⊢
      have hsa : Fits (c.enc a) := by unfold Fits at *; simp at hs; omega
      have hsl : Fits (l.flatMap c.enc) := by unfold Fits at *; rw [List.length_append] at hs; omega
      have hr := h.reads (hw a (by simp)) hsa (l.flatMap c.enc)
      have hne := Codec.enc_ne_nil c a
      cases hb : c.enc a ++ l.flatMap c.enc with
      | nil => simp at hb; exact absurd hb.1 hne
      | cons x xs =>
        rw [hb] at hr
        simp only [seqOfLoop, hr]
        rw [ih n (fun b hb => hw b (by simp [hb])) hsl (by simpa using hn)]

theorem flatMap_enc_length {α} (c : Codec α) (l : List α) : l.length ≤ (l.flatMap c.enc).length := by
  induction l with
  | nil => simp
  | cons a l ih =>
    have : 0 < (c.enc a).length := List.length_pos_iff.mpr (Codec.enc_ne_nil c a)
    simp only [List.flatMap_cons, List.length_cons, List.length_append]; omega

theorem seqOfLoop_np {α} {g : Cfg} {c : Codec α} (h : NoPanic (c.dec g)) :
    ∀ n b, b.length ≤ n → seqOfLoop g c n b ≠ .error .panic := by
  intro n
  induction n with
  | zero => intro b hb; cases b with
    | nil => simp [seqOfLoop]
    | cons => simp at hb
  | succ n ih =>
    intro b hb
    cases b with
    | nil => simp [seqOfLoop]
    | cons x xs =>
      simp only [seqOfLoop]
      split
      · rename_i hd; intro e; simp only [Except.error.injEq] at e; subst e; exact h _ hd
      · rename_i a r hd
        obtain ⟨u, hu, hne, -⟩ := Codec.dec_local hd
        have hl : r.length ≤ n := by
          have : 0 < u.length := List.length_pos_iff.mpr hne
          have := congrArg List.length hu
          simp only [List.length_cons, List.length_append] at this hb; omega
        split
        · rename_i hd2; intro e; simp only [Except.error.injEq] at e; subst e; exact ih r hl hd2
        · simp

theorem seqOfC_lawful {α} {g : Cfg} {c : Codec α} {wf} (h : c.Lawful g wf) : (seqOfC g c).Lawful g (AllOf wf) where
  rt l hw hs := seqOfLoop_enc h l _ hw hs (flatMap_enc_length c l)
  np hg b := seqOfLoop_np (h.noPanic hg) _ b (Nat.le_refl _)

/-! ### SEQUENCE -/

/-- laws of field lists whose context tags are at least `k` -/
structure Fields.Lawful {α} (g : Cfg) (k : Nat) (f : Fields α) (wf : α → Prop) : Prop where
  rt : ∀ a, wf a → Fits (f.build a) → f.parse (f.build a) = .ok (a, [])
  head : ∀ a, f.build a = [] ∨ ∃ t r, f.build a = t :: r ∧ 0xa0 + k ≤ t.toNat
  np : g.Total → NoPanic f.parse

theorem noFields_lawful (g : Cfg) (k : Nat) : noFields.Lawful g k Any where
  rt _ _ _ := rfl
  head _ := Or.inl rfl
  np _ i := by simp [noFields]

theorem parseWrapped_reads {α} {g : Cfg} {c : Codec α} {wf} (h : c.Lawful g wf) (tag : UInt8) {a} (hw : wf a)
    (hs : Fits (tlv tag (c.enc a))) : Reads (parseWrapped g tag c) (tlv tag (c.enc a)) a := by
  intro rest
  unfold parseWrapped
  rw [parseTlv_reads g tag _ (tlv_fits hs)]
  have := h.reads hw (tlv_fits hs) []
  rw [List.append_nil] at this
  simp only [this]
  simp

theorem parseWrapped_noPanic {α} {g : Cfg} {c : Codec α} (tag : UInt8) (h : NoPanic (c.dec g)) :
    NoPanic (parseWrapped g tag c) := by
  intro i
  unfold parseWrapped
  split
  · rename_i hp; intro e; simp only [Except.error.injEq] at e; subst e; exact parseTlv_noPanic g _ _ hp
  · split
    · rename_i hp; intro e; simp only [Except.error.injEq] at e; subst e; exact h _ hp
    · split <;> simp

theorem ctxTag_toNat {n : Nat} (h : n < 32) : (ctxTag n).toNat = 0xa0 + n := by
  unfold ctxTag; rw [u8_toNat_ofNat]; omega

theorem reqField_lawful {α β} {g : Cfg} {k n : Nat} {c : Codec α} {rest : Fields β} {wa wb}
    (hc : c.Lawful g wa) (hr : rest.Lawful g (n + 1) wb) (hk : k ≤ n) (hn : n < 32) :
    (reqField g n c rest).Lawful g k (fun v => wa v.1 ∧ wb v.2) where
  rt v hw hs := by
    obtain ⟨a, b⟩ := v
    simp only [reqField] at hs ⊢
    have h1 : Fits (tlv (ctxTag n) (c.enc a)) := by unfold Fits at *; simp only [List.length_append] at hs; omega
    have h2 : Fits (rest.build b) := by unfold Fits at *; simp only [List.length_append] at hs; omega
    rw [parseWrapped_reads hc _ hw.1 h1]
    simp only [hr.rt b hw.2 h2]
  head v := by
    right
    refine ⟨ctxTag n, _, rfl, ?_⟩
    rw [ctxTag_toNat hn]; omega
  np hg i := by
    simp only [reqField]
    split
    · rename_i hp; intro e; simp only [Except.error.injEq] at e; subst e
      exact parseWrapped_noPanic _ (hc.noPanic hg) _ hp
    · split
      · rename_i hp; intro e; simp only [Except.error.injEq] at e; subst e; exact hr.np hg _ hp
      · simp

theorem optField_lawful {α β} {g : Cfg} {k n : Nat} {c : Codec α} {rest : Fields β} {wa wb}
    (hc : c.Lawful g wa) (hr : rest.Lawful g (n + 1) wb) (hk : k ≤ n) (hn : n < 32) :
    (optField g n c rest).Lawful g k (fun v => OptOf wa v.1 ∧ wb v.2) where
  rt v hw hs := by
    obtain ⟨a, b⟩ := v
    cases a with
    | none =>
      simp only [optField, List.nil_append] at hs ⊢
      have hhead : ¬ (rest.build b).head? = some (ctxTag n) := by
        rcases hr.head b with h | ⟨t, r, h, ht⟩
        · rw [h]; simp
        · rw [h]; simp only [List.head?_cons, Option.some.injEq]
          intro e; rw [e, ctxTag_toNat hn] at ht; omega
      rw [if_neg hhead, hr.rt b hw.2 hs]
    | some a =>
      simp only [optField] at hs ⊢
      have h1 : Fits (tlv (ctxTag n) (c.enc a)) := by unfold Fits at *; simp only [List.length_append] at hs; omega
      have h2 : Fits (rest.build b) := by unfold Fits at *; simp only [List.length_append] at hs; omega
      rw [if_pos (by simp [tlv]), parseWrapped_reads hc _ (hw.1 a rfl) h1]
      simp only [hr.rt b hw.2 h2]
  head v := by
    obtain ⟨a, b⟩ := v
    cases a with
    | none =>
      simp only [optField, List.nil_append]
      rcases hr.head b with h | ⟨t, r, h, ht⟩
      · exact Or.inl h
      · exact Or.inr ⟨t, r, h, by omega⟩
    | some a =>
      right
      refine ⟨ctxTag n, _, rfl, ?_⟩
      rw [ctxTag_toNat hn]; omega
  np hg i := by
    simp only [optField]
    split
    · split
      · rename_i hp; intro e; simp only [Except.error.injEq] at e; subst e
        exact parseWrapped_noPanic _ (hc.noPanic hg) _ hp
      · split
        · rename_i hp; intro e; simp only [Except.error.injEq] at e; subst e; exact hr.np hg _ hp
        · simp
    · split
      · rename_i hp; intro e; simp only [Except.error.injEq] at e; subst e; exact hr.np hg _ hp
      · simp

theorem Fields.Lawful.imap {α β} {g : Cfg} {k : Nat} {f : Fields α} {wa} {wb : β → Prop} (h : f.Lawful g k wa)
    (mk : α → β) (un : β → α) (hmk : ∀ b, mk (un b) = b) (hw : ∀ b, wb b → wa (un b)) :
    (f.imap mk un).Lawful g k wb where
  rt b hb hs := by
    simp only [Fields.imap] at hs ⊢
    rw [h.rt _ (hw b hb) hs]; simp only [hmk]
  head b := h.head (un b)
  np hg i := by
    simp only [Fields.imap]
    split
    · rename_i hp; intro e; simp only [Except.error.injEq] at e; subst e; exact h.np hg _ hp
    · simp

theorem seqC_lawful {α} {g : Cfg} {k : Nat} {f : Fields α} {wf} (h : f.Lawful g k wf) : (seqC g f).Lawful g wf where
  rt a hw hs := by
    simp only [seqC] at hs ⊢
    rw [h.rt a hw hs]; simp
  np hg b := by
    simp only [seqC]
    split
    · rename_i hp; intro e; simp only [Except.error.injEq] at e; subst e; exact h.np hg _ hp
    · split <;> simp

theorem appC_lawful {α} {g : Cfg} {k n : Nat} {f : Fields α} {wf} (h : f.Lawful g k wf) :
    (appC g n f).Lawful g wf where
  rt a hw hs := by
    simp only [appC] at hs ⊢
    have := (seqC_lawful h).reads hw hs []
    rw [List.append_nil] at this
    rw [this]; simp
  np hg b := by
    simp only [appC]
    split
    · rename_i hp; intro e; simp only [Except.error.injEq] at e; subst e; exact (seqC_lawful h).noPanic hg _ hp
    · split <;> simp

end Verif.Asn1

import Verif.Asn1ReadMsgs
/-
Lemmas for C95: the length of a message that is read and written again.
-/
namespace Verif.Asn1

/-- The external crate accepts no number, truth value or time shorter than the library writes it. -/
structure Cfg.NoShort (g : Cfg) : Prop where
  emptyInt : ∀ x, g.emptyInt ≠ .ok x
  u32Ext : ∀ x, g.u32Ext [] ≠ .ok x
  boolExt : ∀ x, g.boolExt [] ≠ .ok x
  timeExt : ∀ b x, g.timeExt b = .ok x → 15 ≤ b.length ∧ 0 ≤ x.date.year ∧ x.date.year ≤ 9999

theorem Cfg.Strict.noShort {g : Cfg} (h : g.Strict) : g.NoShort :=
  ⟨h.emptyInt, h.u32Ext [], h.boolExt [], fun b x hx => absurd hx (h.timeExt b x)⟩

/-- factor 1, or 5 with flags -/
def Factor (k : Nat) : Prop := k = 1 ∨ k = 5

def Codec.Grows {α} (k : Nat) (c : Codec α) : Prop := ∀ b a, c.parse b = .ok a → (c.build a).length ≤ k * b.length

def Fields.Grows {α} (k : Nat) (f : Fields α) : Prop :=
  ∀ i a r, f.parse i = .ok (a, r) → (f.build a).length + k * r.length ≤ k * i.length

theorem beNat_foldl (b : Bytes) : ∀ n : Nat, b.foldl (fun a x => a * 256 + x.toNat) n < (n + 1) * 256 ^ b.length := by
  induction b with
  | nil => intro n; simp
  | cons x b ih =>
    intro n
    have h := ih (n * 256 + x.toNat)
    have hx := x.toNat_lt
    rw [List.foldl_cons, List.length_cons, Nat.pow_succ', ← Nat.mul_assoc]
    exact Nat.lt_of_lt_of_le h (Nat.mul_le_mul_right _ (by omega))

theorem beNat_below (b : Bytes) : beNat b < 256 ^ b.length := by simpa [beNat] using beNat_foldl b 0

theorem buildLen_one (n : Nat) : 1 ≤ (buildLen n).length := by
  unfold buildLen; split <;> simp

theorem buildLen_le {n k : Nat} (h : n < 256 ^ k) : (buildLen n).length ≤ 1 + k := by
  unfold buildLen
  split
  · simp
  · have := natBytes_length n n k h
    simp; omega

theorem natBytes_lt (n : Nat) : n < 256 ^ (natBytes n n).length := by
  have := beNat_natBytes n n (Nat.lt_pow_self (by decide))
  have h := beNat_below (natBytes n n)
  omega

theorem buildLen_mul {k m n : Nat} (hk : Factor k) (h : m ≤ k * n) : (buildLen m).length ≤ k * (buildLen n).length := by
  by_cases hn : n < 128
  · have h1 := buildLen_one n
    rcases hk with rfl | rfl
    · have : m < 128 := by omega
      unfold buildLen
      rw [if_pos this, if_pos hn]
      simp
    · have := @buildLen_le m 2 (by omega)
      omega
  · have hb : (buildLen n).length = 1 + (natBytes n n).length := by
      unfold buildLen; rw [if_neg hn]; simp; omega
    have hl := natBytes_lt n
    generalize (natBytes n n).length = j at *
    rcases hk with rfl | rfl
    · have := @buildLen_le m j (by omega)
      omega
    · have := @buildLen_le m (j + 1) (by rw [Nat.pow_succ]; omega)
      omega

theorem parseTlv_length {g : Cfg} {tag i v r} (h : parseTlv g tag i = .ok (v, r)) :
    1 + (buildLen v.length).length + v.length + r.length ≤ i.length := by
  cases i with
  | nil => cases h
  | cons t i =>
    simp only [parseTlv] at h
    split at h
    · cases h
    · split at h
      · cases h
      · rename_i n r' hl
        split at h
        · cases h
        · injection h with h
          injection h with h1 h2
          have hn : v.length = n := by rw [← h1, List.length_take]; omega
          have hr : r.length = r'.length - n := by rw [← h2, List.length_drop]
          cases i with
          | nil => cases hl
          | cons x i =>
            simp only [parseLen] at hl
            split at hl
            · rename_i hx
              injection hl with hl; injection hl with e1 e2
              subst e1 e2
              have : (buildLen v.length).length = 1 := by
                unfold buildLen; rw [hn, if_pos hx]; rfl
              simp only [List.length_cons]
              omega
            · split at hl
              · cases hl
              · split at hl
                · cases hl
                · injection hl with hl; injection hl with e1 e2
                  subst e2
                  rw [List.length_drop] at *
                  have hb := beNat_below (i.take (x.toNat - 128))
                  rw [List.length_take, Nat.min_eq_left (by omega)] at hb
                  have := @buildLen_le n (x.toNat - 128) (by
                    rw [← e1]
                    exact Nat.lt_of_le_of_lt (Nat.mod_le ..) hb)
                  simp only [List.length_cons]
                  rw [hn]
                  omega

theorem tlv_len (tag : UInt8) (v : Bytes) : (tlv tag v).length = 1 + (buildLen v.length).length + v.length := by
  simp [tlv]; omega

theorem Factor.pos {k} (h : Factor k) : 1 ≤ k := by rcases h with rfl | rfl <;> decide

theorem tlv_grows {k : Nat} (hk : Factor k) {g : Cfg} {tag tag' i v r w} (h : parseTlv g tag i = .ok (v, r)) (hw : w.length ≤ k * v.length) :
    (tlv tag' w).length + k * r.length ≤ k * i.length := by
  have h1 := parseTlv_length h
  have h2 := buildLen_mul hk hw
  have h3 := Nat.mul_le_mul_left k h1
  have := hk.pos
  rw [tlv_len]
  simp only [Nat.mul_add, Nat.mul_one] at h3
  omega

theorem Codec.Grows.dec {α k} {c : Codec α} (hc : c.Grows k) (hk : Factor k) {g : Cfg} {i a r} (h : c.dec g i = .ok (a, r)) :
    (c.enc a).length + k * r.length ≤ k * i.length := by
  simp only [Codec.dec] at h
  split at h
  · cases h
  · rename_i v r' h1
    split at h
    · cases h
    · rename_i a' h2
      injection h with h
      injection h with e1 e2
      subst e1 e2
      exact tlv_grows hk h1 (hc _ _ h2)

theorem parseWrapped_grows {α k} {c : Codec α} (hc : c.Grows k) (hk : Factor k) {g : Cfg} {tag i a r}
    (h : parseWrapped g tag c i = .ok (a, r)) : (tlv tag (c.enc a)).length + k * r.length ≤ k * i.length := by
  simp only [parseWrapped] at h
  split at h
  · cases h
  · rename_i v r' h1
    split at h
    · cases h
    · rename_i a' left h2
      split at h
      · cases h
      · injection h with h
        injection h with e1 e2
        subst e1 e2
        exact tlv_grows hk h1 (by have := hc.dec hk h2; omega)

theorem noFields_grows (k : Nat) : noFields.Grows k := by
  intro i a r h
  simp only [noFields] at h
  injection h with h
  injection h with e1 e2
  subst e2
  simp [noFields]

theorem reqG {α β k} (hk : Factor k) {g : Cfg} {c : Codec α} {f : Fields β} (n : Nat) (hc : c.Grows k) (hf : f.Grows k) :
    (reqField g n c f).Grows k := by
  intro i a r h
  simp only [reqField] at h ⊢
  split at h
  · cases h
  · rename_i x r1 h1
    split at h
    · cases h
    · rename_i y r2 h2
      injection h with h
      injection h with e1 e2
      subst e1 e2
      have := parseWrapped_grows hc hk h1
      have := hf _ _ _ h2
      rw [List.length_append]
      dsimp only
      omega

theorem optG {α β k} (hk : Factor k) {g : Cfg} {c : Codec α} {f : Fields β} (n : Nat) (hc : c.Grows k) (hf : f.Grows k) :
    (optField g n c f).Grows k := by
  intro i a r h
  simp only [optField] at h ⊢
  split at h
  · split at h
    · cases h
    · rename_i x r1 h1
      split at h
      · cases h
      · rename_i y r2 h2
        injection h with h
        injection h with e1 e2
        subst e1 e2
        have := parseWrapped_grows hc hk h1
        have := hf _ _ _ h2
        rw [List.length_append]
        dsimp only
        omega
  · split at h
    · cases h
    · rename_i y r2 h2
      injection h with h
      injection h with e1 e2
      subst e1 e2
      have := hf _ _ _ h2
      simpa using this

theorem imapG {α β k} {f : Fields α} (mk : α → β) (un : β → α) (h : ∀ a, un (mk a) = a) (hf : f.Grows k) : (f.imap mk un).Grows k := by
  intro i a r h1
  simp only [Fields.imap] at h1 ⊢
  split at h1
  · cases h1
  · rename_i y r2 h2
    injection h1 with h1
    injection h1 with e1 e2
    subst e1 e2
    rw [h]
    exact hf _ _ _ h2

theorem seqG {α k} {g : Cfg} {f : Fields α} (hf : f.Grows k) : (seqC g f).Grows k := by
  intro b a h
  simp only [seqC] at h ⊢
  split at h
  · cases h
  · rename_i y left h2
    split at h
    · cases h
    · injection h with h
      subst h
      have := hf _ _ _ h2
      omega

theorem appG {α k} (hk : Factor k) {g : Cfg} {n : Nat} {f : Fields α} (hf : f.Grows k) : (appC g n f).Grows k := by
  intro b a h
  simp only [appC] at h ⊢
  split at h
  · cases h
  · rename_i y left h2
    split at h
    · cases h
    · injection h with h
      subst h
      have := (seqG (g := g) hf).dec hk h2
      omega

theorem seqOfLoop_grows {α k} (hk : Factor k) {g : Cfg} {c : Codec α} (hc : c.Grows k) :
    ∀ n b as, seqOfLoop g c n b = .ok as → (as.flatMap c.enc).length ≤ k * b.length := by
  intro n
  induction n with
  | zero =>
    intro b as h
    cases b with
    | nil => simp only [seqOfLoop] at h; injection h with h; subst h; simp
    | cons x b => simp only [seqOfLoop] at h; cases h
  | succ n ih =>
    intro b as h
    cases b with
    | nil => simp only [seqOfLoop] at h; injection h with h; subst h; simp
    | cons x b =>
      simp only [seqOfLoop] at h
      split at h
      · cases h
      · rename_i a r h1
        split at h
        · cases h
        · rename_i as' h2
          injection h with h
          subst h
          have := hc.dec hk h1
          have := ih _ _ h2
          rw [List.flatMap_cons, List.length_append]
          omega

theorem seqOfG {α k} (hk : Factor k) {g : Cfg} {c : Codec α} (hc : c.Grows k) : (seqOfC g c).Grows k :=
  fun b as h => seqOfLoop_grows hk hc _ b as h

theorem octetsG {k} (hk : Factor k) : octetsC.Grows k := by
  intro b a h
  injection h with h
  subst h
  exact Nat.le_mul_of_pos_left _ hk.pos

theorem stringG {k} (hk : Factor k) : stringC.Grows k := by
  intro b a h
  simp only [stringC] at h ⊢
  split at h
  · rename_i s hs
    injection h with h
    subst h
    rw [(utf8Dec_iff _ _).1 hs]
    exact Nat.le_mul_of_pos_left _ hk.pos
  · cases h

theorem intBytes_len (x : Int32) (n : Nat) (h1 : 1 ≤ n) (h : n ≤ 3 → -(128 * 256 ^ (n - 1) : Int) ≤ x.toInt ∧ x.toInt < 128 * 256 ^ (n - 1)) :
    (intBytes x).length ≤ n := by
  have hb : (be32 x.toUInt32).length = 4 := rfl
  unfold intBytes
  dsimp only
  split
  · rw [List.length_drop, hb]; omega
  · split
    · rw [List.length_drop, hb]
      rcases (by omega : n = 1 ∨ 2 ≤ n) with rfl | _
      · have := h (by decide); simp at this; omega
      · omega
    · split
      · rw [List.length_drop, hb]
        rcases (by omega : n = 1 ∨ n = 2 ∨ 3 ≤ n) with rfl | rfl | _
        · have := h (by decide); simp at this; omega
        · have := h (by decide); simp at this; omega
        · omega
      · rw [hb]
        rcases (by omega : n = 1 ∨ n = 2 ∨ n = 3 ∨ 4 ≤ n) with rfl | rfl | rfl | _
        · have := h (by decide); simp at this; omega
        · have := h (by decide); simp at this; omega
        · have := h (by decide); simp at this; omega
        · omega

theorem intBytes_twosVal (b : Bytes) (h1 : 1 ≤ b.length) (h4 : b.length ≤ 4) : (intBytes (Int32.ofInt (twosVal b))).length ≤ b.length := by
  have hr := twosVal_range b h1 h4
  have he : (Int32.ofInt (twosVal b)).toInt = twosVal b := by
    rw [Int32.toInt_ofInt]
    exact Int.bmod_eq_of_le (by simp [Int32.size]; omega) (by simp [Int32.size]; omega)
  refine intBytes_len _ _ h1 fun h3 => ?_
  rw [he]
  clear he hr
  match b, h1, h3 with
  | [a], _, _ => have := a.toNat_lt; simp only [twosVal, beNat, List.foldl_cons, List.foldl_nil, List.length_cons, List.length_nil]; split <;> omega
  | [a, b], _, _ =>
    have := a.toNat_lt; have := b.toNat_lt
    simp only [twosVal, beNat, List.foldl_cons, List.foldl_nil, List.length_cons, List.length_nil]; split <;> omega
  | [a, b, c], _, _ =>
    have := a.toNat_lt; have := b.toNat_lt; have := c.toNat_lt
    simp only [twosVal, beNat, List.foldl_cons, List.foldl_nil, List.length_cons, List.length_nil]; split <;> omega

theorem int32G {k} (hk : Factor k) {g : Cfg} (hg : g.NoShort) : (int32C g).Grows k := by
  intro b a h
  simp only [int32C] at h ⊢
  split at h
  · exact absurd h (hg.emptyInt a)
  · split at h
    · cases h
    · injection h with h
      subst h
      exact Nat.le_trans (intBytes_twosVal b (by omega) (by omega)) (Nat.le_mul_of_pos_left _ hk.pos)

theorem uint32G {k} (hk : Factor k) {g : Cfg} (hg : g.NoShort) : (uint32C g).Grows k := by
  intro b a h
  refine Nat.le_trans ?_ (Nat.le_mul_of_pos_left _ hk.pos)
  simp only [uint32C] at h ⊢
  split at h
  · have : b.length ≠ 0 := by
      intro h0
      rw [List.eq_nil_of_length_eq_zero h0] at h
      exact hg.u32Ext _ h
    have := (intBytes_length a.toInt32).2
    omega
  · injection h with h
    subst h
    rw [Int32.toInt32_toUInt32]
    exact intBytes_twosVal b (by omega) (by omega)

theorem boolG {k} (hk : Factor k) {g : Cfg} (hg : g.NoShort) : (boolC g).Grows k := by
  intro b a h
  refine Nat.le_trans ?_ (Nat.le_mul_of_pos_left _ hk.pos)
  cases b with
  | nil => exact absurd h (hg.boolExt a)
  | cons x b => simp [boolC]

theorem bitsG {k} (hk : Factor k) : bitStringC.Grows k := by
  intro b a h
  refine Nat.le_trans ?_ (Nat.le_mul_of_pos_left _ hk.pos)
  cases b with
  | nil => cases h
  | cons x b => simp only [bitStringC] at h; injection h with h; subst h; simp [bitStringC]

theorem flagsG : flagsC.Grows 5 := by
  intro b a h
  cases b with
  | nil => cases h
  | cons x b =>
    show 5 ≤ _
    simp only [List.length_cons]
    omega

theorem genTimeBytes_length (g : Cfg) (t : DateTime) (h0 : 0 ≤ t.date.year) (h1 : t.date.year ≤ 9999) : (genTimeBytes g t).length = 15 := by
  simp [genTimeBytes, yearBytes, h0, h1, twoDigits]

theorem timeG {k} (hk : Factor k) {g : Cfg} (hg : g.NoShort) : (kerberosTimeC g).Grows k := by
  intro b a h
  refine Nat.le_trans ?_ (Nat.le_mul_of_pos_left _ hk.pos)
  have hb : 15 ≤ b.length ∧ 0 ≤ a.date.year ∧ a.date.year ≤ 9999 := by
    simp only [kerberosTimeC] at h
    split at h
    · rename_i t ht
      injection h with h
      subst h
      have h1 := ((genTimePlain_iff b t).1 ht).1
      refine ⟨?_, h1.2⟩
      have hlen := ht
      unfold genTimePlain at hlen
      split at hlen
      · simp
      · cases hlen
    · exact hg.timeExt b a h
  rw [kerberosTimeC_build, genTimeBytes_length g ⟨a.secs, 0⟩ hb.2.1 hb.2.2]
  exact hb.1

theorem encryptedDataG {k} (hk : Factor k) {g : Cfg} (hg : g.NoShort) : (encryptedDataC g).Grows k :=
  seqG <| imapG _ _ (fun _ => rfl)
    (reqG hk 0 (int32G hk hg)
    (optG hk 1 (uint32G hk hg)
    (reqG hk 2 (octetsG hk)
    (noFields_grows _))))

theorem apRepG {k} (hk : Factor k) {g : Cfg} (hg : g.NoShort) : (apRepC g).Grows k :=
  appG hk <| imapG _ _ (fun _ => rfl)
    (reqG hk 0 (int32G hk hg)
    (reqG hk 1 (int32G hk hg)
    (reqG hk 2 (encryptedDataG hk hg)
    (noFields_grows _))))

theorem principalNameG {k} (hk : Factor k) {g : Cfg} (hg : g.NoShort) : (principalNameC g).Grows k :=
  seqG <| imapG _ _ (fun _ => rfl)
    (reqG hk 0 (int32G hk hg)
    (reqG hk 1 (seqOfG hk (stringG hk))
    (noFields_grows _)))

theorem ticketG {k} (hk : Factor k) {g : Cfg} (hg : g.NoShort) : (ticketC g).Grows k :=
  appG hk <| imapG _ _ (fun _ => rfl)
    (reqG hk 0 (int32G hk hg)
    (reqG hk 1 (stringG hk)
    (reqG hk 2 (principalNameG hk hg)
    (reqG hk 3 (encryptedDataG hk hg)
    (noFields_grows _)))))

theorem apReqG (hk : Factor 5) {g : Cfg} (hg : g.NoShort) : (apReqC g).Grows 5 :=
  appG hk <| imapG _ _ (fun _ => rfl)
    (reqG hk 0 (int32G hk hg)
    (reqG hk 1 (int32G hk hg)
    (reqG hk 2 flagsG
    (reqG hk 3 (ticketG hk hg)
    (reqG hk 4 (encryptedDataG hk hg)
    (noFields_grows _))))))

theorem paDataG {k} (hk : Factor k) {g : Cfg} (hg : g.NoShort) : (paDataC g).Grows k :=
  seqG <| imapG _ _ (fun _ => rfl)
    (reqG hk 1 (int32G hk hg)
    (reqG hk 2 (octetsG hk)
    (noFields_grows _)))

theorem asRepG {k} (hk : Factor k) {g : Cfg} (hg : g.NoShort) : (asRepC g).Grows k :=
  appG hk <| imapG _ _ (fun _ => rfl)
    (reqG hk 0 (int32G hk hg)
    (reqG hk 1 (int32G hk hg)
    (optG hk 2 (seqOfG hk (paDataG hk hg))
    (reqG hk 3 (stringG hk)
    (reqG hk 4 (principalNameG hk hg)
    (reqG hk 5 (ticketG hk hg)
    (reqG hk 6 (encryptedDataG hk hg)
    (noFields_grows _))))))))

theorem hostAddressG {k} (hk : Factor k) {g : Cfg} (hg : g.NoShort) : (hostAddressC g).Grows k :=
  seqG <| imapG _ _ (fun _ => rfl)
    (reqG hk 0 (int32G hk hg)
    (reqG hk 1 (octetsG hk)
    (noFields_grows _)))

theorem kdcReqBodyG (hk : Factor 5) {g : Cfg} (hg : g.NoShort) : (kdcReqBodyC g).Grows 5 :=
  seqG <| imapG _ _ (fun _ => rfl)
    (reqG hk 0 flagsG
    (optG hk 1 (principalNameG hk hg)
    (reqG hk 2 (stringG hk)
    (optG hk 3 (principalNameG hk hg)
    (optG hk 4 (timeG hk hg)
    (reqG hk 5 (timeG hk hg)
    (optG hk 6 (timeG hk hg)
    (reqG hk 7 (uint32G hk hg)
    (reqG hk 8 (seqOfG hk (int32G hk hg))
    (optG hk 9 (seqOfG hk (hostAddressG hk hg))
    (optG hk 10 (encryptedDataG hk hg)
    (optG hk 11 (seqOfG hk (ticketG hk hg))
    (noFields_grows _)))))))))))))

theorem asReqG (hk : Factor 5) {g : Cfg} (hg : g.NoShort) : (asReqC g).Grows 5 :=
  appG hk <| imapG _ _ (fun _ => rfl)
    (reqG hk 1 (int32G hk hg)
    (reqG hk 2 (int32G hk hg)
    (optG hk 3 (seqOfG hk (paDataG hk hg))
    (reqG hk 4 (kdcReqBodyG hk hg)
    (noFields_grows _)))))

theorem checksumG {k} (hk : Factor k) {g : Cfg} (hg : g.NoShort) : (checksumC g).Grows k :=
  seqG <| imapG _ _ (fun _ => rfl)
    (reqG hk 0 (int32G hk hg)
    (reqG hk 1 (octetsG hk)
    (noFields_grows _)))

theorem encryptionKeyG {k} (hk : Factor k) {g : Cfg} (hg : g.NoShort) : (encryptionKeyC g).Grows k :=
  seqG <| imapG _ _ (fun _ => rfl)
    (reqG hk 0 (int32G hk hg)
    (reqG hk 1 (octetsG hk)
    (noFields_grows _)))

theorem authorizationDataEntryG {k} (hk : Factor k) {g : Cfg} (hg : g.NoShort) : (authorizationDataEntryC g).Grows k :=
  seqG <| imapG _ _ (fun _ => rfl)
    (reqG hk 0 (int32G hk hg)
    (reqG hk 1 (octetsG hk)
    (noFields_grows _)))

theorem authenticatorG {k} (hk : Factor k) {g : Cfg} (hg : g.NoShort) : (authenticatorC g).Grows k :=
  appG hk <| imapG _ _ (fun _ => rfl)
    (reqG hk 0 (int32G hk hg)
    (reqG hk 1 (stringG hk)
    (reqG hk 2 (principalNameG hk hg)
    (optG hk 3 (checksumG hk hg)
    (reqG hk 4 (int32G hk hg)
    (reqG hk 5 (timeG hk hg)
    (optG hk 6 (encryptionKeyG hk hg)
    (optG hk 7 (uint32G hk hg)
    (optG hk 8 (seqOfG hk (authorizationDataEntryG hk hg))
    (noFields_grows _))))))))))

theorem encApRepPartG {k} (hk : Factor k) {g : Cfg} (hg : g.NoShort) : (encApRepPartC g).Grows k :=
  appG hk <| imapG _ _ (fun _ => rfl)
    (reqG hk 0 (timeG hk hg)
    (reqG hk 1 (int32G hk hg)
    (reqG hk 2 (encryptionKeyG hk hg)
    (reqG hk 3 (uint32G hk hg)
    (noFields_grows _)))))

theorem lastReqEntryG {k} (hk : Factor k) {g : Cfg} (hg : g.NoShort) : (lastReqEntryC g).Grows k :=
  seqG <| imapG _ _ (fun _ => rfl)
    (reqG hk 0 (int32G hk hg)
    (reqG hk 1 (timeG hk hg)
    (noFields_grows _)))

theorem encAsRepPartG (hk : Factor 5) {g : Cfg} (hg : g.NoShort) : (encAsRepPartC g).Grows 5 :=
  appG hk <| imapG _ _ (fun _ => rfl)
    (reqG hk 0 (encryptionKeyG hk hg)
    (reqG hk 1 (seqOfG hk (lastReqEntryG hk hg))
    (reqG hk 2 (uint32G hk hg)
    (optG hk 3 (timeG hk hg)
    (reqG hk 4 flagsG
    (reqG hk 5 (timeG hk hg)
    (optG hk 6 (timeG hk hg)
    (reqG hk 7 (timeG hk hg)
    (optG hk 8 (timeG hk hg)
    (reqG hk 9 (stringG hk)
    (reqG hk 10 (principalNameG hk hg)
    (optG hk 11 (seqOfG hk (hostAddressG hk hg))
    (optG hk 12 (seqOfG hk (paDataG hk hg))
    (noFields_grows _))))))))))))))

theorem encKdcRepPartG (hk : Factor 5) {g : Cfg} (hg : g.NoShort) : (encKdcRepPartC g).Grows 5 :=
  seqG <| imapG _ _ (fun _ => rfl)
    (reqG hk 0 (encryptionKeyG hk hg)
    (reqG hk 1 (seqOfG hk (lastReqEntryG hk hg))
    (reqG hk 2 (uint32G hk hg)
    (optG hk 3 (timeG hk hg)
    (reqG hk 4 flagsG
    (reqG hk 5 (timeG hk hg)
    (optG hk 6 (timeG hk hg)
    (reqG hk 7 (timeG hk hg)
    (optG hk 8 (timeG hk hg)
    (reqG hk 9 (stringG hk)
    (reqG hk 10 (principalNameG hk hg)
    (optG hk 11 (seqOfG hk (hostAddressG hk hg))
    (optG hk 12 (seqOfG hk (paDataG hk hg))
    (noFields_grows _))))))))))))))

theorem krbCredInfoG (hk : Factor 5) {g : Cfg} (hg : g.NoShort) : (krbCredInfoC g).Grows 5 :=
  seqG <| imapG _ _ (fun _ => rfl)
    (reqG hk 0 (encryptionKeyG hk hg)
    (optG hk 1 (stringG hk)
    (optG hk 2 (principalNameG hk hg)
    (optG hk 3 flagsG
    (optG hk 4 (timeG hk hg)
    (optG hk 5 (timeG hk hg)
    (optG hk 6 (timeG hk hg)
    (optG hk 7 (timeG hk hg)
    (optG hk 8 (stringG hk)
    (optG hk 9 (principalNameG hk hg)
    (optG hk 10 (seqOfG hk (hostAddressG hk hg))
    (noFields_grows _))))))))))))

theorem encKrbCredPartG (hk : Factor 5) {g : Cfg} (hg : g.NoShort) : (encKrbCredPartC g).Grows 5 :=
  appG hk <| imapG _ _ (fun _ => rfl)
    (reqG hk 0 (seqOfG hk (krbCredInfoG hk hg))
    (optG hk 1 (uint32G hk hg)
    (optG hk 2 (timeG hk hg)
    (optG hk 3 (int32G hk hg)
    (optG hk 4 (hostAddressG hk hg)
    (optG hk 5 (hostAddressG hk hg)
    (noFields_grows _)))))))

theorem encKrbPrivPartG {k} (hk : Factor k) {g : Cfg} (hg : g.NoShort) : (encKrbPrivPartC g).Grows k :=
  appG hk <| imapG _ _ (fun _ => rfl)
    (reqG hk 0 (octetsG hk)
    (optG hk 1 (timeG hk hg)
    (optG hk 2 (int32G hk hg)
    (optG hk 3 (uint32G hk hg)
    (reqG hk 4 (hostAddressG hk hg)
    (optG hk 5 (hostAddressG hk hg)
    (noFields_grows _)))))))

theorem encTgsRepPartG (hk : Factor 5) {g : Cfg} (hg : g.NoShort) : (encTgsRepPartC g).Grows 5 :=
  appG hk <| imapG _ _ (fun _ => rfl)
    (reqG hk 0 (encryptionKeyG hk hg)
    (reqG hk 1 (seqOfG hk (lastReqEntryG hk hg))
    (reqG hk 2 (uint32G hk hg)
    (optG hk 3 (timeG hk hg)
    (reqG hk 4 flagsG
    (reqG hk 5 (timeG hk hg)
    (optG hk 6 (timeG hk hg)
    (reqG hk 7 (timeG hk hg)
    (optG hk 8 (timeG hk hg)
    (reqG hk 9 (stringG hk)
    (reqG hk 10 (principalNameG hk hg)
    (optG hk 11 (seqOfG hk (hostAddressG hk hg))
    (optG hk 12 (seqOfG hk (paDataG hk hg))
    (noFields_grows _))))))))))))))

theorem transitedEncodingG {k} (hk : Factor k) {g : Cfg} (hg : g.NoShort) : (transitedEncodingC g).Grows k :=
  seqG <| imapG _ _ (fun _ => rfl)
    (reqG hk 0 (int32G hk hg)
    (reqG hk 1 (octetsG hk)
    (noFields_grows _)))

theorem encTicketPartG (hk : Factor 5) {g : Cfg} (hg : g.NoShort) : (encTicketPartC g).Grows 5 :=
  appG hk <| imapG _ _ (fun _ => rfl)
    (reqG hk 0 flagsG
    (reqG hk 1 (encryptionKeyG hk hg)
    (reqG hk 2 (stringG hk)
    (reqG hk 3 (principalNameG hk hg)
    (reqG hk 4 (transitedEncodingG hk hg)
    (reqG hk 5 (timeG hk hg)
    (optG hk 6 (timeG hk hg)
    (reqG hk 7 (timeG hk hg)
    (optG hk 8 (timeG hk hg)
    (optG hk 9 (seqOfG hk (hostAddressG hk hg))
    (optG hk 10 (seqOfG hk (authorizationDataEntryG hk hg))
    (noFields_grows _))))))))))))

theorem kdcReqG (hk : Factor 5) {g : Cfg} (hg : g.NoShort) : (kdcReqC g).Grows 5 :=
  seqG <| imapG _ _ (fun _ => rfl)
    (reqG hk 1 (int32G hk hg)
    (reqG hk 2 (int32G hk hg)
    (optG hk 3 (seqOfG hk (paDataG hk hg))
    (reqG hk 4 (kdcReqBodyG hk hg)
    (noFields_grows _)))))

theorem kerbAdRestrictionEntryG {k} (hk : Factor k) {g : Cfg} (hg : g.NoShort) : (kerbAdRestrictionEntryC g).Grows k :=
  seqG <| imapG _ _ (fun _ => rfl)
    (reqG hk 0 (int32G hk hg)
    (reqG hk 1 (octetsG hk)
    (noFields_grows _)))

theorem kerbErrorDataG {k} (hk : Factor k) {g : Cfg} (hg : g.NoShort) : (kerbErrorDataC g).Grows k :=
  seqG <| imapG _ _ (fun _ => rfl)
    (reqG hk 1 (int32G hk hg)
    (optG hk 2 (octetsG hk)
    (noFields_grows _)))

theorem krbCredG {k} (hk : Factor k) {g : Cfg} (hg : g.NoShort) : (krbCredC g).Grows k :=
  appG hk <| imapG _ _ (fun _ => rfl)
    (reqG hk 0 (int32G hk hg)
    (reqG hk 1 (int32G hk hg)
    (reqG hk 2 (seqOfG hk (ticketG hk hg))
    (reqG hk 3 (encryptedDataG hk hg)
    (noFields_grows _)))))

theorem krbErrorG {k} (hk : Factor k) {g : Cfg} (hg : g.NoShort) : (krbErrorC g).Grows k :=
  appG hk <| imapG _ _ (fun _ => rfl)
    (reqG hk 0 (int32G hk hg)
    (reqG hk 1 (int32G hk hg)
    (optG hk 2 (timeG hk hg)
    (optG hk 3 (int32G hk hg)
    (reqG hk 4 (timeG hk hg)
    (reqG hk 5 (int32G hk hg)
    (reqG hk 6 (int32G hk hg)
    (optG hk 7 (stringG hk)
    (optG hk 8 (principalNameG hk hg)
    (reqG hk 9 (stringG hk)
    (reqG hk 10 (principalNameG hk hg)
    (optG hk 11 (stringG hk)
    (optG hk 12 (octetsG hk)
    (noFields_grows _))))))))))))))

theorem krbPrivG {k} (hk : Factor k) {g : Cfg} (hg : g.NoShort) : (krbPrivC g).Grows k :=
  appG hk <| imapG _ _ (fun _ => rfl)
    (reqG hk 0 (int32G hk hg)
    (reqG hk 1 (int32G hk hg)
    (reqG hk 3 (encryptedDataG hk hg)
    (noFields_grows _))))

theorem krbSafeBodyG {k} (hk : Factor k) {g : Cfg} (hg : g.NoShort) : (krbSafeBodyC g).Grows k :=
  seqG <| imapG _ _ (fun _ => rfl)
    (reqG hk 0 (octetsG hk)
    (optG hk 1 (timeG hk hg)
    (optG hk 2 (int32G hk hg)
    (optG hk 3 (uint32G hk hg)
    (reqG hk 4 (hostAddressG hk hg)
    (optG hk 5 (hostAddressG hk hg)
    (noFields_grows _)))))))

theorem krbSafeG {k} (hk : Factor k) {g : Cfg} (hg : g.NoShort) : (krbSafeC g).Grows k :=
  appG hk <| imapG _ _ (fun _ => rfl)
    (reqG hk 0 (int32G hk hg)
    (reqG hk 1 (int32G hk hg)
    (reqG hk 2 (krbSafeBodyG hk hg)
    (reqG hk 3 (checksumG hk hg)
    (noFields_grows _)))))

theorem adAndOrG {k} (hk : Factor k) {g : Cfg} (hg : g.NoShort) : (adAndOrC g).Grows k :=
  seqG <| imapG _ _ (fun _ => rfl)
    (reqG hk 0 (int32G hk hg)
    (reqG hk 1 (seqOfG hk (authorizationDataEntryG hk hg))
    (noFields_grows _)))

theorem adKdcIssuedG {k} (hk : Factor k) {g : Cfg} (hg : g.NoShort) : (adKdcIssuedC g).Grows k :=
  seqG <| imapG _ _ (fun _ => rfl)
    (reqG hk 0 (checksumG hk hg)
    (optG hk 1 (stringG hk)
    (optG hk 2 (principalNameG hk hg)
    (reqG hk 3 (seqOfG hk (authorizationDataEntryG hk hg))
    (noFields_grows _)))))

theorem etypeInfo2EntryG {k} (hk : Factor k) {g : Cfg} (hg : g.NoShort) : (etypeInfo2EntryC g).Grows k :=
  seqG <| imapG _ _ (fun _ => rfl)
    (reqG hk 0 (int32G hk hg)
    (optG hk 1 (stringG hk)
    (optG hk 2 (octetsG hk)
    (noFields_grows _))))

theorem etypeInfoEntryG {k} (hk : Factor k) {g : Cfg} (hg : g.NoShort) : (etypeInfoEntryC g).Grows k :=
  seqG <| imapG _ _ (fun _ => rfl)
    (reqG hk 0 (int32G hk hg)
    (optG hk 1 (octetsG hk)
    (noFields_grows _)))

theorem kerbPaPacRequestG {k} (hk : Factor k) {g : Cfg} (hg : g.NoShort) : (kerbPaPacRequestC g).Grows k :=
  seqG <| imapG _ _ (fun _ => rfl)
    (reqG hk 0 (boolG hk hg)
    (noFields_grows _))

theorem paEncTsEncG {k} (hk : Factor k) {g : Cfg} (hg : g.NoShort) : (paEncTsEncC g).Grows k :=
  seqG <| imapG _ _ (fun _ => rfl)
    (reqG hk 0 (timeG hk hg)
    (optG hk 1 (int32G hk hg)
    (noFields_grows _)))

theorem paForUserG {k} (hk : Factor k) {g : Cfg} (hg : g.NoShort) : (paForUserC g).Grows k :=
  seqG <| imapG _ _ (fun _ => rfl)
    (reqG hk 0 (principalNameG hk hg)
    (reqG hk 1 (stringG hk)
    (reqG hk 2 (checksumG hk hg)
    (reqG hk 3 (stringG hk)
    (noFields_grows _)))))

theorem paPacOptionsG (hk : Factor 5) {g : Cfg} (hg : g.NoShort) : (paPacOptionsC g).Grows 5 :=
  seqG <| imapG _ _ (fun _ => rfl)
    (reqG hk 0 flagsG
    (noFields_grows _))

theorem s4uUserIdG {k} (hk : Factor k) {g : Cfg} (hg : g.NoShort) : (s4uUserIdC g).Grows k :=
  seqG <| imapG _ _ (fun _ => rfl)
    (reqG hk 0 (uint32G hk hg)
    (optG hk 1 (principalNameG hk hg)
    (reqG hk 2 (stringG hk)
    (optG hk 3 (octetsG hk)
    (optG hk 4 (bitsG hk)
    (noFields_grows _))))))

theorem paS4uX509UserG {k} (hk : Factor k) {g : Cfg} (hg : g.NoShort) : (paS4uX509UserC g).Grows k :=
  seqG <| imapG _ _ (fun _ => rfl)
    (reqG hk 0 (s4uUserIdG hk hg)
    (reqG hk 1 (checksumG hk hg)
    (noFields_grows _)))

theorem tgsRepG {k} (hk : Factor k) {g : Cfg} (hg : g.NoShort) : (tgsRepC g).Grows k :=
  appG hk <| imapG _ _ (fun _ => rfl)
    (reqG hk 0 (int32G hk hg)
    (reqG hk 1 (int32G hk hg)
    (optG hk 2 (seqOfG hk (paDataG hk hg))
    (reqG hk 3 (stringG hk)
    (reqG hk 4 (principalNameG hk hg)
    (reqG hk 5 (ticketG hk hg)
    (reqG hk 6 (encryptedDataG hk hg)
    (noFields_grows _))))))))

theorem tgsReqG (hk : Factor 5) {g : Cfg} (hg : g.NoShort) : (tgsReqC g).Grows 5 :=
  appG hk <| imapG _ _ (fun _ => rfl)
    (reqG hk 1 (int32G hk hg)
    (reqG hk 2 (int32G hk hg)
    (optG hk 3 (seqOfG hk (paDataG hk hg))
    (reqG hk 4 (kdcReqBodyG hk hg)
    (noFields_grows _)))))

theorem typedDataEntryG {k} (hk : Factor k) {g : Cfg} (hg : g.NoShort) : (typedDataEntryC g).Grows k :=
  seqG <| imapG _ _ (fun _ => rfl)
    (reqG hk 0 (int32G hk hg)
    (optG hk 1 (octetsG hk)
    (noFields_grows _)))

/-- the message types with KerberosFlags in them, directly or further in -/
def MsgType.hasFlags : MsgType → Bool
  | .apReq => true
  | .kdcReqBody => true
  | .asReq => true
  | .encAsRepPart => true
  | .encKdcRepPart => true
  | .krbCredInfo => true
  | .encKrbCredPart => true
  | .encTgsRepPart => true
  | .encTicketPart => true
  | .kdcReq => true
  | .paPacOptions => true
  | .tgsReq => true
  | .kerberosFlags => true
  | _ => false

theorem MsgType.grows5 (hk : Factor 5) {g : Cfg} (hg : g.NoShort) : (T : MsgType) → (T.codec g).Grows 5
  | .encryptedData => (encryptedDataG hk hg)
  | .apRep => (apRepG hk hg)
  | .principalName => (principalNameG hk hg)
  | .ticket => (ticketG hk hg)
  | .apReq => (apReqG hk hg)
  | .paData => (paDataG hk hg)
  | .asRep => (asRepG hk hg)
  | .hostAddress => (hostAddressG hk hg)
  | .kdcReqBody => (kdcReqBodyG hk hg)
  | .asReq => (asReqG hk hg)
  | .checksum => (checksumG hk hg)
  | .encryptionKey => (encryptionKeyG hk hg)
  | .authorizationDataEntry => (authorizationDataEntryG hk hg)
  | .authenticator => (authenticatorG hk hg)
  | .encApRepPart => (encApRepPartG hk hg)
  | .lastReqEntry => (lastReqEntryG hk hg)
  | .encAsRepPart => (encAsRepPartG hk hg)
  | .encKdcRepPart => (encKdcRepPartG hk hg)
  | .krbCredInfo => (krbCredInfoG hk hg)
  | .encKrbCredPart => (encKrbCredPartG hk hg)
  | .encKrbPrivPart => (encKrbPrivPartG hk hg)
  | .encTgsRepPart => (encTgsRepPartG hk hg)
  | .transitedEncoding => (transitedEncodingG hk hg)
  | .encTicketPart => (encTicketPartG hk hg)
  | .kdcReq => (kdcReqG hk hg)
  | .kerbAdRestrictionEntry => (kerbAdRestrictionEntryG hk hg)
  | .kerbErrorData => (kerbErrorDataG hk hg)
  | .krbCred => (krbCredG hk hg)
  | .krbError => (krbErrorG hk hg)
  | .krbPriv => (krbPrivG hk hg)
  | .krbSafeBody => (krbSafeBodyG hk hg)
  | .krbSafe => (krbSafeG hk hg)
  | .adAndOr => (adAndOrG hk hg)
  | .adKdcIssued => (adKdcIssuedG hk hg)
  | .etypeInfo2Entry => (etypeInfo2EntryG hk hg)
  | .etypeInfoEntry => (etypeInfoEntryG hk hg)
  | .kerbPaPacRequest => (kerbPaPacRequestG hk hg)
  | .paEncTsEnc => (paEncTsEncG hk hg)
  | .paForUser => (paForUserG hk hg)
  | .paPacOptions => (paPacOptionsG hk hg)
  | .s4uUserId => (s4uUserIdG hk hg)
  | .paS4uX509User => (paS4uX509UserG hk hg)
  | .tgsRep => (tgsRepG hk hg)
  | .tgsReq => (tgsReqG hk hg)
  | .typedDataEntry => (typedDataEntryG hk hg)
  | .hostAddresses => (seqOfG hk (hostAddressG hk hg))
  | .authorizationData => (seqOfG hk (authorizationDataEntryG hk hg))
  | .lastReq => (seqOfG hk (lastReqEntryG hk hg))
  | .typedData => (seqOfG hk (typedDataEntryG hk hg))
  | .etypeInfo => (seqOfG hk (etypeInfoEntryG hk hg))
  | .etypeInfo2 => (seqOfG hk (etypeInfo2EntryG hk hg))
  | .methodData => (seqOfG hk (paDataG hk hg))
  | .kerbKeyListRep => (seqOfG hk (encryptionKeyG hk hg))
  | .kerbKeyListReq => (seqOfG hk (int32G hk hg))
  | .kerbLocal => (octetsG hk)
  | .realm => (stringG hk)
  | .int32 => (int32G hk hg)
  | .kerberosFlags => flagsG
  | .kerberosTime => (timeG hk hg)
  | .uInt32 => (uint32G hk hg)

set_option linter.unusedVariables false in
theorem MsgType.grows1 (hk : Factor 1) {g : Cfg} (hg : g.NoShort) : (T : MsgType) → T.hasFlags ≠ true → (T.codec g).Grows 1
  | .encryptedData, h => (encryptedDataG hk hg)
  | .apRep, h => (apRepG hk hg)
  | .principalName, h => (principalNameG hk hg)
  | .ticket, h => (ticketG hk hg)
  | .apReq, h => absurd rfl h
  | .paData, h => (paDataG hk hg)
  | .asRep, h => (asRepG hk hg)
  | .hostAddress, h => (hostAddressG hk hg)
  | .kdcReqBody, h => absurd rfl h
  | .asReq, h => absurd rfl h
  | .checksum, h => (checksumG hk hg)
  | .encryptionKey, h => (encryptionKeyG hk hg)
  | .authorizationDataEntry, h => (authorizationDataEntryG hk hg)
  | .authenticator, h => (authenticatorG hk hg)
  | .encApRepPart, h => (encApRepPartG hk hg)
  | .lastReqEntry, h => (lastReqEntryG hk hg)
  | .encAsRepPart, h => absurd rfl h
  | .encKdcRepPart, h => absurd rfl h
  | .krbCredInfo, h => absurd rfl h
  | .encKrbCredPart, h => absurd rfl h
  | .encKrbPrivPart, h => (encKrbPrivPartG hk hg)
  | .encTgsRepPart, h => absurd rfl h
  | .transitedEncoding, h => (transitedEncodingG hk hg)
  | .encTicketPart, h => absurd rfl h
  | .kdcReq, h => absurd rfl h
  | .kerbAdRestrictionEntry, h => (kerbAdRestrictionEntryG hk hg)
  | .kerbErrorData, h => (kerbErrorDataG hk hg)
  | .krbCred, h => (krbCredG hk hg)
  | .krbError, h => (krbErrorG hk hg)
  | .krbPriv, h => (krbPrivG hk hg)
  | .krbSafeBody, h => (krbSafeBodyG hk hg)
  | .krbSafe, h => (krbSafeG hk hg)
  | .adAndOr, h => (adAndOrG hk hg)
  | .adKdcIssued, h => (adKdcIssuedG hk hg)
  | .etypeInfo2Entry, h => (etypeInfo2EntryG hk hg)
  | .etypeInfoEntry, h => (etypeInfoEntryG hk hg)
  | .kerbPaPacRequest, h => (kerbPaPacRequestG hk hg)
  | .paEncTsEnc, h => (paEncTsEncG hk hg)
  | .paForUser, h => (paForUserG hk hg)
  | .paPacOptions, h => absurd rfl h
  | .s4uUserId, h => (s4uUserIdG hk hg)
  | .paS4uX509User, h => (paS4uX509UserG hk hg)
  | .tgsRep, h => (tgsRepG hk hg)
  | .tgsReq, h => absurd rfl h
  | .typedDataEntry, h => (typedDataEntryG hk hg)
  | .hostAddresses, h => (seqOfG hk (hostAddressG hk hg))
  | .authorizationData, h => (seqOfG hk (authorizationDataEntryG hk hg))
  | .lastReq, h => (seqOfG hk (lastReqEntryG hk hg))
  | .typedData, h => (seqOfG hk (typedDataEntryG hk hg))
  | .etypeInfo, h => (seqOfG hk (etypeInfoEntryG hk hg))
  | .etypeInfo2, h => (seqOfG hk (etypeInfo2EntryG hk hg))
  | .methodData, h => (seqOfG hk (paDataG hk hg))
  | .kerbKeyListRep, h => (seqOfG hk (encryptionKeyG hk hg))
  | .kerbKeyListReq, h => (seqOfG hk (int32G hk hg))
  | .kerbLocal, h => (octetsG hk)
  | .realm, h => (stringG hk)
  | .int32, h => (int32G hk hg)
  | .kerberosFlags, h => absurd rfl h
  | .kerberosTime, h => (timeG hk hg)
  | .uInt32, h => (uint32G hk hg)

end Verif.Asn1

import Verif.Utf8
/-
`String::from_utf8_lossy` of the standard library (library/core/src/str/lossy.rs, `Utf8Chunks::next`), used by
kerberos_ccache/src/mappers/address_mapper.rs:11 and kerbeiros/src/mappers/address_mapper.rs:14.
-/
namespace Verif

/-- `TAG_CONT_U8` test of a byte, `safe_get` gives 0 behind the end -/
def contAt (b : Bytes) (i : Nat) : Bool := 0x80 ≤ (b.getD i 0).toNat && (b.getD i 0).toNat < 0xc0

/-- `Utf8Chunks::next`: how many bytes one replacement character stands for, at the start of bytes that begin no
character: the first and those that could still have belonged to one character with it -/
def badLen : Bytes → Nat
  | [] => 0
  | b0 :: r =>
    let b1 := (r.getD 0 0).toNat
    if 0xe0 ≤ b0.toNat ∧ b0.toNat < 0xf0 then
      if (b0.toNat = 0xe0 ∧ 0xa0 ≤ b1 ∧ b1 < 0xc0) ∨ (0xe1 ≤ b0.toNat ∧ b0.toNat ≤ 0xec ∧ 0x80 ≤ b1 ∧ b1 < 0xc0)
          ∨ (b0.toNat = 0xed ∧ 0x80 ≤ b1 ∧ b1 < 0xa0) ∨ (0xee ≤ b0.toNat ∧ 0x80 ≤ b1 ∧ b1 < 0xc0) then 2
      else 1
    else if 0xf0 ≤ b0.toNat ∧ b0.toNat < 0xf5 then
      if (b0.toNat = 0xf0 ∧ 0x90 ≤ b1 ∧ b1 < 0xc0) ∨ (0xf1 ≤ b0.toNat ∧ b0.toNat ≤ 0xf3 ∧ 0x80 ≤ b1 ∧ b1 < 0xc0)
          ∨ (b0.toNat = 0xf4 ∧ 0x80 ≤ b1 ∧ b1 < 0x90) then (if contAt r 1 then 3 else 2)
      else 1
    else 1

/-- loop of `String::from_utf8_lossy`; every round consumes a byte, so `length` rounds are enough -/
def lossyFuel : Nat → Bytes → List Char
  | _, [] => []
  | 0, _ => []
  | n + 1, b => match utf8Dec1 b with
    | some (c, r) => c :: lossyFuel n r
    | none => '\uFFFD' :: lossyFuel n (b.drop (badLen b))

/-- std `String::from_utf8_lossy` -/
def utf8Lossy (b : Bytes) : List Char := lossyFuel b.length b

/-! ### Specification -/

/-- Unicode 15, section 3.9, "U+FFFD substitution of maximal subparts": each maximal part of an ill-formed sequence that
begins a character, or else each single byte, is replaced by U+FFFD. -/
inductive IsLossy : Bytes → List Char → Prop
  | nil : IsLossy [] []
  | char (c b s) : IsLossy b s → IsLossy (utf8Char c ++ b) (c :: s)
  | bad (p b s) (hne : p ≠ [])
      (hno : ∀ c, ¬ utf8Char c <+: p ++ b)
      (hpart : p.length = 1 ∨ ∃ c, p <+: utf8Char c)
      (hmax : ∀ q, q <+: p ++ b → p.length < q.length → ∀ c, ¬ q <+: utf8Char c) :
      IsLossy b s → IsLossy (p ++ b) ('\uFFFD' :: s)

theorem utf8Dec1_none_iff (b : Bytes) : utf8Dec1 b = none ↔ ∀ c, ¬ utf8Char c <+: b := by
  constructor
  · rintro h c ⟨r, rfl⟩
    rw [utf8Dec1_enc] at h; cases h
  · intro h
    cases hd : utf8Dec1 b with
    | none => rfl
    | some x =>
      obtain ⟨c, r⟩ := x
      exact absurd ⟨r, (utf8Dec1_exact hd).symm⟩ (h c)

theorem charOf_valid {n : Nat} (h : n < 0xd800 ∨ 0xdfff < n ∧ n < 0x110000) : ∃ c, charOf n = some c := by
  unfold charOf
  rw [dif_pos h]
  exact ⟨_, rfl⟩

theorem contBits_of {b : UInt8} (h : 0x80 ≤ b.toNat ∧ b.toNat < 0xc0) : contBits b = some (b.toNat - 0x80) := if_pos h

/-- the second byte of a three-byte character -/
def second3 (x y : Nat) : Prop :=
  (x = 0xe0 ∧ 0xa0 ≤ y ∧ y < 0xc0) ∨ (0xe1 ≤ x ∧ x ≤ 0xec ∧ 0x80 ≤ y ∧ y < 0xc0)
          ∨ (x = 0xed ∧ 0x80 ≤ y ∧ y < 0xa0) ∨ (0xee ≤ x ∧ 0x80 ≤ y ∧ y < 0xc0)
/-- the second byte of a four-byte character -/
def second4 (x y : Nat) : Prop :=
  (x = 0xf0 ∧ 0x90 ≤ y ∧ y < 0xc0) ∨ (0xf1 ≤ x ∧ x ≤ 0xf3 ∧ 0x80 ≤ y ∧ y < 0xc0)
          ∨ (x = 0xf4 ∧ 0x80 ≤ y ∧ y < 0x90)

theorem three_char (b0 b1 b2 : UInt8) (h0 : 0xe0 ≤ b0.toNat ∧ b0.toNat < 0xf0) (h1 : second3 b0.toNat b1.toNat)
    (h2 : 0x80 ≤ b2.toNat ∧ b2.toNat < 0xc0) : ∃ c, utf8Char c = [b0, b1, b2] := by
  have h1' : 0x80 ≤ b1.toNat ∧ b1.toNat < 0xc0 := by unfold second3 at h1; omega
  obtain ⟨c, hc⟩ := charOf_valid (n := (b0.toNat - 0xe0) * 0x1000 + (b1.toNat - 0x80) * 0x40 + (b2.toNat - 0x80))
    (by unfold second3 at h1; omega)
  refine ⟨c, ?_⟩
  have : utf8Dec1 [b0, b1, b2] = some (c, []) := by
    unfold utf8Dec1
    simp only [contBits_of h1', contBits_of h2]
    rw [if_neg (by omega), if_neg (by omega), if_pos h0, if_neg (by unfold second3 at h1; omega), hc]
    rfl
  simpa using (utf8Dec1_exact this).symm

theorem four_char (b0 b1 b2 b3 : UInt8) (h0 : 0xf0 ≤ b0.toNat ∧ b0.toNat < 0xf5) (h1 : second4 b0.toNat b1.toNat)
    (h2 : 0x80 ≤ b2.toNat ∧ b2.toNat < 0xc0) (h3 : 0x80 ≤ b3.toNat ∧ b3.toNat < 0xc0) :
    ∃ c, utf8Char c = [b0, b1, b2, b3] := by
  have h1' : 0x80 ≤ b1.toNat ∧ b1.toNat < 0xc0 := by unfold second4 at h1; omega
  obtain ⟨c, hc⟩ := charOf_valid (n := (b0.toNat - 0xf0) * 0x40000 + (b1.toNat - 0x80) * 0x1000 + (b2.toNat - 0x80) * 0x40
      + (b3.toNat - 0x80)) (by unfold second4 at h1; omega)
  refine ⟨c, ?_⟩
  have : utf8Dec1 [b0, b1, b2, b3] = some (c, []) := by
    unfold utf8Dec1
    simp only [contBits_of h1', contBits_of h2, contBits_of h3]
    rw [if_neg (by omega), if_neg (by omega), if_neg (by omega), if_pos (by omega), if_neg (by unfold second4 at h1; omega), hc]
    rfl
  simpa using (utf8Dec1_exact this).symm

/-- the shape of a character: its length and byte ranges -/
theorem utf8Char_shape (c : Char) :
    (∃ x, utf8Char c = [x] ∧ x.toNat < 0x80) ∨
    (∃ x y, utf8Char c = [x, y] ∧ 0xc2 ≤ x.toNat ∧ x.toNat < 0xe0 ∧ 0x80 ≤ y.toNat ∧ y.toNat < 0xc0) ∨
    (∃ x y z, utf8Char c = [x, y, z] ∧ 0xe0 ≤ x.toNat ∧ x.toNat < 0xf0 ∧ second3 x.toNat y.toNat ∧
      0x80 ≤ z.toNat ∧ z.toNat < 0xc0) ∨
    (∃ x y z w, utf8Char c = [x, y, z, w] ∧ 0xf0 ≤ x.toNat ∧ x.toNat < 0xf5 ∧ second4 x.toNat y.toNat ∧
      0x80 ≤ z.toNat ∧ z.toNat < 0xc0 ∧ 0x80 ≤ w.toNat ∧ w.toNat < 0xc0) := by
  have hv : c.val.toNat < 0xd800 ∨ 0xdfff < c.val.toNat ∧ c.val.toNat < 0x110000 := c.valid
  unfold utf8Char
  simp only
  generalize c.val.toNat = n at hv
  split
  · exact .inl ⟨_, rfl, by simp only [u8_toNat_ofNat]; omega⟩
  split
  · exact .inr (.inl ⟨_, _, rfl, by simp only [u8_toNat_ofNat]; omega⟩)
  split
  · exact .inr (.inr (.inl ⟨_, _, _, rfl, by simp only [u8_toNat_ofNat, second3]; omega⟩))
  · exact .inr (.inr (.inr ⟨_, _, _, _, rfl, by simp only [u8_toNat_ofNat, second4]; omega⟩))

theorem prefix_of_cons {q : Bytes} {x : UInt8} {l : Bytes} (h : q <+: x :: l) (hq : 0 < q.length) :
    ∃ t, q = x :: t ∧ t <+: l := by
  rcases List.prefix_cons_iff.1 h with rfl | h
  · simp at hq
  · exact h

theorem cons_prefix {x : UInt8} {t b : Bytes} (h : x :: t <+: b) : ∃ r, b = x :: r ∧ t <+: r := by
  obtain ⟨s, rfl⟩ := h
  exact ⟨t ++ s, rfl, ⟨s, rfl⟩⟩

theorem badLen_max {b : Bytes} (hn : utf8Dec1 b = none) (q : Bytes) (hq : q <+: b) (hl : badLen b < q.length) (c : Char) :
    ¬ q <+: utf8Char c := by
  intro hc
  rw [utf8Dec1_none_iff] at hn
  have hfull : q.length < (utf8Char c).length := by
    rcases Nat.lt_or_ge q.length (utf8Char c).length with h | h
    · exact h
    · exact absurd (List.IsPrefix.eq_of_length_le hc h ▸ hq) (hn c)
  cases b with
  | nil => simp at hq; subst hq; simp at hl
  | cons b0 r =>
    have h1 : 1 ≤ badLen (b0 :: r) := by
      unfold badLen
      simp only
      split
      · split <;> decide
      · split
        · split
          · split <;> decide
          · decide
        · decide
    obtain ⟨t, rfl, ht⟩ := prefix_of_cons hq (by omega)
    simp only [List.length_cons] at hl hfull
    cases t with
    | nil => simp at hl; omega
    | cons y t =>
      obtain ⟨r', rfl, ht'⟩ := cons_prefix ht
      rcases utf8Char_shape c with ⟨x, e, -⟩ | ⟨x, y', e, -⟩ | ⟨x, y', z, e, h⟩ | ⟨x, y', z, w, e, h⟩
      · rw [e] at hfull; simp at hfull
      · rw [e] at hfull; simp at hfull; omega
      · rw [e] at hfull hc
        simp only [List.cons_prefix_cons] at hc
        obtain ⟨rfl, rfl, -⟩ := hc
        have : badLen (b0 :: y :: r') = 2 := by
          unfold badLen
          simp only
          rw [if_pos ⟨h.1, h.2.1⟩]
          exact if_pos h.2.2.1
        rw [this] at hl
        simp at hl hfull
        omega
      · rw [e] at hfull hc
        simp only [List.cons_prefix_cons] at hc
        obtain ⟨rfl, rfl, hc⟩ := hc
        have hb : badLen (b0 :: y :: r') = if contAt (y :: r') 1 then 3 else 2 := by
          unfold badLen
          simp only
          rw [if_neg (by omega), if_pos ⟨h.1, h.2.1⟩]
          exact if_pos h.2.2.1
        rw [hb] at hl
        cases t with
        | nil => split at hl <;> simp at hl
        | cons u t =>
          simp only [List.cons_prefix_cons] at hc
          obtain ⟨rfl, hc⟩ := hc
          obtain ⟨r'', rfl, -⟩ := cons_prefix ht'
          have : contAt (y :: u :: r'') 1 = true := by
            simp [contAt]
            omega
          rw [this, if_pos rfl] at hl
          simp at hl hfull
          omega

theorem getD_pos {r : Bytes} {i : Nat} (h : 0x80 ≤ (r.getD i 0).toNat) : i < r.length := by
  rcases Nat.lt_or_ge i r.length with h' | h'
  · exact h'
  · simp [List.getD, List.getElem?_eq_none h'] at h

/-- what is replaced begins a character, or is one byte -/
theorem badLen_part (b0 : UInt8) (r : Bytes) :
    1 ≤ badLen (b0 :: r) ∧ badLen (b0 :: r) ≤ (b0 :: r).length ∧
    (badLen (b0 :: r) = 1 ∨ ∃ c, (b0 :: r).take (badLen (b0 :: r)) <+: utf8Char c) := by
  unfold badLen
  simp only
  split
  · rename_i h0
    split
    · rename_i h1
      have hp := getD_pos (r := r) (i := 0) (by omega)
      cases r with
      | nil => simp at hp
      | cons b1 r =>
        obtain ⟨c, hc⟩ := three_char b0 b1 0x80 h0 h1 (by decide)
        exact ⟨by omega, by simp, .inr ⟨c, by rw [hc]; exact ⟨[0x80], rfl⟩⟩⟩
    · exact ⟨by omega, by simp, .inl rfl⟩
  · split
    · rename_i h0
      split
      · rename_i h1
        have hp := getD_pos (r := r) (i := 0) (by omega)
        cases r with
        | nil => simp at hp
        | cons b1 r =>
          split
          · rename_i h2
            simp only [contAt, Bool.and_eq_true, decide_eq_true_eq] at h2
            have hp := getD_pos h2.1
            cases r with
            | nil => simp at hp
            | cons b2 r =>
              obtain ⟨c, hc⟩ := four_char b0 b1 b2 0x80 h0 h1 h2 (by decide)
              exact ⟨by omega, by simp, .inr ⟨c, by rw [hc]; exact ⟨[0x80], rfl⟩⟩⟩
          · obtain ⟨c, hc⟩ := four_char b0 b1 0x80 0x80 h0 h1 (by decide) (by decide)
            exact ⟨by omega, by simp, .inr ⟨c, by rw [hc]; exact ⟨[0x80, 0x80], rfl⟩⟩⟩
      · exact ⟨by omega, by simp, .inl rfl⟩
    · exact ⟨by omega, by simp, .inl rfl⟩

theorem lossyFuel_spec : ∀ n (b : Bytes), b.length ≤ n → IsLossy b (lossyFuel n b) := by
  intro n
  induction n with
  | zero =>
    intro b hb
    have : b = [] := by cases b <;> simp_all
    subst this; exact .nil
  | succ n ih =>
    intro b hb
    cases b with
    | nil => exact .nil
    | cons b0 r =>
      unfold lossyFuel
      cases hd : utf8Dec1 (b0 :: r) with
      | some x =>
        obtain ⟨c, r'⟩ := x
        have e := utf8Dec1_exact hd
        rw [e]
        refine .char c r' _ (ih r' ?_)
        have := congrArg List.length e
        have := utf8Char_pos c
        simp at *
        omega
      | none =>
        obtain ⟨h1, h2, h3⟩ := badLen_part b0 r
        have hmax := badLen_max hd
        have hno := (utf8Dec1_none_iff _).1 hd
        generalize b0 :: r = b at *
        have e : b.take (badLen b) ++ b.drop (badLen b) = b := List.take_append_drop ..
        have hlen : (b.take (badLen b)).length = badLen b := by simp; omega
        have := IsLossy.bad (b.take (badLen b)) (b.drop (badLen b)) (lossyFuel n (b.drop (badLen b)))
          (by intro h; rw [h] at hlen; simp at hlen; omega) (by rw [e]; exact hno) (by rw [hlen]; exact h3)
          (by rw [e, hlen]; exact hmax) (ih _ (by simp; omega))
        rwa [e] at this

/-- `from_utf8_lossy` replaces as Unicode says -/
theorem utf8Lossy_spec (b : Bytes) : IsLossy b (utf8Lossy b) := lossyFuel_spec _ b (Nat.le_refl _)

/-- and the specification leaves no choice -/
theorem IsLossy.unique {b : Bytes} {s t : List Char} (h : IsLossy b s) (h' : IsLossy b t) : s = t := by
  induction h generalizing t with
  | nil =>
    generalize hb : ([] : Bytes) = b at h'
    cases h' with
    | nil => rfl
    | char c b s _ => have h := utf8Char_pos c; rw [(List.append_eq_nil_iff.1 hb.symm).1] at h; simp at h
    | bad p b s hne => have := congrArg List.length hb; cases p <;> simp at this hne
  | char c b s h1 ih =>
    generalize hb : utf8Char c ++ b = b' at h'
    cases h' with
    | nil => have h := utf8Char_pos c; rw [(List.append_eq_nil_iff.1 hb).1] at h; simp at h
    | char c' b' s' h2 =>
      have e := utf8Dec1_enc c b
      rw [hb, utf8Dec1_enc] at e
      injection e with e; injection e with e1 e2
      subst e1; subst e2
      rw [ih h2]
    | bad p b' s' _ hno => exact absurd ⟨b, hb⟩ (hno c)
  | bad p b s hne hno hpart hmax h1 ih =>
    generalize hb : p ++ b = b' at h'
    cases h' with
    | nil => cases p <;> simp at hb hne
    | char c b' s' _ => exact absurd ⟨b', hb.symm⟩ (hno c)
    | bad p' b' s' hne' hno' hpart' hmax' h2 =>
      have key : ∀ {p p' b b' : Bytes}, p' ≠ [] → p ++ b = p' ++ b' → (p.length = 1 ∨ ∃ c, p <+: utf8Char c) →
          (∀ q, q <+: p' ++ b' → p'.length < q.length → ∀ c, ¬ q <+: utf8Char c) → p.length ≤ p'.length := by
        intro p p' b b' hne e hp hm
        rcases Nat.lt_or_ge p'.length p.length with hlt | hge
        · rcases hp with hp | ⟨c, hc⟩
          · cases p' with
            | nil => exact absurd rfl hne
            | cons => simp at hlt; omega
          · exact absurd hc (hm p ⟨b, e⟩ hlt c)
        · exact hge
      have l1 := key hne' hb hpart hmax'
      have l2 := key hne hb.symm hpart' hmax
      obtain ⟨rfl, rfl⟩ := List.append_inj hb (by omega)
      rw [ih h2]

theorem utf8Lossy_iff (b : Bytes) (s : List Char) : utf8Lossy b = s ↔ IsLossy b s :=
  ⟨fun h => h ▸ utf8Lossy_spec b, fun h => (utf8Lossy_spec b).unique h⟩

theorem utf8Lossy_utf8 (s : List Char) : utf8Lossy (utf8 s) = s := by
  rw [utf8Lossy_iff]
  induction s with
  | nil => exact .nil
  | cons c s ih => exact .char c _ _ ih

end Verif

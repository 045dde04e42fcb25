import Verif.Bytes
/-
UTF-8, the encoding of Rust `String`/`str` (std). A Rust string is modelled by its list of `char`s
(Unicode scalar values, the same set as Lean's `Char`).
-/
namespace Verif

/-- UTF-8 encoding of one `char` (std `char::encode_utf8`) -/
def utf8Char (c : Char) : Bytes :=
  let n := c.val.toNat
  if n < 0x80 then [UInt8.ofNat n]
  else if n < 0x800 then [UInt8.ofNat (0xc0 + n / 0x40), UInt8.ofNat (0x80 + n % 0x40)]
  else if n < 0x10000 then
    [UInt8.ofNat (0xe0 + n / 0x1000), UInt8.ofNat (0x80 + n / 0x40 % 0x40), UInt8.ofNat (0x80 + n % 0x40)]
  else [UInt8.ofNat (0xf0 + n / 0x40000), UInt8.ofNat (0x80 + n / 0x1000 % 0x40),
    UInt8.ofNat (0x80 + n / 0x40 % 0x40), UInt8.ofNat (0x80 + n % 0x40)]

/-- bytes of a Rust `str` -/
def utf8 (s : List Char) : Bytes := s.flatMap utf8Char

/-- the scalar value with this number, if it is one (not a surrogate, at most 0x10ffff) -/
def charOf (n : Nat) : Option Char :=
  if h : n.isValidChar then some (Char.ofNatAux n h) else none

/-- a continuation byte 10xxxxxx, its 6 payload bits -/
def contBits (b : UInt8) : Option Nat :=
  if 0x80 ≤ b.toNat ∧ b.toNat < 0xc0 then some (b.toNat - 0x80) else none

/-- first `char` of a byte string, std `String::from_utf8` rules: no overlong form, no surrogate, no value
above 0x10ffff, no missing continuation byte. -/
def utf8Dec1 : Bytes → Option (Char × Bytes)
  | [] => none
  | b0 :: r =>
    if b0.toNat < 0x80 then (charOf b0.toNat).map (·, r)
    else if 0xc0 ≤ b0.toNat ∧ b0.toNat < 0xe0 then
      match r with
      | b1 :: r => match contBits b1 with
        | some x1 =>
          let n := (b0.toNat - 0xc0) * 0x40 + x1
          if n < 0x80 then none else (charOf n).map (·, r)
        | none => none
      | _ => none
    else if 0xe0 ≤ b0.toNat ∧ b0.toNat < 0xf0 then
      match r with
      | b1 :: b2 :: r => match contBits b1, contBits b2 with
        | some x1, some x2 =>
          let n := (b0.toNat - 0xe0) * 0x1000 + x1 * 0x40 + x2
          if n < 0x800 then none else (charOf n).map (·, r)
        | _, _ => none
      | _ => none
    else if 0xf0 ≤ b0.toNat ∧ b0.toNat < 0xf8 then
      match r with
      | b1 :: b2 :: b3 :: r => match contBits b1, contBits b2, contBits b3 with
        | some x1, some x2, some x3 =>
          let n := (b0.toNat - 0xf0) * 0x40000 + x1 * 0x1000 + x2 * 0x40 + x3
          if n < 0x10000 then none else (charOf n).map (·, r)
        | _, _, _ => none
      | _ => none
    else none

/-- loop of `String::from_utf8`; every step consumes a byte, so `length` steps are enough -/
def utf8DecFuel : Nat → Bytes → Option (List Char)
  | _, [] => some []
  | 0, _ => none
  | n + 1, b => match utf8Dec1 b with
    | none => none
    | some (c, r) => (utf8DecFuel n r).map (c :: ·)

/-- std `String::from_utf8` -/
def utf8Dec (b : Bytes) : Option (List Char) := utf8DecFuel b.length b

theorem utf8_append (a b : List Char) : utf8 (a ++ b) = utf8 a ++ utf8 b := by simp [utf8]

theorem utf8Char_pos (c : Char) : 0 < (utf8Char c).length := by
  unfold utf8Char; simp only; split <;> (try split) <;> (try split) <;> simp

theorem charOf_val (c : Char) : charOf c.val.toNat = some c := by
  unfold charOf
  have h : c.val.toNat.isValidChar := c.valid
  rw [dif_pos h]
  congr 1

theorem charOf_some {n c} (h : charOf n = some c) : c.val.toNat = n := by
  unfold charOf at h
  split at h
  · rename_i hv
    simp only [Option.some.injEq] at h
    subst h
    simp [Char.ofNatAux]
  · simp at h

theorem contBits_enc (n : Nat) (h : n < 0x40) : contBits (UInt8.ofNat (0x80 + n)) = some n := by
  unfold contBits
  simp only [u8_toNat_ofNat]
  rw [if_pos (by omega), show (0x80 + n) % 256 - 0x80 = n by omega]

theorem contBits_some {b x} (h : contBits b = some x) : b = UInt8.ofNat (0x80 + x) ∧ x < 0x40 := by
  unfold contBits at h
  split at h
  · simp only [Option.some.injEq] at h
    subst h
    refine ⟨?_, by omega⟩
    apply u8_ext; simp only [u8_toNat_ofNat]; omega
  · simp at h

theorem char_lt (c : Char) : c.val.toNat < 0x110000 := by
  have h : c.val.toNat.isValidChar := c.valid
  rcases h with h | h <;> omega

theorem utf8Dec1_enc (c : Char) (r : Bytes) : utf8Dec1 (utf8Char c ++ r) = some (c, r) := by
  have hlt := char_lt c
  have hc := charOf_val c
  unfold utf8Char
  simp only
  generalize c.val.toNat = n at hlt hc
  split
  · simp only [List.cons_append, List.nil_append, utf8Dec1, u8_toNat_ofNat]
    rw [Nat.mod_eq_of_lt (by omega), if_pos (by omega), hc]; rfl
  · split
    · simp only [List.cons_append, List.nil_append, utf8Dec1, u8_toNat_ofNat]
      rw [Nat.mod_eq_of_lt (by omega), if_neg (by omega), if_pos (by omega), contBits_enc _ (by omega)]
      simp only
      have e : (0xc0 + n / 0x40 - 0xc0) * 0x40 + n % 0x40 = n := by omega
      rw [e, if_neg (by omega), hc]; rfl
    · split
      · simp only [List.cons_append, List.nil_append, utf8Dec1, u8_toNat_ofNat]
        rw [Nat.mod_eq_of_lt (by omega), if_neg (by omega), if_neg (by omega), if_pos (by omega),
          contBits_enc _ (by omega), contBits_enc _ (by omega)]
        simp only
        have e : (0xe0 + n / 0x1000 - 0xe0) * 0x1000 + n / 0x40 % 0x40 * 0x40 + n % 0x40 = n := by omega
        rw [e, if_neg (by omega), hc]; rfl
      · simp only [List.cons_append, List.nil_append, utf8Dec1, u8_toNat_ofNat]
        rw [Nat.mod_eq_of_lt (by omega), if_neg (by omega), if_neg (by omega), if_neg (by omega),
          if_pos (by omega),
          contBits_enc _ (by omega), contBits_enc _ (by omega), contBits_enc _ (by omega)]
        simp only
        have e : (0xf0 + n / 0x40000 - 0xf0) * 0x40000 + n / 0x1000 % 0x40 * 0x1000
          + n / 0x40 % 0x40 * 0x40 + n % 0x40 = n := by omega
        rw [e, if_neg (by omega), hc]; rfl

theorem utf8Dec1_exact {b c r} (h : utf8Dec1 b = some (c, r)) : b = utf8Char c ++ r := by
  unfold utf8Dec1 at h
  split at h
  · simp at h
  rename_i b0 r0
  have hb := b0.toNat_lt
  have fin : ∀ {n : Nat} {r' : Bytes}, (charOf n).map (·, r') = some (c, r) →
      c.val.toNat = n ∧ r' = r := by
    intro n r' h
    simp only [Option.map_eq_some_iff, Prod.mk.injEq] at h
    obtain ⟨c', h1, rfl, rfl⟩ := h
    exact ⟨charOf_some h1, rfl⟩
  split at h
  · obtain ⟨h1, rfl⟩ := fin h
    unfold utf8Char; simp only [h1]
    rw [if_pos (by omega)]; simp
  split at h
  · split at h
    · split at h
      · rename_i hx
        obtain ⟨rfl, hx⟩ := contBits_some hx
        dsimp only at h
        split at h
        · simp at h
        obtain ⟨h1, rfl⟩ := fin h
        unfold utf8Char; simp only [h1]
        rw [if_neg (by omega), if_pos (by omega)]
        simp only [List.cons_append, List.nil_append, List.cons.injEq, and_true]
        constructor <;> apply u8_ext <;> simp only [u8_toNat_ofNat] <;> omega
      · simp at h
    · simp at h
  split at h
  · split at h
    · split at h
      · rename_i hx1 hx2
        obtain ⟨rfl, hx1⟩ := contBits_some hx1
        obtain ⟨rfl, hx2⟩ := contBits_some hx2
        dsimp only at h
        split at h
        · simp at h
        obtain ⟨h1, rfl⟩ := fin h
        unfold utf8Char; simp only [h1]
        rw [if_neg (by omega), if_neg (by omega), if_pos (by omega)]
        simp only [List.cons_append, List.nil_append, List.cons.injEq, and_true]
        refine ⟨?_, ?_, ?_⟩ <;> apply u8_ext <;> simp only [u8_toNat_ofNat] <;> omega
      · simp at h
    · simp at h
  split at h
  · split at h
    · split at h
      · rename_i hx1 hx2 hx3
        obtain ⟨rfl, hx1⟩ := contBits_some hx1
        obtain ⟨rfl, hx2⟩ := contBits_some hx2
        obtain ⟨rfl, hx3⟩ := contBits_some hx3
        dsimp only at h
        split at h
        · simp at h
        obtain ⟨h1, rfl⟩ := fin h
        unfold utf8Char; simp only [h1]
        rw [if_neg (by omega), if_neg (by omega), if_neg (by omega)]
        simp only [List.cons_append, List.nil_append, List.cons.injEq, and_true]
        refine ⟨?_, ?_, ?_, ?_⟩ <;> apply u8_ext <;> simp only [u8_toNat_ofNat] <;> omega
      · simp at h
    · simp at h
  · simp at h

theorem utf8DecFuel_enc (s : List Char) : ∀ n, s.length ≤ n → utf8DecFuel n (utf8 s) = some s := by
  induction s with
  | nil => intro n _; cases n <;> rfl
  | cons c s ih =>
    intro n hn
    cases n with
    | zero => simp at hn
    | succ n =>
      have hpos := utf8Char_pos c
      have e : utf8 (c :: s) = utf8Char c ++ utf8 s := by simp [utf8]
      have hd := utf8Dec1_enc c (utf8 s)
      rw [e]
      cases hb : utf8Char c ++ utf8 s with
      | nil => simp at hb; rw [hb.1] at hpos; simp at hpos
      | cons x xs =>
        rw [hb] at hd
        simp only [utf8DecFuel, hd, ih n (by simpa using hn), Option.map_some]

theorem utf8_length_ge (s : List Char) : s.length ≤ (utf8 s).length := by
  induction s with
  | nil => simp
  | cons c s ih =>
    have := utf8Char_pos c
    simp only [utf8, List.flatMap_cons, List.length_append, List.length_cons] at *; omega

theorem utf8Dec_utf8 (s : List Char) : utf8Dec (utf8 s) = some s :=
  utf8DecFuel_enc s _ (utf8_length_ge s)

theorem utf8DecFuel_exact : ∀ n b s, utf8DecFuel n b = some s → b = utf8 s := by
  intro n
  induction n with
  | zero =>
    intro b s h
    cases b with
    | nil => simp only [utf8DecFuel, Option.some.injEq] at h; subst h; rfl
    | cons x xs => simp [utf8DecFuel] at h
  | succ n ih =>
    intro b s h
    cases b with
    | nil => simp only [utf8DecFuel, Option.some.injEq] at h; subst h; rfl
    | cons x xs =>
      simp only [utf8DecFuel] at h
      split at h
      · simp at h
      · rename_i c r hd
        simp only [Option.map_eq_some_iff] at h
        obtain ⟨s', h1, rfl⟩ := h
        rw [utf8Dec1_exact hd, ih _ _ h1]; simp [utf8]

/-- The decoder accepts exactly the encodings. -/
theorem utf8Dec_iff (b : Bytes) (s : List Char) : utf8Dec b = some s ↔ b = utf8 s :=
  ⟨utf8DecFuel_exact _ b s, fun h => h ▸ utf8Dec_utf8 s⟩

theorem utf8_inj {s t : List Char} (h : utf8 s = utf8 t) : s = t := by
  have := utf8Dec_utf8 s
  rw [h, utf8Dec_utf8] at this
  exact (Option.some.inj this).symm

/-- A Rust string constant (`&'static str`): evaluates in the kernel. -/
def str (s : String) : List Char := s.toList

end Verif

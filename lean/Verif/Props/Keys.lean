import Verif.KeyModel
import Verif.Props.Crypto
/-
Property theorems C34 (hexadecimal key strings) and C36 (salts).
-/
namespace Verif.Crypto

/-! ### Specification of hexadecimal text -/

/-- the digit character of a value below 16, in upper or lower case -/
def hexChar (upper : Bool) (n : Nat) : Char :=
  if n < 10 then Char.ofNat (0x30 + n)
  else if upper then Char.ofNat (0x41 + (n - 10)) else Char.ofNat (0x61 + (n - 10))

/-- Hexadecimal text of a byte string; `up` says, digit by digit, whether upper case is used. -/
def toHex (up : Nat → Bool) : Nat → Bytes → List Char
  | _, [] => []
  | i, b :: bs =>
    hexChar (up i) (b.toNat / 16) :: hexChar (up (i + 1)) (b.toNat % 16) :: toHex up (i + 2) bs

/-! ### helper lemmas -/

/-- the ASCII byte of a hex digit character -/
theorem hexChar_byte (u : Bool) (n : Nat) (h : n < 16) :
    ∃ b, utf8Char (hexChar u n) = [b] ∧ hexDigit b = some n ∧ isCont b = false ∧ b ≠ 0x2b := by
  have : ∀ u : Bool, ∀ n : Fin 16,
      ∃ b, utf8Char (hexChar u n) = [b] ∧ hexDigit b = some n.val ∧ isCont b = false ∧ b ≠ 0x2b := by
    intro u n
    refine ⟨(utf8Char (hexChar u n)).headD 0, ?_⟩
    revert u n
    decide +kernel
  exact this u ⟨n, h⟩

theorem convertHex_toHex (up : Nat → Bool) (bs : Bytes) : ∀ i,
    convertHex (utf8 (toHex up i bs)) = .ok bs ∧
    (∀ c r, utf8 (toHex up i bs) = c :: r → isCont c = false) ∧
    (utf8 (toHex up i bs)).length = 2 * bs.length := by
  induction bs with
  | nil => intro i; exact ⟨rfl, by simp [toHex, utf8], rfl⟩
  | cons b bs ih =>
    intro i
    have hb := b.toNat_lt
    obtain ⟨x, hx1, hx2, hx3, hx4⟩ := hexChar_byte (up i) (b.toNat / 16) (by omega)
    obtain ⟨y, hy1, hy2, hy3, hy4⟩ := hexChar_byte (up (i + 1)) (b.toNat % 16) (by omega)
    obtain ⟨ih1, ih2, ih3⟩ := ih (i + 2)
    have e : utf8 (toHex up i (b :: bs)) = x :: y :: utf8 (toHex up (i + 2) bs) := by
      simp only [toHex, utf8, List.flatMap_cons, hx1, hy1]; rfl
    refine ⟨?_, ?_, ?_⟩
    · rw [e, convertHex]
      have hn : ¬ ((isCont x || startsCont (utf8 (toHex up (i + 2) bs))) = true) := by
        rw [hx3, Bool.false_or]
        cases hr : utf8 (toHex up (i + 2) bs) with
        | nil => simp [startsCont]
        | cons c r => simp [startsCont, ih2 c r hr]
      rw [if_neg hn]
      have hp : parseHex2 x y = some b := by
        simp only [parseHex2, hx4, if_false, hx2, hy2]
        congr 1
        apply u8_ext
        rw [u8_toNat_ofNat]; omega
      rw [hp, ih1]
    · intro c r hc
      rw [e] at hc
      injection hc with h1 _
      rw [← h1]; exact hx3
    · rw [e]; simp [ih3]; omega

theorem convertHex_length (v : Bytes) (r : Bytes) (h : convertHex v = .ok r) : r.length = v.length / 2 := by
  suffices H : ∀ n, ∀ v r : Bytes, v.length ≤ n → convertHex v = .ok r → r.length = v.length / 2 from
    H _ v r (Nat.le_refl _) h
  intro n
  induction n with
  | zero =>
    intro v r hl h
    have : v = [] := List.length_eq_zero_iff.mp (by omega)
    subst this
    simp only [convertHex] at h
    injection h with h; subst h; rfl
  | succ n ih =>
    intro v r hl h
    match v with
    | [] => simp only [convertHex] at h; injection h with h; subst h; rfl
    | [a] => simp only [convertHex] at h; injection h with h; subst h; simp
    | a :: b :: rest =>
      unfold convertHex at h
      split at h
      · cases h
      · split at h
        · cases h
        · split at h
          · cases h
          · rename_i x _ xs hxs
            injection h with h
            have := ih rest xs (by simp at hl; omega) hxs
            subst h
            simp [this]; omega

/-! ### C34 -/

/-- C34: hexadecimal text of a key, in any mix of cases, reads back as the key (all three key types). -/
theorem c34_hex_roundtrip (up : Nat → Bool) (k : Bytes) :
    (k.length = 16 → Key.fromRc4String (toHex up 0 k) = .ok (.rc4Key k)) ∧
    (k.length = 16 → Key.fromAes128String (toHex up 0 k) = .ok (.aes128Key k)) ∧
    (k.length = 32 → Key.fromAes256String (toHex up 0 k) = .ok (.aes256Key k)) := by
  obtain ⟨h1, _, h3⟩ := convertHex_toHex up k 0
  have hc : ∀ n, k.length = n → checkSizeAndConvert (toHex up 0 k) n = .ok k := by
    intro n hn
    unfold checkSizeAndConvert
    rw [if_neg (by omega), h1]
  refine ⟨fun h => ?_, fun h => ?_, fun h => ?_⟩
  · simp only [Key.fromRc4String, hc 16 h]
    rw [if_neg (by omega), List.take_of_length_le (by omega)]
  · simp only [Key.fromAes128String, hc 16 h]
    rw [if_neg (by omega), List.take_of_length_le (by omega)]
  · simp only [Key.fromAes256String, hc 32 h]
    rw [if_neg (by omega), List.take_of_length_le (by omega)]

example : toHex (fun _ => false) 0 [0x0f, 0xa1] = "0fa1".toList := by decide +kernel

/-- C34: a string of the wrong byte length is refused with the expected length, whatever it contains. -/
theorem c34_wrong_length (hex : List Char) :
    ((utf8 hex).length ≠ 32 → Key.fromRc4String hex = .error (.invalidKeyLength 32)) ∧
    ((utf8 hex).length ≠ 32 → Key.fromAes128String hex = .error (.invalidKeyLength 32)) ∧
    ((utf8 hex).length ≠ 64 → Key.fromAes256String hex = .error (.invalidKeyLength 64)) := by
  refine ⟨fun h => ?_, fun h => ?_, fun h => ?_⟩
  · simp [Key.fromRc4String, checkSizeAndConvert, h]
  · simp [Key.fromAes128String, checkSizeAndConvert, h]
  · simp [Key.fromAes256String, checkSizeAndConvert, h]

/-- C34: every key made from a string has the exact size of its type (so it never triggers the wrong-size
panic of C29). -/
theorem c34_key_length (hex : List Char) (k : Key)
    (h : Key.fromRc4String hex = .ok k ∨ Key.fromAes128String hex = .ok k ∨ Key.fromAes256String hex = .ok k) :
    k.WF := by
  rcases h with h | h | h
  · unfold Key.fromRc4String at h
    split at h
    · cases h
    · split at h
      · cases h
      · injection h with h; subst h; simp [Key.WF]; omega
  · unfold Key.fromAes128String at h
    split at h
    · cases h
    · split at h
      · cases h
      · injection h with h; subst h; simp [Key.WF]; omega
  · unfold Key.fromAes256String at h
    split at h
    · cases h
    · split at h
      · cases h
      · injection h with h; subst h; simp [Key.WF]; omega

/-- the byte is the digit with value `n`, of either case -/
def HexDigitIs (b : UInt8) (n : Nat) : Prop :=
  (utf8 "0123456789abcdef".toList)[n]? = some b ∨ (utf8 "0123456789ABCDEF".toList)[n]? = some b

theorem hexDigit_iff (b : UInt8) (n : Nat) : hexDigit b = some n ↔ HexDigitIs b n := by
  have e1 : utf8 "0123456789abcdef".toList = [0x30, 0x31, 0x32, 0x33, 0x34, 0x35, 0x36, 0x37, 0x38, 0x39, 0x61, 0x62, 0x63, 0x64, 0x65, 0x66] := by
    decide +kernel
  have e2 : utf8 "0123456789ABCDEF".toList = [0x30, 0x31, 0x32, 0x33, 0x34, 0x35, 0x36, 0x37, 0x38, 0x39, 0x41, 0x42, 0x43, 0x44, 0x45, 0x46] := by
    decide +kernel
  unfold HexDigitIs
  rw [e1, e2]
  constructor
  · intro h
    have hb : ∀ b : Fin 256, ∀ n, hexDigit (UInt8.ofNat b) = some n →
      [0x30, 0x31, 0x32, 0x33, 0x34, 0x35, 0x36, 0x37, 0x38, 0x39, 0x61, 0x62, 0x63, 0x64, 0x65, 0x66][n]? = some (UInt8.ofNat b) ∨
      [0x30, 0x31, 0x32, 0x33, 0x34, 0x35, 0x36, 0x37, 0x38, 0x39, 0x41, 0x42, 0x43, 0x44, 0x45, 0x46][n]? = some (UInt8.ofNat b) := by
      intro b n h
      have key : ∀ b : Fin 256, (hexDigit (UInt8.ofNat b)).elim True (fun n =>
        [0x30, 0x31, 0x32, 0x33, 0x34, 0x35, 0x36, 0x37, 0x38, 0x39, 0x61, 0x62, 0x63, 0x64, 0x65, 0x66][n]? = some (UInt8.ofNat b) ∨
        [0x30, 0x31, 0x32, 0x33, 0x34, 0x35, 0x36, 0x37, 0x38, 0x39, 0x41, 0x42, 0x43, 0x44, 0x45, 0x46][n]? = some (UInt8.ofNat b)) := by
        intro b
        have : ∀ b : Fin 256, (match hexDigit (UInt8.ofNat b) with
          | none => true
          | some n => decide ([0x30, 0x31, 0x32, 0x33, 0x34, 0x35, 0x36, 0x37, 0x38, 0x39, 0x61, 0x62, 0x63, 0x64, 0x65, 0x66][n]? = some (UInt8.ofNat b) ∨
            [0x30, 0x31, 0x32, 0x33, 0x34, 0x35, 0x36, 0x37, 0x38, 0x39, 0x41, 0x42, 0x43, 0x44, 0x45, 0x46][n]? = some (UInt8.ofNat b))) = true := by
          decide +kernel
        have := this b
        split at this
        · rename_i h; rw [h]; trivial
        · rename_i h; rw [h]; dsimp only [Option.elim]; exact of_decide_eq_true this
      have := key b
      rw [h] at this
      exact this
    have := hb ⟨b.toNat, b.toNat_lt⟩ n
    simp only [UInt8.ofNat_toNat] at this
    exact this h
  · intro h
    have hn : n < 16 := by
      rcases h with h | h <;> exact (List.getElem?_eq_some_iff.1 h).1
    have key : ∀ n : Fin 16, hexDigit ([0x30, 0x31, 0x32, 0x33, 0x34, 0x35, 0x36, 0x37, 0x38, 0x39, 0x61, 0x62, 0x63, 0x64, 0x65, 0x66].getD n 0) = some n.val ∧
      hexDigit ([0x30, 0x31, 0x32, 0x33, 0x34, 0x35, 0x36, 0x37, 0x38, 0x39, 0x41, 0x42, 0x43, 0x44, 0x45, 0x46].getD n 0) = some n.val := by decide
    have := key ⟨n, hn⟩
    simp only [List.getD_eq_getElem?_getD] at this
    rcases h with h | h
    · rw [h] at this; exact this.1
    · rw [h] at this; exact this.2

/-- Two bytes as accepted by the code: two hex digits, or a plus sign and one hex digit. -/
def AcceptedPair (a b x : UInt8) : Prop :=
  (∃ i j, HexDigitIs a i ∧ HexDigitIs b j ∧ x.toNat = 16 * i + j) ∨
  (a = 0x2b ∧ ∃ j, HexDigitIs b j ∧ x.toNat = j)

theorem hexDigit_lt {b : UInt8} {i : Nat} (h : hexDigit b = some i) : i < 16 := by
  unfold hexDigit at h
  simp only at h
  split at h
  · injection h with h; omega
  · split at h
    · injection h with h; omega
    · split at h
      · injection h with h; omega
      · cases h

theorem hexDigit_plus : hexDigit 0x2b = none := by decide

theorem hexDigit_not_cont {b : UInt8} {i : Nat} (h : hexDigit b = some i) : isCont b = false := by
  unfold hexDigit at h
  simp only at h
  simp only [isCont, decide_eq_false_iff_not]
  split at h
  · omega
  · split at h
    · omega
    · split at h
      · omega
      · cases h

theorem parseHex2_iff (a b x : UInt8) : parseHex2 a b = some x ↔ AcceptedPair a b x := by
  unfold AcceptedPair
  simp only [← hexDigit_iff]
  by_cases ha : a = 0x2b
  · subst ha
    simp only [parseHex2, if_true, hexDigit_plus]
    constructor
    · intro h
      right
      cases hb : hexDigit b with
      | none => rw [hb] at h; cases h
      | some j =>
        rw [hb] at h
        injection h with h
        refine ⟨trivial, j, rfl, ?_⟩
        have := hexDigit_lt hb
        rw [← h, u8_toNat_ofNat]; omega
    · rintro (⟨i, j, h, _⟩ | ⟨_, j, h, hx⟩)
      · cases h
      · rw [h]
        simp only [Option.map_some]
        congr 1
        apply u8_ext
        have := hexDigit_lt h
        rw [u8_toNat_ofNat, hx]; omega
  · simp only [parseHex2, ha, if_false]
    constructor
    · intro h
      left
      cases h1 : hexDigit a with
      | none => rw [h1] at h; cases h
      | some i =>
        cases h2 : hexDigit b with
        | none => rw [h1, h2] at h; cases h
        | some j =>
          rw [h1, h2] at h
          injection h with h
          refine ⟨i, j, rfl, rfl, ?_⟩
          have := hexDigit_lt h1
          have := hexDigit_lt h2
          rw [← h, u8_toNat_ofNat]; omega
    · rintro (⟨i, j, h1, h2, hx⟩ | ⟨h, _⟩)
      · rw [h1, h2]
        simp only
        congr 1
        apply u8_ext
        have := hexDigit_lt h1
        have := hexDigit_lt h2
        rw [u8_toNat_ofNat, hx]; omega
      · exact False.elim h

/-- C34 (what the code really accepts, for every byte string of the string's text): exactly the sequences of
pairs "two hex digits" or "plus sign, hex digit", and the key bytes are their values. -/
theorem c34_accepted_iff (v k : Bytes) (hv : v.length = 2 * k.length) :
    convertHex v = .ok k ↔
      ∀ i (h : i < k.length), AcceptedPair (v[2 * i]'(by omega)) (v[2 * i + 1]'(by omega)) k[i] := by
  induction k generalizing v with
  | nil =>
    have : v = [] := List.length_eq_zero_iff.mp (by simpa using hv)
    subst this
    simp [convertHex]
  | cons x k ih =>
    match v, hv with
    | [], hv => simp at hv
    | [_], hv => simp at hv; omega
    | a :: b :: rest, hv =>
    have hl : rest.length = 2 * k.length := by simp at hv; omega
    have hrest := ih rest hl
    have hsplit : (∀ i (h : i < (x :: k).length),
          AcceptedPair ((a :: b :: rest)[2 * i]'(by simp at h ⊢; omega))
            ((a :: b :: rest)[2 * i + 1]'(by simp at h ⊢; omega)) (x :: k)[i]) ↔
        AcceptedPair a b x ∧ ∀ i (h : i < k.length), AcceptedPair (rest[2 * i]'(by omega))
          (rest[2 * i + 1]'(by omega)) k[i] := by
      constructor
      · intro h
        refine ⟨h 0 (by simp), fun i hi => ?_⟩
        have := h (i + 1) (by simp; omega)
        simpa [Nat.mul_add] using this
      · rintro ⟨h0, h⟩ i hi
        cases i with
        | zero => simpa using h0
        | succ i => simpa [Nat.mul_add] using h i (by simpa using hi)
    rw [hsplit, ← hrest, ← parseHex2_iff]
    constructor
    · intro h
      unfold convertHex at h
      split at h
      · cases h
      · split at h
        · cases h
        · rename_i y hy
          split at h
          · cases h
          · rename_i ys hys
            injection h with h
            injection h with h1 h2
            subst h1; subst h2
            exact ⟨hy, hys⟩
    · rintro ⟨h1, h2⟩
      unfold convertHex
      rw [if_neg, h1]
      · simp only [h2]
      · have hp := (parseHex2_iff a b x).mp h1
        rw [Bool.or_eq_true]
        rintro (hc | hc)
        · rcases hp with ⟨i, j, hi, _⟩ | ⟨rfl, _⟩
          · rw [hexDigit_not_cont ((hexDigit_iff _ _).2 hi)] at hc; cases hc
          · exact absurd hc (by decide)
        · have hr0 : 0 < rest.length := by
            cases rest with
            | nil => cases hc
            | cons c r => simp
          have hs : startsCont rest = isCont (rest[0]'hr0) := by
            cases rest with
            | nil => cases hc
            | cons c r => rfl
          rw [hs] at hc
          have hq := (hrest.mp h2) 0 (by omega)
          simp only [Nat.mul_zero] at hq
          rcases hq with ⟨i, j, hi, _⟩ | ⟨hq, _⟩
          · rw [hexDigit_not_cont ((hexDigit_iff _ _).2 hi)] at hc; cases hc
          · rw [hq] at hc; exact absurd hc (by decide)

/-- C34: an ASCII string never crashes the conversion. -/
theorem c34_ascii_no_panic (v : Bytes) (h : ∀ b ∈ v, b.toNat < 0x80) : convertHex v ≠ .error .panic := by
  suffices H : ∀ n, ∀ v : Bytes, v.length ≤ n → (∀ b ∈ v, b.toNat < 0x80) → convertHex v ≠ .error .panic from
    H _ v (Nat.le_refl _) h
  intro n
  induction n with
  | zero =>
    intro v hl _
    have : v = [] := List.length_eq_zero_iff.mp (by omega)
    subst this; simp [convertHex]
  | succ n ih =>
    intro v hl hv
    match v with
    | [] => simp [convertHex]
    | [_] => simp [convertHex]
    | a :: b :: rest =>
      have hnc : ∀ c ∈ a :: b :: rest, isCont c = false := by
        intro c hc
        have := hv c hc
        simp only [isCont, decide_eq_false_iff_not]; omega
      unfold convertHex
      rw [if_neg]
      · split
        · simp
        · have := ih rest (by simp at hl; omega) (fun c hc => hv c (by simp [hc]))
          split
          · rename_i e he
            intro hp
            injection hp with hp
            subst hp
            exact this he
          · simp
      · rw [Bool.or_eq_true]
        rintro (hc | hc)
        · rw [hnc a (by simp)] at hc; cases hc
        · match rest, hc with
          | c :: _, hc => rw [startsCont, hnc c (by simp)] at hc; cases hc
          | [], hc => cases hc

/-- C34, violation: a plus sign is accepted as a digit. The property "accepted only if all characters are hex
digits" is false of the code. -/
theorem c34_plus_accepted :
    Key.fromRc4String ("+f+f+f+f+f+f+f+f+f+f+f+f+f+f+f+f".toList) = .ok (.rc4Key (List.replicate 16 0x0f)) ∧
    ¬ (∀ hex k, Key.fromRc4String hex = .ok k → ∀ c ∈ hex, c.isDigit ∨ c ∈ "abcdefABCDEF".toList) := by
  have h : Key.fromRc4String ("+f+f+f+f+f+f+f+f+f+f+f+f+f+f+f+f".toList)
      = .ok (.rc4Key (List.replicate 16 0x0f)) := by decide +kernel
  refine ⟨h, fun H => ?_⟩
  have := H _ _ h '+' (by decide)
  exact absurd this (by decide)

/-- inside the bytes of a string: continuation bytes are exactly the positions that are no character boundary -/
theorem isCont_iff (s : List Char) : ∀ (p : Nat) (b : UInt8), (utf8 s)[p]? = some b →
    (isCont b = true ↔ ¬ ∃ q, q <+: s ∧ (utf8 q).length = p) := by
  induction s with
  | nil => intro p b h; simp [utf8] at h
  | cons c s ih =>
    intro p b h
    have e : utf8 (c :: s) = utf8Char c ++ utf8 s := rfl
    have hpos := utf8Char_pos c
    rw [e] at h
    by_cases hp : p < (utf8Char c).length
    · rw [List.getElem?_append_left hp] at h
      have h0 : isCont b = true ↔ p ≠ 0 := by
        have hc := char_lt c
        unfold utf8Char at h
        dsimp only at h
        generalize c.val.toNat = n at h hc
        have aux : ∀ k, isCont (UInt8.ofNat k) = decide (128 ≤ k % 256 ∧ k % 256 < 192) := by
          intro k; unfold isCont; rw [u8_toNat_ofNat]
        split at h
        · rcases p with _ | p
          · simp only [List.getElem?_cons_zero, Option.some.injEq] at h; subst h; rw [aux]; simp; omega
          · simp at h
        split at h
        · rcases p with _ | _ | p
          · simp only [List.getElem?_cons_zero, Option.some.injEq] at h; subst h; rw [aux]; simp; omega
          · simp only [List.getElem?_cons_zero, List.getElem?_cons_succ, Option.some.injEq] at h; subst h; rw [aux]; simp; omega
          · simp at h
        split at h
        · rcases p with _ | _ | _ | p
          · simp only [List.getElem?_cons_zero, Option.some.injEq] at h; subst h; rw [aux]; simp; omega
          · simp only [List.getElem?_cons_zero, List.getElem?_cons_succ, Option.some.injEq] at h; subst h; rw [aux]; simp; omega
          · simp only [List.getElem?_cons_zero, List.getElem?_cons_succ, Option.some.injEq] at h; subst h; rw [aux]; simp; omega
          · simp at h
        · rcases p with _ | _ | _ | _ | p
          · simp only [List.getElem?_cons_zero, Option.some.injEq] at h; subst h; rw [aux]; simp; omega
          · simp only [List.getElem?_cons_zero, List.getElem?_cons_succ, Option.some.injEq] at h; subst h; rw [aux]; simp; omega
          · simp only [List.getElem?_cons_zero, List.getElem?_cons_succ, Option.some.injEq] at h; subst h; rw [aux]; simp; omega
          · simp only [List.getElem?_cons_zero, List.getElem?_cons_succ, Option.some.injEq] at h; subst h; rw [aux]; simp; omega
          · simp at h
      rw [h0]
      constructor
      · rintro hne ⟨q, hq, hl⟩
        cases q with
        | nil => exact hne (by rw [← hl]; rfl)
        | cons d q =>
          obtain ⟨rfl, -⟩ := List.cons_prefix_cons.1 hq
          have e2 : utf8 (d :: q) = utf8Char d ++ utf8 q := rfl
          rw [e2, List.length_append] at hl
          omega
      · rintro hno rfl
        exact hno ⟨[], List.nil_prefix, rfl⟩
    · rw [List.getElem?_append_right (by omega)] at h
      rw [ih _ b h]
      constructor
      · rintro hno ⟨q, hq, hl⟩
        cases q with
        | nil => simp [utf8] at hl; omega
        | cons d q =>
          obtain ⟨rfl, hq'⟩ := List.cons_prefix_cons.1 hq
          have e2 : utf8 (d :: q) = utf8Char d ++ utf8 q := rfl
          rw [e2, List.length_append] at hl
          exact hno ⟨q, hq', by omega⟩
      · rintro hno ⟨q, hq, hl⟩
        refine hno ⟨c :: q, List.cons_prefix_cons.2 ⟨rfl, hq⟩, ?_⟩
        have e2 : utf8 (c :: q) = utf8Char c ++ utf8 q := rfl
        rw [e2, List.length_append]
        omega

theorem convertHex_panic_iff (n : Nat) : ∀ v : Bytes, v.length ≤ n → startsCont v = false →
    (convertHex v = .error .panic ↔
      ∃ i, (∀ j, j < i → ∃ a b x, v[2 * j]? = some a ∧ v[2 * j + 1]? = some b ∧ AcceptedPair a b x) ∧
        ∃ c, v[2 * i + 2]? = some c ∧ isCont c = true) := by
  induction n with
  | zero =>
    intro v hl _
    have : v = [] := List.length_eq_zero_iff.mp (by omega)
    subst this; simp [convertHex]
  | succ n ih =>
    intro v hl hv
    match v with
    | [] => simp [convertHex]
    | [_] => simp [convertHex]
    | a :: b :: rest =>
      have ha : isCont a = false := hv
      have hr := ih rest (by simp at hl; omega)
      unfold convertHex
      rw [ha, Bool.false_or]
      cases hs : startsCont rest with
      | true =>
        rw [if_pos rfl]
        refine iff_of_true rfl ⟨0, fun j hj => absurd hj (by omega), ?_⟩
        cases rest with
        | nil => cases hs
        | cons c r => exact ⟨c, rfl, hs⟩
      | false =>
        rw [if_neg (by simp)]
        have hr := hr hs
        have h0 : ∀ c, rest[0]? = some c → isCont c = false := by
          intro c hc
          cases rest with
          | nil => simp at hc
          | cons d r =>
            simp only [List.getElem?_cons_zero, Option.some.injEq] at hc
            rw [← hc]; exact hs
        have shift : ∀ k, (a :: b :: rest)[2 * (k + 1)]? = rest[2 * k]? := fun k => by
          rw [show 2 * (k + 1) = 2 * k + 1 + 1 from by omega]; rfl
        have shift1 : ∀ k, (a :: b :: rest)[2 * (k + 1) + 1]? = rest[2 * k + 1]? := fun k => by
          rw [show 2 * (k + 1) + 1 = 2 * k + 1 + 1 + 1 from by omega]; rfl
        have shift2 : ∀ k, (a :: b :: rest)[2 * (k + 1) + 2]? = rest[2 * k + 2]? := fun k => by
          rw [show 2 * (k + 1) + 2 = 2 * k + 2 + 1 + 1 from by omega]; rfl
        cases hp : parseHex2 a b with
        | none =>
          refine iff_of_false (by simp) ?_
          rintro ⟨i, h1, c, hc, hcc⟩
          cases i with
          | zero =>
            rw [h0 c (by simpa using hc)] at hcc
            cases hcc
          | succ i =>
            obtain ⟨a', b', x, e1, e2, hx⟩ := h1 0 (by omega)
            simp only [Nat.mul_zero, List.getElem?_cons_zero, Nat.zero_add, List.getElem?_cons_succ, Option.some.injEq] at e1 e2
            subst e1; subst e2
            rw [(parseHex2_iff a b x).2 hx] at hp
            cases hp
        | some x =>
          have e : (match convertHex rest with | .error e => .error e | .ok xs => .ok (x :: xs) : Except CErr Bytes) = .error .panic ↔
              convertHex rest = .error .panic := by
            cases convertHex rest with
            | error e => simp
            | ok xs => simp
          refine e.trans (hr.trans ?_)
          constructor
          · rintro ⟨i, h1, c, hc, hcc⟩
            refine ⟨i + 1, fun j hj => ?_, c, by rw [shift2]; exact hc, hcc⟩
            cases j with
            | zero => exact ⟨a, b, x, rfl, rfl, (parseHex2_iff a b x).1 hp⟩
            | succ j =>
              obtain ⟨a', b', y, e1, e2, hy⟩ := h1 j (by omega)
              exact ⟨a', b', y, by rw [shift]; exact e1, by rw [shift1]; exact e2, hy⟩
          · rintro ⟨i, h1, c, hc, hcc⟩
            cases i with
            | zero =>
              rw [h0 c (by simpa using hc)] at hcc
              cases hcc
            | succ i =>
              refine ⟨i, fun j hj => ?_, c, by rw [← shift2]; exact hc, hcc⟩
              obtain ⟨a', b', y, e1, e2, hy⟩ := h1 (j + 1) (by omega)
              exact ⟨a', b', y, by rw [← shift]; exact e1, by rw [← shift1]; exact e2, hy⟩

/-- the text is cut in the middle of a character: after some accepted pairs the next pair of bytes ends inside one -/
def CutInCharacter (hex : List Char) : Prop :=
  ∃ i, (∀ j, j < i → ∃ a b x, (utf8 hex)[2 * j]? = some a ∧ (utf8 hex)[2 * j + 1]? = some b ∧ AcceptedPair a b x) ∧
    2 * i + 2 < (utf8 hex).length ∧ ¬ ∃ q, q <+: hex ∧ (utf8 q).length = 2 * i + 2

theorem convertHex_panics (hex : List Char) : convertHex (utf8 hex) = .error .panic ↔ CutInCharacter hex := by
  have hs : startsCont (utf8 hex) = false := by
    cases hu : utf8 hex with
    | nil => rfl
    | cons b r =>
      have := isCont_iff hex 0 b (by rw [hu]; rfl)
      cases hc : isCont b with
      | false => exact hc
      | true => exact absurd ⟨[], List.nil_prefix, rfl⟩ (this.1 hc)
  rw [convertHex_panic_iff _ _ (Nat.le_refl _) hs]
  constructor
  · rintro ⟨i, h1, c, hc, hcc⟩
    exact ⟨i, h1, (List.getElem?_eq_some_iff.1 hc).1, (isCont_iff hex _ c hc).1 hcc⟩
  · rintro ⟨i, h1, h2, h3⟩
    exact ⟨i, h1, _, List.getElem?_eq_getElem h2, (isCont_iff hex _ _ (List.getElem?_eq_getElem h2)).2 h3⟩

/-- C34, violation made exact: a string of the right byte length crashes the conversion if and only if the bytes taken in pairs
cut a character in half before the first pair that is not accepted. -/
theorem c34_panics_iff (hex : List Char) :
    (Key.fromRc4String hex = .error .panic ↔ (utf8 hex).length = 32 ∧ CutInCharacter hex) ∧
    (Key.fromAes128String hex = .error .panic ↔ (utf8 hex).length = 32 ∧ CutInCharacter hex) ∧
    (Key.fromAes256String hex = .error .panic ↔ (utf8 hex).length = 64 ∧ CutInCharacter hex) := by
  have key : ∀ n, (checkSizeAndConvert hex n = .error .panic ↔ (utf8 hex).length = n * 2 ∧ CutInCharacter hex) := by
    intro n
    unfold checkSizeAndConvert
    by_cases h : (utf8 hex).length = n * 2
    · rw [if_neg (by simpa using h), convertHex_panics]; simp [h]
    · rw [if_pos h]; simp [h]
  have len : ∀ n b, checkSizeAndConvert hex n = .ok b → ¬ b.length < n := by
    intro n b h
    unfold checkSizeAndConvert at h
    split at h
    · cases h
    · rename_i hl
      have := convertHex_length _ _ h
      omega
  have k16 := key 16
  have k32 := key 32
  refine ⟨?_, ?_, ?_⟩
  · unfold Key.fromRc4String
    rw [← k16]
    cases h : checkSizeAndConvert hex 16 with
    | error e => simp
    | ok b => simp only [if_neg (len 16 b h)]; simp
  · unfold Key.fromAes128String
    rw [← k16]
    cases h : checkSizeAndConvert hex 16 with
    | error e => simp
    | ok b => simp only [if_neg (len 16 b h)]; simp
  · unfold Key.fromAes256String
    rw [← k32]
    cases h : checkSizeAndConvert hex 32 with
    | error e => simp
    | ok b => simp only [if_neg (len 32 b h)]; simp

/-- C34, violation: a 32-byte string with a two-byte character at an odd position crashes the conversion
instead of returning the charset error. -/
theorem c34_non_ascii_panics :
    Key.fromRc4String ("0é00000000000000000000000000000".toList) = .error .panic := by decide +kernel

/-- C33/C35: random keys exist exactly for the supported types, have the size of their type and report that
single type. -/
theorem c35_random_key (etype : Int32) (rnd : Nat → Bytes) (hr : ∀ n, (rnd n).length = n) :
    (∀ k, Key.random etype rnd = .ok k → k.WF ∧ k.etypes = [etype]) ∧
    ((∃ k, Key.random etype rnd = .ok k) ↔ etype = 18 ∨ etype = 17 ∨ etype = 23) := by
  unfold Key.random
  constructor
  · intro k
    split
    · rename_i h; intro e; injection e with e; subst e; exact ⟨hr 16, by rw [h]; rfl⟩
    · split
      · rename_i h; intro e; injection e with e; subst e; exact ⟨hr 16, by rw [h]; rfl⟩
      · split
        · rename_i h; intro e; injection e with e; subst e; exact ⟨hr 32, by rw [h]; rfl⟩
        · intro e; cases e
  · by_cases h1 : etype = 18
    · simp [h1]
    · by_cases h2 : etype = 17
      · simp [h2]
      · by_cases h3 : etype = 23
        · simp [h3]
        · simp [h1, h2, h3]

/-- what a kind of key can be used with: a password with every algorithm, a raw key with the one it was made for -/
def UsableWith : Key → Cipher → Prop
  | .secret _, _ => True
  | .rc4Key _, c => c = .rc4
  | .aes128Key _, c => c = .aes .aes128
  | .aes256Key _, c => c = .aes .aes256

/-- the order of preference: AES before RC4, longer AES keys first -/
def strength : Cipher → Nat
  | .aes .aes256 => 3
  | .aes .aes128 => 2
  | .rc4 => 1

/-- C35: the types a key reports are exactly those of the ciphers it can be used with, the strongest first; and a raw key is
accepted by the cipher of its type. -/
theorem c35_key_etypes (k : Key) :
    (∀ e, e ∈ k.etypes ↔ ∃ c, newKerberosCipher e = .ok c ∧ UsableWith k c) ∧
    k.etypes.Pairwise (fun a b => ∀ x y, newKerberosCipher a = .ok x → newKerberosCipher b = .ok y → strength y < strength x) ∧
    (k.WF → (∀ s, k ≠ .secret s) → ∀ e c, e ∈ k.etypes → newKerberosCipher e = .ok c → c.keyOk k.asBytes) := by
  have h18 : newKerberosCipher 18 = .ok (.aes .aes256) := by decide
  have h17 : newKerberosCipher 17 = .ok (.aes .aes128) := by decide
  have h23 : newKerberosCipher 23 = .ok .rc4 := by decide
  have inv : ∀ e c, newKerberosCipher e = .ok c →
      e = 18 ∧ c = .aes .aes256 ∨ e = 17 ∧ c = .aes .aes128 ∨ e = 23 ∧ c = .rc4 := by
    intro e c h
    unfold newKerberosCipher at h
    by_cases h1 : e = 18
    · rw [if_pos h1] at h; injection h with h; exact .inl ⟨h1, h.symm⟩
    · rw [if_neg h1] at h
      by_cases h2 : e = 17
      · rw [if_pos h2] at h; injection h with h; exact .inr (.inl ⟨h2, h.symm⟩)
      · rw [if_neg h2] at h
        by_cases h3 : e = 23
        · rw [if_pos h3] at h; injection h with h; exact .inr (.inr ⟨h3, h.symm⟩)
        · rw [if_neg h3] at h; cases h
  refine ⟨?_, ?_, ?_⟩
  · intro e
    constructor
    · intro h
      cases k with
      | secret s =>
        simp only [Key.etypes, List.mem_cons, List.not_mem_nil, or_false] at h
        rcases h with rfl | rfl | rfl
        · exact ⟨_, h18, trivial⟩
        · exact ⟨_, h17, trivial⟩
        · exact ⟨_, h23, trivial⟩
      | rc4Key k => rw [List.mem_singleton.1 h]; exact ⟨_, h23, rfl⟩
      | aes128Key k => rw [List.mem_singleton.1 h]; exact ⟨_, h17, rfl⟩
      | aes256Key k => rw [List.mem_singleton.1 h]; exact ⟨_, h18, rfl⟩
    · rintro ⟨c, hc, hu⟩
      rcases inv e c hc with ⟨rfl, rfl⟩ | ⟨rfl, rfl⟩ | ⟨rfl, rfl⟩ <;> cases k <;>
        first | (simp [Key.etypes]; done) | (simp [UsableWith] at hu)
  · cases k with
    | secret s =>
      simp only [Key.etypes, List.pairwise_cons, List.mem_cons, List.not_mem_nil, or_false, forall_eq_or_imp, forall_eq,
        h18, h17, h23]
      refine ⟨⟨?_, ?_⟩, ?_, ?_⟩
      · rintro x y ⟨⟩ ⟨⟩; decide
      · rintro x y ⟨⟩ ⟨⟩; decide
      · rintro x y ⟨⟩ ⟨⟩; decide
      · exact ⟨fun _ h => h.elim, .nil⟩
    | rc4Key k => exact List.pairwise_singleton _ _
    | aes128Key k => exact List.pairwise_singleton _ _
    | aes256Key k => exact List.pairwise_singleton _ _
  · intro hw hn e c he hc
    cases k with
    | secret s => exact absurd rfl (hn s)
    | rc4Key k => rw [List.mem_singleton.1 he, h23] at hc; injection hc with hc; subst hc; trivial
    | aes128Key k => rw [List.mem_singleton.1 he, h17] at hc; injection hc with hc; subst hc; exact hw
    | aes256Key k => rw [List.mem_singleton.1 he, h18] at hc; injection hc with hc; subst hc; exact hw

/-- a key of each kind -/
example : (Key.secret ['a']).etypes.length = 3 ∧ (Key.aes256Key (List.replicate 32 1)).WF := ⟨rfl, rfl⟩

/-! ### C36 -/

/-- C36: for names not ending in '$' (after lower-casing) both salts are equal. -/
theorem c36_user_salt (M : CaseMap) (realm name : List Char) (h : (M.lower name).getLast? ≠ some '$') :
    calculateAesSalt M realm name = aesSalt M realm name := by
  simp [calculateAesSalt, aesSalt, h]

/-- C36, violation: for machine accounts (lower-cased name ending in '$') the two salts differ, for every realm
and every name: the library appends a dot and the lower-case realm, the pre-authentication code does not. -/
theorem c36_machine_salt_differs (M : CaseMap) (realm name : List Char)
    (h : (M.lower name).getLast? = some '$') :
    aesSalt M realm name = calculateAesSalt M realm name ++ utf8 ('.' :: M.lower realm) ∧
    calculateAesSalt M realm name ≠ aesSalt M realm name := by
  have e : aesSalt M realm name = calculateAesSalt M realm name ++ utf8 ('.' :: M.lower realm) := by
    simp only [calculateAesSalt, aesSalt, h, if_true]
    rw [← utf8_append]
    simp [List.append_assoc]
  refine ⟨e, fun hc => ?_⟩
  rw [e] at hc
  have := congrArg List.length hc
  have hp : 0 < (utf8 ('.' :: M.lower realm)).length := by
    simp only [utf8, List.flatMap_cons, List.length_append]
    have := utf8Char_pos '.'
    omega
  rw [List.length_append] at this
  omega

/-- ASCII case mapping, for the examples. -/
def asciiCase : CaseMap := ⟨List.map Char.toUpper, List.map Char.toLower⟩

example : (asciiCase.lower "PC$".toList).getLast? = some '$' ∧
    aesSalt asciiCase "k.local".toList "PC$".toList = utf8 "K.LOCALhostpc.k.local".toList ∧
    calculateAesSalt asciiCase "k.local".toList "PC$".toList = utf8 "K.LOCALhostpc".toList := by
  decide +kernel

end Verif.Crypto

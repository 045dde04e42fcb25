/-
Byte strings and fixed-width integers, the vocabulary of the whole model.

`Vec<u8>` / `&[u8]` are `List UInt8`; `u8/u16/u32/i32` are the Lean fixed-width types.
`to_be_bytes` / `to_le_bytes` (Rust std) are modelled by the functions below.
-/
namespace Verif

/-- A byte string: Rust `Vec<u8>` and `&[u8]`. -/
abbrev Bytes := List UInt8

/-- Rust std `u16::to_be_bytes`. -/
def be16 (x : UInt16) : Bytes := [UInt8.ofNat (x.toNat / 256), UInt8.ofNat x.toNat]

/-- Rust std `u32::to_be_bytes`. -/
def be32 (x : UInt32) : Bytes :=
  [UInt8.ofNat (x.toNat / 16777216), UInt8.ofNat (x.toNat / 65536),
   UInt8.ofNat (x.toNat / 256), UInt8.ofNat x.toNat]

/-- Rust std `u32::to_le_bytes` (also `i32::to_le_bytes` after `as u32`). -/
def le32 (x : UInt32) : Bytes := (be32 x).reverse

/-- Rust std `u16::from_be_bytes`. -/
def ofBe16 (a b : UInt8) : UInt16 := UInt16.ofNat (a.toNat * 256 + b.toNat)

/-- Rust std `u32::from_be_bytes`. -/
def ofBe32 (a b c d : UInt8) : UInt32 :=
  UInt32.ofNat (a.toNat * 16777216 + b.toNat * 65536 + c.toNat * 256 + d.toNat)

/-- Results can be compared (used to evaluate concrete examples). -/
instance instDecEqExcept {ε α} [DecidableEq ε] [DecidableEq α] : DecidableEq (Except ε α)
  | .ok a, .ok b => if h : a = b then isTrue (h ▸ rfl) else isFalse (fun e => h (Except.ok.inj e))
  | .error a, .error b =>
    if h : a = b then isTrue (h ▸ rfl) else isFalse (fun e => h (Except.error.inj e))
  | .ok _, .error _ => isFalse (by simp)
  | .error _, .ok _ => isFalse (by simp)

/-- To exhibit a successful concrete result it is enough to evaluate it. -/
theorem exists_ok {ε α β} {x : Except ε (α × β)} {P : α → β → Prop}
    [∀ a b, Decidable (P a b)]
    (h : (match x with | .ok v => decide (P v.1 v.2) | .error _ => false) = true) :
    ∃ a r, x = .ok (a, r) ∧ P a r := by
  cases x with
  | error e => simp at h
  | ok v => exact ⟨v.1, v.2, rfl, of_decide_eq_true h⟩

@[simp] theorem be16_length (x : UInt16) : (be16 x).length = 2 := rfl
@[simp] theorem be32_length (x : UInt32) : (be32 x).length = 4 := rfl
@[simp] theorem le32_length (x : UInt32) : (le32 x).length = 4 := rfl

theorem u8_toNat_ofNat (n : Nat) : (UInt8.ofNat n).toNat = n % 256 := by
  simp
theorem u16_toNat_ofNat (n : Nat) : (UInt16.ofNat n).toNat = n % 65536 := by
  simp
theorem u32_toNat_ofNat (n : Nat) : (UInt32.ofNat n).toNat = n % 4294967296 := by
  simp

theorem u8_ext {a b : UInt8} (h : a.toNat = b.toNat) : a = b := UInt8.toNat_inj.mp h
theorem u16_ext {a b : UInt16} (h : a.toNat = b.toNat) : a = b := UInt16.toNat_inj.mp h
theorem u32_ext {a b : UInt32} (h : a.toNat = b.toNat) : a = b := UInt32.toNat_inj.mp h

theorem ofBe16_be16 (x : UInt16) :
    ofBe16 (UInt8.ofNat (x.toNat / 256)) (UInt8.ofNat x.toNat) = x := by
  apply u16_ext
  have := x.toNat_lt
  simp only [ofBe16, u16_toNat_ofNat, u8_toNat_ofNat]
  omega

theorem ofBe32_be32 (x : UInt32) :
    ofBe32 (UInt8.ofNat (x.toNat / 16777216)) (UInt8.ofNat (x.toNat / 65536))
      (UInt8.ofNat (x.toNat / 256)) (UInt8.ofNat x.toNat) = x := by
  apply u32_ext
  have := x.toNat_lt
  simp only [ofBe32, u32_toNat_ofNat, u8_toNat_ofNat]
  omega

theorem be16_ofBe16 (a b : UInt8) : be16 (ofBe16 a b) = [a, b] := by
  have ha := a.toNat_lt; have hb := b.toNat_lt
  simp only [be16, ofBe16, u16_toNat_ofNat, List.cons.injEq, and_true]
  constructor <;> apply u8_ext <;> rw [u8_toNat_ofNat] <;> omega

theorem be32_ofBe32 (a b c d : UInt8) : be32 (ofBe32 a b c d) = [a, b, c, d] := by
  have ha := a.toNat_lt; have hb := b.toNat_lt
  have hc := c.toNat_lt; have hd := d.toNat_lt
  simp only [be32, ofBe32, u32_toNat_ofNat, List.cons.injEq, and_true]
  refine ⟨?_, ?_, ?_, ?_⟩ <;> apply u8_ext <;> rw [u8_toNat_ofNat] <;> omega

theorem be32_inj {x y : UInt32} (h : be32 x = be32 y) : x = y := by
  rw [← ofBe32_be32 x, ← ofBe32_be32 y]
  simp only [be32, List.cons.injEq, and_true] at h
  obtain ⟨h1, h2, h3, h4⟩ := h
  rw [h1, h2, h3, h4]

theorem be16_inj {x y : UInt16} (h : be16 x = be16 y) : x = y := by
  rw [← ofBe16_be16 x, ← ofBe16_be16 y]
  simp only [be16, List.cons.injEq, and_true] at h
  obtain ⟨h1, h2⟩ := h
  rw [h1, h2]

theorem le32_inj {x y : UInt32} (h : le32 x = le32 y) : x = y :=
  be32_inj (List.reverse_inj.mp h)

/-! signed 32-bit integers -/

theorem u32_toInt32_toInt (x : UInt32) :
    x.toInt32.toInt = if x.toNat < 2147483648 then (x.toNat : Int) else (x.toNat : Int) - 4294967296 := by
  show x.toBitVec.toInt = _
  rw [BitVec.toInt_eq_toNat_cond]
  have := x.toNat_lt
  simp only [UInt32.toNat_toBitVec]
  split <;> split <;> omega
theorem i32_toUInt32_toNat (x : Int32) : (x.toUInt32.toNat : Int) = x.toInt % 4294967296 := by
  show (x.toBitVec.toNat : Int) = x.toBitVec.toInt % 4294967296
  have := x.toBitVec.isLt
  rw [BitVec.toInt_eq_toNat_cond]
  split <;> omega
theorem i32_neg (x : Int32) : (-x).toInt = if x.toInt = -2147483648 then -2147483648 else -x.toInt := by
  rw [Int32.toInt_neg]
  have := x.toInt_lt
  have := x.le_toInt
  split <;> simp only [Int.bmod] <;> omega
theorem i32_neg_iff (x : Int32) : x < 0 ↔ x.toInt < 0 := by
  exact Int32.lt_iff_toInt_lt

end Verif

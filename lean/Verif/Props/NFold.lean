import Verif.NFoldLemmas
/-
Property theorems C31 and C32 (n-fold and its bit rotation,
kerberos_crypto/src/cryptography/nfold_dk.rs). Specification: `Verif/NFoldSpec.lean`.
-/
namespace Verif.Crypto
open NFoldSpec

/-! ### helper: a byte string is determined by its bits / by its value -/

theorem byte_ext_bits {a b : UInt8} (h : ∀ k < 8, a.toNat.testBit k = b.toNat.testBit k) : a = b := by
  apply UInt8.toNat_inj.mp
  apply Nat.eq_of_testBit_eq
  intro i
  by_cases hi : i < 8
  · exact h i hi
  · have hp : 2^8 ≤ 2^i := Nat.pow_le_pow_right (by omega) (by omega)
    have ha := a.toNat_lt
    have hb := b.toNat_lt
    rw [Nat.testBit_lt_two_pow (by omega), Nat.testBit_lt_two_pow (by omega)]

theorem bytes_ext_bits {v w : Bytes} (hl : v.length = w.length)
    (h : ∀ j < 8 * v.length, bitAt v j = bitAt w j) : v = w := by
  apply List.ext_getElem hl
  intro i h1 h2
  apply byte_ext_bits
  intro k hk
  have := h (8 * i + (7 - k)) (by omega)
  have e1 : (8 * i + (7 - k)) / 8 = i := by omega
  have e2 : 7 - (8 * i + (7 - k)) % 8 = k := by omega
  rw [bitAt_eq (by omega), bitAt_eq (by omega)] at this
  simpa only [e1, e2] using this

theorem natOf_cons (b : UInt8) (v : Bytes) : natOf (b :: v) = b.toNat * 256 ^ v.length + natOf v := by
  rw [natOf_eq_colVal, natOf_eq_colVal, List.map_cons, colVal_cons, List.length_map]

theorem natOf_inj {v w : Bytes} (hl : v.length = w.length) (h : natOf v = natOf w) : v = w := by
  induction v generalizing w with
  | nil => cases w with
    | nil => rfl
    | cons _ _ => simp at hl
  | cons a v ih =>
    cases w with
    | nil => simp at hl
    | cons b w =>
      simp only [List.length_cons, Nat.add_right_cancel_iff] at hl
      rw [natOf_cons, natOf_cons, ← hl] at h
      have h1 := natOf_lt v
      have h2 := natOf_lt w
      rw [← hl] at h2
      have hab : a.toNat = b.toNat := by
        have e1 : (a.toNat * 256 ^ v.length + natOf v) / 256 ^ v.length = a.toNat := by
          rw [Nat.mul_comm, Nat.mul_add_div (Nat.pow_pos (by omega)), Nat.div_eq_of_lt h1]; rfl
        have e2 : (b.toNat * 256 ^ v.length + natOf w) / 256 ^ v.length = b.toNat := by
          rw [Nat.mul_comm, Nat.mul_add_div (Nat.pow_pos (by omega)), Nat.div_eq_of_lt h2]; rfl
        rw [← e1, ← e2, h]
      rw [UInt8.toNat_inj.mp hab, ih hl (by rw [hab] at h; omega)]

/-! ### C31 -/

/-- C31: for every non-empty input and positive output size n-fold ends normally with exactly `n` bytes
whose big-endian value is the RFC 3961 ones-complement sum. -/
theorem c31_nfold (v : Bytes) (n : Nat) (hv : v ≠ []) (hn : 0 < n) :
    ∃ r, nFold v n = some r ∧ r.length = n ∧ natOf r = nFoldValue v n := nFold_spec v n hv hn

/-- C31: so the result is the only `n`-byte string with the RFC value. -/
theorem c31_nfold_unique (v r : Bytes) (n : Nat) (hv : v ≠ []) (hn : 0 < n) (hl : r.length = n)
    (hr : natOf r = nFoldValue v n) : nFold v n = some r := by
  obtain ⟨r', h1, h2, h3⟩ := c31_nfold v n hv hn
  have e : r' = r := natOf_inj (by omega) (by rw [h3, hr])
  rw [h1, e]

/-- C31: n-fold panics exactly on an empty input or an output size of zero. -/
theorem c31_nfold_panics_iff (v : Bytes) (n : Nat) : nFold v n = none ↔ v = [] ∨ n = 0 := by
  constructor
  · intro h
    by_cases hv : v = []
    · exact Or.inl hv
    · by_cases hn : n = 0
      · exact Or.inr hn
      · obtain ⟨r, h1, _⟩ := c31_nfold v n hv (by omega)
        rw [h1] at h; cases h
  · rintro (rfl | rfl)
    · rfl
    · unfold nFold
      split
      · rfl
      · have : rotations13 v 0 = [] := by simp [rotations13]
        rw [this]; unfold exactChunks; rfl

/-- C31, tests of model and specification: the RFC 3961 appendix A.1 vectors
64-fold("012345"), 56-fold("password"), 128-fold("kerberos"). -/
example : nFold [0x30,0x31,0x32,0x33,0x34,0x35] 8 = some [0xbe,0x07,0x26,0x31,0x27,0x6b,0x19,0x55] := by
  decide +kernel
example : nFold [0x70,0x61,0x73,0x73,0x77,0x6f,0x72,0x64] 7 = some [0x78,0xa0,0x7b,0x6c,0xaf,0x85,0xfa] := by
  decide +kernel
example : nFold [0x6b,0x65,0x72,0x62,0x65,0x72,0x6f,0x73] 16 =
    some [0x6b,0x65,0x72,0x62,0x65,0x72,0x6f,0x73,0x7b,0x9b,0x5b,0x2b,0x93,0x13,0x2b,0x93] := by
  decide +kernel
example : nFoldValue [0x30,0x31,0x32,0x33,0x34,0x35] 8 = 0xbe072631276b1955 := by decide +kernel

/-! ### C32 -/

/-- C32: bit `j` moves to position `(j + k)` modulo the bit length; the length is kept. -/
theorem c32_rotation (v : Bytes) (k : Nat) :
    (rotateRight v k).length = v.length ∧
    ∀ j < 8 * v.length, bitAt (rotateRight v k) ((j + k) % (8 * v.length)) = bitAt v j := by
  refine ⟨rotateRight_length v k, fun j hj => ?_⟩
  rw [rotateRight_bit v k _ (Nat.mod_lt _ (by omega))]
  have : ((((j + k) % (8 * v.length) : Nat) : Int) - k) % (8 * v.length : Nat) = j := by
    rw [Int.natCast_emod, Int.emod_sub_emod]
    have : ((j + k : Nat) : Int) - k = j := by omega
    rw [this]
    exact Int.emod_eq_of_lt (by omega) (by omega)
  rw [this]; rfl

/-- C32: rotations add up. -/
theorem c32_rotation_add (v : Bytes) (a b : Nat) :
    rotateRight (rotateRight v a) b = rotateRight v (a + b) := by
  by_cases hv : v.length = 0
  · rw [List.length_eq_zero_iff.mp hv]; rfl
  apply bytes_ext_bits (by simp [rotateRight_length])
  intro j hj
  rw [rotateRight_length, rotateRight_length] at hj
  have h0 : (0 : Int) < (8 * v.length : Nat) := by omega
  have hnn := Int.emod_nonneg ((j : Int) - b) (b := (8 * v.length : Nat)) (by omega)
  have hlt := Int.emod_lt_of_pos ((j : Int) - b) h0
  rw [rotateRight_bit _ _ _ (by rw [rotateRight_length]; exact hj), rotateRight_length,
    rotateRight_bit _ _ _ (by omega), rotateRight_bit _ _ _ hj, Int.toNat_of_nonneg hnn,
    Int.emod_sub_emod]
  congr 3
  omega

/-- C32: rotating by a multiple of the bit length changes nothing. -/
theorem c32_rotation_full (v : Bytes) (m : Nat) : rotateRight v (m * (8 * v.length)) = v := by
  apply bytes_ext_bits (rotateRight_length v _)
  intro j hj
  rw [rotateRight_length] at hj
  rw [rotateRight_bit _ _ _ hj]
  have : ((j : Int) - (m * (8 * v.length) : Nat)) % (8 * v.length : Nat) = j := by
    have e : ((j : Int) - (m * (8 * v.length) : Nat)) = j + (8 * v.length : Nat) * (-(m : Int)) := by
      rw [Int.mul_neg, Int.natCast_mul m, Int.mul_comm (m : Int)]; omega
    rw [e, Int.add_mul_emod_self_left]
    exact Int.emod_eq_of_lt (by omega) (by omega)
  rw [this]; rfl

example : rotateRight [0x80, 0x01] 13 = [0x00, 0x0c] := by decide +kernel

end Verif.Crypto

import Mathlib.Analysis.Complex.Trigonometric
import Mathlib.Analysis.Complex.Norm
import Mathlib.Analysis.Complex.Basic
import Mathlib.Tactic.LinearCombination
import Mathlib.Tactic.FieldSimp
import Verif.StdHash
/-
The table of MD5 (RFC 1321 section 3.4) is made of sines: lemmas for C69. The series of exp(i), 60 terms, then its powers.
-/
namespace Verif.HashSpec
open Finset

/-- n! times the first n terms of the series of exp(i), and i^n -/
def series : Nat → (Int × Int) × (Int × Int)
  | 0 => ((0, 0), (1, 0))
  | n + 1 =>
    let s := series n
    (((n + 1) * (s.1.1 + s.2.1), (n + 1) * (s.1.2 + s.2.2)), (-s.2.2, s.2.1))

theorem series_pow (n : Nat) : (Complex.I ^ n : ℂ) = ((series n).2.1 : ℂ) + ((series n).2.2 : ℂ) * Complex.I := by
  induction n with
  | zero => simp [series]
  | succ n ih =>
    rw [pow_succ, ih]
    simp only [series]
    push_cast
    linear_combination ((series n).2.2 : ℂ) * Complex.I_mul_I

theorem series_sum (n : Nat) : (n.factorial : ℂ) * ∑ m ∈ range n, Complex.I ^ m / m.factorial =
    ((series n).1.1 : ℂ) + ((series n).1.2 : ℂ) * Complex.I := by
  induction n with
  | zero => simp [series]
  | succ n ih =>
    have h0 : (n.factorial : ℂ) ≠ 0 := by exact_mod_cast n.factorial_ne_zero
    have h1 : (n.factorial : ℂ) * (Complex.I ^ n / n.factorial) = Complex.I ^ n := by field_simp
    rw [sum_range_succ, Nat.factorial_succ, Nat.cast_mul, mul_assoc, mul_add, ih, h1, series_pow]
    simp only [series]
    push_cast
    ring

/-- cos 1 and sin 1, times 60! -/
def C1 : Int := (series 60).1.1
def S1 : Int := (series 60).1.2
def D : Nat := Nat.factorial 60

theorem exp_close : ‖Complex.exp Complex.I * (D : ℂ) - ((C1 : ℂ) + (S1 : ℂ) * Complex.I)‖ ≤ 2 := by
  have h := Complex.exp_bound (x := Complex.I) (by simp) (n := 60) (by norm_num)
  have hs := series_sum 60
  have hD : (0 : ℝ) < D := by unfold D; exact_mod_cast Nat.factorial_pos 60
  have e : Complex.exp Complex.I * (D : ℂ) - ((C1 : ℂ) + (S1 : ℂ) * Complex.I) =
      (D : ℂ) * (Complex.exp Complex.I - ∑ m ∈ range 60, Complex.I ^ m / m.factorial) := by
    unfold C1 S1 D
    rw [mul_sub, hs, mul_comm]
  rw [e, norm_mul, Complex.norm_natCast]
  calc (D : ℝ) * ‖Complex.exp Complex.I - ∑ m ∈ range 60, Complex.I ^ m / m.factorial‖
      ≤ D * (‖Complex.I‖ ^ 60 * ((Nat.succ 60 : ℝ) * (Nat.factorial 60 * (60 : ℕ) : ℝ)⁻¹)) := by gcongr
    _ ≤ 2 := by
      have : (Nat.factorial 60 : ℝ) = D := rfl
      rw [this, Complex.norm_I, mul_inv]
      push_cast
      field_simp
      norm_num

theorem cos1_close : |Real.cos 1 * D - C1| ≤ 2 ∧ |Real.sin 1 * D - S1| ≤ 2 := by
  have h := exp_close
  have hexp : Complex.exp Complex.I = (Real.cos 1 : ℂ) + (Real.sin 1 : ℂ) * Complex.I := by
    have := Complex.exp_mul_I 1
    rw [one_mul] at this
    rw [this]
    push_cast
    rfl
  generalize hz : Complex.exp Complex.I * (D : ℂ) - ((C1 : ℂ) + (S1 : ℂ) * Complex.I) = z at h
  have hre : z.re = Real.cos 1 * D - C1 := by
    rw [← hz, hexp]
    simp [-Complex.ofReal_cos, -Complex.ofReal_sin]
  have him : z.im = Real.sin 1 * D - S1 := by
    rw [← hz, hexp]
    simp [-Complex.ofReal_cos, -Complex.ofReal_sin]
  rw [← hre, ← him]
  exact ⟨(Complex.abs_re_le_norm z).trans h, (Complex.abs_im_le_norm z).trans h⟩

/-- cos n and sin n, times D^n -/
def multiple : Nat → Int × Int
  | 0 => (1, 0)
  | n + 1 =>
    let z := multiple n
    (z.1 * C1 - z.2 * S1, z.2 * C1 + z.1 * S1)

/-- the error in one step -/
theorem step_close {x y a b u v p q d e : ℝ} (he : 0 ≤ e) (hx : |x| ≤ 1) (hy : |y| ≤ 1)
    (ha : |x - a| ≤ e) (hb : |y - b| ≤ e) (hp : |u * d - p| ≤ 2) (hq : |v * d - q| ≤ 2) (hpd : |p| ≤ d) (hqd : |q| ≤ d) :
    |(x * u + y * v) * d - (a * p + b * q)| ≤ 2 * e * d + 4 := by
  have e1 : (x * u + y * v) * d - (a * p + b * q) = x * (u * d - p) + y * (v * d - q) + ((x - a) * p + (y - b) * q) := by ring
  rw [e1]
  calc _ ≤ |x * (u * d - p) + y * (v * d - q)| + |(x - a) * p + (y - b) * q| := abs_add_le _ _
    _ ≤ (|x * (u * d - p)| + |y * (v * d - q)|) + (|(x - a) * p| + |(y - b) * q|) := add_le_add (abs_add_le _ _) (abs_add_le _ _)
    _ = |x| * |u * d - p| + |y| * |v * d - q| + (|x - a| * |p| + |y - b| * |q|) := by simp only [abs_mul]
    _ ≤ 1 * 2 + 1 * 2 + (e * d + e * d) := by gcongr
    _ = 2 * e * d + 4 := by ring

theorem c1_small : |(C1 : ℝ)| ≤ D ∧ |(S1 : ℝ)| ≤ D := by
  have h : C1.natAbs ≤ D ∧ S1.natAbs ≤ D := by decide +kernel
  constructor
  · rw [← Int.cast_abs]; have := h.1; have : |C1| ≤ (D : ℤ) := by rw [Int.abs_eq_natAbs]; omega
    exact_mod_cast this
  · rw [← Int.cast_abs]; have := h.2; have : |S1| ≤ (D : ℤ) := by rw [Int.abs_eq_natAbs]; omega
    exact_mod_cast this

theorem multiple_close (n : Nat) : |Real.cos n - (multiple n).1 / (D : ℝ) ^ n| ≤ (3 ^ n - 1) * (2 / D) ∧
    |Real.sin n - (multiple n).2 / (D : ℝ) ^ n| ≤ (3 ^ n - 1) * (2 / D) := by
  have hD : (0 : ℝ) < D := by unfold D; exact_mod_cast Nat.factorial_pos 60
  obtain ⟨hc, hs⟩ := cos1_close
  obtain ⟨hc1, hs1⟩ := c1_small
  induction n with
  | zero => simp [multiple]
  | succ n ih =>
    obtain ⟨ihc, ihs⟩ := ih
    have h3 : (1 : ℝ) ≤ 3 ^ n := one_le_pow₀ (by norm_num)
    have he : 0 ≤ ((3 : ℝ) ^ n - 1) * (2 / D) := mul_nonneg (by linarith) (by positivity)
    have hfin : 2 * (((3 : ℝ) ^ n - 1) * (2 / D)) * D + 4 ≤ ((3 ^ (n + 1) - 1) * (2 / D)) * D := by
      have e1 : 2 * (((3 : ℝ) ^ n - 1) * (2 / D)) * D + 4 = 4 * 3 ^ n := by field_simp; ring
      have e2 : ((3 : ℝ) ^ (n + 1) - 1) * (2 / D) * D = (3 ^ (n + 1) - 1) * 2 := by field_simp
      rw [e1, e2, pow_succ]
      linarith
    have k1 := step_close (v := -Real.sin 1) (q := -(S1 : ℝ)) he (Real.abs_cos_le_one n) (Real.abs_sin_le_one n) ihc ihs hc
      (by rw [← abs_neg]; convert hs using 2; ring) hc1 (by rw [abs_neg]; exact hs1)
    have k2 := step_close he (Real.abs_sin_le_one n) (Real.abs_cos_le_one n) ihs ihc hc hs hc1 hs1
    constructor
    · have e : Real.cos ((n + 1 : ℕ) : ℝ) - (multiple (n + 1)).1 / (D : ℝ) ^ (n + 1) =
          ((Real.cos n * Real.cos 1 + Real.sin n * -Real.sin 1) * D -
            ((multiple n).1 / (D : ℝ) ^ n * C1 + (multiple n).2 / (D : ℝ) ^ n * -(S1 : ℝ))) / D := by
        push_cast
        rw [Real.cos_add, multiple]
        push_cast
        field_simp
        ring
      rw [e, abs_div, abs_of_pos hD, div_le_iff₀ hD]
      exact k1.trans hfin
    · have e : Real.sin ((n + 1 : ℕ) : ℝ) - (multiple (n + 1)).2 / (D : ℝ) ^ (n + 1) =
          ((Real.sin n * Real.cos 1 + Real.cos n * Real.sin 1) * D -
            ((multiple n).2 / (D : ℝ) ^ n * C1 + (multiple n).1 / (D : ℝ) ^ n * S1)) / D := by
        push_cast
        rw [Real.sin_add, multiple]
        push_cast
        field_simp
        ring
      rw [e, abs_div, abs_of_pos hD, div_le_iff₀ hD]
      exact k2.trans hfin

theorem table_check : ∀ t : Fin 64,
    Std.md5T.getD t.1 0 * D ^ (t.1 + 1) + 4294967296 * (3 ^ (t.1 + 1) * 2 * D ^ t.1) ≤ 4294967296 * (multiple (t.1 + 1)).2.natAbs ∧
    4294967296 * (multiple (t.1 + 1)).2.natAbs + 4294967296 * (3 ^ (t.1 + 1) * 2 * D ^ t.1) <
      (Std.md5T.getD t.1 0 + 1) * D ^ (t.1 + 1) := by decide +kernel

/-- RFC 1321 section 3.4: T[i] is the integer part of 4294967296 times abs(sin(i)) -/
theorem table_sine (t : Nat) (ht : t < 64) : Std.md5T.getD t 0 = ⌊4294967296 * |Real.sin ((t + 1 : ℕ) : ℝ)|⌋₊ := by
  have hD : (0 : ℝ) < D := by unfold D; exact_mod_cast Nat.factorial_pos 60
  obtain ⟨h1, h2⟩ := table_check ⟨t, ht⟩
  dsimp only at h1 h2
  have hc := (multiple_close (t + 1)).2
  generalize Std.md5T.getD t 0 = T at *
  generalize Real.sin ((t + 1 : ℕ) : ℝ) = s at *
  generalize (multiple (t + 1)).2 = m at *
  have h1' : (T : ℝ) * D ^ (t + 1) + 4294967296 * (3 ^ (t + 1) * 2 * D ^ t) ≤ 4294967296 * |(m : ℝ)| := by
    have : (T * D ^ (t + 1) + 4294967296 * (3 ^ (t + 1) * 2 * D ^ t) : ℕ) ≤ ((4294967296 * m.natAbs : ℕ) : ℝ) := by exact_mod_cast h1
    push_cast at this
    rwa [← Int.cast_abs, Int.abs_eq_natAbs, Int.cast_natCast]
  have h2' : 4294967296 * |(m : ℝ)| + 4294967296 * (3 ^ (t + 1) * 2 * D ^ t) < (T + 1 : ℝ) * D ^ (t + 1) := by
    have : ((4294967296 * m.natAbs + 4294967296 * (3 ^ (t + 1) * 2 * D ^ t) : ℕ) : ℝ) < (((T + 1) * D ^ (t + 1) : ℕ) : ℝ) := by
      exact_mod_cast h2
    push_cast at this
    rwa [← Int.cast_abs, Int.abs_eq_natAbs, Int.cast_natCast]
  have hpow : (0 : ℝ) < D ^ t := by positivity
  have habs : |(|s|) - |(m : ℝ)| / D ^ (t + 1)| ≤ 3 ^ (t + 1) * (2 / D) := by
    have e : |(m : ℝ)| / D ^ (t + 1) = |(m : ℝ) / D ^ (t + 1)| := by rw [abs_div, abs_of_pos (by positivity : (0 : ℝ) < D ^ (t + 1))]
    rw [e]
    refine (abs_abs_sub_abs_le_abs_sub _ _).trans (hc.trans ?_)
    gcongr
    linarith
  obtain ⟨l1, l2⟩ := abs_le.1 habs
  have hDt : (D : ℝ) ^ (t + 1) = D ^ t * D := pow_succ _ _
  have hP : (0 : ℝ) < D ^ (t + 1) := by positivity
  have e3 : (3 : ℝ) ^ (t + 1) * (2 / D) * D ^ (t + 1) = 3 ^ (t + 1) * 2 * D ^ t := by rw [hDt]; field_simp
  have u1 : |(m : ℝ)| - 3 ^ (t + 1) * 2 * D ^ t ≤ |s| * D ^ (t + 1) := by
    have := mul_le_mul_of_nonneg_right l1 hP.le
    rw [sub_mul, div_mul_cancel₀ _ hP.ne', neg_mul, e3] at this
    linarith
  have u2 : |s| * D ^ (t + 1) ≤ |(m : ℝ)| + 3 ^ (t + 1) * 2 * D ^ t := by
    have := mul_le_mul_of_nonneg_right l2 hP.le
    rw [sub_mul, div_mul_cancel₀ _ hP.ne', e3] at this
    linarith
  symm
  rw [Nat.floor_eq_iff (by positivity)]
  constructor
  · refine le_of_mul_le_mul_right ?_ hP
    calc (T : ℝ) * D ^ (t + 1) ≤ 4294967296 * (|(m : ℝ)| - 3 ^ (t + 1) * 2 * D ^ t) := by linarith
      _ ≤ 4294967296 * (|s| * D ^ (t + 1)) := by gcongr
      _ = _ := by ring
  · refine lt_of_mul_lt_mul_right ?_ hP.le
    calc 4294967296 * |s| * (D : ℝ) ^ (t + 1) = 4294967296 * (|s| * D ^ (t + 1)) := by ring
      _ ≤ 4294967296 * (|(m : ℝ)| + 3 ^ (t + 1) * 2 * D ^ t) := by gcongr
      _ < _ := by linarith

end Verif.HashSpec

import Mathlib.Data.Real.Basic
import Mathlib.Data.Int.Log
import Mathlib.Algebra.Order.Round
import Mathlib.Analysis.SpecialFunctions.Pow.Real
import Mathlib.Tactic.Linarith
import Mathlib.Tactic.Positivity
import Mathlib.Tactic.NormNum
/-
Binary floating point numbers with a given number of significant bits.
-/
namespace Geec
noncomputable section

/-- The nearest number with `p + 1` significant bits: `a` is `m 2^(e - p)` with `2^p ≤ |m| < 2^(p + 1)`, and `m` is rounded to the nearest integer.  For `p = 52`
these are the IEEE double precision numbers, but for overflow and underflow and for the choice between two equally near numbers. -/
def nearest (p : ℕ) (a : ℝ) : ℝ := round (a * 2 ^ ((p : ℤ) - Int.log 2 |a|)) * 2 ^ (Int.log 2 |a| - p)

/-- The error is at most `2^-(p + 1)` times the number. -/
theorem nearest_error (p : ℕ) (a : ℝ) : |nearest p a - a| ≤ 2⁻¹ ^ (p + 1) * |a| := by
  rcases eq_or_ne a 0 with rfl | ha
  · simp [nearest]
  set e := Int.log 2 |a| with he
  have h2 : (0 : ℝ) < 2 := by norm_num
  have hp : (0 : ℝ) < 2 ^ (e - p) := zpow_pos h2 _
  have h1 : (2 : ℝ) ^ ((p : ℤ) - e) * 2 ^ (e - p) = 1 := by rw [← zpow_add₀ h2.ne']; simp
  have h3 : nearest p a - a = (round (a * 2 ^ ((p : ℤ) - e)) - a * 2 ^ ((p : ℤ) - e)) * 2 ^ (e - p) := by
    rw [nearest, ← he, sub_mul, mul_assoc, h1, mul_one]
  have h4 := abs_sub_round (a * 2 ^ ((p : ℤ) - e))
  have h5 : (2 : ℝ) ^ e ≤ |a| := by
    have := Int.zpow_log_le_self (R := ℝ) (b := 2) (by norm_num) (abs_pos.mpr ha)
    simpa using this
  rw [h3, abs_mul, abs_of_pos hp, abs_sub_comm]
  calc |a * 2 ^ ((p : ℤ) - e) - round (a * 2 ^ ((p : ℤ) - e))| * 2 ^ (e - p) ≤ 1 / 2 * 2 ^ (e - p) := mul_le_mul_of_nonneg_right h4 hp.le
    _ = 2⁻¹ ^ (p + 1) * 2 ^ e := by
      rw [zpow_sub₀ h2.ne', pow_succ, zpow_natCast, inv_pow]
      ring
    _ ≤ _ := mul_le_mul_of_nonneg_left h5 (by positivity)

/-- a multiple of the unit in the last place is not changed -/
theorem nearest_of_multiple {p : ℕ} {a : ℝ} {m : ℤ} (h : a * 2 ^ ((p : ℤ) - Int.log 2 |a|) = m) : nearest p a = a := by
  rw [nearest, h, round_intCast, ← h, mul_assoc, ← zpow_add₀ (by norm_num)]
  simp

/-- Integers up to `2^(p + 1)` are not changed. -/
theorem nearest_int {p : ℕ} {n : ℤ} (hn : |(n : ℝ)| < 2 ^ (p + 1)) : nearest p n = n := by
  rcases eq_or_ne n 0 with rfl | h0
  · simp [nearest]
  have ha : (0 : ℝ) < |(n : ℝ)| := abs_pos.mpr (Int.cast_ne_zero.mpr h0)
  have h1 : Int.log 2 |(n : ℝ)| < (p + 1 : ℕ) := by
    rw [← Int.lt_zpow_iff_log_lt (by norm_num) ha]
    rw [zpow_natCast]
    exact_mod_cast hn
  obtain ⟨k, hk⟩ : ∃ k : ℕ, (p : ℤ) - Int.log 2 |(n : ℝ)| = k := ⟨((p : ℤ) - Int.log 2 |(n : ℝ)|).toNat, by
    rw [Int.toNat_of_nonneg]; push_cast at h1; omega⟩
  refine nearest_of_multiple (m := n * 2 ^ k) ?_
  rw [hk, zpow_natCast]
  push_cast
  rfl

/-- rounding a number whose binary exponent is known -/
theorem nearest_eq {p : ℕ} {a : ℝ} {e m : ℤ} (h1 : (2 : ℝ) ^ e ≤ |a|) (h2 : |a| < 2 ^ (e + 1)) (h3 : |a * 2 ^ ((p : ℤ) - e) - m| < 1 / 2) :
    nearest p a = m * 2 ^ (e - p) := by
  have ha : 0 < |a| := (zpow_pos (by norm_num) e).trans_le h1
  have he : Int.log 2 |a| = e := by
    apply le_antisymm
    · have := (Int.lt_zpow_iff_log_lt (R := ℝ) (b := 2) (by norm_num) (x := e + 1) ha).mp (by exact_mod_cast h2)
      omega
    · exact (Int.zpow_le_iff_le_log (R := ℝ) (b := 2) (by norm_num) ha).mp (by exact_mod_cast h1)
  rw [nearest, he]
  congr 2
  rw [round_eq, Int.floor_eq_iff]
  rw [abs_lt] at h3
  constructor <;> linarith [h3.1, h3.2]

end
end Geec

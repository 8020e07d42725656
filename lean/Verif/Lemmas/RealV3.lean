import Verif.Model.RealArith
import Mathlib.Tactic.Ring
import Mathlib.Tactic.Linarith
import Mathlib.Tactic.FieldSimp
import Mathlib.Tactic.Positivity
import Mathlib.Tactic.LinearCombination
/-
The operations of the real instance, and vector identities.
-/
namespace Geec
open Arith
noncomputable section

section ops
@[simp] theorem r_zero : (Arith.zero : ℝ) = 0 := rfl
@[simp] theorem r_one : (Arith.one : ℝ) = 1 := rfl
@[simp] theorem r_two : (Arith.two : ℝ) = 2 := rfl
@[simp] theorem r_negOne : (Arith.negOne : ℝ) = -1 := rfl
@[simp] theorem r_pi : (Arith.pi : ℝ) = Real.pi := rfl
@[simp] theorem r_eps : (Arith.eps : ℝ) = repsilon := rfl
@[simp] theorem r_k1e5 : (Arith.k1e5 : ℝ) = 100000 := rfl
@[simp] theorem r_k1e4 : (Arith.k1e4 : ℝ) = 10000 := rfl
@[simp] theorem r_ofNat (n : Nat) : (Arith.ofNat n : ℝ) = (n : ℝ) := rfl
@[simp] theorem r_add (a b : ℝ) : a +. b = a + b := rfl
@[simp] theorem r_sub (a b : ℝ) : a -. b = a - b := rfl
@[simp] theorem r_mul (a b : ℝ) : a *. b = a * b := rfl
@[simp] theorem r_div (a b : ℝ) : a /. b = a / b := rfl
@[simp] theorem r_neg (a : ℝ) : Arith.neg a = -a := rfl
@[simp] theorem r_abs (a : ℝ) : Arith.abs a = |a| := rfl
@[simp] theorem r_sqrt (a : ℝ) : Arith.sqrt a = Real.sqrt a := rfl
@[simp] theorem r_log (a : ℝ) : Arith.log a = Real.log a := rfl
@[simp] theorem r_acos (a : ℝ) : Arith.acos a = Real.arccos a := rfl
@[simp] theorem r_lt (a b : ℝ) : (a <. b) = true ↔ a < b := by show decide _ = true ↔ _; simp
@[simp] theorem r_eq (a b : ℝ) : (a ==. b) = true ↔ a = b := by show decide _ = true ↔ _; simp
@[simp] theorem r_dot (a b : V3 ℝ) : Arith.dot a b = rdot a b := rfl
@[simp] theorem r_mdot (a b : V3 ℝ) : Arith.mdot a b = rdot a b := rfl
@[simp] theorem r_norm (a : V3 ℝ) : Arith.norm a = Real.sqrt (rdot a a) := rfl
@[simp] theorem r_mnorm (a : V3 ℝ) : Arith.mnorm a = Real.sqrt (rdot a a) := rfl
end ops

theorem V3.ext' {a b : V3 ℝ} (hx : a.x = b.x) (hy : a.y = b.y) (hz : a.z = b.z) : a = b := by
  cases a; cases b; simp_all

section comp
variable (a b : V3 ℝ) (s : ℝ)
@[simp] theorem sub_x : (a.sub b).x = a.x - b.x := rfl
@[simp] theorem sub_y : (a.sub b).y = a.y - b.y := rfl
@[simp] theorem sub_z : (a.sub b).z = a.z - b.z := rfl
@[simp] theorem add_x : (a.add b).x = a.x + b.x := rfl
@[simp] theorem add_y : (a.add b).y = a.y + b.y := rfl
@[simp] theorem add_z : (a.add b).z = a.z + b.z := rfl
@[simp] theorem neg_x : (a.neg).x = -a.x := rfl
@[simp] theorem neg_y : (a.neg).y = -a.y := rfl
@[simp] theorem neg_z : (a.neg).z = -a.z := rfl
@[simp] theorem smul_x : (V3.smul s a).x = s * a.x := rfl
@[simp] theorem smul_y : (V3.smul s a).y = s * a.y := rfl
@[simp] theorem smul_z : (V3.smul s a).z = s * a.z := rfl
@[simp] theorem sdiv_x : (a.sdiv s).x = a.x / s := rfl
@[simp] theorem sdiv_y : (a.sdiv s).y = a.y / s := rfl
@[simp] theorem sdiv_z : (a.sdiv s).z = a.z / s := rfl
@[simp] theorem cross_x : (cross a b).x = a.y * b.z - a.z * b.y := rfl
@[simp] theorem cross_y : (cross a b).y = a.z * b.x - a.x * b.z := rfl
@[simp] theorem cross_z : (cross a b).z = a.x * b.y - a.y * b.x := rfl
@[simp] theorem zeros_x : (V3.zeros : V3 ℝ).x = 0 := rfl
@[simp] theorem zeros_y : (V3.zeros : V3 ℝ).y = 0 := rfl
@[simp] theorem zeros_z : (V3.zeros : V3 ℝ).z = 0 := rfl
end comp

variable (a b c d : V3 ℝ) (s : ℝ)

theorem rdot_comm : rdot a b = rdot b a := by simp only [rdot]; ring
theorem rdot_add : rdot a (b.add c) = rdot a b + rdot a c := by simp [rdot]; ring
theorem rdot_sub : rdot a (b.sub c) = rdot a b - rdot a c := by simp [rdot]; ring
theorem rdot_neg : rdot a b.neg = -rdot a b := by simp [rdot]; ring
theorem neg_rdot : rdot a.neg b = -rdot a b := by simp [rdot]; ring
theorem rdot_smul : rdot a (V3.smul s b) = s * rdot a b := by simp [rdot]; ring
theorem smul_rdot : rdot (V3.smul s a) b = s * rdot a b := by simp [rdot]; ring
theorem sdiv_rdot : rdot (a.sdiv s) b = rdot a b / s := by simp [rdot]; ring
theorem rdot_sdiv : rdot a (b.sdiv s) = rdot a b / s := by simp [rdot]; ring
theorem rdot_zeros : rdot a V3.zeros = 0 := by simp [rdot]

theorem rdot_self_nonneg : 0 ≤ rdot a a := by
  simp only [rdot]; nlinarith [mul_self_nonneg a.x, mul_self_nonneg a.y, mul_self_nonneg a.z]

theorem rdot_self_eq_zero {a : V3 ℝ} : rdot a a = 0 ↔ a = V3.zeros := by
  constructor
  · intro h
    simp only [rdot] at h
    have hx := mul_self_nonneg a.x
    have hy := mul_self_nonneg a.y
    have hz := mul_self_nonneg a.z
    refine V3.ext' ?_ ?_ ?_ <;> simp only [zeros_x, zeros_y, zeros_z] <;> apply mul_self_eq_zero.mp <;> linarith
  · rintro rfl; simp [rdot]

theorem rdot_self_pos {a : V3 ℝ} (h : a ≠ V3.zeros) : 0 < rdot a a :=
  lt_of_le_of_ne (rdot_self_nonneg a) (fun h' => h (rdot_self_eq_zero.mp h'.symm))

theorem cross_neg_swap : cross a b = (cross b a).neg := by
  refine V3.ext' ?_ ?_ ?_ <;> simp <;> ring

theorem rdot_cross_left : rdot (cross a b) a = 0 := by simp [rdot]; ring
theorem rdot_cross_right : rdot (cross a b) b = 0 := by simp [rdot]; ring

theorem lagrange : rdot (cross a b) (cross c d) = rdot a c * rdot b d - rdot a d * rdot b c := by
  simp [rdot]; ring

/-- triple product -/
def det3 (a b c : V3 ℝ) : ℝ := rdot a (cross b c)

theorem det3_cyc : det3 a b c = det3 b c a := by simp [det3, rdot]; ring
theorem det3_swap : det3 a b c = -det3 a c b := by simp [det3, rdot]; ring
theorem det3_eq : det3 a b c = rdot (cross a b) c := by simp [det3, rdot]; ring

/-- a unit vector -/
theorem unit_of_ne {a : V3 ℝ} (h : a ≠ V3.zeros) : rdot (a.sdiv (Real.sqrt (rdot a a))) (a.sdiv (Real.sqrt (rdot a a))) = 1 := by
  have hp := rdot_self_pos h
  rw [rdot_sdiv, sdiv_rdot, div_div, Real.mul_self_sqrt hp.le, div_self hp.ne']

theorem norm_pos {a : V3 ℝ} (h : a ≠ V3.zeros) : 0 < Real.sqrt (rdot a a) := Real.sqrt_pos.mpr (rdot_self_pos h)

/-- decomposition of a vector on two independent ones and their cross product -/
theorem decomp (e1 e2 w : V3 ℝ) :
    V3.smul (rdot (cross e1 e2) (cross e1 e2)) w =
      ((V3.smul (rdot (cross w e2) (cross e1 e2)) e1).add (V3.smul (rdot (cross e1 w) (cross e1 e2)) e2)).add
        (V3.smul (rdot w (cross e1 e2)) (cross e1 e2)) := by
  refine V3.ext' ?_ ?_ ?_ <;> simp [rdot] <;> ring

end
end Geec

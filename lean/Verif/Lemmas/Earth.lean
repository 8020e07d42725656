import Verif.Model.Earth
import Verif.Lemmas.RealV3
import Verif.Spec.Motion
import Mathlib.Analysis.SpecialFunctions.Complex.Arg
import Mathlib.Topology.Order.IntermediateValue
import Mathlib.Tactic.Linarith
import Mathlib.Tactic.Positivity
import Mathlib.Tactic.FieldSimp
import Mathlib.Tactic.LinearCombination
/-
Facts about the closed formulas of the geodesy library.
-/
namespace Geec
noncomputable section

/-- the matrix whose columns are the east, north and up directions at latitude `φ`, longitude `l` -/
def localFrame (φ l : ℝ) : M3 ℝ :=
  ⟨⟨-Real.sin l, -(Real.cos l * Real.sin φ), Real.cos l * Real.cos φ⟩,
   ⟨Real.cos l, -(Real.sin l * Real.sin φ), Real.sin l * Real.cos φ⟩,
   ⟨0, Real.cos φ, Real.sin φ⟩⟩

theorem localFrame_rotation (φ l : ℝ) : IsRotation (localFrame φ l) := by
  have h1 := Real.sin_sq_add_cos_sq φ
  have h2 := Real.sin_sq_add_cos_sq l
  constructor
  · simp only [localFrame, rdot]
    linear_combination h2 + Real.cos l ^ 2 * h1
  · simp only [localFrame, rdot]
    linear_combination h2 + Real.sin l ^ 2 * h1
  · simp only [localFrame, rdot]
    linear_combination Real.sin l * Real.cos l * h1
  · simp only [localFrame]
    congr 1
    · ring
    · linear_combination -Real.cos φ * h2
    · linear_combination -Real.sin φ * h2

theorem enu2uvw_eq (φ l : ℝ) (p : V3 ℝ) : enu2uvw φ l p = (localFrame φ l).apply p := by
  simp only [enu2uvw, M3.apply, localFrame, rdot]
  congr 1 <;> ring

theorem enu2uvw_uvw2enu (φ l : ℝ) (p : V3 ℝ) : enu2uvw φ l (uvw2enu φ l p) = p := by
  have h1 := Real.sin_sq_add_cos_sq φ
  have h2 := Real.sin_sq_add_cos_sq l
  refine V3.ext' ?_ ?_ ?_ <;> simp only [enu2uvw, uvw2enu]
  · linear_combination (Real.cos l * (Real.cos l * p.x + Real.sin l * p.y)) * h1 + p.x * h2
  · linear_combination (Real.sin l * (Real.cos l * p.x + Real.sin l * p.y)) * h1 + p.y * h2
  · linear_combination p.z * h1

theorem uvw2enu_enu2uvw (φ l : ℝ) (p : V3 ℝ) : uvw2enu φ l (enu2uvw φ l p) = p := by
  have h1 := Real.sin_sq_add_cos_sq φ
  have h2 := Real.sin_sq_add_cos_sq l
  refine V3.ext' ?_ ?_ ?_ <;> simp only [enu2uvw, uvw2enu]
  · linear_combination p.x * h2
  · linear_combination p.y * h1 + (Real.sin φ ^ 2 * p.y - Real.sin φ * Real.cos φ * p.z) * h2
  · linear_combination p.z * h1 + (Real.cos φ ^ 2 * p.z - Real.sin φ * Real.cos φ * p.y) * h2

theorem wgsA_pos : 0 < wgsA := by norm_num [wgsA]
theorem wgsB_pos : 0 < wgsB := by norm_num [wgsB]
theorem wgsB_le_wgsA : wgsB ≤ wgsA := by norm_num [wgsA, wgsB]

theorem meridian_pos {a b : ℝ} (ha : 0 < a) (hb : 0 < b) (φ : ℝ) : 0 < (a * Real.cos φ) ^ 2 + (b * Real.sin φ) ^ 2 := by
  have h := Real.sin_sq_add_cos_sq φ
  have h1 : 0 ≤ (a * Real.cos φ) ^ 2 := sq_nonneg _
  have h2 : 0 ≤ (b * Real.sin φ) ^ 2 := sq_nonneg _
  by_contra hn
  have e1 : (a * Real.cos φ) ^ 2 = 0 := by linarith
  have e2 : (b * Real.sin φ) ^ 2 = 0 := by linarith
  have e1' : Real.cos φ = 0 := by rcases mul_eq_zero.mp (pow_eq_zero_iff (two_ne_zero) |>.mp e1) with h | h; exact absurd h ha.ne'; exact h
  have e2' : Real.sin φ = 0 := by rcases mul_eq_zero.mp (pow_eq_zero_iff (two_ne_zero) |>.mp e2) with h | h; exact absurd h hb.ne'; exact h
  rw [e1', e2'] at h
  norm_num at h

theorem primeRadius_continuous {a b : ℝ} (ha : 0 < a) (hb : 0 < b) : Continuous (primeRadius a b) := by
  unfold primeRadius
  refine continuous_const.div (Real.continuous_sqrt.comp (by fun_prop)) fun φ => ?_
  exact (Real.sqrt_pos.mpr (meridian_pos ha hb φ)).ne'

theorem radians_deg (x : ℝ) : radians (x * 180 / Real.pi) = x := by
  unfold radians
  have := Real.pi_pos
  field_simp

/-- every point of space has geodetic coordinates -/
theorem geodetic_surjective {a b : ℝ} (ha : 0 < a) (hb : 0 < b) (x : V3 ℝ) :
    ∃ φ l h, -(Real.pi / 2) ≤ φ ∧ φ ≤ Real.pi / 2 ∧ geodeticPoint a b φ l h = x := by
  set w : ℂ := ⟨x.x, x.y⟩ with hw
  set ρ := ‖w‖
  have hρ : 0 ≤ ρ := norm_nonneg _
  have hx : ρ * Real.cos w.arg = x.x := Complex.norm_mul_cos_arg w
  have hy : ρ * Real.sin w.arg = x.y := Complex.norm_mul_sin_arg w
  set f : ℝ → ℝ := fun φ => ρ * Real.sin φ - x.z * Real.cos φ - primeRadius a b φ * (1 - (b / a) ^ 2) * Real.sin φ * Real.cos φ with hf
  have hc : Continuous f := by
    have := primeRadius_continuous ha hb
    fun_prop
  have hpi := Real.pi_pos
  have h0 : (0 : ℝ) ∈ Set.Icc (f (-(Real.pi / 2))) (f (Real.pi / 2)) := by
    simp only [hf, Real.sin_neg, Real.cos_neg, Real.sin_pi_div_two, Real.cos_pi_div_two]
    constructor <;> linarith
  obtain ⟨φ, ⟨h1, h2⟩, hφ⟩ := intermediate_value_Icc (by linarith) hc.continuousOn h0
  refine ⟨φ, w.arg, (ρ - primeRadius a b φ * Real.cos φ) * Real.cos φ + (x.z - primeRadius a b φ * (b / a) ^ 2 * Real.sin φ) * Real.sin φ,
    h1, h2, ?_⟩
  have hs := Real.sin_sq_add_cos_sq φ
  simp only [hf] at hφ
  have e1 : (primeRadius a b φ + ((ρ - primeRadius a b φ * Real.cos φ) * Real.cos φ +
      (x.z - primeRadius a b φ * (b / a) ^ 2 * Real.sin φ) * Real.sin φ)) * Real.cos φ = ρ := by
    linear_combination (ρ - primeRadius a b φ * Real.cos φ) * hs - Real.sin φ * hφ
  refine V3.ext' ?_ ?_ ?_ <;> simp only [geodeticPoint]
  · rw [e1, hx]
  · rw [e1, hy]
  · linear_combination (x.z - primeRadius a b φ * (b / a) ^ 2 * Real.sin φ) * hs + Real.cos φ * hφ

theorem geodetic2ecefOn_surjective {a b : ℝ} (ha : 0 < a) (hb : 0 < b) (x : V3 ℝ) : ∃ p, geodetic2ecefOn a b p = .ok x := by
  obtain ⟨φ, l, h, h1, h2, h3⟩ := geodetic_surjective ha hb x
  have hpi := Real.pi_pos
  refine ⟨⟨l * 180 / Real.pi, φ * 180 / Real.pi, h⟩, ?_⟩
  have : ¬ 90 < |φ * 180 / Real.pi| := by
    rw [not_lt, abs_le]
    constructor
    · rw [le_div_iff₀ hpi]; nlinarith
    · rw [div_le_iff₀ hpi]; nlinarith
  simp only [geodetic2ecefOn, if_neg this, radians_deg, h3]

variable (more : List (String × String × ℝ × ℝ)) (latLonErr : ℝ → ℝ → Option PyErr) (geoid : VDatum → ℝ → ℝ → ℝ)

theorem earth_wgs84 : wgs84 (earth more latLonErr geoid) = ⟨"wgs84", "WGS-84 (1984)", wgsA, wgsB⟩ := by
  simp [wgs84, earth, findModel]

theorem earth_geodetic_inv {x p : V3 ℝ} (h : (earth more latLonErr geoid).ecef2geodetic x = .ok p) :
    geodetic2ecefOn wgsA wgsB p = .ok x := by
  simp only [earth] at h
  split at h
  · rename_i hx
    cases h
    exact Classical.choose_spec hx
  · cases h

theorem ecef2enuOn_inv {a b lat lon h : ℝ} {x p : V3 ℝ} (hp : ecef2enuOn a b lat lon h x = .ok p) :
    enu2ecefOn a b lat lon h p = .ok x := by
  unfold ecef2enuOn at hp
  unfold enu2ecefOn
  cases ho : geodetic2ecefOn a b ⟨lon, lat, h⟩ with
  | error e => rw [ho] at hp; cases hp
  | ok o =>
    rw [ho] at hp
    simp only [bind, Except.bind, pure, Except.pure, Except.ok.injEq] at hp ⊢
    rw [← hp, enu2uvw_uvw2enu]
    refine V3.ext' ?_ ?_ ?_ <;> simp

/-- the library with the closed formulas obeys the laws assumed of a geodesy library -/
theorem earth_lawful : (earth more latLonErr geoid).Lawful where
  eq_refl := by intro e; simp [earth]
  eq_ecef := by intro e e' h; simp only [earth, decide_eq_true_eq] at h; rw [h]
  eq_enu := by intro e e' h; simp only [earth, decide_eq_true_eq] at h; rw [h]
  default_ecef := by rw [earth_wgs84]; rfl
  default_enu := by rw [earth_wgs84]; rfl
  geodetic_inv := by
    intro x p h; rw [earth_wgs84]; exact earth_geodetic_inv more latLonErr geoid h
  enu_inv := by
    intro lat lon alt x p h; rw [earth_wgs84]; exact ecef2enuOn_inv h
  geodetic_enu := by
    intro lat lon alt p q h
    rw [earth_wgs84]
    simp only [earth] at h ⊢
    cases hx : geodetic2ecefOn wgsA wgsB p with
    | error e => rw [hx] at h; cases h
    | ok x => rw [hx] at h; exact ⟨x, rfl, h⟩

end
end Geec

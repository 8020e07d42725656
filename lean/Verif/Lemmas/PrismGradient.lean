import Verif.Lemmas.Prism
import Verif.Props.ThinTube
/-
The gradient of the attraction of a rectangular block in closed form.
-/
namespace Geec
open Arith MeasureTheory Metric Set Filter Topology
noncomputable section

theorem nagy_swap (a b c : ℝ) : nagy a b c = nagy b a c := by
  unfold nagy; rw [rad3_swap b a c, mul_comm b a]; ring

/-- `d/db nagy = log (a + r) + b² / (b² + c²)` -/
theorem nagy_deriv_snd {a b c : ℝ} (hc : c ≠ 0) :
    HasDerivAt (fun b => nagy a b c) (Real.log (a + rad3 a b c) + b ^ 2 / (b ^ 2 + c ^ 2)) b := by
  have h := nagy_deriv_fst (a := b) (b := a) hc
  rw [rad3_swap b a c] at h
  exact h.congr_of_eventuallyEq (Eventually.of_forall fun b => nagy_swap a b c)

theorem corners_deriv_x {F F' : ℝ → ℝ → ℝ → ℝ} {x1 x2 y1 y2 z1 z2 : ℝ}
    (h : ∀ x ∈ [x1, x2], ∀ y ∈ [y1, y2], ∀ z ∈ [z1, z2], HasDerivAt (fun x => F x y z) (F' x y z) x) :
    HasDerivAt (fun t => -corners F (x1 - t) (x2 - t) y1 y2 z1 z2) (corners F' x1 x2 y1 y2 z1 z2) 0 := by
  have k : ∀ x ∈ [x1, x2], ∀ y ∈ [y1, y2], ∀ z ∈ [z1, z2], HasDerivAt (fun t => F (x - t) y z) (-F' x y z) 0 := by
    intro x hx y hy z hz
    have := (h x hx y hy z hz)
    rw [← sub_zero x] at this
    have := HasDerivAt.comp (0 : ℝ) this ((hasDerivAt_id (0 : ℝ)).const_sub x)
    exact this.congr_deriv (by simp)
  unfold corners
  refine (((((k x2 (by simp) y2 (by simp) z2 (by simp)).sub (k x2 (by simp) y1 (by simp) z2 (by simp))).sub (k x2 (by simp) y2 (by simp) z1 (by simp))).add
    (k x2 (by simp) y1 (by simp) z1 (by simp))).sub ((((k x1 (by simp) y2 (by simp) z2 (by simp)).sub (k x1 (by simp) y1 (by simp) z2 (by simp))).sub
    (k x1 (by simp) y2 (by simp) z1 (by simp))).add (k x1 (by simp) y1 (by simp) z1 (by simp)))).neg.congr_deriv ?_
  ring

theorem corners_perm1 (F : ℝ → ℝ → ℝ → ℝ) (x1 x2 y1 y2 z1 z2 : ℝ) :
    corners F x1 x2 y1 y2 z1 z2 = corners (fun y z x => F x y z) y1 y2 z1 z2 x1 x2 := by unfold corners; ring

theorem corners_perm2 (F : ℝ → ℝ → ℝ → ℝ) (x1 x2 y1 y2 z1 z2 : ℝ) :
    corners F x1 x2 y1 y2 z1 z2 = corners (fun z x y => F x y z) z1 z2 x1 x2 y1 y2 := by unfold corners; ring

theorem corners_deriv_y {F F' : ℝ → ℝ → ℝ → ℝ} {x1 x2 y1 y2 z1 z2 : ℝ}
    (h : ∀ x ∈ [x1, x2], ∀ y ∈ [y1, y2], ∀ z ∈ [z1, z2], HasDerivAt (fun y => F x y z) (F' x y z) y) :
    HasDerivAt (fun t => -corners F x1 x2 (y1 - t) (y2 - t) z1 z2) (corners F' x1 x2 y1 y2 z1 z2) 0 := by
  have := corners_deriv_x (F := fun y z x => F x y z) (F' := fun y z x => F' x y z) (x1 := y1) (x2 := y2) (y1 := z1) (y2 := z2) (z1 := x1) (z2 := x2)
    fun y hy z hz x hx => h x hx y hy z hz
  rw [← corners_perm1 F'] at this
  simpa only [← corners_perm1 F] using this

theorem corners_deriv_z {F F' : ℝ → ℝ → ℝ → ℝ} {x1 x2 y1 y2 z1 z2 : ℝ}
    (h : ∀ x ∈ [x1, x2], ∀ y ∈ [y1, y2], ∀ z ∈ [z1, z2], HasDerivAt (fun z => F x y z) (F' x y z) z) :
    HasDerivAt (fun t => -corners F x1 x2 y1 y2 (z1 - t) (z2 - t)) (corners F' x1 x2 y1 y2 z1 z2) 0 := by
  have := corners_deriv_x (F := fun z x y => F x y z) (F' := fun z x y => F' x y z) (x1 := z1) (x2 := z2) (y1 := x1) (y2 := x2) (z1 := y1) (z2 := y2)
    fun z hz x hx y hy => h x hx y hy z hz
  rw [← corners_perm2 F'] at this
  simpa only [← corners_perm2 F] using this

/-- the nine derivatives of the three components; `r` is the distance of the corner -/
theorem block_gradient_z {x1 x2 y1 y2 z1 z2 : ℝ} (hx : x1 ≤ x2) (hy : y1 ≤ y2) (hz : z1 ≤ z2) {s : V3 ℝ} (h1 : s.z ≠ z1) (h2 : s.z ≠ z2) :
    HasDerivAt (fun t => (attraction (block x1 x2 y1 y2 z1 z2) (s.add (V3.smul t ⟨1, 0, 0⟩))).z)
      (corners (fun x y z => Real.log (y + rad3 x y z)) (x1 - s.x) (x2 - s.x) (y1 - s.y) (y2 - s.y) (z1 - s.z) (z2 - s.z)) 0 ∧
    HasDerivAt (fun t => (attraction (block x1 x2 y1 y2 z1 z2) (s.add (V3.smul t ⟨0, 1, 0⟩))).z)
      (corners (fun x y z => Real.log (x + rad3 x y z)) (x1 - s.x) (x2 - s.x) (y1 - s.y) (y2 - s.y) (z1 - s.z) (z2 - s.z)) 0 ∧
    HasDerivAt (fun t => (attraction (block x1 x2 y1 y2 z1 z2) (s.add (V3.smul t ⟨0, 0, 1⟩))).z)
      (-corners (fun x y z => Real.arctan (x * y / (z * rad3 x y z))) (x1 - s.x) (x2 - s.x) (y1 - s.y) (y2 - s.y) (z1 - s.z) (z2 - s.z)) 0 := by
  have hne : ∀ z ∈ [z1 - s.z, z2 - s.z], z ≠ 0 := by
    intro z hz' h
    rw [h] at hz'
    simp only [List.mem_cons, List.not_mem_nil, or_false] at hz'
    rcases hz' with h | h
    · exact h1 (by linarith)
    · exact h2 (by linarith)
  refine ⟨?_, ?_, ?_⟩
  · have := corners_deriv_x (F := fun x y z => nagy x y z) (F' := fun x y z => Real.log (y + rad3 x y z) + x ^ 2 / (x ^ 2 + z ^ 2))
      (x1 := x1 - s.x) (x2 := x2 - s.x) (y1 := y1 - s.y) (y2 := y2 - s.y) (z1 := z1 - s.z) (z2 := z2 - s.z)
      fun x _ y _ z hz => nagy_deriv_fst (hne z hz)
    refine (this.congr_of_eventuallyEq (Eventually.of_forall fun t => ?_)).congr_deriv ?_
    · rw [block_attraction hx hy hz]; simp [sub_sub]
    · unfold corners; ring
  · have := corners_deriv_y (F := fun x y z => nagy x y z) (F' := fun x y z => Real.log (x + rad3 x y z) + y ^ 2 / (y ^ 2 + z ^ 2))
      (x1 := x1 - s.x) (x2 := x2 - s.x) (y1 := y1 - s.y) (y2 := y2 - s.y) (z1 := z1 - s.z) (z2 := z2 - s.z)
      fun x _ y _ z hz => nagy_deriv_snd (hne z hz)
    refine (this.congr_of_eventuallyEq (Eventually.of_forall fun t => ?_)).congr_deriv ?_
    · rw [block_attraction hx hy hz]; simp [sub_sub]
    · unfold corners; ring
  · have := corners_deriv_z (F := fun x y z => nagy x y z)
      (F' := fun x y z => -Real.arctan (x * y / (z * rad3 x y z)) + z * x / (x ^ 2 + z ^ 2) + z * y / (y ^ 2 + z ^ 2))
      (x1 := x1 - s.x) (x2 := x2 - s.x) (y1 := y1 - s.y) (y2 := y2 - s.y) (z1 := z1 - s.z) (z2 := z2 - s.z)
      fun x _ y _ z hz => nagy_deriv_trd (hne z hz)
    refine (this.congr_of_eventuallyEq (Eventually.of_forall fun t => ?_)).congr_deriv ?_
    · rw [block_attraction hx hy hz]; simp [sub_sub]
    · unfold corners; ring

theorem rad3_cycle (a b c : ℝ) : rad3 a b c = rad3 b c a := by unfold rad3; congr 1; ring

theorem block_gradient_x {x1 x2 y1 y2 z1 z2 : ℝ} (hx : x1 ≤ x2) (hy : y1 ≤ y2) (hz : z1 ≤ z2) {s : V3 ℝ} (h1 : s.x ≠ x1) (h2 : s.x ≠ x2) :
    HasDerivAt (fun t => (attraction (block x1 x2 y1 y2 z1 z2) (s.add (V3.smul t ⟨1, 0, 0⟩))).x)
      (-corners (fun x y z => Real.arctan (y * z / (x * rad3 x y z))) (x1 - s.x) (x2 - s.x) (y1 - s.y) (y2 - s.y) (z1 - s.z) (z2 - s.z)) 0 ∧
    HasDerivAt (fun t => (attraction (block x1 x2 y1 y2 z1 z2) (s.add (V3.smul t ⟨0, 1, 0⟩))).x)
      (corners (fun x y z => Real.log (z + rad3 x y z)) (x1 - s.x) (x2 - s.x) (y1 - s.y) (y2 - s.y) (z1 - s.z) (z2 - s.z)) 0 ∧
    HasDerivAt (fun t => (attraction (block x1 x2 y1 y2 z1 z2) (s.add (V3.smul t ⟨0, 0, 1⟩))).x)
      (corners (fun x y z => Real.log (y + rad3 x y z)) (x1 - s.x) (x2 - s.x) (y1 - s.y) (y2 - s.y) (z1 - s.z) (z2 - s.z)) 0 := by
  have hne : ∀ x ∈ [x1 - s.x, x2 - s.x], x ≠ 0 := by
    intro x hx' h
    rw [h] at hx'
    simp only [List.mem_cons, List.not_mem_nil, or_false] at hx'
    rcases hx' with h | h
    · exact h1 (by linarith)
    · exact h2 (by linarith)
  refine ⟨?_, ?_, ?_⟩
  · have := corners_deriv_x (F := fun x y z => nagy y z x)
      (F' := fun x y z => -Real.arctan (y * z / (x * rad3 y z x)) + x * y / (y ^ 2 + x ^ 2) + x * z / (z ^ 2 + x ^ 2))
      (x1 := x1 - s.x) (x2 := x2 - s.x) (y1 := y1 - s.y) (y2 := y2 - s.y) (z1 := z1 - s.z) (z2 := z2 - s.z)
      fun x hx y _ z _ => nagy_deriv_trd (hne x hx)
    refine (this.congr_of_eventuallyEq (Eventually.of_forall fun t => ?_)).congr_deriv ?_
    · rw [block_attraction hx hy hz]; simp [sub_sub]
    · simp only [← rad3_cycle]; unfold corners; ring
  · have := corners_deriv_y (F := fun x y z => nagy y z x) (F' := fun x y z => Real.log (z + rad3 y z x) + y ^ 2 / (y ^ 2 + x ^ 2))
      (x1 := x1 - s.x) (x2 := x2 - s.x) (y1 := y1 - s.y) (y2 := y2 - s.y) (z1 := z1 - s.z) (z2 := z2 - s.z)
      fun x hx y _ z _ => nagy_deriv_fst (hne x hx)
    refine (this.congr_of_eventuallyEq (Eventually.of_forall fun t => ?_)).congr_deriv ?_
    · rw [block_attraction hx hy hz]; simp [sub_sub]
    · simp only [← rad3_cycle]; unfold corners; ring
  · have := corners_deriv_z (F := fun x y z => nagy y z x) (F' := fun x y z => Real.log (y + rad3 y z x) + z ^ 2 / (z ^ 2 + x ^ 2))
      (x1 := x1 - s.x) (x2 := x2 - s.x) (y1 := y1 - s.y) (y2 := y2 - s.y) (z1 := z1 - s.z) (z2 := z2 - s.z)
      fun x hx y _ z _ => nagy_deriv_snd (hne x hx)
    refine (this.congr_of_eventuallyEq (Eventually.of_forall fun t => ?_)).congr_deriv ?_
    · rw [block_attraction hx hy hz]; simp [sub_sub]
    · simp only [← rad3_cycle]; unfold corners; ring

theorem block_gradient_y {x1 x2 y1 y2 z1 z2 : ℝ} (hx : x1 ≤ x2) (hy : y1 ≤ y2) (hz : z1 ≤ z2) {s : V3 ℝ} (h1 : s.y ≠ y1) (h2 : s.y ≠ y2) :
    HasDerivAt (fun t => (attraction (block x1 x2 y1 y2 z1 z2) (s.add (V3.smul t ⟨1, 0, 0⟩))).y)
      (corners (fun x y z => Real.log (z + rad3 x y z)) (x1 - s.x) (x2 - s.x) (y1 - s.y) (y2 - s.y) (z1 - s.z) (z2 - s.z)) 0 ∧
    HasDerivAt (fun t => (attraction (block x1 x2 y1 y2 z1 z2) (s.add (V3.smul t ⟨0, 1, 0⟩))).y)
      (-corners (fun x y z => Real.arctan (z * x / (y * rad3 x y z))) (x1 - s.x) (x2 - s.x) (y1 - s.y) (y2 - s.y) (z1 - s.z) (z2 - s.z)) 0 ∧
    HasDerivAt (fun t => (attraction (block x1 x2 y1 y2 z1 z2) (s.add (V3.smul t ⟨0, 0, 1⟩))).y)
      (corners (fun x y z => Real.log (x + rad3 x y z)) (x1 - s.x) (x2 - s.x) (y1 - s.y) (y2 - s.y) (z1 - s.z) (z2 - s.z)) 0 := by
  have hne : ∀ y ∈ [y1 - s.y, y2 - s.y], y ≠ 0 := by
    intro y hy' h
    rw [h] at hy'
    simp only [List.mem_cons, List.not_mem_nil, or_false] at hy'
    rcases hy' with h | h
    · exact h1 (by linarith)
    · exact h2 (by linarith)
  refine ⟨?_, ?_, ?_⟩
  · have := corners_deriv_x (F := fun x y z => nagy z x y) (F' := fun x y z => Real.log (z + rad3 z x y) + x ^ 2 / (x ^ 2 + y ^ 2))
      (x1 := x1 - s.x) (x2 := x2 - s.x) (y1 := y1 - s.y) (y2 := y2 - s.y) (z1 := z1 - s.z) (z2 := z2 - s.z)
      fun x _ y hy z _ => nagy_deriv_snd (hne y hy)
    refine (this.congr_of_eventuallyEq (Eventually.of_forall fun t => ?_)).congr_deriv ?_
    · rw [block_attraction hx hy hz]; simp [sub_sub]
    · simp only [rad3_cycle (z1 - s.z), rad3_cycle (z2 - s.z), corners]; ring
  · have := corners_deriv_y (F := fun x y z => nagy z x y)
      (F' := fun x y z => -Real.arctan (z * x / (y * rad3 z x y)) + y * z / (z ^ 2 + y ^ 2) + y * x / (x ^ 2 + y ^ 2))
      (x1 := x1 - s.x) (x2 := x2 - s.x) (y1 := y1 - s.y) (y2 := y2 - s.y) (z1 := z1 - s.z) (z2 := z2 - s.z)
      fun x _ y hy z _ => nagy_deriv_trd (hne y hy)
    refine (this.congr_of_eventuallyEq (Eventually.of_forall fun t => ?_)).congr_deriv ?_
    · rw [block_attraction hx hy hz]; simp [sub_sub]
    · simp only [rad3_cycle (z1 - s.z), rad3_cycle (z2 - s.z), corners]; ring
  · have := corners_deriv_z (F := fun x y z => nagy z x y) (F' := fun x y z => Real.log (x + rad3 z x y) + z ^ 2 / (z ^ 2 + y ^ 2))
      (x1 := x1 - s.x) (x2 := x2 - s.x) (y1 := y1 - s.y) (y2 := y2 - s.y) (z1 := z1 - s.z) (z2 := z2 - s.z)
      fun x _ y hy z _ => nagy_deriv_fst (hne y hy)
    refine (this.congr_of_eventuallyEq (Eventually.of_forall fun t => ?_)).congr_deriv ?_
    · rw [block_attraction hx hy hz]; simp [sub_sub]
    · simp only [rad3_cycle (z1 - s.z), rad3_cycle (z2 - s.z), corners]; ring

end
end Geec

import Verif.Props.Rate
/-
C101: inexact inputs and inexact arithmetic together.
-/
namespace Geec
open Filter
noncomputable section
variable {h : Hull ℝ} {inHull : V3 ℝ → Bool} {p : Poly ℝ} {s : V3 ℝ}

theorem real_accurateOn {M u : ℝ} (hM : 0 < M) (hu : 0 < u) : AccurateOn realArith M u := by
  have hv : 0 < min u (1 / M) := lt_min hu (by positivity)
  have h := accurate_iff.mp (accurate_real hv)
  refine h.mono hM ?_ (min_le_left _ _)
  rw [le_div_iff₀ hv]
  have := min_le_right u (1 / M)
  rw [le_div_iff₀ hM] at this
  linarith

/-- a function that takes the first list to the second -/
theorem exists_move {u : ℝ} (hu : 0 ≤ u) : ∀ {l l' : List (V3 ℝ)}, l.Nodup → List.Forall₂ (NearV u) l' l →
    ∃ f : V3 ℝ → V3 ℝ, l.map f = l' ∧ ∀ q, NearV u (f q) q := by
  intro l
  induction l with
  | nil =>
    intro l' _ hn
    cases hn
    exact ⟨id, rfl, fun q => NearV.rfl hu q⟩
  | cons a l ih =>
    intro l' hd hn
    cases hn with
    | cons h1 h2 =>
      rename_i b l'
      rw [List.nodup_cons] at hd
      obtain ⟨f, f1, f2⟩ := ih hd.2 h2
      classical
      refine ⟨fun q => if q = a then b else f q, ?_, fun q => ?_⟩
      · rw [List.map_cons, if_pos rfl, ← f1]
        congr 1
        refine List.map_congr_left fun q hq => if_neg ?_
        rintro rfl
        exact hd.1 hq
      · dsimp only
        split
        · rename_i hq; rw [hq]; exact h1
        · exact f2 q

/-- **C101** Inexact inputs and inexact arithmetic: let the corners of a body be different, and no strict comparison be a tie at the station.  If the program
returns `G` and `T` in exact arithmetic, there is a constant `M` such that with any arithmetic accurate to `u ≤ 1 / M` on numbers of size `M`, and with the coordinates of all
points and of the station, the density and the constant of gravitation changed by at most `u` (the triangles being the same), the program builds the polyhedron, raises
nothing, and returns a vector within `M u` of `G`; and a matrix within `M u` of `T`, if the station is on the line of no edge. -/
theorem C101_joint (hh : h.IsHull) (hd : h.points.Nodup) (hp : mkPoly h inHull = .ok p) (hs : h.Decided s) {ρ Gc : ℝ} {gr : Bool} {G : V3 ℝ} {T : M3 ℝ}
    (hv : Call.onNew p ⟨s, ρ, Gc, gr⟩ = .ok (G, T)) :
    ∃ M, 0 < M ∧ ∀ (A : Arith ℝ) (u : ℝ), 0 < u → u ≤ 1 / M → AccurateOn A M u → ∀ (pts : List (V3 ℝ)) (s' : V3 ℝ) (ρ' Gc' : ℝ) (inHull' : V3 ℝ → Bool),
      List.Forall₂ (NearV u) pts h.points → NearV u s' s → |ρ' - ρ| ≤ u → |Gc' - Gc| ≤ u →
      ∃ p' G' T', @mkPoly ℝ A { h with points := pts } inHull' = .ok p' ∧ @Call.onNew ℝ A p' ⟨s', ρ', Gc', gr⟩ = .ok (G', T') ∧
        NearV (M * u) G' G ∧ (h.OffLines s → NearM (M * u) T' T) := by
  obtain ⟨M, hM, k⟩ := onNew_joint hh hp hs hv
  refine ⟨M, hM, fun A u h0 h1 hA pts s' ρ' Gc' inHull' hpts hs' hρ hG => ?_⟩
  obtain ⟨f, f1, f2⟩ := exists_move h0.le hd hpts
  classical
  let B : Setting := { A with
    move := f
    place := fun q => if q = s then s' else q
    weigh := fun x => if x = ρ then ρ' else x
    scale := fun x => if x = Gc then Gc' else x }
  have hB : B.AccurateOn M u :=
    { hA with
      move := fun q _ => f2 q
      place := fun q _ => by
        show NearV u (if q = s then s' else q) q
        split
        · rename_i e; rw [e]; exact hs'
        · exact NearV.rfl h0.le q
      weigh := fun x _ => by
        show |(if x = ρ then ρ' else x) - x| ≤ u
        split
        · rename_i e; rw [e]; exact hρ
        · simpa using h0.le
      scale := fun x _ => by
        show |(if x = Gc then Gc' else x) - x| ≤ u
        split
        · rename_i e; rw [e]; exact hG
        · simpa using h0.le }
  obtain ⟨p', G', T', k1, k2, k3⟩ := k B u h0 h1 hB
  have e1 : h.moved B = { h with points := pts } := by unfold Hull.moved; rw [← f1]
  have e2 : B.place s = s' := if_pos rfl
  have e3 : B.weigh ρ = ρ' := if_pos rfl
  have e4 : B.scale Gc = Gc' := if_pos rfl
  rw [e1] at k1
  rw [e2, e3, e4] at k2
  exact ⟨p', G', T', k1 inHull', k2, k3⟩

/-- **C101** In exact arithmetic: what the program returns is Lipschitz continuous in all inputs, near inputs for which no strict comparison is a tie. -/
theorem C101_lipschitz (hh : h.IsHull) (hd : h.points.Nodup) (hp : mkPoly h inHull = .ok p) (hs : h.Decided s) {ρ Gc : ℝ} {gr : Bool} {G : V3 ℝ} {T : M3 ℝ}
    (hv : Call.onNew p ⟨s, ρ, Gc, gr⟩ = .ok (G, T)) :
    ∃ M, 0 < M ∧ ∀ u : ℝ, 0 < u → u ≤ 1 / M → ∀ (pts : List (V3 ℝ)) (s' : V3 ℝ) (ρ' Gc' : ℝ) (inHull' : V3 ℝ → Bool),
      List.Forall₂ (NearV u) pts h.points → NearV u s' s → |ρ' - ρ| ≤ u → |Gc' - Gc| ≤ u →
      ∃ p' G' T', mkPoly { h with points := pts } inHull' = .ok p' ∧ Call.onNew p' ⟨s', ρ', Gc', gr⟩ = .ok (G', T') ∧
        NearV (M * u) G' G ∧ (h.OffLines s → NearM (M * u) T' T) := by
  obtain ⟨M, hM, k⟩ := C101_joint hh hd hp hs hv
  exact ⟨M, hM, fun u h0 h1 => k realArith u h0 h1 (real_accurateOn hM h0)⟩

/-- all three coordinates rounded -/
def V3.rounded (rnd : ℝ → ℝ) (q : V3 ℝ) : V3 ℝ := ⟨rnd q.x, rnd q.y, rnd q.z⟩

/-- numbers rounded after every operation and on input -/
@[reducible] def roundSetting (rnd : ℝ → ℝ) : Setting :=
  { roundArith rnd with move := V3.rounded rnd, place := V3.rounded rnd, weigh := rnd, scale := rnd }

/-- from the accuracy to the unit roundoff -/
theorem one_roundoff_joint {Q : ℝ → Setting → Prop} (mono : ∀ {a b : ℝ} {A}, a ≤ b → Q a A → Q b A)
    (hM : ∃ M, 0 < M ∧ ∀ (A : Setting) (u : ℝ), 0 < u → u ≤ 1 / M → A.AccurateOn M u → Q (M * u) A) :
    ∃ K, 0 < K ∧ ∀ (rnd : ℝ → ℝ) (δ : ℝ), 0 < δ → δ ≤ 1 / K → (∀ a, |a| ≤ K → |rnd a - a| ≤ δ * max 1 |a|) → Q (K * δ) (roundSetting rnd) := by
  obtain ⟨M, h0, hM⟩ := hM
  set v := max M 200 with hv
  have v1 : M ≤ v := le_max_left _ _
  have v2 : 200 ≤ v := le_max_right _ _
  have v0 : 0 < v := by linarith
  have hK : 0 < 3 * v ^ 3 := by positivity
  have hvK : 3 * v ^ 2 ≤ 3 * v ^ 3 := by nlinarith [sq_nonneg v]
  have hvK' : v ≤ 3 * v ^ 2 := by nlinarith
  refine ⟨3 * v ^ 3, hK, fun rnd δ hδ hδK hr => ?_⟩
  have hA := accurateOn_floating v2 hδ.le (rnd := rnd) fun a ha => hr a (ha.trans hvK)
  have hu : 0 < 3 * v ^ 2 * δ := by positivity
  have hle : 3 * v ^ 2 * δ ≤ 1 / v := by
    rw [le_div_iff₀ v0]
    rw [le_div_iff₀ hK] at hδK
    nlinarith
  have hx : ∀ x, |x| ≤ v → |rnd x - x| ≤ 3 * v ^ 2 * δ := fun x hx => (hr x (hx.trans (hvK'.trans hvK))).trans (by
    rw [mul_comm]
    exact mul_le_mul_of_nonneg_right (max_le (by nlinarith) (hx.trans hvK')) hδ.le)
  have hB : (roundSetting rnd).AccurateOn v (3 * v ^ 2 * δ) :=
    { hA with
      move := fun q hq => ⟨hx _ hq.1, hx _ hq.2.1, hx _ hq.2.2⟩
      place := fun q hq => ⟨hx _ hq.1, hx _ hq.2.1, hx _ hq.2.2⟩
      weigh := hx
      scale := hx }
  refine mono ?_ (hM _ _ hu (hle.trans (one_div_le_one_div_of_le h0 v1)) (hB.mono h0 v1 le_rfl))
  calc M * (3 * v ^ 2 * δ) ≤ v * (3 * v ^ 2 * δ) := mul_le_mul_of_nonneg_right v1 hu.le
    _ = 3 * v ^ 3 * δ := by ring

/-- **C101** In floating point: all inputs are rounded, and so is the result of every operation, with the unit roundoff `δ ≤ 1 / K`.  The results are within `K δ` of
those that exact arithmetic gives for the exact inputs. -/
theorem C101_roundoff (hh : h.IsHull) (hp : mkPoly h inHull = .ok p) (hs : h.Decided s) {ρ Gc : ℝ} {gr : Bool} {G : V3 ℝ} {T : M3 ℝ}
    (hv : Call.onNew p ⟨s, ρ, Gc, gr⟩ = .ok (G, T)) :
    ∃ K, 0 < K ∧ ∀ (rnd : ℝ → ℝ) (δ : ℝ), 0 < δ → δ ≤ 1 / K → (∀ a, |a| ≤ K → |rnd a - a| ≤ δ * max 1 |a|) → ∀ inHull' : V3 ℝ → Bool, ∃ p' G' T',
      @mkPoly ℝ (roundArith rnd) { h with points := h.points.map (V3.rounded rnd) } inHull' = .ok p' ∧
      @Call.onNew ℝ (roundArith rnd) p' ⟨s.rounded rnd, rnd ρ, rnd Gc, gr⟩ = .ok (G', T') ∧ NearV (K * δ) G' G ∧ (h.OffLines s → NearM (K * δ) T' T) := by
  let Q : ℝ → Setting → Prop := fun ε A => ∃ p' G' T', (∀ inHull', @mkPoly ℝ A (h.moved A) inHull' = .ok p') ∧
      @Call.onNew ℝ A p' ⟨A.place s, A.weigh ρ, A.scale Gc, gr⟩ = .ok (G', T') ∧ NearV ε G' G ∧ (h.OffLines s → NearM ε T' T)
  obtain ⟨K, hK, k⟩ := one_roundoff_joint (Q := Q) (by
    rintro a b A hab ⟨p', G', T', h1, h2, h3, h4⟩
    exact ⟨p', G', T', h1, h2, h3.mono hab, fun ho => (h4 ho).mono hab⟩) (onNew_joint hh hp hs hv)
  refine ⟨K, hK, fun rnd δ h1 h2 h3 inHull' => ?_⟩
  obtain ⟨p', G', T', k1, k2⟩ := k rnd δ h1 h2 h3
  exact ⟨p', G', T', k1 inHull', k2⟩

/-- **C101** with C16, Newton's law: inputs and operations rounded with the unit roundoff `δ`, at a regular station; what is returned is within `K δ` of
`1e5 Gc ρ` times the attraction of the exact body at the exact station. -/
theorem C101_newton (hh : h.IsHull) (hs : h.Decided s) (hr : h.Regular s) (ρ Gc : ℝ) :
    ∃ K, 0 < K ∧ ∀ (rnd : ℝ → ℝ) (δ : ℝ), 0 < δ → δ ≤ 1 / K → (∀ a, |a| ≤ K → |rnd a - a| ≤ δ * max 1 |a|) → ∀ inHull' : V3 ℝ → Bool, ∃ p' G' T',
      @mkPoly ℝ (roundArith rnd) { h with points := h.points.map (V3.rounded rnd) } inHull' = .ok p' ∧
      @Call.onNew ℝ (roundArith rnd) p' ⟨s.rounded rnd, rnd ρ, rnd Gc, false⟩ = .ok (G', T') ∧
      |G'.x - 100000 * Gc * ρ * (attraction h.body s).x| ≤ K * δ ∧ |G'.y - 100000 * Gc * ρ * (attraction h.body s).y| ≤ K * δ ∧
      |G'.z - 100000 * Gc * ρ * (attraction h.body s).z| ≤ K * δ := by
  obtain ⟨p, hp⟩ := hull_mkPoly_ok hh (fun _ => true)
  obtain ⟨G, T, hv⟩ := C22_total hh hp hs.ne_corner ρ Gc
  obtain ⟨K, h0, k⟩ := C101_roundoff hh hp hs hv
  refine ⟨K, h0, fun rnd δ h1 h2 h3 inHull' => ?_⟩
  obtain ⟨p', G', T', k1, k2, k3, -⟩ := k rnd δ h1 h2 h3 inHull'
  refine ⟨p', G', T', k1, k2, ?_⟩
  rw [(C16_newton hh hp hr hv).1] at k3
  exact k3

/-! ### Concrete cases -/

theorem tetra_points_nodup : tetra.points.Nodup := by
  simp [tetra]

/-- C101: a tetrahedron of density 2670 seen from (2,3,5), with gradient -/
example : ∃ p G T, mkPoly tetra (fun _ => true) = .ok p ∧ Call.onNew p ⟨⟨2, 3, 5⟩, 2670, 1, true⟩ = .ok (G, T) ∧
    ∃ M, 0 < M ∧ ∀ (A : Arith ℝ) (u : ℝ), 0 < u → u ≤ 1 / M → AccurateOn A M u → ∀ (pts : List (V3 ℝ)) (s' : V3 ℝ) (ρ' Gc' : ℝ),
      List.Forall₂ (NearV u) pts tetra.points → NearV u s' ⟨2, 3, 5⟩ → |ρ' - 2670| ≤ u → |Gc' - 1| ≤ u →
      ∃ p' G' T', @mkPoly ℝ A { tetra with points := pts } (fun _ => true) = .ok p' ∧ @Call.onNew ℝ A p' ⟨s', ρ', Gc', true⟩ = .ok (G', T') ∧
        NearV (M * u) G' G ∧ NearM (M * u) T' T := by
  obtain ⟨p, hp⟩ := hull_mkPoly_ok tetra_isHull (fun _ => true)
  obtain ⟨G, T, hv⟩ := C19_newton_returned tetra_isHull hp tetra_tensorRegular_out 2670 1
  obtain ⟨M, hM, k⟩ := C101_joint tetra_isHull tetra_points_nodup hp tetra_decided hv
  refine ⟨p, G, T, hp, hv, M, hM, fun A u h0 h1 hA pts s' ρ' Gc' a1 a2 a3 a4 => ?_⟩
  obtain ⟨p', G', T', k1, k2, k3, k4⟩ := k A u h0 h1 hA pts s' ρ' Gc' (fun _ => true) a1 a2 a3 a4
  exact ⟨p', G', T', k1, k2, k3, k4 fun t ht i j hi hj hij => (tetra_aside t ht i j hi hj hij).1⟩

/-- C101: and from (2,-1,0), on the line of an edge: a station that is changed is not on the line any more -/
example : ∃ K, 0 < K ∧ ∀ (rnd : ℝ → ℝ) (δ : ℝ), 0 < δ → δ ≤ 1 / K → (∀ a, |a| ≤ K → |rnd a - a| ≤ δ * max 1 |a|) → ∀ inHull' : V3 ℝ → Bool, ∃ p' G' T',
    @mkPoly ℝ (roundArith rnd) { tetra with points := tetra.points.map (V3.rounded rnd) } inHull' = .ok p' ∧
    @Call.onNew ℝ (roundArith rnd) p' ⟨V3.rounded rnd ⟨2, -1, 0⟩, rnd 2670, rnd 1, false⟩ = .ok (G', T') ∧
    |G'.x - 100000 * 1 * 2670 * (attraction tetra.body ⟨2, -1, 0⟩).x| ≤ K * δ ∧ |G'.y - 100000 * 1 * 2670 * (attraction tetra.body ⟨2, -1, 0⟩).y| ≤ K * δ ∧
    |G'.z - 100000 * 1 * 2670 * (attraction tetra.body ⟨2, -1, 0⟩).z| ≤ K * δ :=
  C101_newton tetra_isHull line_decided line_tensorRegular.regular 2670 1

/-- C101, Lipschitz: at (2,-1,0) the station and the corner (1,0,0) are moved -/
example : ∃ p G T M, mkPoly tetra (fun _ => true) = .ok p ∧ Call.onNew p ⟨⟨2, -1, 0⟩, 1, 1, false⟩ = .ok (G, T) ∧ 0 < M ∧ ∀ u : ℝ, 0 < u → u ≤ 1 / M →
    ∃ p' G' T', mkPoly { tetra with points := [⟨0, 0, 0⟩, ⟨1, u, 0⟩, ⟨0, 1, 0⟩, ⟨0, 0, 1⟩] } (fun _ => true) = .ok p' ∧
      Call.onNew p' ⟨⟨2, -1, u⟩, 1, 1, false⟩ = .ok (G', T') ∧ NearV (M * u) G' G := by
  obtain ⟨p, hp⟩ := hull_mkPoly_ok tetra_isHull (fun _ => true)
  obtain ⟨G, T, hv⟩ := C22_total tetra_isHull hp line_decided.ne_corner 1 1
  obtain ⟨M, hM, k⟩ := C101_lipschitz tetra_isHull tetra_points_nodup hp line_decided hv
  refine ⟨p, G, T, M, hp, hv, hM, fun u h0 h1 => ?_⟩
  have z : ∀ x : ℝ, |x - x| ≤ u := fun x => by simpa using h0.le
  have y : |u - 0| ≤ u := by rw [sub_zero, abs_of_pos h0]
  obtain ⟨p', G', T', k1, k2, k3, -⟩ := k u h0 h1 [⟨0, 0, 0⟩, ⟨1, u, 0⟩, ⟨0, 1, 0⟩, ⟨0, 0, 1⟩] ⟨2, -1, u⟩ 1 1 (fun _ => true)
    (.cons ⟨z _, z _, z _⟩ (.cons ⟨z _, y, z _⟩ (.cons ⟨z _, z _, z _⟩ (.cons ⟨z _, z _, z _⟩ .nil)))) ⟨z _, z _, y⟩ (z _) (z _)
  exact ⟨p', G', T', k1, k2, k3⟩

end
end Geec

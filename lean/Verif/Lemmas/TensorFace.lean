import Verif.Lemmas.TensorDeriv
import Verif.Lemmas.HullSurface
/-
The tensor computed for a face and the derivative of its share of the field.
-/
namespace Geec
open Arith MeasureTheory
noncomputable section

/-- the gradient of the code does not depend on the direction of the edge -/
theorem edgeGrad_reverse {R L : V3 ℝ} (h : cross R L ≠ V3.zeros) : edgeGrad (R.add L) L.neg = edgeGrad R L := by
  have h' : cross (R.add L) L.neg ≠ V3.zeros := by
    have : cross (R.add L) L.neg = (cross R L).neg := by refine V3.ext' ?_ ?_ ?_ <;> simp <;> ring
    rw [this]
    intro h0
    apply h
    have hx := congrArg V3.x h0
    have hy := congrArg V3.y h0
    have hz := congrArg V3.z h0
    simp only [neg_x, neg_y, neg_z, zeros_x, zeros_y, zeros_z, neg_eq_zero] at hx hy hz
    exact V3.ext' hx hy hz
  have key : ∀ d, rdot (edgeGrad (R.add L) L.neg) d = rdot (edgeGrad R L) d := by
    intro d
    have h1 := lineJ_path h d
    have h2 := lineJ_path h' d
    have e : (fun x => vlen L.neg * lineJ ((R.add L).sub (V3.smul x d)) L.neg) = fun x => vlen L * lineJ (R.sub (V3.smul x d)) L := by
      funext x
      have : (R.add L).sub (V3.smul x d) = (R.sub (V3.smul x d)).add L := by refine V3.ext' ?_ ?_ ?_ <;> simp <;> ring
      rw [this, lineJ_reverse, vlen_neg]
    rw [e] at h2
    exact h2.unique h1
  have kx := key ⟨1, 0, 0⟩
  have ky := key ⟨0, 1, 0⟩
  have kz := key ⟨0, 0, 1⟩
  simp only [rdot, mul_one, mul_zero, add_zero, zero_add] at kx ky kz
  exact V3.ext' kx ky kz

/-- the edge of a face whose plane does not contain the station -/
theorem clearOf_off {n a b s : V3 ℝ} (hc : ClearOf a b s) (h1 : rdot n (b.sub a) = 0) (h2 : rdot n (a.sub s) ≠ 0) :
    cross (a.sub s) (b.sub a) ≠ V3.zeros ∧ repsilon < vlen (a.sub s) + rdot (a.sub s) (b.sub a) / vlen (b.sub a) := by
  rcases hc with hc | ⟨c, -, hc, -⟩ | ⟨c, -, hc, -⟩
  · exact hc
  · exfalso; apply h2; rw [hc, rdot_smul, h1, mul_zero]
  · exfalso
    apply h2
    have e : rdot n (s.sub b) = 0 := by rw [hc, rdot_smul, h1, mul_zero]
    rw [rdot_sub] at *
    linarith

/-- the rows of the gradient of an edge -/
def gradRows (g u : V3 ℝ) : M3 ℝ := ⟨V3.smul g.x u, V3.smul g.y u, V3.smul g.z u⟩

theorem edgeIntegral_off {e : Edge ℝ} (he : e.Proper) {obs : V3 ℝ} (hx : cross (e.start.sub obs) (e.fin.sub e.start) ≠ V3.zeros)
    (hc : repsilon < vlen (e.start.sub obs) + rdot (e.start.sub obs) (e.fin.sub e.start) / vlen (e.fin.sub e.start)) :
    edgeIntegral e obs true = .ok (V3.smul (lineJ (e.start.sub obs) (e.fin.sub e.start)) (e.fin.sub e.start),
      some (gradRows (edgeGrad (e.start.sub obs) (e.fin.sub e.start)) ((e.fin.sub e.start).sdiv (vlen (e.fin.sub e.start))))) := by
  obtain ⟨d, hd⟩ := edgeIntegral_clear he (.inl ⟨hx, hc⟩) true
  rw [he.vector] at hd
  rw [← he.vector] at hx hc
  have hL : e.vector ≠ V3.zeros := by rw [he.vector]; exact sub_ne_zeros he.ne
  have hl := vlen_pos hL
  have hfin : e.fin.sub obs = (e.start.sub obs).add e.vector := by
    rw [he.vector]; refine V3.ext' ?_ ?_ ?_ <;> simp
  have hx' : cross (e.start.sub obs) (e.fin.sub obs) ≠ V3.zeros := by
    have : cross (e.start.sub obs) (e.fin.sub obs) = cross (e.start.sub obs) e.vector := by
      rw [hfin]; refine V3.ext' ?_ ?_ ?_ <;> simp <;> ring
    rw [this]; exact hx
  have hu : 0 < vlen (e.fin.sub obs) + vlen e.vector + rdot (e.start.sub obs) e.vector / vlen e.vector := by
    have h1 : cross (e.fin.sub obs) e.vector ≠ V3.zeros := by
      have : cross (e.fin.sub obs) e.vector = cross (e.start.sub obs) e.vector := by
        rw [hfin]; refine V3.ext' ?_ ?_ ?_ <;> simp <;> ring
      rw [this]; exact hx
    have h2 := (abs_lt.mp (cs_strict h1)).1
    have h3 : rdot (e.fin.sub obs) e.vector = rdot (e.start.sub obs) e.vector + vlen e.vector * vlen e.vector := by
      rw [hfin, vlen_sq]; simp [rdot]; ring
    rw [h3] at h2
    have : vlen (e.fin.sub obs) + vlen e.vector + rdot (e.start.sub obs) e.vector / vlen e.vector =
        (vlen (e.fin.sub obs) * vlen e.vector + vlen e.vector * vlen e.vector + rdot (e.start.sub obs) e.vector) / vlen e.vector := by
      field_simp
    rw [this]
    apply div_pos _ hl
    linarith
  have hpl := edgeIntegral_plain he true (.inr ((abs_lt.mp (cs_strict hx')).2.ne)) hc hu
  rw [hpl] at hd ⊢
  have h1 := (Prod.mk.inj (Except.ok.inj hd)).1
  rw [h1, he.vector]
  rfl

/-- the value an edge of a face contributes, with its gradient -/
theorem edgeValue_off {h : Hull ℝ} (hh : h.IsHull) {inHull : V3 ℝ → Bool} {p : Poly ℝ} (hp : mkPoly h inHull = .ok p)
    {i j : Nat} {e : Edge ℝ} (he : p.edgeAt i j = some e) {s n : V3 ℝ} (h1 : ClearOf e.start e.fin s)
    (h2 : ClearOf e.fin e.start s) (hn1 : rdot n (e.fin.sub e.start) = 0) (hn2 : rdot n (e.start.sub s) ≠ 0) :
    edgeValue p s true i e = .ok (V3.smul (lineJ (e.start.sub s) (e.fin.sub e.start)) (e.fin.sub e.start),
      some (gradRows (edgeGrad (e.start.sub s) (e.fin.sub e.start)) ((e.fin.sub e.start).sdiv (vlen (e.fin.sub e.start))))) := by
  obtain ⟨f, hf, hfe⟩ := Option.bind_eq_some_iff.mp he
  obtain ⟨i', j', f', e', htw, hf', hfe', -, -, -, -, hes, hef, -⟩ := C25_twins hh hp hf hfe
  have he' : p.edgeAt i' j' = some e' := by unfold Poly.edgeAt; rw [hf']; exact hfe'
  obtain ⟨c1, c2⟩ := clearOf_off h1 hn1 hn2
  have hn1' : rdot n (e.start.sub e.fin) = 0 := by rw [rdot_sub] at *; linarith
  have hn2' : rdot n (e.fin.sub s) ≠ 0 := by
    have : rdot n (e.fin.sub s) = rdot n (e.start.sub s) := by rw [rdot_sub] at *; rw [rdot_sub]; linarith
    rw [this]; exact hn2
  obtain ⟨c3, c4⟩ := clearOf_off h2 hn1' hn2'
  unfold edgeValue
  rw [htw]
  simp only [he']
  split
  · rw [edgeIntegral_off (edge_proper hh hp he') (by rw [hes, hef]; exact c3) (by rw [hes, hef]; exact c4), hes, hef]
    set R := e.start.sub s
    set L := e.fin.sub e.start
    have e1 : e.fin.sub s = R.add L := by simp only [R, L]; refine V3.ext' ?_ ?_ ?_ <;> simp
    have e2 : e.start.sub e.fin = L.neg := by simp only [L]; refine V3.ext' ?_ ?_ ?_ <;> simp
    rw [e1, e2, lineJ_reverse, edgeGrad_reverse c1, vlen_neg, sdiv_neg]
    simp only [Except.map, pairNeg, Option.map_some]
    congr 2
    · refine V3.ext' ?_ ?_ ?_ <;> simp
    · unfold gradRows M3.neg
      congr 1
      refine M3.ext' (V3.ext' ?_ ?_ ?_) (V3.ext' ?_ ?_ ?_) (V3.ext' ?_ ?_ ?_) <;> simp
  · exact edgeIntegral_off (edge_proper hh hp he) c1 c2


theorem sub_path (a s d : V3 ℝ) (x : ℝ) : a.sub (s.add (V3.smul x d)) = (a.sub s).sub (V3.smul x d) := by
  refine V3.ext' ?_ ?_ ?_ <;> simp <;> ring

section
variable {n a b c s : V3 ℝ}

/-- the solid angle by the angles of the spherical triangle -/
theorem solidAngle_angles (hn : IsNormal n a b c) (hh : rdot n (a.sub s) ≠ 0) : solidAngle n a b c s =
    npSign (rdot n (a.sub s)) * (sphAngle (a.sub s) (b.sub s) (c.sub s) + sphAngle (b.sub s) (c.sub s) (a.sub s) +
      sphAngle (c.sub s) (a.sub s) (b.sub s) - Real.pi) := by
  have hA := hn.area_pos
  have hD := hn.det s
  have hD0 : det3 (a.sub s) (b.sub s) (c.sub s) ≠ 0 := by rw [hD]; exact mul_ne_zero hA.ne' hh
  rw [girard hD0, solidAngle_polar hn hh]
  have e : npSign (rdot n (a.sub s)) * |det3 (a.sub s) (b.sub s) (c.sub s)| = det3 (a.sub s) (b.sub s) (c.sub s) := by
    rw [hD, abs_mul, abs_of_pos hA]
    have := npSign_mul (rdot n (a.sub s))
    calc _ = vlen (cross (b.sub a) (c.sub a)) * (npSign (rdot n (a.sub s)) * |rdot n (a.sub s)|) := by ring
      _ = _ := by rw [this]
  rw [← mul_assoc, e]
  rfl

theorem npSign_pos {x : ℝ} (h : 0 < x) : npSign x = 1 := by
  have := npSign_mul x; rw [abs_of_pos h] at this
  exact mul_right_cancel₀ h.ne' (by rw [this, one_mul])

theorem npSign_neg {x : ℝ} (h : x < 0) : npSign x = -1 := by
  have := npSign_mul x; rw [abs_of_neg h] at this
  exact mul_right_cancel₀ (neg_ne_zero.mpr h.ne) (by rw [this]; ring)

theorem height_path (n a s d : V3 ℝ) (x : ℝ) : rdot n (a.sub (s.add (V3.smul x d))) = rdot n (a.sub s) - x * rdot n d := by
  simp [rdot]; ring

theorem height_near (hh : rdot n (a.sub s) ≠ 0) (d : V3 ℝ) : ∀ᶠ x in nhds (0 : ℝ), rdot n (a.sub (s.add (V3.smul x d))) ≠ 0 ∧
    npSign (rdot n (a.sub (s.add (V3.smul x d)))) = npSign (rdot n (a.sub s)) := by
  have hc : Continuous (fun x : ℝ => rdot n (a.sub (s.add (V3.smul x d)))) := by simp only [height_path]; fun_prop
  have h0 : rdot n (a.sub (s.add (V3.smul 0 d))) = rdot n (a.sub s) := by rw [height_path]; ring
  rcases lt_or_gt_of_ne hh with hneg | hpos
  · filter_upwards [(hc.tendsto 0).eventually (gt_mem_nhds (by rw [h0]; exact hneg))] with x hx
    exact ⟨hx.ne, by rw [npSign_neg hx, npSign_neg hneg]⟩
  · filter_upwards [(hc.tendsto 0).eventually (lt_mem_nhds (by rw [h0]; exact hpos))] with x hx
    exact ⟨hx.ne', by rw [npSign_pos hx, npSign_pos hpos]⟩

/-- **the gradient of the solid angle is what the code computes** -/
theorem solidAngle_path (hn : IsNormal n a b c) (hh : rdot n (a.sub s) ≠ 0) (d : V3 ℝ) :
    HasDerivAt (fun x => solidAngle n a b c (s.add (V3.smul x d)))
      (npSign (rdot n (a.sub s)) * rdot (dOmega (a.sub s) (b.sub s) (c.sub s)) d) 0 := by
  have hD0 : det3 (a.sub s) (b.sub s) (c.sub s) ≠ 0 := by rw [hn.det s]; exact mul_ne_zero hn.area_pos.ne' hh
  refine ((dOmega_path hD0 d).const_mul (npSign (rdot n (a.sub s)))).congr_of_eventuallyEq ?_
  filter_upwards [height_near hh d] with x hx
  rw [solidAngle_angles hn hx.1, hx.2]
  simp only [sub_path]

/-- the sum of the line integrals around the triangle -/
def loopJ (a b c s : V3 ℝ) : V3 ℝ := ((V3.smul (lineJ (a.sub s) (b.sub a)) (b.sub a)).add
        (V3.smul (lineJ (b.sub s) (c.sub b)) (c.sub b))).add (V3.smul (lineJ (c.sub s) (a.sub c)) (a.sub c))

/-- the sum of the gradients around the triangle -/
def loopG (a b c s d : V3 ℝ) : V3 ℝ :=
  ((V3.smul (rdot (edgeGrad (a.sub s) (b.sub a)) d) ((b.sub a).sdiv (vlen (b.sub a)))).add
    (V3.smul (rdot (edgeGrad (b.sub s) (c.sub b)) d) ((c.sub b).sdiv (vlen (c.sub b))))).add
    (V3.smul (rdot (edgeGrad (c.sub s) (a.sub c)) d) ((a.sub c).sdiv (vlen (a.sub c))))

theorem side_path {a b s : V3 ℝ} (hx : cross (a.sub s) (b.sub a) ≠ V3.zeros) (d w : V3 ℝ) :
    HasDerivAt (fun x => rdot w (V3.smul (lineJ (a.sub (s.add (V3.smul x d))) (b.sub a)) (b.sub a)))
      (rdot w (V3.smul (rdot (edgeGrad (a.sub s) (b.sub a)) d) ((b.sub a).sdiv (vlen (b.sub a))))) 0 := by
  have hl := (vlen_pos (right_ne_of_cross hx)).ne'
  have h := (lineJ_path hx d).const_mul (rdot w (b.sub a) / vlen (b.sub a))
  have e : (fun x => rdot w (V3.smul (lineJ (a.sub (s.add (V3.smul x d))) (b.sub a)) (b.sub a))) =
      fun x => rdot w (b.sub a) / vlen (b.sub a) * (vlen (b.sub a) * lineJ ((a.sub s).sub (V3.smul x d)) (b.sub a)) := by
    funext x
    rw [rdot_smul, sub_path]
    field_simp
  rw [e]
  refine h.congr_deriv ?_
  rw [rdot_smul, rdot_sdiv]
  ring

theorem cross_of_height {a b s n : V3 ℝ} (h1 : rdot n (b.sub a) = 0) (h2 : rdot n (a.sub s) ≠ 0) (hab : b.sub a ≠ V3.zeros) :
    cross (a.sub s) (b.sub a) ≠ V3.zeros := by
  intro h0
  have e : rdot (cross (a.sub s) (b.sub a)) (cross n (b.sub a)) = rdot n (a.sub s) * rdot (b.sub a) (b.sub a) := by
    rw [lagrange, rdot_comm (b.sub a) n, h1, rdot_comm n (a.sub s)]; ring
  rw [h0, rdot_comm, rdot_zeros] at e
  exact mul_ne_zero h2 (rdot_self_pos hab).ne' e.symm

theorem IsNormal.sides (hn : IsNormal n a b c) : b.sub a ≠ V3.zeros ∧ c.sub b ≠ V3.zeros ∧ a.sub c ≠ V3.zeros := by
  have hp := hn.pos
  refine ⟨fun h => ?_, fun h => ?_, fun h => ?_⟩
  · rw [h] at hp; simp [rdot] at hp
  · have : cross (b.sub a) (c.sub a) = cross (b.sub a) (c.sub b) := by refine V3.ext' ?_ ?_ ?_ <;> simp <;> ring
    rw [this, h] at hp; simp [rdot] at hp
  · have : cross (b.sub a) (c.sub a) = (cross (b.sub a) (a.sub c)).neg := by refine V3.ext' ?_ ?_ ?_ <;> simp <;> ring
    rw [this, h] at hp; simp [rdot] at hp

theorem IsNormal.ortho3 (hn : IsNormal n a b c) : rdot n (c.sub b) = 0 ∧ rdot n (a.sub c) = 0 := by
  have h1 := hn.ortho1; have h2 := hn.ortho2
  rw [rdot_sub] at h1 h2
  constructor <;> rw [rdot_sub] <;> linarith

theorem IsNormal.cross_sides (hn : IsNormal n a b c) (hh : rdot n (a.sub s) ≠ 0) : cross (a.sub s) (b.sub a) ≠ V3.zeros ∧
    cross (b.sub s) (c.sub b) ≠ V3.zeros ∧ cross (c.sub s) (a.sub c) ≠ V3.zeros := by
  obtain ⟨s1, s2, s3⟩ := hn.sides
  obtain ⟨o1, o2⟩ := hn.ortho3
  exact ⟨cross_of_height hn.ortho1 hh s1, cross_of_height o1 (by rw [hn.height2]; exact hh) s2, cross_of_height o2 (by rw [hn.height3]; exact hh) s3⟩

/-- the computed derivatives are the derivative of the surface integral -/
theorem faceH_normal_form (hn : IsNormal n a b c) (hh : rdot n (a.sub s) ≠ 0) (e d : V3 ℝ) :
    vlen (cross (b.sub a) (c.sub a)) * faceH (a.sub s) (b.sub s) (c.sub s) e d =
      npSign (rdot n (a.sub s)) * rdot (dOmega (a.sub s) (b.sub s) (c.sub s)) d * rdot n e + rdot (cross n (loopG a b c s d)) e := by
  have hD0 : det3 (a.sub s) (b.sub s) (c.sub s) ≠ 0 := by rw [hn.det s]; exact mul_ne_zero hn.area_pos.ne' hh
  have h1 := (faceW_path hD0 e d).const_mul (vlen (cross (b.sub a) (c.sub a)))
  obtain ⟨x1, x2, x3⟩ := hn.cross_sides hh
  have tr : ∀ u : V3 ℝ, rdot (cross n u) e = rdot (cross e n) u := by intro u; simp [rdot]; ring
  have h2 := ((solidAngle_path hn hh d).mul_const (rdot n e)).add
    (((side_path x1 d (cross e n)).add (side_path x2 d (cross e n))).add (side_path x3 d (cross e n)))
  have h3 : HasDerivAt (fun x => vlen (cross (b.sub a) (c.sub a)) *
      faceW ((a.sub s).sub (V3.smul x d)) ((b.sub s).sub (V3.smul x d)) ((c.sub s).sub (V3.smul x d)) e) _ 0 :=
    h2.congr_of_eventuallyEq (by
      filter_upwards [height_near hh d] with x hx
      have := faceW_normal_form hn hx.1 e
      simp only [← sub_path]
      rw [this, tr, rdot_add, rdot_add]
      rfl)
  rw [h1.unique h3]
  unfold loopG
  rw [tr, rdot_add, rdot_add]

end

/-- the derivative of the field of a face, component `e`, when the station moves along `d` -/
def faceSlope (f : Face ℝ) (s e d : V3 ℝ) : ℝ :=
  vlen (cross (f.pb.sub f.pa) (f.pc.sub f.pa)) * (rdot f.un (f.pa.sub s) * faceH (f.pa.sub s) (f.pb.sub s) (f.pc.sub s) e d -
    rdot f.un d * faceW (f.pa.sub s) (f.pb.sub s) (f.pc.sub s) e)

theorem faceShare_path {f : Face ℝ} (hn : IsNormal f.un f.pa f.pb f.pc) {s : V3 ℝ} (hh : rdot f.un (f.pa.sub s) ≠ 0) (e d : V3 ℝ) :
    HasDerivAt (fun x => faceShare f (s.add (V3.smul x d)) e) (faceSlope f s e d) 0 := by
  have hD0 : det3 (f.pa.sub s) (f.pb.sub s) (f.pc.sub s) ≠ 0 := by rw [hn.det s]; exact mul_ne_zero hn.area_pos.ne' hh
  unfold faceShare
  simp only [hn.det, height_path]
  have h1 : HasDerivAt (fun x : ℝ => vlen (cross (f.pb.sub f.pa) (f.pc.sub f.pa)) * (rdot f.un (f.pa.sub s) - x * rdot f.un d))
      (vlen (cross (f.pb.sub f.pa) (f.pc.sub f.pa)) * (-rdot f.un d)) 0 := by
    refine ((((hasDerivAt_id (0 : ℝ)).mul_const (rdot f.un d)).const_sub (rdot f.un (f.pa.sub s))).const_mul _).congr_deriv ?_
    simp
  simp only [sub_path]
  refine (h1.mul (faceW_path hD0 e d)).congr_deriv ?_
  simp only [path_zero]
  unfold faceSlope
  ring

/-- a symmetric matrix from its upper triangle -/
def upper (B : V3 ℝ → V3 ℝ → ℝ) : M3 ℝ :=
  ⟨⟨B ⟨1, 0, 0⟩ ⟨1, 0, 0⟩, B ⟨1, 0, 0⟩ ⟨0, 1, 0⟩, B ⟨1, 0, 0⟩ ⟨0, 0, 1⟩⟩,
   ⟨B ⟨1, 0, 0⟩ ⟨0, 1, 0⟩, B ⟨0, 1, 0⟩ ⟨0, 1, 0⟩, B ⟨0, 1, 0⟩ ⟨0, 0, 1⟩⟩,
   ⟨B ⟨1, 0, 0⟩ ⟨0, 0, 1⟩, B ⟨0, 1, 0⟩ ⟨0, 0, 1⟩, B ⟨0, 0, 1⟩ ⟨0, 0, 1⟩⟩⟩

/-- the tensor computed for a face off whose plane the station is, clear of its edges -/
theorem faceValue_tensor_clear {h : Hull ℝ} (hh : h.IsHull) {inHull : V3 ℝ → Bool} {p : Poly ℝ} (hp : mkPoly h inHull = .ok p)
    {k : Nat} {f : Face ℝ} (hf : p.faces[k]? = some f) {s : V3 ℝ} (h1 : repsilon < |rdot f.un (f.pa.sub s)|)
    (h2 : ∀ (j : Nat) (e : Edge ℝ), f.edges[j]? = some e → ClearOf e.start e.fin s ∧ ClearOf e.fin e.start s) (ρ Gc : ℝ) {g : V3 ℝ × M3 ℝ}
    (hg : faceValue p s ρ Gc true k f = .ok g) : g.2 = upper (fun e d => 1000000000 * Gc * ρ * faceSlope f s e d) := by
  obtain ⟨t, -, hpts, -, hn, -, -⟩ := face_facts hh hp hf
  have h0 : rdot f.un (f.pa.sub s) ≠ 0 := by
    have heps : (0 : ℝ) < repsilon := by unfold repsilon; positivity
    exact abs_pos.mp (heps.trans h1)
  have hht : f.height s = rdot f.un (f.pa.sub s) := rfl
  unfold faceValue at hg
  rw [omegaValue_solidAngle hpts hn h1] at hg
  simp only [if_true] at hg
  obtain ⟨-, -, a, b, c, e0, e1, e2, hE, -, hpts', hh0, hh1, hh2⟩ := edges_of_hull hh hp hf
  have ea : f.pa = h.pt a := by unfold Face.pa; rw [hpts']; rfl
  have eb : f.pb = h.pt b := by unfold Face.pb; rw [hpts']; rfl
  have ec : f.pc = h.pt c := by unfold Face.pc; rw [hpts']; rfl
  rw [← ea, ← eb] at hh0
  rw [← eb, ← ec] at hh1
  rw [← ec, ← ea] at hh2
  have val : ∀ (j : Nat) (e : Edge ℝ), f.edges[j]? = some e → rdot f.un (e.fin.sub e.start) = 0 → rdot f.un (e.start.sub s) ≠ 0 →
      edgeValue p s true k e = .ok (V3.smul (lineJ (e.start.sub s) (e.fin.sub e.start)) (e.fin.sub e.start),
      some (gradRows (edgeGrad (e.start.sub s) (e.fin.sub e.start)) ((e.fin.sub e.start).sdiv (vlen (e.fin.sub e.start))))) := by
    intro j e he n1 n2
    have hE : p.edgeAt k j = some e := by unfold Poly.edgeAt; rw [hf]; exact he
    obtain ⟨c1, c2⟩ := h2 j e he
    exact edgeValue_off hh hp hE c1 c2 n1 n2
  obtain ⟨o1, o2⟩ := hn.ortho3
  have v0 := val 0 e0 (by rw [hE]; rfl) (by rw [hh0.1, hh0.2]; exact hn.ortho1) (by rw [hh0.1]; exact h0)
  have v1 := val 1 e1 (by rw [hE]; rfl) (by rw [hh1.1, hh1.2]; exact o1) (by rw [hh1.1, hn.height2]; exact h0)
  have v2 := val 2 e2 (by rw [hE]; rfl) (by rw [hh2.1, hh2.2]; exact o2) (by rw [hh2.1, hn.height3]; exact h0)
  rw [hE] at hg
  simp only [edgesValue, v0, v1, v2, fieldOfEdges, Except.ok.injEq] at hg
  rw [← hg, hht]
  simp only [sumPqr, sumDpqr, hh0, hh1, hh2, Option.getD_some]
  have hform := faceW_normal_form hn h0
  have hH := faceH_normal_form hn h0
  have hJ : ∀ e d, faceSlope f s e d = rdot f.un (f.pa.sub s) * (npSign (rdot f.un (f.pa.sub s)) * rdot (dOmega (f.pa.sub s) (f.pb.sub s) (f.pc.sub s)) d * rdot f.un e + rdot (cross f.un (loopG f.pa f.pb f.pc s d)) e) -
      rdot f.un d * (solidAngle f.un f.pa f.pb f.pc s * rdot f.un e + rdot (cross f.un (loopJ f.pa f.pb f.pc s)) e) := by
    intro e d
    unfold faceSlope loopJ
    rw [← hform, ← hH]; ring
  simp only [hJ]
  have gJ : ((V3.smul (lineJ (f.pa.sub s) (f.pb.sub f.pa)) (f.pb.sub f.pa)).add
        (V3.smul (lineJ (f.pb.sub s) (f.pc.sub f.pb)) (f.pc.sub f.pb))).add (V3.smul (lineJ (f.pc.sub s) (f.pa.sub f.pc)) (f.pa.sub f.pc)) = loopJ f.pa f.pb f.pc s := rfl
  rw [gJ]
  generalize loopJ f.pa f.pb f.pc s = J
  generalize solidAngle f.un f.pa f.pb f.pc s = Ω
  generalize npSign (rdot f.un (f.pa.sub s)) = sg
  generalize rdot f.un (f.pa.sub s) = H
  generalize dOmega (f.pa.sub s) (f.pb.sub s) (f.pc.sub s) = dw
  unfold loopG
  generalize edgeGrad (f.pa.sub s) (f.pb.sub f.pa) = g0
  generalize edgeGrad (f.pb.sub s) (f.pc.sub f.pb) = g1
  generalize edgeGrad (f.pc.sub s) (f.pa.sub f.pc) = g2
  generalize (f.pb.sub f.pa).sdiv (vlen (f.pb.sub f.pa)) = u0
  generalize (f.pc.sub f.pb).sdiv (vlen (f.pc.sub f.pb)) = u1
  generalize (f.pa.sub f.pc).sdiv (vlen (f.pa.sub f.pc)) = u2
  unfold faceField upper gradRows
  simp only [if_true]
  refine M3.ext' (V3.ext' ?_ ?_ ?_) (V3.ext' ?_ ?_ ?_) (V3.ext' ?_ ?_ ?_) <;> simp [rdot, M3.add] <;> ring

/-- **the tensor computed for a face** -/
theorem faceValue_tensor {h : Hull ℝ} (hh : h.IsHull) {inHull : V3 ℝ → Bool} {p : Poly ℝ} (hp : mkPoly h inHull = .ok p)
    {k : Nat} {f : Face ℝ} (hf : p.faces[k]? = some f) {s : V3 ℝ} (hs : h.Regular s) (h0 : rdot f.un (f.pa.sub s) ≠ 0) (ρ Gc : ℝ) {g : V3 ℝ × M3 ℝ}
    (hg : faceValue p s ρ Gc true k f = .ok g) : g.2 = upper (fun e d => 1000000000 * Gc * ρ * faceSlope f s e d) := by
  rcases regular_face hh hp hf hs with h0' | ⟨h1, h2⟩
  · exact absurd h0' h0
  · exact faceValue_tensor_clear hh hp hf h1 h2 ρ Gc hg

end
end Geec

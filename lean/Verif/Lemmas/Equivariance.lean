import Verif.Lemmas.Motion
/-
The closed form of a gravity query for a moved body and station.
-/
namespace Geec
open Arith
noncomputable section

namespace Motion

theorem one_apply (a : V3 ℝ) : one.apply a = a := by
  refine V3.ext' ?_ ?_ ?_ <;> simp [M3.apply, one, rdot]

theorem one_isRotation : IsRotation one := by
  refine ⟨?_, ?_, ?_, ?_⟩ <;> simp [one, rdot]

theorem translation_proper (t : V3 ℝ) : (translation t).Proper := ⟨zero_lt_one, one_isRotation⟩
theorem rotation_proper {R : M3 ℝ} (h : IsRotation R) : (rotation R).Proper := ⟨zero_lt_one, h⟩
theorem scaling_proper {k : ℝ} (h : 0 < k) : (scaling k).Proper := ⟨h, one_isRotation⟩

theorem translation_lin (t a : V3 ℝ) : (translation t).lin a = a := by
  show V3.smul 1 (one.apply a) = a
  rw [one_apply]; refine V3.ext' ?_ ?_ ?_ <;> simp

theorem translation_app (t a : V3 ℝ) : (translation t).app a = a.add t := by
  unfold app; rw [translation_lin]; rfl

theorem rotation_lin (R : M3 ℝ) (a : V3 ℝ) : (rotation R).lin a = R.apply a := by
  show V3.smul 1 (R.apply a) = _
  refine V3.ext' ?_ ?_ ?_ <;> simp

theorem rotation_app (R : M3 ℝ) (a : V3 ℝ) : (rotation R).app a = R.apply a := by
  unfold app; rw [rotation_lin]
  refine V3.ext' ?_ ?_ ?_ <;> simp [rotation]

/-! ### translations -/

theorem edgeIntegral_translation (t : V3 ℝ) (e : Edge ℝ) (obs : V3 ℝ) (gr : Bool) :
    edgeIntegral ((translation t).edge e) ((translation t).app obs) gr = edgeIntegral e obs gr := by
  have h1 : ((translation t).edge e).start.sub ((translation t).app obs) = e.start.sub obs := by
    show ((translation t).app e.start).sub _ = _
    rw [app_sub, translation_lin]
  have h2 : ((translation t).edge e).fin.sub ((translation t).app obs) = e.fin.sub obs := by
    show ((translation t).app e.fin).sub _ = _
    rw [app_sub, translation_lin]
  have h3 : ((translation t).edge e).vector = e.vector := translation_lin t _
  have h4 : ((translation t).edge e).length = e.length := one_mul _
  unfold edgeIntegral
  rw [h1, h2, h3, h4]

theorem edgeValue_translation (t : V3 ℝ) (p : Poly ℝ) (obs : V3 ℝ) (gr : Bool) (i : Nat) (e : Edge ℝ) :
    edgeValue ((translation t).poly p) ((translation t).app obs) gr i ((translation t).edge e) = edgeValue p obs gr i e := by
  unfold edgeValue
  have : ((translation t).edge e).twin = e.twin := rfl
  rw [this]
  rcases e.twin with _ | ⟨i', j'⟩
  · rfl
  · simp only [edgeAt_map, edgeIntegral_translation]
    rcases p.edgeAt i' j' with _ | e'
    · rfl
    · simp only [Option.map_some, edgeIntegral_translation]

theorem edgesValue_translation (t : V3 ℝ) (p : Poly ℝ) (obs : V3 ℝ) (gr : Bool) (i : Nat) (es : List (Edge ℝ)) :
    edgesValue ((translation t).poly p) ((translation t).app obs) gr i (es.map (translation t).edge) = edgesValue p obs gr i es := by
  induction es with
  | nil => rfl
  | cons e es ih => simp only [List.map_cons, edgesValue, edgeValue_translation, ih]

theorem height_map {φ : Motion} (hφ : φ.Proper) {f : Face ℝ} (hf : f.points ≠ []) (obs : V3 ℝ) :
    (φ.face f).height (φ.app obs) = φ.k * f.height obs := by
  unfold Face.height
  have : at3 (φ.face f).points 0 = φ.app (at3 f.points 0) := at3_map (List.length_pos_of_ne_nil hf)
  rw [this, app_sub]
  show rdot (φ.R.apply f.un) (V3.smul φ.k (φ.R.apply _)) = _
  rw [rdot_smul, hφ.rot.rdot_apply]
  rfl

theorem omegaValue_translation (t : V3 ℝ) {f : Face ℝ} (hf : f.points ≠ []) (obs : V3 ℝ) (gr : Bool) :
    omegaValue ((translation t).face f) ((translation t).app obs) gr = omegaValue f obs gr := by
  unfold omegaValue
  rw [height_map (translation_proper t) hf]
  have hk : (translation t).k * f.height obs = f.height obs := one_mul _
  have hu : ((translation t).face f).un = f.un := one_apply _
  have hp : ((translation t).face f).points = f.points.map (translation t).app := rfl
  have hm : (f.points.map (translation t).app).map (fun p => p.sub ((translation t).app obs)) = f.points.map (fun p => p.sub obs) := by
    rw [List.map_map]
    apply List.map_congr_left
    intro a _
    simp only [Function.comp, app_sub, translation_lin]
  rw [hk, hu, hp]
  unfold omegaKernel
  simp only [hm, List.length_map]

theorem faceValue_translation (t : V3 ℝ) (p : Poly ℝ) {f : Face ℝ} (hf : f.points ≠ []) (obs : V3 ℝ) (ρ Gc : ℝ) (gr : Bool) (i : Nat) :
    faceValue ((translation t).poly p) ((translation t).app obs) ρ Gc gr i ((translation t).face f) = faceValue p obs ρ Gc gr i f := by
  unfold faceValue
  rw [omegaValue_translation t hf]
  have he : ((translation t).face f).edges = f.edges.map (translation t).edge := rfl
  rw [he, edgesValue_translation]
  rcases omegaValue f obs gr with x | w
  · rfl
  · rcases edgesValue p obs gr i f.edges with x | vs
    · rfl
    · simp only
      unfold fieldOfEdges
      rcases vs with _ | ⟨v, vs⟩
      · rfl
      · simp only [height_map (translation_proper t) hf]
        have hk : (translation t).k * f.height obs = f.height obs := one_mul _
        have hu : ((translation t).face f).un = f.un := one_apply _
        rw [hk, hu]

theorem facesValue_translation (t : V3 ℝ) (p : Poly ℝ) (obs : V3 ℝ) (ρ Gc : ℝ) (gr : Bool) (fs : List (Face ℝ)) :
    ∀ i G T, (∀ f ∈ fs, f.points ≠ []) →
    facesValue ((translation t).poly p) ((translation t).app obs) ρ Gc gr i (fs.map (translation t).face) G T =
      facesValue p obs ρ Gc gr i fs G T := by
  induction fs with
  | nil => intro i G T _; rfl
  | cons f fs ih =>
    intro i G T hf
    simp only [List.map_cons, facesValue]
    rw [faceValue_translation t p (hf f (by simp))]
    rcases faceValue p obs ρ Gc gr i f with x | ⟨g, t'⟩
    · rfl
    · exact ih _ _ _ (fun f hf' => hf f (by simp [hf']))

/-! ### rotations -/
section rotations
variable {R : M3 ℝ}

theorem lineIntegral_rotation (cj : ℝ) (Lj : V3 ℝ) (lj : ℝ) (Rj : V3 ℝ) (rj b2 bj : ℝ) (gr : Bool) :
    (lineIntegralAlongEdge cj (R.apply Lj) lj (R.apply Rj) rj b2 bj gr).map (fun v => v.1) =
      (lineIntegralAlongEdge cj Lj lj Rj rj b2 bj gr).map (fun v => R.apply v.1) := by
  unfold lineIntegralAlongEdge
  simp only [bind, Except.bind, pure, Except.pure]
  split
  · rcases numbaDiv (sqrt (lj *. lj +. bj +. rj *. rj) +. lj +. b2) cj with x | t
    · rfl
    · cases gr <;> simp only [Except.map, Bool.false_eq_true, if_false, if_true, apply_smul, apply_sdiv]
  · rcases numbaDiv (Arith.abs (lj -. rj)) rj with x | t
    · rfl
    · cases gr
      · simp only [Except.map, Bool.false_eq_true, if_false, apply_smul, apply_sdiv]
      · simp only [if_true]
        rcases numbaDiv (lj -. rj) (Arith.abs (lj -. rj)) with x | q
        · rfl
        · simp only [Except.map, apply_smul, apply_sdiv]

theorem edgeIntegral_rotation (hR : IsRotation R) (e : Edge ℝ) (obs : V3 ℝ) (gr : Bool) :
    (edgeIntegral ((rotation R).edge e) ((rotation R).app obs) gr).map (fun v => v.1) =
      (edgeIntegral e obs gr).map (fun v => R.apply v.1) := by
  have h1 : ((rotation R).edge e).start.sub ((rotation R).app obs) = R.apply (e.start.sub obs) := by
    show ((rotation R).app e.start).sub _ = _
    rw [app_sub, rotation_lin]
  have h2 : ((rotation R).edge e).fin.sub ((rotation R).app obs) = R.apply (e.fin.sub obs) := by
    show ((rotation R).app e.fin).sub _ = _
    rw [app_sub, rotation_lin]
  have h3 : ((rotation R).edge e).vector = R.apply e.vector := rotation_lin R _
  have h4 : ((rotation R).edge e).length = e.length := one_mul _
  have hite : ∀ (c : Bool) (a b : V3 ℝ), (if c = true then R.apply a else R.apply b) = R.apply (if c = true then a else b) := by
    intro c a b; cases c <;> rfl
  have hn : ∀ a : V3 ℝ, (Arith.norm (R.apply a) : ℝ) = Arith.norm a := by intro a; simp only [r_norm, hR.rdot_apply]
  have hd : ∀ a b : V3 ℝ, (Arith.dot (R.apply a) (R.apply b) : ℝ) = Arith.dot a b := by intro a b; simp only [r_dot, hR.rdot_apply]
  unfold edgeIntegral
  rw [h1, h2, h3, h4]
  simp only [hn, hd, hite, ← apply_neg]
  have key : ∀ (chs : ℝ) (x y : Except PyErr (V3 ℝ × Option (M3 ℝ))), x.map (fun v => v.1) = y.map (fun v => R.apply v.1) →
      (do let (pqr, dpqr) ← x; return (V3.smul chs pqr, dpqr) : Except PyErr (V3 ℝ × Option (M3 ℝ))).map (fun v => v.1) =
      (do let (pqr, dpqr) ← y; return (V3.smul chs pqr, dpqr) : Except PyErr (V3 ℝ × Option (M3 ℝ))).map (fun v => R.apply v.1) := by
    intro chs x y h
    rcases x with x | ⟨x1, x2⟩ <;> rcases y with y | ⟨y1, y2⟩ <;> simp only [Except.map, Except.error.injEq, Except.ok.injEq, reduceCtorEq] at h
    · rw [h]; rfl
    · show Except.ok (V3.smul chs x1) = Except.ok (R.apply (V3.smul chs y1))
      rw [h, apply_smul]
  exact key _ _ _ (lineIntegral_rotation _ _ _ _ _ _ _ _)

theorem map_fst_eq {α β : Type} {g : α → α} {x y : Except PyErr (α × β)} (h : x.map (fun v => v.1) = y.map (fun v => g v.1)) :
    (∃ e, x = .error e ∧ y = .error e) ∨ ∃ a b b', x = .ok (g a, b) ∧ y = .ok (a, b') := by
  rcases x with x | ⟨x1, x2⟩ <;> rcases y with y | ⟨y1, y2⟩ <;> simp only [Except.map, Except.error.injEq, Except.ok.injEq, reduceCtorEq] at h
  · exact .inl ⟨x, rfl, by rw [h]⟩
  · exact .inr ⟨y1, x2, y2, by rw [h], rfl⟩

theorem edgeValue_rotation (hR : IsRotation R) (p : Poly ℝ) (obs : V3 ℝ) (gr : Bool) (i : Nat) (e : Edge ℝ) :
    (edgeValue ((rotation R).poly p) ((rotation R).app obs) gr i ((rotation R).edge e)).map (fun v => v.1) =
      (edgeValue p obs gr i e).map (fun v => R.apply v.1) := by
  unfold edgeValue
  have : ((rotation R).edge e).twin = e.twin := rfl
  rw [this]
  rcases e.twin with _ | ⟨i', j'⟩
  · rfl
  · simp only [edgeAt_map]
    split
    · rcases p.edgeAt i' j' with _ | e'
      · rfl
      · simp only [Option.map_some]
        rcases map_fst_eq (edgeIntegral_rotation hR e' obs gr) with ⟨x, hx, hy⟩ | ⟨a, b, b', hx, hy⟩
        · rw [hx, hy]; rfl
        · rw [hx, hy]
          show Except.ok (R.apply a).neg = Except.ok (R.apply a.neg)
          rw [apply_neg]
    · exact edgeIntegral_rotation hR e obs gr

theorem edgesValue_rotation (hR : IsRotation R) (p : Poly ℝ) (obs : V3 ℝ) (gr : Bool) (i : Nat) (es : List (Edge ℝ)) :
    (edgesValue ((rotation R).poly p) ((rotation R).app obs) gr i (es.map (rotation R).edge)).map (List.map (fun v => v.1)) =
      (edgesValue p obs gr i es).map (List.map (fun v => R.apply v.1)) := by
  induction es with
  | nil => rfl
  | cons e es ih =>
    simp only [List.map_cons, edgesValue]
    rcases map_fst_eq (edgeValue_rotation hR p obs gr i e) with ⟨x, hx, hy⟩ | ⟨a, b, b', hx, hy⟩
    · rw [hx, hy]; rfl
    · rw [hx, hy]
      simp only
      rcases hu : edgesValue ((rotation R).poly p) ((rotation R).app obs) gr i (es.map (rotation R).edge) with x | vs <;>
        rcases hv : edgesValue p obs gr i es with y | ws <;> rw [hu, hv] at ih <;>
        simp only [Except.map, Except.error.injEq, Except.ok.injEq, reduceCtorEq] at ih ⊢
      · exact ih
      · rw [List.map_cons, List.map_cons, ih]

theorem sumPqr_map {vs ws : List (V3 ℝ × Option (M3 ℝ))} (h : vs.map (fun v => v.1) = ws.map (fun v => R.apply v.1)) :
    ∀ a, sumPqr vs (R.apply a) = R.apply (sumPqr ws a) := by
  induction vs generalizing ws with
  | nil =>
    intro a
    rcases ws with _ | ⟨w, ws⟩
    · rfl
    · cases h
  | cons v vs ih =>
    intro a
    rcases ws with _ | ⟨w, ws⟩
    · cases h
    · simp only [List.map_cons, List.cons.injEq] at h
      simp only [sumPqr, h.1, ← apply_add]
      exact ih h.2 _

theorem at3_mapR {l : List (V3 ℝ)} (i : Nat) : at3 (l.map R.apply) i = R.apply (at3 l i) := by
  unfold at3
  rw [List.getD_eq_getElem?_getD, List.getD_eq_getElem?_getD, List.getElem?_map]
  rcases l[i]? with _ | a
  · exact (apply_zeros R).symm
  · rfl

theorem foldlM_map {α β γ : Type} {f f' : β → α → Except PyErr β} {g : β → γ} (l : List α)
    (h : ∀ b b' a, g b = g b' → (f b a).map g = (f' b' a).map g) : ∀ b b', g b = g b' → (l.foldlM f b).map g = (l.foldlM f' b').map g := by
  induction l with
  | nil => intro b b' hb; show Except.ok (g b) = Except.ok (g b'); rw [hb]
  | cons a l ih =>
    intro b b' hb
    rw [List.foldlM_cons, List.foldlM_cons]
    have h1 := h b b' a hb
    rcases hx : f b a with x | c <;> rcases hy : f' b' a with y | d <;> rw [hx, hy] at h1 <;>
      simp only [Except.map, Except.error.injEq, Except.ok.injEq, reduceCtorEq] at h1
    · rw [h1]; rfl
    · exact ih c d h1

theorem getDangle_status (i : Nat) (inout b perp : ℝ) (A1 A2 A1' A2' : V3 ℝ) (n : Nat) (cd cd' : Nat → M3 ℝ) (cr cr' : List (V3 ℝ)) (nm nm' : Nat → ℝ)
    (u u' : List (V3 ℝ)) : (getDangle i inout b perp A1 A2 n cd cr nm u).map (fun _ => ()) =
      (getDangle i inout b perp A1' A2' n cd' cr' nm' u').map (fun _ => ()) := by
  unfold getDangle
  simp only [bind, Except.bind, pure, Except.pure]
  rcases pySqrt (Arith.one -. b *. b) with x | d
  · rfl
  · simp only
    split
    · rfl
    · split <;> rfl

theorem omegaKernel_rotation (hR : IsRotation R) (pts : List (V3 ℝ)) (un obs : V3 ℝ) (sign : ℝ) (gr : Bool) :
    (omegaKernel (pts.map (rotation R).app) (R.apply un) ((rotation R).app obs) sign gr).map (fun w => w.1) =
      (omegaKernel pts un obs sign gr).map (fun w => w.1) := by
  unfold omegaKernel
  have hm : (pts.map (rotation R).app).map (fun p => p.sub ((rotation R).app obs)) = (pts.map (fun p => p.sub obs)).map R.apply := by
    rw [List.map_map, List.map_map]
    apply List.map_congr_left
    intro a _
    simp only [Function.comp, app_sub, rotation_lin]
  have hd : ∀ a b : V3 ℝ, (Arith.dot (R.apply a) (R.apply b) : ℝ) = Arith.dot a b := by intro a b; simp only [r_dot, hR.rdot_apply]
  have hmd : ∀ a b : V3 ℝ, (Arith.mdot (R.apply a) (R.apply b) : ℝ) = Arith.mdot a b := by intro a b; simp only [r_mdot, hR.rdot_apply]
  simp only [hm, List.length_map, at3_mapR, hmd, hR.cross_apply]
  set points := pts.map (fun p => p.sub obs)
  have hcr : (List.range pts.length).map (fun i => R.apply (cross (at3 points i) (at3 points ((i + 1) % pts.length)))) =
      ((List.range pts.length).map (fun i => cross (at3 points i) (at3 points ((i + 1) % pts.length)))).map R.apply := by
    rw [List.map_map]; rfl
  have hmn : ∀ a : V3 ℝ, (Arith.mnorm (R.apply a) : ℝ) = Arith.mnorm a := by intro a; simp only [r_mnorm, hR.rdot_apply]
  simp only [hcr, at3_mapR, hmn, ← apply_sdiv]
  set cr := (List.range pts.length).map (fun i => cross (at3 points i) (at3 points ((i + 1) % pts.length)))
  have hun : (List.range pts.length).map (fun i => R.apply ((at3 cr i).sdiv (mnorm (at3 cr i)))) =
      ((List.range pts.length).map (fun i => (at3 cr i).sdiv (mnorm (at3 cr i)))).map R.apply := by
    rw [List.map_map]; rfl
  simp only [hun]
  set unitv := (List.range pts.length).map (fun i => (at3 cr i).sdiv (mnorm (at3 cr i)))
  have hA : ∀ (i : Nat) (io : ℝ) n, getA1A2 i io n (unitv.map R.apply) = (R.apply (getA1A2 i io n unitv).1, R.apply (getA1A2 i io n unitv).2) := by
    intro i io n
    unfold getA1A2
    simp only [at3_mapR, ← apply_neg]
    split <;> rfl
  have hP : ∀ (i : Nat) (io : ℝ) n A, getPerp i io n (points.map R.apply) (R.apply A) = getPerp i io n points A := by
    intro i io n A
    unfold getPerp
    simp only [at3_mapR]
    split
    · rfl
    · split <;> exact hd _ _
  simp only [hA, hP, hd]
  have fin : ∀ (n : ℝ) (x y : Except PyErr (ℝ × V3 ℝ)), x.map (fun w => w.1) = y.map (fun w => w.1) →
      (do let (w, dw) ← x; return (Arith.neg sign *. (w -. n *. pi), V3.smul (Arith.neg sign) dw) : Except PyErr (ℝ × V3 ℝ)).map (fun w => w.1) =
      (do let (w, dw) ← y; return (Arith.neg sign *. (w -. n *. pi), V3.smul (Arith.neg sign) dw) : Except PyErr (ℝ × V3 ℝ)).map (fun w => w.1) := by
    intro n x y h
    rcases x with x | ⟨x1, x2⟩ <;> rcases y with y | ⟨y1, y2⟩ <;> simp only [Except.map, Except.error.injEq, Except.ok.injEq, reduceCtorEq] at h
    · subst h; rfl
    · show Except.ok _ = Except.ok _
      rw [h]
  apply fin
  apply foldlM_map
  · rintro ⟨w, dw⟩ ⟨w', dw'⟩ i (hw : w = w')
    subst hw
    simp only [bind, Except.bind, pure, Except.pure]
    rcases getAngle (mdot un (at3 points i)) (dot (getA1A2 i (mdot un (at3 points i)) pts.length unitv).1
      (getA1A2 i (mdot un (at3 points i)) pts.length unitv).2) (getPerp i (mdot un (at3 points i)) pts.length points
      (getA1A2 i (mdot un (at3 points i)) pts.length unitv).1) with x | a
    · rfl
    · cases gr
      · rfl
      · simp only [if_true]
        have := getDangle_status i (mdot un (at3 points i)) (dot (getA1A2 i (mdot un (at3 points i)) pts.length unitv).1
          (getA1A2 i (mdot un (at3 points i)) pts.length unitv).2) (getPerp i (mdot un (at3 points i)) pts.length points
          (getA1A2 i (mdot un (at3 points i)) pts.length unitv).1) (R.apply (getA1A2 i (mdot un (at3 points i)) pts.length unitv).1)
          (R.apply (getA1A2 i (mdot un (at3 points i)) pts.length unitv).2) (getA1A2 i (mdot un (at3 points i)) pts.length unitv).1
          (getA1A2 i (mdot un (at3 points i)) pts.length unitv).2 pts.length (fun k => crossDp (R.apply (at3 points k)))
          (fun k => crossDp (at3 points k)) (cr.map R.apply) cr (fun i => mnorm (at3 cr i)) (fun i => mnorm (at3 cr i)) (unitv.map R.apply) unitv
        generalize getDangle i (mdot un (at3 points i)) _ _ (R.apply _) _ _ _ _ _ _ = u at this ⊢
        generalize getDangle i (mdot un (at3 points i)) _ _ _ _ _ _ _ _ _ = v at this ⊢
        rcases u with u | u <;> rcases v with v | v <;> simp only [Except.map, Except.error.injEq, reduceCtorEq] at this
        · subst this; rfl
        · rfl
  · rfl

theorem rotation_height (hR : IsRotation R) {f : Face ℝ} (hf : f.points ≠ []) (obs : V3 ℝ) :
    ((rotation R).face f).height ((rotation R).app obs) = f.height obs := by
  rw [height_map (rotation_proper hR) hf]; exact one_mul _

theorem omegaValue_rotation (hR : IsRotation R) {f : Face ℝ} (hf : f.points ≠ []) (obs : V3 ℝ) (gr : Bool) :
    (omegaValue ((rotation R).face f) ((rotation R).app obs) gr).map (fun w => w.1) = (omegaValue f obs gr).map (fun w => w.1) := by
  unfold omegaValue
  rw [rotation_height hR hf]
  split
  · exact omegaKernel_rotation hR f.points f.un obs _ gr
  · rfl

theorem faceField_fst (un : V3 ℝ) (h w : ℝ) (dw pqr : V3 ℝ) (d : M3 ℝ) (ρ Gc : ℝ) (gr : Bool) :
    (faceField un h w dw pqr d ρ Gc gr).1 = V3.smul (h * (-ρ * Gc * 100000)) ((V3.smul w un).sub (cross un pqr)) := by
  unfold faceField
  cases gr <;> refine V3.ext' ?_ ?_ ?_ <;> simp <;> left <;> ring

theorem faceValue_rotation (hR : IsRotation R) (p : Poly ℝ) {f : Face ℝ} (hf : f.points ≠ []) (obs : V3 ℝ) (ρ Gc : ℝ) (gr : Bool) (i : Nat) :
    (faceValue ((rotation R).poly p) ((rotation R).app obs) ρ Gc gr i ((rotation R).face f)).map (fun v => v.1) =
      (faceValue p obs ρ Gc gr i f).map (fun v => R.apply v.1) := by
  unfold faceValue
  rcases map_fst_eq (g := id) (omegaValue_rotation hR hf obs gr) with ⟨x, hx, hy⟩ | ⟨w, dw, dw', hx, hy⟩
  · rw [hx, hy]; rfl
  · rw [hx, hy]
    have he : ((rotation R).face f).edges = f.edges.map (rotation R).edge := rfl
    rw [he]
    have hE := edgesValue_rotation hR p obs gr i f.edges
    simp only
    rcases hu : edgesValue ((rotation R).poly p) ((rotation R).app obs) gr i (f.edges.map (rotation R).edge) with x | vs <;>
      rcases hv : edgesValue p obs gr i f.edges with y | ws <;> rw [hu, hv] at hE <;>
      simp only [Except.map, Except.error.injEq, Except.ok.injEq, reduceCtorEq] at hE ⊢
    · exact hE
    · rcases vs with _ | ⟨v, vs⟩ <;> rcases ws with _ | ⟨u, ws⟩
      · rfl
      · cases hE
      · cases hE
      · simp only [List.map_cons, List.cons.injEq] at hE
        simp only [fieldOfEdges, Except.ok.injEq, faceField_fst, rotation_height hR hf, hE.1, sumPqr_map hE.2]
        show V3.smul _ ((V3.smul w (R.apply f.un)).sub (cross (R.apply f.un) _)) = _
        rw [hR.cross_apply, apply_smul, apply_sub, apply_smul]

theorem facesValue_rotation (hR : IsRotation R) (p : Poly ℝ) (obs : V3 ℝ) (ρ Gc : ℝ) (gr : Bool) (fs : List (Face ℝ)) :
    ∀ i G T T', (∀ f ∈ fs, f.points ≠ []) →
    (facesValue ((rotation R).poly p) ((rotation R).app obs) ρ Gc gr i (fs.map (rotation R).face) (R.apply G) T).map (fun v => v.1) =
      (facesValue p obs ρ Gc gr i fs G T').map (fun v => R.apply v.1) := by
  induction fs with
  | nil => intro i G T T' _; rfl
  | cons f fs ih =>
    intro i G T T' hf
    simp only [List.map_cons, facesValue]
    rcases map_fst_eq (faceValue_rotation hR p (hf f (by simp)) obs ρ Gc gr i) with ⟨x, hx, hy⟩ | ⟨a, b, b', hx, hy⟩
    · rw [hx, hy]; rfl
    · rw [hx, hy]
      simp only [← apply_add]
      exact ih _ _ _ _ (fun f hf' => hf f (by simp [hf']))

end rotations
end Motion
end
end Geec

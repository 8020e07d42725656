import Verif.Lemmas.PreciseHull
import Verif.Lemmas.PreciseOmega
import Verif.Lemmas.HullSurface
import Verif.Props.SolidAngle
/-
The field and the tensor of a body in the limit of increasing precision: the sum over the faces and their edges.
-/
namespace Geec
open Filter Topology
noncomputable section

theorem npSign_cont {x : Setting → ℝ} (hx : Cont x) (h0 : x ideal ≠ 0) : Cont (fun A => @npSign ℝ A (x A)) := by
  rcases lt_or_gt_of_ne h0 with h | h
  · have k1 := lt_false cont_zero hx h
    have k2 := lt_true hx cont_zero h
    have e : ∀ᶠ A : Setting in precise, A.negOne = @npSign ℝ A (x A) := by
      filter_upwards [k1, k2] with A a1 a2
      simp only [npSign, a1, a2, Bool.false_eq_true, if_false, if_true]
    exact cont_congr e cont_negOne
  · have k1 := lt_true cont_zero hx h
    have e : ∀ᶠ A : Setting in precise, A.one = @npSign ℝ A (x A) := by
      filter_upwards [k1] with A a1
      simp only [npSign, a1, if_true]
    exact cont_congr e cont_one

variable {h : Hull ℝ} {inHull : V3 ℝ → Bool} {p : Poly ℝ}

theorem polyAt_real (hh : h.IsHull) (hp : mkPoly h inHull = .ok p) : polyAt ideal h p = p := by
  have := at_real (mkPoly_at hh hp) inHull
  rw [Hull.moved_ideal] at this
  rw [hp] at this
  exact (Except.ok.inj this).symm

theorem faceAt_real (hh : h.IsHull) (hp : mkPoly h inHull = .ok p) {k : Nat} {f : Face ℝ} (hf : p.faces[k]? = some f) :
    faceAt ideal h k f = f := by
  have h1 : (polyAt ideal h p).faces[k]? = some (faceAt ideal h k f) := by
    simp only [polyAt, List.getElem?_mapIdx, hf, Option.map_some]
  rw [polyAt_real hh hp, hf] at h1
  exact (Option.some.inj h1).symm

theorem un_cont (hh : h.IsHull) (hp : mkPoly h inHull = .ok p) {k : Nat} {f : Face ℝ} (hf : p.faces[k]? = some f) :
    ContV (fun A => (faceAt A h k f).un) := by
  obtain ⟨t, ht, -⟩ := face_facts hh hp hf
  show ContV (fun A => unAt A h (h.simplices.getD k (0, 0, 0)))
  rw [Hull.getD_of_some ht]
  exact unAt_cont hh (List.mem_of_getElem? ht)

theorem height_cont (hh : h.IsHull) (hp : mkPoly h inHull = .ok p) {k : Nat} {f : Face ℝ} (hf : p.faces[k]? = some f) (s : V3 ℝ) :
    Cont (fun A => @Face.height ℝ A (faceAt A h k f) (A.place s)) := by
  obtain ⟨t, ht, hpts, -⟩ := face_facts hh hp hf
  have : ∀ A : Setting, @at3 ℝ A (faceAt A h k f).points 0 = A.move f.pa := by
    intro A
    show @at3 ℝ A (f.points.map A.move) 0 = A.move f.pa
    rw [hpts]; rfl
  unfold Face.height
  simp only [this]
  exact cont_dot (un_cont hh hp hf) (contV_sub (contV_move _) (contV_place _))

/-- the angle of a face, unless the station is exactly at the distance `eps` from its plane -/
theorem omegaValue_cont_of (hh : h.IsHull) (hp : mkPoly h inHull = .ok p) {k : Nat} {f : Face ℝ} (hf : p.faces[k]? = some f) {s : V3 ℝ}
    (hs : |rdot f.un (f.pa.sub s)| ≠ repsilon) (gr : Bool) : ContE ContO (fun A => @omegaValue ℝ A (faceAt A h k f) (A.place s) gr) := by
  obtain ⟨t, ht, hpts, hperm, hn, -, -⟩ := face_facts hh hp hf
  have e0 : (0 : ℝ) < repsilon := by unfold repsilon; positivity
  have H := height_cont hh hp hf s
  have hr : @Face.height ℝ realArith (faceAt ideal h k f) s = rdot f.un (f.pa.sub s) := by
    rw [faceAt_real hh hp hf]
    unfold Face.height Face.pa
    rfl
  have hun : (faceAt ideal h k f).un = f.un := by rw [faceAt_real hh hp hf]
  rcases lt_or_gt_of_ne hs with h0 | h1
  · have k1 := lt_false cont_eps (cont_abs H) (by
      show |@Face.height ℝ realArith (faceAt ideal h k f) s| < repsilon
      rw [hr]; exact h0)
    refine contE_congr ?_ (contE_ok (f := fun A => (A.zero, @V3.zeros ℝ A)) ⟨cont_zero, contV_zeros⟩)
    filter_upwards [k1] with A a1
    simp only [omegaValue, a1, Bool.false_eq_true, if_false]
  · have k1 := lt_true cont_eps (cont_abs H) (by
      show repsilon < |@Face.height ℝ realArith (faceAt ideal h k f) s|
      rw [hr]; exact h1)
    have hne : rdot f.un (f.pa.sub s) ≠ 0 := abs_pos.mp (e0.trans h1)
    have S := npSign_cont H (by show @Face.height ℝ realArith (faceAt ideal h k f) s ≠ 0; rw [hr]; exact hne)
    have K := omegaKernel_cont (a := f.pa) (b := f.pb) (c := f.pc) (obs := s) (un_cont hh hp hf) S (h := rdot f.un (f.pa.sub s))
      (by rw [hun]) (by rw [hun]; exact hn.height2 s) (by rw [hun]; exact hn.height3 s) (by
        rw [hn.det s]
        have ha := hn.area_pos
        have := mul_self_pos.mpr hne
        nlinarith) gr
    refine contE_congr ?_ K
    filter_upwards [k1] with A a1
    have : (faceAt A h k f).points = [A.move f.pa, A.move f.pb, A.move f.pc] := by
      show f.points.map A.move = _
      rw [hpts]; rfl
    simp only [omegaValue, a1, if_true]
    rw [this]

theorem omegaValue_cont (hh : h.IsHull) (hp : mkPoly h inHull = .ok p) {k : Nat} {f : Face ℝ} (hf : p.faces[k]? = some f) {s : V3 ℝ}
    (hs : h.Regular s) (gr : Bool) : ContE ContO (fun A => @omegaValue ℝ A (faceAt A h k f) (A.place s) gr) := by
  have e0 : (0 : ℝ) < repsilon := by unfold repsilon; positivity
  apply omegaValue_cont_of hh hp hf
  rcases regular_face hh hp hf hs with h0 | ⟨h1, -⟩
  · rw [h0, abs_zero]; exact e0.ne
  · exact h1.ne'

/-- The station is not on the line of an edge, and as far from it as the test `eps < |den|` of the code asks for. -/
def Hull.Aside (h : Hull ℝ) (s : V3 ℝ) : Prop :=
  ∀ t ∈ h.simplices, ∀ i j, Corner t i → Corner t j → i ≠ j → cross ((h.pt i).sub s) ((h.pt j).sub (h.pt i)) ≠ V3.zeros ∧
    repsilon < vlen ((h.pt i).sub s) + rdot ((h.pt i).sub s) ((h.pt j).sub (h.pt i)) / vlen ((h.pt j).sub (h.pt i))

theorem edgeAt_cont (hh : h.IsHull) (hp : mkPoly h inHull = .ok p) {s : V3 ℝ} (hs : h.Aside s) {i j : Nat} {e : Edge ℝ}
    (he : p.edgeAt i j = some e) (gr : Bool) : ContE (ContP gr) (fun A => @edgeIntegral ℝ A (edgeAt A e) (A.place s) gr) := by
  obtain ⟨t, ht, ⟨a, ha, ea⟩, b, hb, eb⟩ := edge_start_corner hh hp he
  have hne := (edge_proper hh hp he).ne
  have hab : a ≠ b := by rintro rfl; exact hne (ea.trans eb.symm)
  obtain ⟨h1, h2⟩ := hs t (List.mem_of_getElem? ht) a b ha hb hab
  rw [← ea, ← eb] at h1 h2
  exact edgeIntegral_cont e h1 h2 gr

theorem contP_neg {gr : Bool} {out : Setting → V3 ℝ × Option (M3 ℝ)} (ho : ContP gr out) : ContP gr (fun A => @pairNeg ℝ A (out A)) := by
  obtain ⟨h1, m, h2, h3⟩ := ho
  refine ⟨contV_neg h1, fun A => @M3.neg ℝ A (m A), contM_neg h2, ?_⟩
  intro A
  simp only [pairNeg, h3 A]
  cases gr <;> rfl

theorem edgeValue_cont (hh : h.IsHull) (hp : mkPoly h inHull = .ok p) {s : V3 ℝ} (hs : h.Aside s) {i j : Nat} {e : Edge ℝ}
    (he : p.edgeAt i j = some e) (gr : Bool) : ContE (ContP gr) (fun A => @edgeValue ℝ A (polyAt A h p) (A.place s) gr i (edgeAt A e)) := by
  obtain ⟨i', j', e', h1, h2, h3, h4⟩ := wellTwinned_of_hull hh hp i j e he
  have e1 : ∀ A : Setting, (edgeAt A e).twin = some (i', j') := fun _ => h1
  have e2 : ∀ A : Setting, (polyAt A h p).edgeAt i' j' = some (edgeAt A e') := fun A => by rw [polyAt_edgeAt, h2]; rfl
  simp only [edgeValue, e1, e2]
  by_cases hlt : i' < i
  · simp only [if_pos hlt]
    obtain ⟨out, k1, k2⟩ := edgeAt_cont hh hp hs h2 gr
    refine ⟨fun A => @pairNeg ℝ A (out A), ?_, contP_neg k2⟩
    filter_upwards [k1] with A a1
    rw [a1]; rfl
  · simp only [if_neg hlt]
    exact edgeAt_cont hh hp hs he gr

/-- values of a list of edges -/
def ContL (gr : Bool) (n : Nat) (out : Setting → List (V3 ℝ × Option (M3 ℝ))) : Prop :=
  ∃ l : List (Setting → V3 ℝ × Option (M3 ℝ)), l.length = n ∧ (∀ x ∈ l, ContP gr x) ∧ ∀ A : Setting, out A = l.map (fun x => x A)

theorem edgesValue_cont (hh : h.IsHull) (hp : mkPoly h inHull = .ok p) {s : V3 ℝ} (hs : h.Aside s) {i : Nat} (gr : Bool) (es : List (Edge ℝ))
    (he : ∀ e ∈ es, ∃ j, p.edgeAt i j = some e) :
    ContE (ContL gr es.length) (fun A => @edgesValue ℝ A (polyAt A h p) (A.place s) gr i (es.map (edgeAt A))) := by
  induction es with
  | nil => exact contE_ok (f := fun _ => []) ⟨[], rfl, by simp, fun _ => rfl⟩
  | cons e es ih =>
    obtain ⟨j, hj⟩ := he e (by simp)
    obtain ⟨out, k1, k2⟩ := edgeValue_cont hh hp hs hj gr
    obtain ⟨outs, k3, l, l1, l2, l3⟩ := ih (fun e he' => he e (by simp [he']))
    refine ⟨fun A => out A :: outs A, ?_, out :: l, by simp [l1], ?_, fun A => by simp [l3 A]⟩
    · filter_upwards [k1, k3] with A a1 a2
      simp only [List.map_cons, edgesValue, a1, a2]
    · intro x hx
      rcases List.mem_cons.mp hx with rfl | hx
      · exact k2
      · exact l2 x hx

theorem getD_cont {gr : Bool} {x : Setting → V3 ℝ × Option (M3 ℝ)} (hx : ContP gr x) : ContM (fun A => (x A).2.getD (@M3.zeros ℝ A)) := by
  obtain ⟨-, m, h2, h3⟩ := hx
  simp only [h3]
  cases gr
  · exact contM_zeros
  · exact h2

theorem sumPqr_cont {gr : Bool} (l : List (Setting → V3 ℝ × Option (M3 ℝ))) (hl : ∀ x ∈ l, ContP gr x) : ∀ {a : Setting → V3 ℝ}, ContV a →
    ContV (fun A => @sumPqr ℝ A (l.map (fun x => x A)) (a A)) := by
  induction l with
  | nil => intro a ha; exact ha
  | cons x l ih =>
    intro a ha
    exact ih (fun y hy => hl y (by simp [hy])) (a := fun A => @V3.add ℝ A (a A) (x A).1) (contV_add ha (hl x (by simp)).1)

theorem sumDpqr_cont {gr : Bool} (l : List (Setting → V3 ℝ × Option (M3 ℝ))) (hl : ∀ x ∈ l, ContP gr x) : ∀ {a : Setting → M3 ℝ}, ContM a →
    ContM (fun A => @sumDpqr ℝ A (l.map (fun x => x A)) (a A)) := by
  induction l with
  | nil => intro a ha; exact ha
  | cons x l ih =>
    intro a ha
    exact ih (fun y hy => hl y (by simp [hy])) (a := fun A => @M3.add ℝ A (a A) ((x A).2.getD (@M3.zeros ℝ A)))
      (contM_add ha (getD_cont (hl x (by simp))))

/-- a vector and a tensor -/
def ContG (out : Setting → V3 ℝ × M3 ℝ) : Prop := ContV (fun A => (out A).1) ∧ ContM (fun A => (out A).2)

theorem faceField_cont {un domega pqr : Setting → V3 ℝ} {dp1 omega : Setting → ℝ} {dpqr : Setting → M3 ℝ} (h1 : ContV un) (h2 : Cont dp1) (h3 : Cont omega)
    (h4 : ContV domega) (h5 : ContV pqr) (h6 : ContM dpqr) (ρ Gc : ℝ) (gr : Bool) :
    ContG (fun A => @faceField ℝ A (un A) (dp1 A) (omega A) (domega A) (pqr A) (dpqr A) (A.weigh ρ) (A.scale Gc) gr) := by
  have F : Cont (fun A => A.mul (A.mul (A.neg (A.weigh ρ)) (A.scale Gc)) A.k1e5) := cont_mul (cont_mul (cont_neg (cont_weigh ρ)) (cont_scale Gc)) cont_k1e5
  have c3 : ∀ {a b c d e f : Setting → ℝ}, Cont a → Cont b → Cont c → Cont d → Cont e → Cont f →
      Cont (fun A => A.sub (A.add (A.mul (a A) (b A)) (A.mul (c A) (d A))) (A.mul (e A) (f A))) :=
    fun a b c d e f => cont_sub (cont_add (cont_mul a b) (cont_mul c d)) (cont_mul e f)
  have gx := c3 h1.1 h3 h1.2.2 h5.2.1 h1.2.1 h5.2.2
  have gy := c3 h1.2.1 h3 h1.1 h5.2.2 h1.2.2 h5.1
  have gz := c3 h1.2.2 h3 h1.2.1 h5.1 h1.1 h5.2.1
  have DF := cont_mul h2 F
  cases gr
  · exact ⟨⟨cont_mul DF gx, cont_mul DF gy, cont_mul DF gz⟩, contM_zeros⟩
  · have F4 := cont_mul F cont_k1e4
    have t : ∀ {a b c : Setting → ℝ}, Cont a → Cont b → Cont c →
        Cont (fun A => A.mul (A.mul (A.mul (A.mul (A.neg (A.weigh ρ)) (A.scale Gc)) A.k1e5) A.k1e4) (A.add (A.mul (dp1 A) (a A)) (A.mul (A.neg (b A)) (c A)))) :=
      fun a b c => cont_mul F4 (cont_add (cont_mul h2 a) (cont_mul (cont_neg b) c))
    have txx := t (c3 h1.1 h4.1 h1.2.2 h6.1.2.1 h1.2.1 h6.1.2.2) h1.1 gx
    have txy := t (c3 h1.1 h4.2.1 h1.2.2 h6.2.1.2.1 h1.2.1 h6.2.1.2.2) h1.2.1 gx
    have txz := t (c3 h1.1 h4.2.2 h1.2.2 h6.2.2.2.1 h1.2.1 h6.2.2.2.2) h1.2.2 gx
    have tyy := t (c3 h1.2.1 h4.2.1 h1.1 h6.2.1.2.2 h1.2.2 h6.2.1.1) h1.2.1 gy
    have tyz := t (c3 h1.2.1 h4.2.2 h1.1 h6.2.2.2.2 h1.2.2 h6.2.2.1) h1.2.2 gy
    have tzz := t (c3 h1.2.2 h4.2.2 h1.2.1 h6.2.2.1 h1.1 h6.2.2.2.1) h1.2.2 gz
    exact ⟨⟨cont_mul DF gx, cont_mul DF gy, cont_mul DF gz⟩, ⟨txx, txy, txz⟩, ⟨txy, tyy, tyz⟩, txz, tyz, tzz⟩

theorem faceValue_cont (hh : h.IsHull) (hp : mkPoly h inHull = .ok p) {k : Nat} {f : Face ℝ} (hf : p.faces[k]? = some f) {s : V3 ℝ}
    (hs : h.Regular s) (ha : h.Aside s) (ρ Gc : ℝ) (gr : Bool) :
    ContE ContG (fun A => @faceValue ℝ A (polyAt A h p) (A.place s) (A.weigh ρ) (A.scale Gc) gr k (faceAt A h k f)) := by
  obtain ⟨w, w1, w2⟩ := omegaValue_cont hh hp hf hs gr
  obtain ⟨vs, v1, l, l1, l2, l3⟩ := edgesValue_cont hh hp ha gr (i := k) f.edges (by
    intro e he
    obtain ⟨j, hj⟩ := List.mem_iff_getElem?.mp he
    exact ⟨j, by simp only [Poly.edgeAt, hf, Option.bind_some, hj]⟩)
  obtain ⟨t, ht, a, b, c, x0, x1, x2, hE, -⟩ := edges_of_hull hh hp hf
  rw [hE] at l1
  rcases l with _ | ⟨x, l⟩
  · simp at l1
  · have hx := l2 x (by simp)
    have hl : ∀ y ∈ l, ContP gr y := fun y hy => l2 y (by simp [hy])
    refine ⟨_, ?_, faceField_cont (un_cont hh hp hf) (height_cont hh hp hf s) w2.1 w2.2 (sumPqr_cont l hl hx.1) (sumDpqr_cont l hl (getD_cont hx)) ρ Gc gr⟩
    filter_upwards [w1, v1] with A a1 a2
    have : (faceAt A h k f).edges = f.edges.map (edgeAt A) := rfl
    simp only [faceValue, a1, this, a2, l3 A, List.map_cons, fieldOfEdges]

theorem facesValue_cont (hh : h.IsHull) (hp : mkPoly h inHull = .ok p) {s : V3 ℝ} (hs : h.Regular s) (ha : h.Aside s) (ρ Gc : ℝ) (gr : Bool)
    (fs : List (Face ℝ)) : ∀ (i : Nat), (∀ j f, fs[j]? = some f → p.faces[i + j]? = some f) →
    ∀ {G : Setting → V3 ℝ} {T : Setting → M3 ℝ}, ContV G → ContM T →
    ContE ContG (fun A => @facesValue ℝ A (polyAt A h p) (A.place s) (A.weigh ρ) (A.scale Gc) gr i (fs.mapIdx (fun j f => faceAt A h (i + j) f)) (G A) (T A)) := by
  induction fs with
  | nil => intro i _ G T hG hT; exact contE_ok (f := fun A => (G A, T A)) ⟨hG, hT⟩
  | cons f fs ih =>
    intro i hf G T hG hT
    obtain ⟨g, g1, g2⟩ := faceValue_cont hh hp (hf 0 f rfl) hs ha ρ Gc gr
    obtain ⟨o, o1, o2⟩ := ih (i + 1) (fun j f' hj => by rw [show i + 1 + j = i + (j + 1) by omega]; exact hf (j + 1) f' hj)
      (G := fun A => @V3.add ℝ A (G A) (g A).1) (T := fun A => @M3.add ℝ A (T A) (g A).2) (contV_add hG g2.1) (contM_add hT g2.2)
    refine ⟨o, ?_, o2⟩
    filter_upwards [g1, o1] with A a1 a2
    simp only [List.mapIdx_cons, facesValue]
    rw [show i + 0 = i from rfl] at a1 ⊢
    rw [a1]
    simp only [show ∀ j, i + 1 + j = i + (j + 1) by intro j; omega] at a2
    exact a2

/-- **the returned field and tensor converge** -/
theorem onNew_cont (hh : h.IsHull) (hp : mkPoly h inHull = .ok p) {s : V3 ℝ} (hs : h.Regular s) (ha : h.Aside s) (ρ Gc : ℝ) (gr : Bool) :
    ContE ContG (fun A => @Call.onNew ℝ A (polyAt A h p) ⟨A.place s, A.weigh ρ, A.scale Gc, gr⟩) := by
  have := facesValue_cont hh hp hs ha ρ Gc gr p.faces 0 (fun j f hj => by rw [Nat.zero_add]; exact hj) contV_zeros contM_zeros
  simp only [Nat.zero_add] at this
  refine contE_congr ?_ this
  refine Eventually.of_forall fun A => ?_
  rw [@onNew_closed ℝ A _ (wellTwinned_at A (wellTwinned_of_hull hh hp))]
  rfl

end
end Geec

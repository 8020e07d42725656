import Verif.Lemmas.Stale
import Verif.Lemmas.Equivariance
import Verif.Props.Methods
import Mathlib.Analysis.SpecialFunctions.Integrals.Basic
/-
C02, C71: a query that raised, or a query of one face, does not only make later queries raise: it makes others return wrong values.
-/
namespace Geec
open Arith
set_option linter.unusedSectionVars false
noncomputable section

/-- the memory after a query without gradient that raised, at a corner that is not one of the first face -/
theorem stale_after_raise {h : Hull ℝ} (hh : h.IsHull) {inHull : V3 ℝ → Bool} {p : Poly ℝ} (hp : mkPoly h inHull = .ok p) {f : Face ℝ}
    (hf : p.faces[0]? = some f) {a b c : Edge ℝ} (he : f.edges = [a, b, c]) {obs : V3 ℝ} {q0 q1 q2 : V3 ℝ}
    (ha : edgeIntegral a obs false = .ok (q0, none)) (hb : edgeIntegral b obs false = .ok (q1, none))
    (hc : edgeIntegral c obs false = .ok (q2, none)) {ρ Gc : ℝ} {x : PyErr} (hx : (Call.run p Mem.fresh ⟨obs, ρ, Gc, false⟩).1 = .error x) :
    ∃ l0 l1 l2, l0 ≠ l1 ∧ l0 ≠ l2 ∧ Stale p q0 q1 q2 l0 l1 l2 (Call.run p Mem.fresh ⟨obs, ρ, Gc, false⟩).2 := by
  obtain ⟨w, hom⟩ := omegaValue_ok f obs false
  obtain ⟨l0, l1, l2, m, h1, h2, h3, h4⟩ := stale_first hf he (wellTwinned_of_hull hh hp) ha hb hc hom ρ Gc
  refine ⟨l0, l1, l2, h2, h3, ?_⟩
  unfold Call.run getGravity at hx ⊢
  rcases hfs : p.faces with _ | ⟨f', fs⟩
  · rw [hfs] at hf; cases hf
  have hff : f' = f := by rw [hfs] at hf; simpa using hf
  subst hff
  have hk : Stale p q0 q1 q2 l0 l1 l2 (polyFaces obs ρ Gc false 0 p.faces V3.zeros M3.zeros Mem.fresh).2 := by
    rw [hfs]
    unfold polyFaces
    rw [bind_ok' h1]
    exact stale_polyFaces obs ρ Gc fs 1 _ _ one_ne_zero (fun k f'' hk => by rw [hfs, Nat.add_comm]; simpa using hk) m h4
  rw [← hfs]
  rcases hr : polyFaces obs ρ Gc false 0 p.faces V3.zeros M3.zeros (Mem.fresh : Mem ℝ) with ⟨y | r, m'⟩
  · rw [hr] at hk
    rw [bind_error' hr]
    exact hk
  · rw [bind_ok' hr] at hx
    cases hx

/-- the loop over the faces from two memories without tensors: the sums differ by what they differ at the start, along a direction that
is normal to every face whose plane does not contain the station -/
theorem tail_any {obs : V3 ℝ} (ρ Gc : ℝ) {u : V3 ℝ} (fs : List (Face ℝ)) : ∀ (i : Nat) (G G' : V3 ℝ) (T T' : M3 ℝ) (m m' : Mem ℝ), NoD m → NoD m' →
    (∀ f ∈ fs, (f.height obs = 0 ∨ ∀ q : V3 ℝ, rdot u (cross f.un q) = 0) ∧ f.edges ≠ [] ∧ ∀ e ∈ f.edges, e.twin.isSome = true ∧ ∃ v, edgeIntegral e obs false = .ok v) →
    ∃ A A' t t' n n', polyFaces obs ρ Gc false i fs G T m = (.ok (A, t), n) ∧ polyFaces obs ρ Gc false i fs G' T' m' = (.ok (A', t'), n') ∧
      rdot u (A.sub A') = rdot u (G.sub G') := by
  induction fs with
  | nil => intro i G G' T T' m m' _ _ _; exact ⟨G, G', T, T', m, m', rfl, rfl, rfl⟩
  | cons f fs ih =>
    intro i G G' T T' m m' hm hm' hfs
    obtain ⟨w, hom⟩ := omegaValue_ok f obs false
    obtain ⟨h1, h2, h3⟩ := hfs f (by simp)
    obtain ⟨P, n1, k1, r1⟩ := faceGravity_any (i := i) hom ρ Gc hm h3 h2
    obtain ⟨P', n1', k1', r1'⟩ := faceGravity_any (i := i) hom ρ Gc hm' h3 h2
    obtain ⟨A, A', t, t', n, n', e1, e2, e3⟩ := ih (i + 1) (G.add (faceField f.un (f.height obs) w.1 w.2 P M3.zeros ρ Gc false).1)
      (G'.add (faceField f.un (f.height obs) w.1 w.2 P' M3.zeros ρ Gc false).1)
      (T.add (faceField f.un (f.height obs) w.1 w.2 P M3.zeros ρ Gc false).2)
      (T'.add (faceField f.un (f.height obs) w.1 w.2 P' M3.zeros ρ Gc false).2) n1 n1' k1 k1' (fun f' hf' => hfs f' (by simp [hf']))
    refine ⟨A, A', t, t', n, n', ?_, ?_, ?_⟩
    · unfold polyFaces; rw [bind_ok' r1]; exact e1
    · unfold polyFaces; rw [bind_ok' r1']; exact e2
    · rw [e3, Motion.faceField_fst, Motion.faceField_fst]
      rcases h1 with h1 | h1
      · rw [h1]; simp [rdot]
      · have a1 := h1 P
        have a2 := h1 P'
        simp only [rdot, sub_x, sub_y, sub_z, add_x, add_y, add_z, smul_x, smul_y, smul_z] at a1 a2 ⊢
        linear_combination (f.height obs * (-ρ * Gc * 100000)) * (a2 - a1)

theorem noD_edgesReset {S : Type} [Arith S] (i : Nat) (es : List (Edge S)) : ∀ (j : Nat) (m : Mem S), NoD m → NoD (edgesReset i j es m) := by
  induction es with
  | nil => intro j m hm; exact hm
  | cons e es ih =>
    intro j m hm
    refine ih _ _ ⟨fun i' j' => ?_, hm.2⟩
    simp only [edgeReset, Mem.setEdge]
    split
    · rfl
    · exact hm.1 i' j'

theorem noD_polyReset {S : Type} [Arith S] (fs : List (Face S)) : ∀ (i : Nat) (m : Mem S), NoD m → NoD (polyReset i fs m) := by
  induction fs with
  | nil => intro i m hm; exact hm
  | cons f fs ih =>
    intro i m hm
    exact ih _ _ (noD_edgesReset i f.edges 0 _ (keeps_setFace hm rfl).1)

/-- queries without gradient never leave a tensor behind, whether they return or raise -/
theorem noD_run {S : Type} [Arith S] (p : Poly S) {c : Call S} (hc : c.gradient = false) {m : Mem S} (hm : NoD m) : NoD (c.run p m).2 := by
  unfold Call.run getGravity
  rw [hc]
  have hk := (keeps_polyFaces c.obs c.density c.Gc p.faces 0 V3.zeros M3.zeros m hm).1
  rcases hr : polyFaces c.obs c.density c.Gc false 0 p.faces V3.zeros M3.zeros m with ⟨y | r, m'⟩
  · rw [hr] at hk
    rw [bind_error' hr]
    exact hk
  · rw [hr] at hk
    rw [bind_ok' hr]
    exact noD_polyReset _ _ _ hk

theorem noD_runCalls {S : Type} [Arith S] (p : Poly S) (cs : List (Call S)) : (∀ c ∈ cs, c.gradient = false) → ∀ {m : Mem S}, NoD m → NoD (runCalls p cs m).2 := by
  induction cs with
  | nil => intro _ m hm; exact hm
  | cons c cs ih =>
    intro hc m hm
    exact ih (fun c' h' => hc c' (by simp [h'])) (noD_run p (hc c (by simp)) hm)

/-- **C02** For every body: after any queries without gradient - returned or raised, at whatever stations - every query without gradient at
a station that is no corner returns a value and never raises.  `C02_wrong_value`: after a raised one the value can be wrong, and nothing tells. -/
theorem C02_silent {h : Hull ℝ} (hh : h.IsHull) {inHull : V3 ℝ → Bool} {p : Poly ℝ} (hp : mkPoly h inHull = .ok p)
    {cs : List (Call ℝ)} (hcs : ∀ c ∈ cs, c.gradient = false) {obs : V3 ℝ} (ho : ∀ s ∈ h.simplices, ∀ i, Corner s i → h.pt i ≠ obs)
    (ρ Gc : ℝ) : ∃ G T, (Call.run p (runCalls p cs Mem.fresh).2 ⟨obs, ρ, Gc, false⟩).1 = .ok (G, T) := by
  have hn : NoD (runCalls p cs Mem.fresh).2 := noD_runCalls p cs hcs ⟨fun _ _ => rfl, fun _ => rfl⟩
  have hE : ∀ f ∈ p.faces, (f.height obs = 0 ∨ ∀ q : V3 ℝ, rdot V3.zeros (cross f.un q) = 0) ∧ f.edges ≠ [] ∧
      ∀ e ∈ f.edges, e.twin.isSome = true ∧ ∃ v, edgeIntegral e obs false = .ok v := by
    intro f hf
    obtain ⟨k, hk⟩ := List.getElem?_of_mem hf
    refine ⟨.inr fun q => by simp [rdot], ?_, ?_⟩
    · obtain ⟨-, -, -, -, -, e0, e1, e2, hE, -⟩ := edges_of_hull hh hp hk
      rw [hE]; simp
    · intro e he
      obtain ⟨j, hj⟩ := List.getElem?_of_mem he
      have hee : p.edgeAt k j = some e := by unfold Poly.edgeAt; rw [hk]; exact hj
      obtain ⟨i', j', e', ht, -⟩ := wellTwinned_of_hull hh hp k j e hee
      refine ⟨by rw [ht]; rfl, edgeIntegral_ok ?_⟩
      obtain ⟨s', hs', ⟨a, ha, hst⟩, -⟩ := edge_start_corner hh hp hee
      rw [hst]
      exact ho s' (List.mem_of_getElem? hs') a ha
  obtain ⟨A, -, t, -, n, -, e1, -⟩ := tail_any ρ Gc p.faces 0 V3.zeros V3.zeros M3.zeros M3.zeros _ _ hn hn hE
  refine ⟨A, t, ?_⟩
  unfold Call.run getGravity
  rw [bind_ok' e1]
  rfl

/-- the first face of the tetrahedron: the triangle in the plane z = 0, seen from below, with the edges (0,0,0) → (0,1,0) → (1,0,0) → (0,0,0) -/
theorem tetra_first {p : Poly ℝ} (hp : mkPoly tetra (fun _ => true) = .ok p) : ∃ f a b c, p.faces[0]? = some f ∧ f.edges = [a, b, c] ∧
    f.un = ⟨0, 0, -1⟩ ∧ at3 f.points 0 = ⟨0, 0, 0⟩ ∧
    (a.start = ⟨0, 0, 0⟩ ∧ a.fin = ⟨0, 1, 0⟩) ∧ (b.start = ⟨0, 1, 0⟩ ∧ b.fin = ⟨1, 0, 0⟩) ∧ (c.start = ⟨1, 0, 0⟩ ∧ c.fin = ⟨0, 0, 0⟩) := by
  obtain ⟨p', sm, tf, τ, hp', hb⟩ := tetra_isHull.built (fun _ => true)
  rw [hp] at hp'
  cases hp'
  obtain ⟨ho, hout⟩ := hb.order 0 (0, 1, 2) rfl
  have hsm : sm 0 = (0, 2, 1) := by
    rcases ho with ho | ho
    · exfalso
      rw [ho] at hout
      have := hout.le _ (Hull.mem_body (Hull.pt_mem (h := tetra) (i := 3) (by decide)))
      simp [Hull.normal, triNormal, tetra_pt0, tetra_pt1, tetra_pt2, tetra_pt3, rdot, P3.toV, V3.toP] at this
      norm_num at this
    · exact ho
  obtain ⟨nb, -, hf⟩ := hb.face 0 (0, 1, 2) rfl
  rw [hsm] at hf
  have e0 : at3 tetra.points 0 = ⟨0, 0, 0⟩ := tetra_pt0
  have e1 : at3 tetra.points 1 = ⟨1, 0, 0⟩ := tetra_pt1
  have e2 : at3 tetra.points 2 = ⟨0, 1, 0⟩ := tetra_pt2
  refine ⟨_, _, _, _, hf, rfl, ?_, e0, ⟨e0, e2⟩, ⟨e2, e1⟩, ⟨e1, e0⟩⟩
  show (V3.sdiv _ _ : V3 ℝ) = _
  refine V3.ext' ?_ ?_ ?_ <;> simp [Hull.normal, triNormal, tetra_pt0, tetra_pt1, tetra_pt2, rdot]

/-- the other faces of the tetrahedron: the station (0, 0, z) lies in the plane of the face, or the normal is along (1, 1, 1) -/
theorem tetra_rest {p : Poly ℝ} (hp : mkPoly tetra (fun _ => true) = .ok p) (z : ℝ) : ∃ f fs, p.faces = f :: fs ∧
    ∀ g ∈ fs, g.height ⟨0, 0, z⟩ = 0 ∨ ∀ q : V3 ℝ, rdot ⟨1, 1, 1⟩ (cross g.un q) = 0 := by
  obtain ⟨p', sm, tf, τ, hp', hb⟩ := tetra_isHull.built (fun _ => true)
  rw [hp] at hp'
  cases hp'
  have hl : p.faces.length = 4 := hb.length
  rcases hfs : p.faces with _ | ⟨f, fs⟩
  · rw [hfs] at hl; cases hl
  refine ⟨f, fs, rfl, ?_⟩
  intro g hg
  obtain ⟨k, hk⟩ := List.getElem?_of_mem hg
  have hk' : p.faces[k + 1]? = some g := by rw [hfs]; exact hk
  have hlt : k + 1 < 4 := by rw [← hl]; exact (List.getElem?_eq_some_iff.mp hk').1
  have e0 : at3 tetra.points 0 = ⟨0, 0, 0⟩ := tetra_pt0
  have e1 : at3 tetra.points 1 = ⟨1, 0, 0⟩ := tetra_pt1
  have hk3 : k = 0 ∨ k = 1 ∨ k = 2 := by omega
  rcases hk3 with rfl | rfl | rfl
  · left
    obtain ⟨nb, -, hf⟩ := hb.face 1 (0, 1, 3) rfl
    rw [hf] at hk'
    cases hk'
    show rdot (V3.sdiv (tetra.normal (sm 1)) _) ((at3 tetra.points (sm 1).1).sub ⟨0, 0, z⟩) = 0
    rcases (hb.order 1 (0, 1, 3) rfl).1 with ho | ho <;>
      simp [ho, e0, Hull.normal, triNormal, reverseTail, tetra_pt0, tetra_pt1, tetra_pt3, rdot]
  · left
    obtain ⟨nb, -, hf⟩ := hb.face 2 (0, 2, 3) rfl
    rw [hf] at hk'
    cases hk'
    show rdot (V3.sdiv (tetra.normal (sm 2)) _) ((at3 tetra.points (sm 2).1).sub ⟨0, 0, z⟩) = 0
    rcases (hb.order 2 (0, 2, 3) rfl).1 with ho | ho <;>
      simp [ho, e0, Hull.normal, triNormal, reverseTail, tetra_pt0, tetra_pt2, tetra_pt3, rdot]
  · right
    intro q
    obtain ⟨nb, -, hf⟩ := hb.face 3 (1, 2, 3) rfl
    rw [hf] at hk'
    cases hk'
    show rdot ⟨1, 1, 1⟩ (cross (V3.sdiv _ _ : V3 ℝ) q) = 0
    rcases (hb.order 3 (1, 2, 3) rfl).1 with ho | ho <;> rw [ho] <;>
      simp [Hull.normal, triNormal, reverseTail, tetra_pt1, tetra_pt2, tetra_pt3, rdot]

/-- the line integrals of the first face of the tetrahedron, seen from (0, 0, z): along the two sides of length one, and along the third -/
def sideJ (z : ℝ) : ℝ := ∫ t in (0 : ℝ)..1, 1 / Real.sqrt (t ^ 2 + z ^ 2)
def diagJ (z : ℝ) : ℝ := ∫ t in (0 : ℝ)..1, 1 / Real.sqrt (t ^ 2 + (1 - t) ^ 2 + z ^ 2)

theorem tetra_edges {p : Poly ℝ} (hp : mkPoly tetra (fun _ => true) = .ok p) : ∃ f a b c, p.faces[0]? = some f ∧ f.edges = [a, b, c] ∧
    f.un = ⟨0, 0, -1⟩ ∧ at3 f.points 0 = ⟨0, 0, 0⟩ ∧ ∀ z : ℝ, 1 ≤ z → edgeIntegral a ⟨0, 0, z⟩ false = .ok (⟨0, sideJ z, 0⟩, none) ∧
      edgeIntegral b ⟨0, 0, z⟩ false = .ok (⟨diagJ z, -diagJ z, 0⟩, none) ∧ edgeIntegral c ⟨0, 0, z⟩ false = .ok (⟨-sideJ z, 0, 0⟩, none) := by
  obtain ⟨f, a, b, c, hf, he, hu, h0, ⟨a1, a2⟩, ⟨b1, b2⟩, ⟨c1, c2⟩⟩ := tetra_first hp
  refine ⟨f, a, b, c, hf, he, hu, h0, ?_⟩
  have hE : ∀ j, p.edgeAt 0 j = [a, b, c][j]? := by intro j; unfold Poly.edgeAt; rw [hf]; simp [he]
  have pa := edge_proper tetra_isHull hp (hE 0)
  have pb := edge_proper tetra_isHull hp (hE 1)
  have pc := edge_proper tetra_isHull hp (hE 2)
  intro z hz
  have heps : repsilon ≤ 1 / 100 := by unfold repsilon; norm_num
  have heps0 : (0 : ℝ) < repsilon := by unfold repsilon; positivity
  have hw : ∀ q : V3 ℝ, rdot q q ≤ 1 + z ^ 2 → repsilon * vlen q ≤ 1 / 100 * (1 + z) := by
    intro q hq
    have : vlen q ≤ 1 + z := by
      unfold vlen
      rw [Real.sqrt_le_left (by linarith)]
      nlinarith
    have h0 := vlen_nonneg q
    nlinarith
  have key : ∀ {e : Edge ℝ}, e.Proper → ClearOf e.start e.fin ⟨0, 0, z⟩ →
      edgeIntegral e ⟨0, 0, z⟩ false = .ok (V3.smul (lineJ (e.start.sub ⟨0, 0, z⟩) (e.fin.sub e.start)) (e.fin.sub e.start), none) := by
    intro e pe hc
    obtain ⟨d, hd⟩ := edgeIntegral_clear pe hc false
    have := edgeIntegral_opt hd
    have hd0 : d = none := by simpa using this
    rw [hd, hd0, pe.vector]
  refine ⟨?_, ?_, ?_⟩
  · rw [key pa]
    · rw [a1, a2]
      have : lineJ ((⟨0, 0, 0⟩ : V3 ℝ).sub ⟨0, 0, z⟩) ((⟨0, 1, 0⟩ : V3 ℝ).sub ⟨0, 0, 0⟩) = sideJ z := by
        unfold lineJ sideJ
        congr 1; funext t
        simp only [vlen, rdot, add_x, add_y, add_z, smul_x, smul_y, smul_z, sub_x, sub_y, sub_z]
        congr 2; ring
      rw [this]
      simp only [Except.ok.injEq, Prod.mk.injEq, and_true]
      refine V3.ext' ?_ ?_ ?_ <;> simp
    · rw [a1, a2]
      apply clearOf_aside
      have := hw ((⟨0, 0, 0⟩ : V3 ℝ).sub ⟨0, 0, z⟩) (by simp [rdot]; nlinarith)
      generalize vlen ((⟨0, 0, 0⟩ : V3 ℝ).sub ⟨0, 0, z⟩) = w at *
      simp only [rdot, cross_x, cross_y, cross_z, sub_x, sub_y, sub_z]
      nlinarith
  · rw [key pb]
    · rw [b1, b2]
      have : lineJ ((⟨0, 1, 0⟩ : V3 ℝ).sub ⟨0, 0, z⟩) ((⟨1, 0, 0⟩ : V3 ℝ).sub ⟨0, 1, 0⟩) = diagJ z := by
        unfold lineJ diagJ
        congr 1; funext t
        simp only [vlen, rdot, add_x, add_y, add_z, smul_x, smul_y, smul_z, sub_x, sub_y, sub_z]
        congr 2; ring
      rw [this]
      simp only [Except.ok.injEq, Prod.mk.injEq, and_true]
      refine V3.ext' ?_ ?_ ?_ <;> simp
    · rw [b1, b2]
      apply clearOf_aside
      have := hw ((⟨0, 1, 0⟩ : V3 ℝ).sub ⟨0, 0, z⟩) (by simp [rdot]; nlinarith)
      generalize vlen ((⟨0, 1, 0⟩ : V3 ℝ).sub ⟨0, 0, z⟩) = w at *
      simp only [rdot, cross_x, cross_y, cross_z, sub_x, sub_y, sub_z]
      nlinarith
  · rw [key pc]
    · rw [c1, c2]
      have : lineJ ((⟨1, 0, 0⟩ : V3 ℝ).sub ⟨0, 0, z⟩) ((⟨0, 0, 0⟩ : V3 ℝ).sub ⟨1, 0, 0⟩) = sideJ z := by
        rw [← lineJ_reverse]
        unfold lineJ sideJ
        congr 1; funext t
        simp only [vlen, rdot, add_x, add_y, add_z, smul_x, smul_y, smul_z, sub_x, sub_y, sub_z, neg_x, neg_y, neg_z]
        congr 2; ring
      rw [this]
      simp only [Except.ok.injEq, Prod.mk.injEq, and_true]
      refine V3.ext' ?_ ?_ ?_ <;> simp
    · rw [c1, c2]
      apply clearOf_aside
      have := hw ((⟨1, 0, 0⟩ : V3 ℝ).sub ⟨0, 0, z⟩) (by simp [rdot]; nlinarith)
      generalize vlen ((⟨1, 0, 0⟩ : V3 ℝ).sub ⟨0, 0, z⟩) = w at *
      simp only [rdot, cross_x, cross_y, cross_z, sub_x, sub_y, sub_z]
      nlinarith

theorem sq_pos_of {z : ℝ} (hz : 1 ≤ z) (t : ℝ) : 0 < t ^ 2 + z ^ 2 ∧ 0 < t ^ 2 + (1 - t) ^ 2 + z ^ 2 := by
  constructor <;> nlinarith [sq_nonneg t, sq_nonneg (1 - t)]

theorem sideJ_int {z : ℝ} (hz : 1 ≤ z) : IntervalIntegrable (fun t : ℝ => 1 / Real.sqrt (t ^ 2 + z ^ 2)) MeasureTheory.volume 0 1 := by
  apply Continuous.intervalIntegrable
  exact continuous_const.div (by fun_prop) (fun t => (Real.sqrt_pos.mpr (sq_pos_of hz t).1).ne')

theorem diagJ_int {z : ℝ} (hz : 1 ≤ z) : IntervalIntegrable (fun t : ℝ => 1 / Real.sqrt (t ^ 2 + (1 - t) ^ 2 + z ^ 2)) MeasureTheory.volume 0 1 := by
  apply Continuous.intervalIntegrable
  exact continuous_const.div (by fun_prop) (fun t => (Real.sqrt_pos.mpr (sq_pos_of hz t).2).ne')

theorem diag_le_side {z : ℝ} (hz : 1 ≤ z) : diagJ z ≤ sideJ z := by
  refine intervalIntegral.integral_mono_on zero_le_one (diagJ_int hz) (sideJ_int hz) fun t _ => ?_
  apply one_div_le_one_div_of_le (Real.sqrt_pos.mpr (sq_pos_of hz t).1)
  exact Real.sqrt_le_sqrt (by nlinarith [sq_nonneg (1 - t)])

theorem side_le {z : ℝ} (hz : 1 ≤ z) : sideJ z ≤ 1 / z := by
  have : ∫ t in (0 : ℝ)..1, (1 / z : ℝ) = 1 / z := by simp
  rw [← this]
  refine intervalIntegral.integral_mono_on zero_le_one (sideJ_int hz) (by simp) fun t _ => ?_
  apply one_div_le_one_div_of_le (by linarith)
  apply Real.le_sqrt_of_sq_le
  nlinarith [sq_nonneg t]

theorem diag_ge {z : ℝ} (hz : 1 ≤ z) : 1 / Real.sqrt (1 + z ^ 2) ≤ diagJ z := by
  have : ∫ t in (0 : ℝ)..1, (1 / Real.sqrt (1 + z ^ 2) : ℝ) = 1 / Real.sqrt (1 + z ^ 2) := by simp
  rw [← this]
  refine intervalIntegral.integral_mono_on zero_le_one (by simp) (diagJ_int hz) fun t ht => ?_
  apply one_div_le_one_div_of_le (Real.sqrt_pos.mpr (sq_pos_of hz t).2)
  apply Real.sqrt_le_sqrt
  nlinarith [ht.1, ht.2]

/-- from (0, 0, 1): the integral along the third side is at least 99/128 -/
theorem diag_one : 99 / 128 ≤ diagJ 1 := by
  have : ∫ t in (0 : ℝ)..1, (9 / 8 - 27 / 128 * (2 - 2 * t + 2 * t ^ 2) : ℝ) = 99 / 128 := by
    rw [intervalIntegral.integral_sub (by simp) (by apply Continuous.intervalIntegrable; fun_prop), intervalIntegral.integral_const_mul,
      intervalIntegral.integral_add (by apply Continuous.intervalIntegrable; fun_prop) (by apply Continuous.intervalIntegrable; fun_prop),
      intervalIntegral.integral_sub (by simp) (by apply Continuous.intervalIntegrable; fun_prop),
      intervalIntegral.integral_const_mul, intervalIntegral.integral_const_mul, integral_id, integral_pow]
    simp; norm_num
  rw [← this]
  refine intervalIntegral.integral_mono_on zero_le_one (by apply Continuous.intervalIntegrable; fun_prop) (diagJ_int le_rfl) fun t _ => ?_
  have hx := (sq_pos_of (le_refl (1 : ℝ)) t).2
  have hs := Real.sqrt_pos.mpr hx
  have hq := Real.sq_sqrt hx.le
  set r := Real.sqrt (t ^ 2 + (1 - t) ^ 2 + 1 ^ 2) with hr
  have : 2 - 2 * t + 2 * t ^ 2 = r ^ 2 := by rw [hq]; ring
  rw [this, le_div_iff₀ hs]
  nlinarith [mul_nonneg (sq_nonneg (3 * r - 4)) (by linarith : 0 ≤ 3 * r + 8)]

/-- from (0, 0, 1): the integral along a side of length one is at most 109/120 -/
theorem side_one : sideJ 1 ≤ 109 / 120 := by
  have : ∫ t in (0 : ℝ)..1, (1 - 1 / 2 * t ^ 2 + 3 / 8 * t ^ 4 : ℝ) = 109 / 120 := by
    rw [intervalIntegral.integral_add (by apply Continuous.intervalIntegrable; fun_prop) (by apply Continuous.intervalIntegrable; fun_prop),
      intervalIntegral.integral_sub (by simp) (by apply Continuous.intervalIntegrable; fun_prop),
      intervalIntegral.integral_const_mul, intervalIntegral.integral_const_mul, integral_pow, integral_pow]
    simp; norm_num
  rw [← this]
  refine intervalIntegral.integral_mono_on zero_le_one (sideJ_int le_rfl) (by apply Continuous.intervalIntegrable; fun_prop) fun t ht => ?_
  have hx := (sq_pos_of (le_refl (1 : ℝ)) t).1
  have hs := Real.sqrt_pos.mpr hx
  rw [div_le_iff₀ hs]
  have hp : 0 < 1 - 1 / 2 * t ^ 2 + 3 / 8 * t ^ 4 := by nlinarith [sq_nonneg (t ^ 2 - 2 / 3)]
  rw [← Real.sqrt_sq hp.le, ← Real.sqrt_mul (sq_nonneg _)]
  apply Real.le_sqrt_of_sq_le
  have h2 : t ^ 2 ≤ 1 := by nlinarith [ht.1, ht.2]
  nlinarith [sq_nonneg t, pow_nonneg (sq_nonneg t) 2, pow_nonneg (sq_nonneg t) 3, pow_nonneg (sq_nonneg t) 4, pow_nonneg (sq_nonneg t) 5, mul_nonneg (pow_nonneg (sq_nonneg t) 3) (sub_nonneg.mpr h2)]

/-- a query at (0, 0, z) on top of values left behind by another station: the answer is not that of a new object -/
theorem tetra_wrong {p : Poly ℝ} (hp : mkPoly tetra (fun _ => true) = .ok p) {z0 z : ℝ} (hz : 1 < z)
    (hne : 6 * diagJ z0 - 5 * sideJ z0 ≠ 2 * (diagJ z - sideJ z)) {l0 l1 l2 : Nat} (h1 : l0 ≠ l1) (h2 : l0 ≠ l2) {m : Mem ℝ}
    (hm : Stale p ⟨0, sideJ z0, 0⟩ ⟨diagJ z0, -diagJ z0, 0⟩ ⟨-sideJ z0, 0, 0⟩ l0 l1 l2 m) {ρ Gc : ℝ} (hρ : ρ ≠ 0) (hG : Gc ≠ 0) :
    ∃ v w, Call.onNew p ⟨⟨0, 0, z⟩, ρ, Gc, false⟩ = .ok v ∧ (Call.run p m ⟨⟨0, 0, z⟩, ρ, Gc, false⟩).1 = .ok w ∧ w.1 ≠ v.1 := by
  obtain ⟨f, a, b, c, hf, he, hu, h0, hI⟩ := tetra_edges hp
  obtain ⟨f', fs, hfs, hrest⟩ := tetra_rest hp z
  have hff : f' = f := by rw [hfs] at hf; simpa using hf
  subst hff
  obtain ⟨w, hom⟩ := omegaValue_ok f' ⟨0, 0, z⟩ false
  obtain ⟨ia, ib, ic⟩ := hI z hz.le
  obtain ⟨k0, k1, k2, m1, r1, -, -, s1⟩ := stale_first hf he (wellTwinned_of_hull tetra_isHull hp) ia ib ic hom ρ Gc
  obtain ⟨m2, s2, r2⟩ := stale_second hm h1 h2 he hom ρ Gc
  have hE : ∀ g ∈ fs, (g.height ⟨0, 0, z⟩ = 0 ∨ ∀ q : V3 ℝ, rdot ⟨1, 1, 1⟩ (cross g.un q) = 0) ∧ g.edges ≠ [] ∧
      ∀ e ∈ g.edges, e.twin.isSome = true ∧ ∃ v, edgeIntegral e ⟨0, 0, z⟩ false = .ok v := by
    intro g hg
    obtain ⟨k, hk⟩ := List.getElem?_of_mem hg
    have hk' : p.faces[k + 1]? = some g := by rw [hfs]; exact hk
    refine ⟨hrest g hg, ?_, ?_⟩
    · obtain ⟨-, -, -, -, -, e0, e1, e2, hE, -⟩ := edges_of_hull tetra_isHull hp hk'
      rw [hE]; simp
    · intro e he
      obtain ⟨j, hj⟩ := List.getElem?_of_mem he
      have hee : p.edgeAt (k + 1) j = some e := by unfold Poly.edgeAt; rw [hk']; exact hj
      obtain ⟨i', j', e', ht, -⟩ := wellTwinned_of_hull tetra_isHull hp (k + 1) j e hee
      refine ⟨by rw [ht]; rfl, edgeIntegral_ok ?_⟩
      obtain ⟨s', hs', ⟨i, hi, hst⟩, -⟩ := edge_start_corner tetra_isHull hp hee
      rw [hst]
      have hi4 : i < 4 := tetra_isHull.cornerIndex s' (List.mem_of_getElem? hs') i hi
      intro hh
      have := congrArg V3.z hh
      interval_cases i <;> simp [tetra_pt0, tetra_pt1, tetra_pt2, tetra_pt3] at this <;> linarith
  set W : V3 ℝ := ((((((⟨0, sideJ z0, 0⟩ : V3 ℝ).add ⟨diagJ z0, -diagJ z0, 0⟩).add ⟨-sideJ z0, 0, 0⟩).add (((⟨0, sideJ z0, 0⟩ : V3 ℝ).add ⟨diagJ z0, -diagJ z0, 0⟩).add ⟨-sideJ z0, 0, 0⟩)).add ⟨diagJ z0, -diagJ z0, 0⟩).add ⟨-sideJ z0, 0, 0⟩) with hW
  set F : V3 ℝ := (((⟨0, sideJ z, 0⟩ : V3 ℝ).add ⟨diagJ z, -diagJ z, 0⟩).add ⟨-sideJ z, 0, 0⟩) with hF
  obtain ⟨A, A', t, t', n, n', e1, e2, e3⟩ := tail_any ρ Gc fs 1 (V3.zeros.add (faceField f'.un (f'.height ⟨0, 0, z⟩) w.1 w.2 W M3.zeros ρ Gc false).1)
    (V3.zeros.add (faceField f'.un (f'.height ⟨0, 0, z⟩) w.1 w.2 F M3.zeros ρ Gc false).1)
    (M3.zeros.add (faceField f'.un (f'.height ⟨0, 0, z⟩) w.1 w.2 W M3.zeros ρ Gc false).2)
    (M3.zeros.add (faceField f'.un (f'.height ⟨0, 0, z⟩) w.1 w.2 F M3.zeros ρ Gc false).2) m2 m1 s2 s1.nod hE
  refine ⟨(A', t'), (A, t), ?_, ?_, ?_⟩
  · unfold Call.onNew Call.run getGravity
    have : polyFaces ⟨0, 0, z⟩ ρ Gc false 0 p.faces V3.zeros M3.zeros Mem.fresh = (.ok (A', t'), n') := by
      rw [hfs]; unfold polyFaces; rw [bind_ok' r1]; exact e2
    rw [bind_ok' this]; rfl
  · unfold Call.run getGravity
    have : polyFaces ⟨0, 0, z⟩ ρ Gc false 0 p.faces V3.zeros M3.zeros m = (.ok (A, t), n) := by
      rw [hfs]; unfold polyFaces; rw [bind_ok' r2]; exact e1
    rw [bind_ok' this]; rfl
  · intro hA
    have hA' : A = A' := hA
    have hh : f'.height ⟨0, 0, z⟩ = z := by unfold Face.height; rw [hu, h0]; simp [rdot]
    rw [hA', Motion.faceField_fst, Motion.faceField_fst, hh, hu, hW, hF] at e3
    simp [rdot] at e3
    apply hne
    have hz0 : z * (ρ * Gc * 100000) ≠ 0 := by positivity
    apply mul_left_cancel₀ hz0
    linarith

/-- **C02: wrong values, silently.** The unit tetrahedron, a query without gradient at its corner (0, 0, 1), which raises, and then a query without
gradient at any station (0, 0, z) above the corner: it returns a value, and the value is not that of a new object. -/
theorem C02_wrong_value {p : Poly ℝ} (hp : mkPoly tetra (fun _ => true) = .ok p) (ρ Gc : ℝ) {z : ℝ} (hz : 1 < z) {ρ' Gc' : ℝ} (hρ : ρ' ≠ 0) (hG : Gc' ≠ 0) :
    (Call.run p Mem.fresh ⟨⟨0, 0, 1⟩, ρ, Gc, false⟩).1 = .error .zeroDivisionError ∧
    ∃ v w, Call.onNew p ⟨⟨0, 0, z⟩, ρ', Gc', false⟩ = .ok v ∧
      (Call.run p (Call.run p Mem.fresh ⟨⟨0, 0, 1⟩, ρ, Gc, false⟩).2 ⟨⟨0, 0, z⟩, ρ', Gc', false⟩).1 = .ok w ∧ w.1 ≠ v.1 := by
  have hr : (Call.run p Mem.fresh ⟨⟨0, 0, 1⟩, ρ, Gc, false⟩).1 = .error .zeroDivisionError :=
    C21_corner tetra_isHull hp (s := (0, 1, 3)) (by simp [tetra]) (v := 3) (.inr (.inr rfl)) ρ Gc false
  refine ⟨hr, ?_⟩
  obtain ⟨f, a, b, c, hf, he, hu, h0, hI⟩ := tetra_edges hp
  obtain ⟨ia, ib, ic⟩ := hI 1 le_rfl
  obtain ⟨l0, l1, l2, h1, h2, h3⟩ := stale_after_raise tetra_isHull hp hf he ia ib ic hr
  refine tetra_wrong hp hz ?_ h1 h2 h3 hρ hG
  have := diag_le_side hz.le
  have := diag_one
  have := side_one
  intro heq
  linarith

/-- **C71: wrong values, silently.** The unit tetrahedron, a query of its first face alone, without gradient, at a station (0, 0, z) with z ≥ 2, and
then a query of the body at the same station: it returns a value, and the value is not that of a new object. -/
theorem C71_wrong_value {p : Poly ℝ} (hp : mkPoly tetra (fun _ => true) = .ok p) (ρ Gc : ℝ) {z : ℝ} (hz : 2 ≤ z) {ρ' Gc' : ℝ} (hρ : ρ' ≠ 0) (hG : Gc' ≠ 0) :
    (∃ u, (Method.run p (.faceGravity 0 ⟨0, 0, z⟩ ρ Gc false) Mem.fresh).1 = .ok u) ∧
    ∃ v w, Call.onNew p ⟨⟨0, 0, z⟩, ρ', Gc', false⟩ = .ok v ∧
      (Call.run p (Method.run p (.faceGravity 0 ⟨0, 0, z⟩ ρ Gc false) Mem.fresh).2 ⟨⟨0, 0, z⟩, ρ', Gc', false⟩).1 = .ok w ∧ w.1 ≠ v.1 := by
  obtain ⟨f, a, b, c, hf, he, hu, h0, hI⟩ := tetra_edges hp
  obtain ⟨ia, ib, ic⟩ := hI z (by linarith)
  obtain ⟨w, hom⟩ := omegaValue_ok f ⟨0, 0, z⟩ false
  obtain ⟨l0, l1, l2, m, r, h1, h2, h3⟩ := stale_first hf he (wellTwinned_of_hull tetra_isHull hp) ia ib ic hom ρ Gc
  generalize faceField f.un (f.height ⟨0, 0, z⟩) w.1 w.2 _ M3.zeros ρ Gc false = u at r
  have hm : Method.run p (.faceGravity 0 ⟨0, 0, z⟩ ρ Gc false) Mem.fresh = (.ok (some u), m) := by
    unfold Method.run
    simp only [hf, r]
    rfl
  rw [hm]
  refine ⟨⟨_, rfl⟩, tetra_wrong hp (by linarith) ?_ h1 h2 h3 hρ hG⟩
  have a1 := side_le (z := z) (by linarith)
  have a2 := diag_ge (z := z) (by linarith)
  have a3 : 3 / z < 4 / Real.sqrt (1 + z ^ 2) := by
    rw [div_lt_div_iff₀ (by linarith) (Real.sqrt_pos.mpr (by positivity))]
    have : Real.sqrt (1 + z ^ 2) < 4 / 3 * z := by
      rw [Real.sqrt_lt' (by linarith)]
      nlinarith
    linarith
  intro heq
  have e1 : 3 / z = 3 * (1 / z) := by ring
  have e2 : 4 / Real.sqrt (1 + z ^ 2) = 4 * (1 / Real.sqrt (1 + z ^ 2)) := by ring
  linarith

/-- **C02 is false of the code in a second way**: a body, a query that raises, and a later query that returns another attraction than on a new object. -/
theorem C02_false_value : ∃ (h : Hull ℝ) (inHull : V3 ℝ → Bool) (p : Poly ℝ) (c1 c2 : Call ℝ) (v w : V3 ℝ × M3 ℝ),
    h.IsHull ∧ mkPoly h inHull = .ok p ∧ (∃ x, (c1.run p Mem.fresh).1 = .error x) ∧
    c2.onNew p = .ok v ∧ (c2.run p (c1.run p Mem.fresh).2).1 = .ok w ∧ w.1 ≠ v.1 := by
  obtain ⟨p, hp⟩ := hull_mkPoly_ok tetra_isHull (fun _ => true)
  obtain ⟨h1, v, w, h2, h3, h4⟩ := C02_wrong_value hp 1 1 (z := 2) (by norm_num) one_ne_zero one_ne_zero
  exact ⟨tetra, _, p, _, _, v, w, tetra_isHull, hp, ⟨_, h1⟩, h2, h3, h4⟩

/-- C02_silent for the tetrahedron: a raised query, one that returns, and a later one that returns -/
example : ∃ p G T, mkPoly tetra (fun _ => true) = .ok p ∧
    (Call.run p (runCalls p [⟨⟨0, 0, 1⟩, 1, 1, false⟩, ⟨⟨2, 3, 5⟩, 1, 1, false⟩] Mem.fresh).2 ⟨⟨0, 0, 2⟩, 1, 1, false⟩).1 = .ok (G, T) := by
  obtain ⟨p, hp⟩ := hull_mkPoly_ok tetra_isHull (fun _ => true)
  obtain ⟨G, T, h⟩ := C02_silent tetra_isHull hp (cs := [⟨⟨0, 0, 1⟩, 1, 1, false⟩, ⟨⟨2, 3, 5⟩, 1, 1, false⟩]) (by simp) (obs := ⟨0, 0, 2⟩) (by
    intro s hs i hi hh
    have hi4 : i < 4 := tetra_isHull.cornerIndex s hs i hi
    have := congrArg V3.z hh
    interval_cases i <;> simp [tetra_pt0, tetra_pt1, tetra_pt2, tetra_pt3] at this) 1 1
  exact ⟨p, G, T, hp, h⟩

/-- C02_wrong_value and C71_wrong_value for a body as the constructor makes it -/
example : ∃ p, mkPoly tetra (fun _ => true) = .ok p ∧
    (∃ v w, Call.onNew p ⟨⟨0, 0, 5⟩, 2670, 1, false⟩ = .ok v ∧
      (Call.run p (Call.run p Mem.fresh ⟨⟨0, 0, 1⟩, 2670, 1, false⟩).2 ⟨⟨0, 0, 5⟩, 2670, 1, false⟩).1 = .ok w ∧ w.1 ≠ v.1) ∧
    ∃ v w, Call.onNew p ⟨⟨0, 0, 5⟩, 2670, 1, false⟩ = .ok v ∧
      (Call.run p (Method.run p (.faceGravity 0 ⟨0, 0, 5⟩ 2670 1 false) Mem.fresh).2 ⟨⟨0, 0, 5⟩, 2670, 1, false⟩).1 = .ok w ∧ w.1 ≠ v.1 := by
  obtain ⟨p, hp⟩ := hull_mkPoly_ok tetra_isHull (fun _ => true)
  exact ⟨p, hp, (C02_wrong_value hp 2670 1 (by norm_num) (by norm_num) one_ne_zero).2, (C71_wrong_value hp 2670 1 (by norm_num) (by norm_num) one_ne_zero).2⟩
end
end Geec

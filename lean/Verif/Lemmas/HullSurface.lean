import Verif.Lemmas.NewtonInt
import Verif.Lemmas.Equivariance
import Verif.Props.Edge
import Mathlib.Algebra.BigOperators.Fin
import Mathlib.Analysis.Convex.Topology
/-
The faces of a constructed body are a triangulated surface; the field of a face is its share of Newton's integral.
-/
namespace Geec
open Arith MeasureTheory
noncomputable section

/-- corners of a triangular face -/
def Face.pa (f : Face ℝ) : V3 ℝ := at3 f.points 0
def Face.pb (f : Face ℝ) : V3 ℝ := at3 f.points 1
def Face.pc (f : Face ℝ) : V3 ℝ := at3 f.points 2

theorem triangle_perm {a b c a' b' c' : V3 ℝ} (h : List.Perm [a, b, c] [a', b', c']) : triangle a b c = triangle a' b' c' := by
  unfold triangle
  congr 1
  ext q
  have := fun v : V3 ℝ => h.mem_iff (a := v)
  simp only [List.mem_cons, List.not_mem_nil, or_false] at this
  simp only [Set.mem_insert_iff, Set.mem_singleton_iff]
  have e : ∀ x y z : V3 ℝ, (q = x.toP ∨ q = y.toP ∨ q = z.toP) ↔ (P3.toV q = x ∨ P3.toV q = y ∨ P3.toV q = z) := by
    intro x y z
    have : ∀ x : V3 ℝ, q = x.toP ↔ P3.toV q = x := fun x => ⟨fun h => by rw [h, toP_toV], fun h => by rw [← h, toV_toP]⟩
    rw [this, this, this]
  rw [e, e]
  exact this _

/-- permutations of three things -/
theorem perm3 {α : Type} {a b c a' b' c' : α} (h : List.Perm [a, b, c] [a', b', c']) :
    (a = a' ∧ b = b' ∧ c = c') ∨ (a = a' ∧ b = c' ∧ c = b') ∨ (a = b' ∧ b = a' ∧ c = c') ∨ (a = b' ∧ b = c' ∧ c = a') ∨
      (a = c' ∧ b = a' ∧ c = b') ∨ (a = c' ∧ b = b' ∧ c = a') := by
  have p2 : ∀ {x y x' y' : α}, List.Perm [x, y] [x', y'] → (x = x' ∧ y = y') ∨ (x = y' ∧ y = x') := by
    intro x y x' y' h
    have hx : x ∈ [x', y'] := h.subset (by simp)
    simp only [List.mem_cons, List.not_mem_nil, or_false] at hx
    rcases hx with rfl | rfl
    · have := (List.perm_cons x).mp h
      rw [List.perm_singleton] at this
      simp at this
      exact .inl ⟨rfl, this⟩
    · have := (List.perm_cons x).mp (h.trans (List.Perm.swap _ _ _))
      rw [List.perm_singleton] at this
      simp at this
      exact .inr ⟨rfl, this⟩
  have ha : a ∈ [a', b', c'] := h.subset (by simp)
  simp only [List.mem_cons, List.not_mem_nil, or_false] at ha
  rcases ha with rfl | rfl | rfl
  · rcases p2 ((List.perm_cons a).mp h) with ⟨h1, h2⟩ | ⟨h1, h2⟩ <;> simp [h1, h2]
  · rcases p2 ((List.perm_cons a).mp (h.trans (List.Perm.swap _ _ _))) with ⟨h1, h2⟩ | ⟨h1, h2⟩ <;> simp [h1, h2]
  · have : List.Perm [a', b', a] [a, a', b'] := (List.perm_append_comm (l₁ := [a', b']) (l₂ := [a]))
    rcases p2 ((List.perm_cons a).mp (h.trans this)) with ⟨h1, h2⟩ | ⟨h1, h2⟩ <;> simp [h1, h2]

theorem openTriangle_perm {a b c a' b' c' : V3 ℝ} (h : List.Perm [a, b, c] [a', b', c']) : openTriangle a b c ⊆ openTriangle a' b' c' := by
  rintro q ⟨u, v, w, hu, hv, hw, hs, rfl⟩
  rcases perm3 h with ⟨rfl, rfl, rfl⟩ | ⟨rfl, rfl, rfl⟩ | ⟨rfl, rfl, rfl⟩ | ⟨rfl, rfl, rfl⟩ | ⟨rfl, rfl, rfl⟩ | ⟨rfl, rfl, rfl⟩
  · exact ⟨u, v, w, hu, hv, hw, hs, by abel⟩
  · exact ⟨u, w, v, hu, hw, hv, by linarith, by abel⟩
  · exact ⟨v, u, w, hv, hu, hw, by linarith, by abel⟩
  · exact ⟨w, u, v, hw, hu, hv, by linarith, by abel⟩
  · exact ⟨v, w, u, hv, hw, hu, by linarith, by abel⟩
  · exact ⟨w, v, u, hw, hv, hu, by linarith, by abel⟩

/-- a face of a constructed body, in terms of the hull -/
theorem face_facts {h : Hull ℝ} (hh : h.IsHull) {inHull : V3 ℝ → Bool} {p : Poly ℝ} (hp : mkPoly h inHull = .ok p)
    {k : Nat} {f : Face ℝ} (hf : p.faces[k]? = some f) : ∃ t, h.simplices[k]? = some t ∧ f.points = [f.pa, f.pb, f.pc] ∧
      List.Perm [f.pa, f.pb, f.pc] [h.pt t.1, h.pt t.2.1, h.pt t.2.2] ∧ IsNormal f.un f.pa f.pb f.pc ∧
      (∀ q ∈ h.body, rdot f.un (P3.toV q) ≤ rdot f.un f.pa) ∧ (∀ q ∈ interior h.body, rdot f.un (P3.toV q) < rdot f.un f.pa) := by
  obtain ⟨-, h24⟩ := C24_counter_clockwise hh hp
  obtain ⟨t, a, b, c, ht, -, hperm, hpts, hpos, -, -⟩ := h24 k f hf
  obtain ⟨h1, h2, h3, h4⟩ := C23_outward_unit_normals hh hp (List.mem_of_getElem? hf)
  have ea : f.pa = h.pt a := by unfold Face.pa; rw [hpts]; rfl
  have eb : f.pb = h.pt b := by unfold Face.pb; rw [hpts]; rfl
  have ec : f.pc = h.pt c := by unfold Face.pc; rw [hpts]; rfl
  rw [hpts] at h2 h3 h4
  refine ⟨t, ht, by rw [ea, eb, ec, hpts], ?_, ⟨h1, ?_, ?_, ?_⟩, ?_, ?_⟩
  · rw [ea, eb, ec]; exact hperm.map h.pt
  · rw [ea, eb]; exact h2 _ (by simp) _ (by simp)
  · rw [ea, ec]; exact h2 _ (by simp) _ (by simp)
  · rw [ea, eb, ec]; exact hpos
  · rw [ea]; exact h3 _ (by simp)
  · rw [ea]; exact h4 _ (by simp)

theorem Hull.body_compact (h : Hull ℝ) : IsCompact h.body := by
  unfold Hull.body
  apply Set.Finite.isCompact_convexHull
  have : {q | ∃ p ∈ h.points, q = p.toP} = V3.toP '' {p | p ∈ h.points} := by
    ext q; constructor
    · rintro ⟨p, hp, rfl⟩; exact ⟨p, hp, rfl⟩
    · rintro ⟨p, hp, rfl⟩; exact ⟨p, hp, rfl⟩
  rw [this]
  exact (List.finite_toSet _).image _

/-- the surface of a constructed body -/
theorem hull_surface {h : Hull ℝ} (hh : h.IsHull) {inHull : V3 ℝ → Bool} {p : Poly ℝ} (hp : mkPoly h inHull = .ok p) :
    Surface (n := p.faces.length) h.body (fun k => (p.faces[k]).pa) (fun k => (p.faces[k]).pb) (fun k => (p.faces[k]).pc)
      (fun k => (p.faces[k]).un) := by
  have hlen := (C24_counter_clockwise hh hp).1
  have hk : ∀ k : Fin p.faces.length, p.faces[(k : Nat)]? = some p.faces[k] := fun k => List.getElem?_eq_getElem k.2
  refine ⟨convex_convexHull ℝ _, h.body_compact, hh.solid, ?_, ?_, ?_, ?_, ?_, ?_⟩
  · intro k; obtain ⟨t, -, -, -, hn, -, -⟩ := face_facts hh hp (hk k); exact hn
  · intro k; obtain ⟨t, -, -, -, -, hl, -⟩ := face_facts hh hp (hk k); exact hl
  · intro k; obtain ⟨t, -, -, -, -, -, hl⟩ := face_facts hh hp (hk k); exact hl
  · intro k
    obtain ⟨t, ht, -, hperm, -, -, -⟩ := face_facts hh hp (hk k)
    intro q hq
    simp only at hq
    rw [triangle_perm hperm] at hq
    have : q ∈ frontier h.body := by rw [hh.cover]; exact ⟨t, List.mem_of_getElem? ht, hq⟩
    exact h.body_compact.isClosed.frontier_subset this
  · intro q hq
    rw [hh.cover] at hq
    obtain ⟨t, ht, hq⟩ := hq
    obtain ⟨k, hkt⟩ := List.getElem?_of_mem ht
    have hkl : k < p.faces.length := by rw [hlen]; exact (List.getElem?_eq_some_iff.mp hkt).1
    obtain ⟨t', ht', -, hperm, -, -, -⟩ := face_facts hh hp (hk ⟨k, hkl⟩)
    rw [hkt] at ht'
    cases ht'
    refine ⟨⟨k, hkl⟩, ?_⟩
    rw [triangle_perm hperm]
    exact hq
  · intro k k' hne
    obtain ⟨t, ht, -, hperm, -, -, -⟩ := face_facts hh hp (hk k)
    obtain ⟨t', ht', -, hperm', -, -, -⟩ := face_facts hh hp (hk k')
    exact (hh.disjoint k k' t t' ht ht' (fun h => hne (Fin.ext h))).mono (openTriangle_perm hperm) (openTriangle_perm hperm')

/-- the regularity of a station in terms of a face -/
theorem regular_face {h : Hull ℝ} (hh : h.IsHull) {inHull : V3 ℝ → Bool} {p : Poly ℝ} (hp : mkPoly h inHull = .ok p)
    {k : Nat} {f : Face ℝ} (hf : p.faces[k]? = some f) {s : V3 ℝ} (hs : h.Regular s) :
    rdot f.un (f.pa.sub s) = 0 ∨ (repsilon < |rdot f.un (f.pa.sub s)| ∧
      ∀ (j : Nat) (e : Edge ℝ), f.edges[j]? = some e → ClearOf e.start e.fin s ∧ ClearOf e.fin e.start s) := by
  obtain ⟨t, ht, hpts, hperm, hn, -, -⟩ := face_facts hh hp hf
  have key : |rdot (cross ((h.pt t.2.1).sub (h.pt t.1)) ((h.pt t.2.2).sub (h.pt t.1))) ((h.pt t.1).sub s)| =
      vlen (cross ((h.pt t.2.1).sub (h.pt t.1)) ((h.pt t.2.2).sub (h.pt t.1))) * |rdot f.un (f.pa.sub s)| ∧
      0 < vlen (cross ((h.pt t.2.1).sub (h.pt t.1)) ((h.pt t.2.2).sub (h.pt t.1))) := by
    have hd := hn.det s
    have ha := hn.area_pos
    have e1 : |det3 (f.pa.sub s) (f.pb.sub s) (f.pc.sub s)| = vlen (cross (f.pb.sub f.pa) (f.pc.sub f.pa)) * |rdot f.un (f.pa.sub s)| := by
      rw [hd, abs_mul, abs_of_pos ha]
    have hv : ∀ x y : V3 ℝ, (rdot x x = rdot y y) → vlen x = vlen y := by intro x y h; unfold vlen; rw [h]
    have gen : ∀ a b c : V3 ℝ, |rdot (cross (b.sub a) (c.sub a)) (a.sub s)| = |det3 (a.sub s) (b.sub s) (c.sub s)| := by
      intro a b c; rw [det_of_cross]
    rw [gen]
    rcases perm3 hperm with ⟨h1, h2, h3⟩ | ⟨h1, h2, h3⟩ | ⟨h1, h2, h3⟩ | ⟨h1, h2, h3⟩ | ⟨h1, h2, h3⟩ | ⟨h1, h2, h3⟩ <;>
      rw [← h1, ← h2, ← h3]
    · exact ⟨e1, ha⟩
    all_goals
      have hvl := hv (cross (f.pb.sub f.pa) (f.pc.sub f.pa))
      constructor
      · first
          | (rw [← hvl _ (by simp [rdot]; ring), ← e1, ← abs_neg]; congr 1; simp [det3, rdot]; ring1)
          | (rw [← hvl _ (by simp [rdot]; ring), ← e1]; congr 1; simp [det3, rdot]; ring1)
      · rw [← hvl _ (by simp [rdot]; ring)]; exact ha
  rcases hs t (List.mem_of_getElem? ht) with h0 | ⟨h1, h2⟩
  · left
    have := key.1
    rw [h0, abs_zero] at this
    exact abs_eq_zero.mp ((mul_eq_zero.mp this.symm).resolve_left key.2.ne')
  · right
    rw [key.1, mul_comm] at h1
    refine ⟨lt_of_mul_lt_mul_left h1 key.2.le, ?_⟩
    intro j e he
    obtain ⟨-, h24⟩ := C24_counter_clockwise hh hp
    obtain ⟨t', a, b, c, ht', -, hperm', hpts', hpos, hedges, -⟩ := h24 k f hf
    rw [ht] at ht'
    cases ht'
    have hco : ∀ i ∈ [a, b, c], Corner t i := by
      intro i hi
      have := hperm'.subset hi
      simp only [List.mem_cons, List.not_mem_nil, or_false] at this
      exact this
    have hmem := List.mem_of_getElem? he
    have hm2 : (e.simplex, e.start, e.fin) ∈ f.edges.map (fun e => (e.simplex, e.start, e.fin)) := List.mem_map.mpr ⟨e, hmem, rfl⟩
    rw [hedges] at hm2
    have hE : p.edgeAt k j = some e := by unfold Poly.edgeAt; rw [hf]; exact he
    have hne := (edge_proper hh hp hE).ne
    simp only [List.mem_cons, List.not_mem_nil, or_false, Prod.mk.injEq] at hm2
    rcases hm2 with ⟨-, h3, h4⟩ | ⟨-, h3, h4⟩ | ⟨-, h3, h4⟩ <;> rw [h3, h4] at hne ⊢
    · have hab : a ≠ b := by rintro rfl; exact hne rfl
      exact ⟨h2 a b (hco a (by simp)) (hco b (by simp)) hab, h2 b a (hco b (by simp)) (hco a (by simp)) hab.symm⟩
    · have hab : b ≠ c := by rintro rfl; exact hne rfl
      exact ⟨h2 b c (hco b (by simp)) (hco c (by simp)) hab, h2 c b (hco c (by simp)) (hco b (by simp)) hab.symm⟩
    · have hab : c ≠ a := by rintro rfl; exact hne rfl
      exact ⟨h2 c a (hco c (by simp)) (hco a (by simp)) hab, h2 a c (hco a (by simp)) (hco c (by simp)) hab.symm⟩

/-- share of a face in Newton's integral -/
def faceShare (f : Face ℝ) (s e : V3 ℝ) : ℝ :=
  det3 (f.pa.sub s) (f.pb.sub s) (f.pc.sub s) * faceW (f.pa.sub s) (f.pb.sub s) (f.pc.sub s) e

/-- angle and line integrals give the surface integral -/
theorem faceW_normal_form {n a b c s : V3 ℝ} (hn : IsNormal n a b c) (hh : rdot n (a.sub s) ≠ 0) (e : V3 ℝ) :
    vlen (cross (b.sub a) (c.sub a)) * faceW (a.sub s) (b.sub s) (c.sub s) e =
      solidAngle n a b c s * rdot n e + rdot (cross n (((V3.smul (lineJ (a.sub s) (b.sub a)) (b.sub a)).add
        (V3.smul (lineJ (b.sub s) (c.sub b)) (c.sub b))).add (V3.smul (lineJ (c.sub s) (a.sub c)) (a.sub c)))) e := by
  have hA := hn.area_pos
  have hD : det3 (a.sub s) (b.sub s) (c.sub s) ≠ 0 := by rw [hn.det s]; exact mul_ne_zero hA.ne' hh
  have h := faceW_formula hD e
  have ss : ∀ x y : V3 ℝ, (x.sub s).sub (y.sub s) = x.sub y := by intro x y; refine V3.ext' ?_ ?_ ?_ <;> simp
  have hN : cross (b.sub a) (c.sub b) = V3.smul (vlen (cross (b.sub a) (c.sub a))) n := by
    rw [← hn.eq]; refine V3.ext' ?_ ?_ ?_ <;> simp <;> ring
  simp only [ss, hN] at h
  rw [← solidAngle_polar hn hh] at h
  set J := ((V3.smul (lineJ (a.sub s) (b.sub a)) (b.sub a)).add
        (V3.smul (lineJ (b.sub s) (c.sub b)) (c.sub b))).add (V3.smul (lineJ (c.sub s) (a.sub c)) (a.sub c))
  set l := vlen (cross (b.sub a) (c.sub a))
  have e1 : cross (V3.smul l n) J = V3.smul l (cross n J) := by refine V3.ext' ?_ ?_ ?_ <;> simp <;> ring
  rw [e1, smul_rdot, smul_rdot, smul_rdot, rdot_smul, hn.unit] at h
  apply mul_left_cancel₀ hA.ne'
  linarith

/-- the field computed for a face -/
theorem faceValue_share {h : Hull ℝ} (hh : h.IsHull) {inHull : V3 ℝ → Bool} {p : Poly ℝ} (hp : mkPoly h inHull = .ok p)
    {k : Nat} {f : Face ℝ} (hf : p.faces[k]? = some f) {s : V3 ℝ} (hs : h.Regular s) (ρ Gc : ℝ) (gr : Bool) {g : V3 ℝ × M3 ℝ}
    (hg : faceValue p s ρ Gc gr k f = .ok g) (e : V3 ℝ) : rdot g.1 e = 100000 * Gc * ρ * faceShare f s e := by
  obtain ⟨t, -, hpts, -, hn, -, -⟩ := face_facts hh hp hf
  have hht : f.height s = rdot f.un (f.pa.sub s) := rfl
  unfold faceValue at hg
  rcases regular_face hh hp hf hs with h0 | ⟨h1, h2⟩
  · split at hg
    · cases hg
    · split at hg
      · cases hg
      · next vs _ =>
        rcases vs with _ | ⟨v, vs⟩
        · cases hg
        · cases hg
          rw [Motion.faceField_fst, hht, h0, zero_mul]
          unfold faceShare
          rw [hn.det s, h0]
          simp [rdot]
  · rw [omegaValue_solidAngle hpts hn h1] at hg
    simp only at hg
    obtain ⟨-, -, a, b, c, e0, e1, e2, hE, -, hpts', hh0, hh1, hh2⟩ := edges_of_hull hh hp hf
    have ea : f.pa = h.pt a := by unfold Face.pa; rw [hpts']; rfl
    have eb : f.pb = h.pt b := by unfold Face.pb; rw [hpts']; rfl
    have ec : f.pc = h.pt c := by unfold Face.pc; rw [hpts']; rfl
    rw [← ea, ← eb] at hh0
    rw [← eb, ← ec] at hh1
    rw [← ec, ← ea] at hh2
    have val : ∀ (j : Nat) (e : Edge ℝ), f.edges[j]? = some e → ∃ d, edgeValue p s gr k e = .ok (V3.smul (lineJ (e.start.sub s) (e.fin.sub e.start)) (e.fin.sub e.start), d) := by
      intro j e he
      have hE : p.edgeAt k j = some e := by unfold Poly.edgeAt; rw [hf]; exact he
      obtain ⟨c1, c2⟩ := h2 j e he
      obtain ⟨v, d, d', hv, hv'⟩ := C14_twin_value hh hp hE c1 c2 gr
      have hpr := edge_proper hh hp hE
      obtain ⟨d2, hd2⟩ := edgeIntegral_clear hpr c1 gr
      rw [hv] at hd2
      cases hd2
      rw [hpr.vector] at hv'
      exact ⟨d', hv'⟩
    obtain ⟨d0, v0⟩ := val 0 e0 (by rw [hE]; rfl)
    obtain ⟨d1, v1⟩ := val 1 e1 (by rw [hE]; rfl)
    obtain ⟨d2, v2⟩ := val 2 e2 (by rw [hE]; rfl)
    rw [hE] at hg
    simp only [edgesValue, v0, v1, v2, fieldOfEdges, Except.ok.injEq] at hg
    rw [← hg, Motion.faceField_fst, hht]
    simp only [sumPqr, hh0, hh1, hh2]
    have hne : rdot f.un (f.pa.sub s) ≠ 0 := by
      intro h; rw [h, abs_zero] at h1
      have h0 : (0 : ℝ) < repsilon := by unfold repsilon; positivity
      linarith
    have hform := faceW_normal_form hn hne e
    unfold faceShare
    rw [hn.det s]
    set J := ((V3.smul (lineJ (f.pa.sub s) (f.pb.sub f.pa)) (f.pb.sub f.pa)).add
        (V3.smul (lineJ (f.pb.sub s) (f.pc.sub f.pb)) (f.pc.sub f.pb))).add (V3.smul (lineJ (f.pc.sub s) (f.pa.sub f.pc)) (f.pa.sub f.pc))
    set H := rdot f.un (f.pa.sub s)
    have : vlen (cross (f.pb.sub f.pa) (f.pc.sub f.pa)) * H * faceW (f.pa.sub s) (f.pb.sub s) (f.pc.sub s) e =
        H * (solidAngle f.un f.pa f.pb f.pc s * rdot f.un e + rdot (cross f.un J) e) := by rw [← hform]; ring
    rw [this, smul_rdot, rdot_comm, rdot_sub, rdot_smul, rdot_comm e f.un, rdot_comm e]
    ring

theorem facesValue_share {p : Poly ℝ} {s : V3 ℝ} {ρ Gc : ℝ} {gr : Bool} {e : V3 ℝ} {K : ℝ} (fs : List (Face ℝ)) :
    ∀ i G T v, (∀ (k : Nat) f g, fs[k]? = some f → faceValue p s ρ Gc gr (i + k) f = .ok g → rdot g.1 e = K * faceShare f s e) →
      facesValue p s ρ Gc gr i fs G T = .ok v → rdot v.1 e = rdot G e + K * (fs.map (fun f => faceShare f s e)).sum := by
  induction fs with
  | nil => intro i G T v _ h; cases h; simp
  | cons f fs ih =>
    intro i G T v h hv
    simp only [facesValue] at hv
    split at hv
    · cases hv
    · next g t hgt =>
      have := ih (i + 1) (G.add g) (T.add t) v (fun k f g hk hg => h (k + 1) f g hk (by rwa [show i + (k + 1) = i + 1 + k by omega])) hv
      have h0 := h 0 f (g, t) rfl (by rw [Nat.add_zero]; exact hgt)
      rw [this, rdot_comm (G.add g), rdot_add, rdot_comm e G, rdot_comm e g, h0, List.map_cons, List.sum_cons]
      ring

/-- **Newton's law** in a direction `e` -/
theorem newton_direction {h : Hull ℝ} (hh : h.IsHull) {inHull : V3 ℝ → Bool} {p : Poly ℝ} (hp : mkPoly h inHull = .ok p)
    {s : V3 ℝ} (hs : h.Regular s) {ρ Gc : ℝ} {gr : Bool} {v : V3 ℝ × M3 ℝ} (hv : Call.onNew p ⟨s, ρ, Gc, gr⟩ = .ok v) (e : V3 ℝ) :
    IntegrableOn (kernelAt s e) h.body ∧ rdot v.1 e = 100000 * Gc * ρ * ∫ q in h.body, kernelAt s e q := by
  obtain ⟨h1, h2⟩ := newton_faces (hull_surface hh hp) s e
  refine ⟨h1, ?_⟩
  rw [onNew_closed (wellTwinned_of_hull hh hp)] at hv
  rw [facesValue_share p.faces 0 V3.zeros M3.zeros v (fun k f g hk hg => faceValue_share hh hp hk hs ρ Gc gr (by rwa [Nat.zero_add] at hg) e) hv]
  rw [h2, rdot_comm, rdot_zeros, zero_add]
  congr 1
  rw [← Fin.sum_univ_fun_getElem p.faces (fun f => faceShare f s e)]
  rfl

end
end Geec

import Verif.Model.InHull
import Verif.Props.Hull
import Verif.Lemmas.FaceSum
import Verif.Spec.Tetra
import Mathlib.Analysis.Convex.Combination
import Mathlib.Data.ZMod.Basic
import Mathlib.Algebra.BigOperators.Ring.Finset
/-
C81: the linear program of `_in_hull`.  C82: what `plot` draws.
-/
namespace Geec
open Arith
noncomputable section

theorem sum_toP {n : Nat} (f : Fin n → V3 ℝ) (w : Fin n → ℝ) :
    ∑ i, w i • (f i).toP = ((∑ i, (f i).x * w i, ∑ i, (f i).y * w i, ∑ i, (f i).z * w i) : P3) := by
  refine Prod.ext ?_ (Prod.ext ?_ ?_)
  · rw [Prod.fst_sum]; exact Finset.sum_congr rfl fun i _ => mul_comm _ _
  · rw [Prod.snd_sum, Prod.fst_sum]; exact Finset.sum_congr rfl fun i _ => mul_comm _ _
  · rw [Prod.snd_sum, Prod.snd_sum]; exact Finset.sum_congr rfl fun i _ => mul_comm _ _

theorem lpFeasible_iff (points : List (V3 ℝ)) (x : V3 ℝ) : LpFeasible (inHullA points) (inHullB x) ↔
    ∃ w : Fin points.length → ℝ, (∀ i, 0 ≤ w i) ∧ ∑ i, w i = 1 ∧ ∑ i, w i • (points[i]).toP = x.toP := by
  constructor
  · rintro ⟨w, h0, h⟩
    refine ⟨w, h0, ?_, ?_⟩
    · have := h 3; simpa [inHullA, inHullB] using this
    · rw [sum_toP (fun i : Fin points.length => points[i])]
      exact Prod.ext (h 0) (Prod.ext (h 1) (h 2))
  · rintro ⟨w, h0, h1, h⟩
    rw [sum_toP (fun i : Fin points.length => points[i])] at h
    refine ⟨w, h0, fun k => ?_⟩
    match k with
    | 0 => exact congrArg Prod.fst h
    | 1 => exact congrArg (fun q => q.2.1) h
    | 2 => exact congrArg (fun q => q.2.2) h
    | 3 => simpa [inHullA, inHullB] using h1

/-- **C81** The linear program of `_in_hull` can be solved if and only if the point is in the convex hull of the points (any points: repeated, on a line or in a
plane, none at all). -/
theorem C81_lp (points : List (V3 ℝ)) (x : V3 ℝ) :
    LpFeasible (inHullA points) (inHullB x) ↔ x.toP ∈ convexHull ℝ {q | ∃ p ∈ points, q = p.toP} := by
  rw [lpFeasible_iff]
  constructor
  · rintro ⟨w, h0, h1, h⟩
    rw [← h]
    refine (convex_convexHull ℝ _).sum_mem (fun i _ => h0 i) h1 (fun i _ => ?_)
    exact subset_convexHull ℝ _ ⟨points[i], List.getElem_mem _, rfl⟩
  · intro hx
    have : convexHull ℝ {q | ∃ p ∈ points, q = p.toP} ⊆
        {q | ∃ w : Fin points.length → ℝ, (∀ i, 0 ≤ w i) ∧ ∑ i, w i = 1 ∧ ∑ i, w i • (points[i]).toP = q} := by
      refine convexHull_min ?_ ?_
      · rintro q ⟨p, hp, rfl⟩
        obtain ⟨i, hi, rfl⟩ := List.mem_iff_getElem.mp hp
        classical
        refine ⟨fun k => if k = ⟨i, hi⟩ then 1 else 0, fun k => ?_, ?_, ?_⟩
        · dsimp only; split_ifs <;> norm_num
        · simp
        · simp
      · rintro q ⟨w, h0, h1, h⟩ q' ⟨w', h0', h1', h'⟩ a b ha hb hab
        refine ⟨fun i => a * w i + b * w' i, fun i => add_nonneg (mul_nonneg ha (h0 i)) (mul_nonneg hb (h0' i)), ?_, ?_⟩
        · rw [Finset.sum_add_distrib, ← Finset.mul_sum, ← Finset.mul_sum, h1, h1', mul_one, mul_one, hab]
        · simp only [add_smul, mul_smul]
          rw [Finset.sum_add_distrib, ← Finset.smul_sum, ← Finset.smul_sum, h, h']
    exact this hx

theorem foldl_add_toP (pts : List (V3 ℝ)) (idx : List Nat) : ∀ acc : V3 ℝ,
    (idx.foldl (fun acc i => acc.add (at3 pts i)) acc).toP = acc.toP + (idx.map fun i => (at3 pts i).toP).sum := by
  induction idx with
  | nil => intro acc; simp
  | cons i idx ih =>
    intro acc
    rw [List.foldl_cons, ih, List.map_cons, List.sum_cons, ← add_assoc]
    rfl

/-- **C81** The mean of points that are in the hull is found to be in the hull: `D_in_hull` is true for the centroid, for any points at all. -/
theorem C81_centroid {pts : List (V3 ℝ)} {idx : List Nat} (hne : idx ≠ []) (hi : ∀ i ∈ idx, i < pts.length) {inHull : V3 ℝ → Bool} (hx : ExactInHull pts inHull) :
    inHull (meanPoint pts idx) = true := by
  rw [hx, C81_lp]
  have hn : (0 : ℝ) < idx.length := by exact_mod_cast List.length_pos_iff.mpr hne
  have h1 : (meanPoint pts idx).toP = ∑ k : Fin idx.length, (1 / (idx.length : ℝ)) • (at3 pts idx[k]).toP := by
    have h2 : (meanPoint pts idx).toP = (1 / (idx.length : ℝ)) • (idx.foldl (fun acc i => acc.add (at3 pts i)) V3.zeros).toP := by
      unfold meanPoint
      refine Prod.ext ?_ (Prod.ext ?_ ?_) <;> exact div_eq_inv_mul _ _ |>.trans (by rw [one_div]; rfl)
    rw [h2, foldl_add_toP, ← Finset.smul_sum]
    congr 1
    rw [show (V3.zeros : V3 ℝ).toP = 0 from rfl, zero_add, ← List.sum_ofFn]
    congr 1
    refine List.ext_getElem (by simp) fun k h1 h2 => by simp
  rw [h1]
  refine (convex_convexHull ℝ _).sum_mem (fun _ _ => by positivity) (by simp; field_simp) (fun k _ => ?_)
  refine subset_convexHull ℝ _ ⟨at3 pts idx[k], ?_, rfl⟩
  have := hi idx[k] (List.getElem_mem _)
  unfold at3
  rw [List.getD_eq_getElem?_getD, List.getElem?_eq_getElem this]
  exact List.getElem_mem _

theorem orient_not_name {pts : List (V3 ℝ)} {inHull : V3 ℝ → Bool} {c : V3 ℝ} (h : inHull c = true) (s : Nat × Nat × Nat) :
    ∃ r, orient pts inHull c s = .ok r := by
  unfold orient
  simp only [h, Bool.not_true, Bool.and_false, Bool.false_eq_true, if_false]
  split_ifs <;> exact ⟨_, rfl⟩

theorem mapM_ne {α β : Type} {f : α → Except PyErr β} {e : PyErr} (hf : ∀ a, f a ≠ .error e) (l : List α) : l.mapM f ≠ .error e := by
  induction l with
  | nil => simp [Pure.pure, Except.pure]
  | cons a l ih =>
    rw [List.mapM_cons]
    have hf := hf a
    revert hf ih
    generalize f a = x
    generalize l.mapM f = y
    intro ih hf
    rcases x with x | x
    · simpa [Bind.bind, Except.bind] using hf
    · rcases y with y | y
      · simpa [Bind.bind, Except.bind] using ih
      · simp [Bind.bind, Except.bind, Pure.pure, Except.pure]

theorem getEdges_not_name (pts : List (V3 ℝ)) (s : Nat × Nat × Nat) (nb : List Nat) (ns : List (Nat × Nat × Nat)) : getEdges pts s nb ns ≠ .error .nameError := by
  refine mapM_ne (fun pr => ?_) _
  unfold getTwinface
  generalize ((nb.zip ns).filter (fun ns => containsPair ns.2 pr)).head? = x
  rcases x with _ | ⟨n, t⟩ <;> simp [Bind.bind, Except.bind, Pure.pure, Except.pure]

/-- **C81** With a solver that is right about feasibility, the search loop of `_get_faces` (which would raise `NameError`) is never entered, whatever simplices the
hull library returns -- also for points in a plane or on a line. -/
theorem C81_no_search {h : Hull ℝ} (hne : h.vertices ≠ []) (hi : ∀ i ∈ h.vertices, i < h.points.length) {inHull : V3 ℝ → Bool} (hx : ExactInHull h.points inHull) :
    mkPoly h inHull ≠ .error .nameError := by
  have hc := C81_centroid hne hi hx
  have key : ∀ (nbs : List (List Nat)) k sims, buildFaces h.points inHull (meanPoint h.points h.vertices) k nbs sims ≠ .error .nameError := by
    intro nbs
    induction nbs with
    | nil => intro k sims; simp [buildFaces]
    | cons nb nbs ih =>
      intro k sims
      obtain ⟨⟨un, s⟩, hr⟩ := orient_not_name (pts := h.points) hc (sims.getD k (0, 0, 0))
      unfold buildFaces
      rw [hr]
      simp only [Bind.bind, Except.bind, Pure.pure, Except.pure]
      rcases hE : getEdges h.points s nb (nb.map (fun n => (sims.set k s).getD n (0, 0, 0))) with e | es
      · intro h'
        dsimp only at h'
        exact getEdges_not_name _ _ _ _ (hE.trans (congrArg Except.error (Except.error.inj h')))
      · dsimp only
        rcases hB : buildFaces h.points inHull (meanPoint h.points h.vertices) (k + 1) nbs (sims.set k s) with e | fs
        · intro h'
          dsimp only at h'
          exact ih _ _ (hB.trans (congrArg Except.error (Except.error.inj h')))
        · simp
  unfold mkPoly
  split_ifs
  · simp
  · simp only [Bind.bind, Except.bind, Pure.pure, Except.pure]
    rcases hB : buildFaces h.points inHull (meanPoint h.points h.vertices) 0 h.neighbors h.simplices with e | fs
    · intro h'
      dsimp only at h'
      exact key _ _ _ (hB.trans (congrArg Except.error (Except.error.inj h')))
    · simp

-- C81_lp: a point of a segment (three points on a line, two of them equal) and a point beyond it
example : LpFeasible (inHullA [⟨0, 0, 0⟩, ⟨2, 0, 0⟩, ⟨2, 0, 0⟩]) (inHullB ⟨1, 0, 0⟩) := by
  rw [C81_lp]
  have h0 : ((⟨0, 0, 0⟩ : V3 ℝ).toP) ∈ convexHull ℝ {q | ∃ p ∈ [(⟨0, 0, 0⟩ : V3 ℝ), ⟨2, 0, 0⟩, ⟨2, 0, 0⟩], q = p.toP} := subset_convexHull ℝ _ ⟨_, by simp, rfl⟩
  have h2 : ((⟨2, 0, 0⟩ : V3 ℝ).toP) ∈ convexHull ℝ {q | ∃ p ∈ [(⟨0, 0, 0⟩ : V3 ℝ), ⟨2, 0, 0⟩, ⟨2, 0, 0⟩], q = p.toP} := subset_convexHull ℝ _ ⟨_, by simp, rfl⟩
  have := convex_convexHull ℝ _ h0 h2 (a := 1 / 2) (b := 1 / 2) (by norm_num) (by norm_num) (by norm_num)
  convert this using 1
  simp [V3.toP]

/-- the four points of the unit square in the plane z = 0, two triangles with centroid in their plane -/
def flatSquare : Hull ℝ where
  points := [⟨0, 0, 0⟩, ⟨1, 0, 0⟩, ⟨1, 1, 0⟩, ⟨0, 1, 0⟩]
  vertices := [0, 1, 2, 3]
  simplices := [(0, 1, 2), (0, 2, 3)]
  neighbors := [[1, 1, 1], [0, 0, 0]]

-- C81_no_search: a flat set of points, where the centroid is in the plane of every simplex (for which `_in_hull` answering wrongly would raise NameError)
example : ∀ inHull, ExactInHull flatSquare.points inHull → mkPoly flatSquare inHull ≠ .error .nameError := fun _ hx =>
  C81_no_search (by simp [flatSquare]) (by simp [flatSquare]) hx
example : mkPoly flatSquare (fun _ => false) = .error .nameError :=
  C26_search_raises (s := (0, 1, 2)) (ss := [(0, 2, 3)]) rfl rfl (by simp [Hull.pt, at3, flatSquare, rdot, cross, meanPoint]) rfl

/-! ### C82 -/

/-- each face has three edges -/
theorem three_edges {h : Hull ℝ} (hh : h.IsHull) {inHull : V3 ℝ → Bool} {p : Poly ℝ} (hp : mkPoly h inHull = .ok p) {f : Face ℝ} (hf : f ∈ p.faces) :
    f.edges.length = 3 := by
  obtain ⟨k, hk⟩ := List.mem_iff_getElem?.mp hf
  obtain ⟨s, -, a, b, c, e0, e1, e2, hE, -⟩ := edges_of_hull hh hp hk
  rw [hE]; rfl

/-- **C82** `plot` draws three segments per face. -/
theorem C82_count {h : Hull ℝ} (hh : h.IsHull) {inHull : V3 ℝ → Bool} {p : Poly ℝ} (hp : mkPoly h inHull = .ok p) :
    (plotTraces p).length = 3 * p.faces.length := by
  unfold plotTraces
  rw [List.length_map, List.length_flatMap]
  have : ∀ l : List (Face ℝ), (∀ f ∈ l, f.edges.length = 3) → (l.map fun f => f.edges.length).sum = 3 * l.length := by
    intro l
    induction l with
    | nil => intro _; rfl
    | cons f l ih =>
      intro hl
      rw [List.map_cons, List.sum_cons, hl f (by simp), ih (fun g hg => hl g (by simp [hg])), List.length_cons]
      omega
  exact this _ fun f hf => three_edges hh hp hf

/-- **C82** Every segment is drawn twice, once in each direction: for every edge there is one edge of another face with the reversed trace ... -/
theorem C82_reversed {h : Hull ℝ} (hh : h.IsHull) {inHull : V3 ℝ → Bool} {p : Poly ℝ} (hp : mkPoly h inHull = .ok p) {i j : Nat} {e : Edge ℝ}
    (he : p.edgeAt i j = some e) : ∃ i' j' e', i' ≠ i ∧ p.edgeAt i' j' = some e' ∧
      e'.trace = (e.trace.1.reverse, e.trace.2.1.reverse, e.trace.2.2.reverse) ∧
      ∀ i'' j'' e'', p.edgeAt i'' j'' = some e'' → e''.simplex = (e.simplex.2, e.simplex.1) → i'' = i' ∧ j'' = j' := by
  obtain ⟨f, hf, hfe⟩ := Option.bind_eq_some_iff.mp he
  obtain ⟨i', j', f', e', -, hf', he', -, hne, -, -, h1, h2, -, hu⟩ := C25_twins hh hp hf hfe
  refine ⟨i', j', e', hne, Option.bind_eq_some_iff.mpr ⟨f', hf', he'⟩, ?_, ?_⟩
  · unfold Edge.trace; rw [h1, h2]; rfl
  · intro i'' j'' e'' h'' hs
    obtain ⟨f'', hf'', hfe''⟩ := Option.bind_eq_some_iff.mp h''
    exact hu i'' j'' f'' e'' hf'' hfe'' hs

/-- **C82** ... and so a polyhedron has an even number of faces. -/
theorem C82_even {h : Hull ℝ} (hh : h.IsHull) {inHull : V3 ℝ → Bool} {p : Poly ℝ} (hp : mkPoly h inHull = .ok p) : Even p.faces.length := by
  -- the involution that takes each edge to its twin
  have ex : ∀ x : Fin p.faces.length × Fin 3, ∃ y : Fin p.faces.length × Fin 3, ∃ e e', p.edgeAt x.1 x.2 = some e ∧ p.edgeAt y.1 y.2 = some e' ∧
      e.twin = some (y.1.val, y.2.val) ∧ e'.twin = some (x.1.val, x.2.val) ∧ y.1 ≠ x.1 := by
    rintro ⟨i, j⟩
    have hf : p.faces[i.val]? = some p.faces[i] := List.getElem?_eq_getElem i.isLt
    have h3 := three_edges hh hp (List.getElem_mem i.isLt)
    have hj : j.val < (p.faces[i]).edges.length := lt_of_lt_of_eq j.isLt h3.symm
    have he : (p.faces[i]).edges[j.val]? = some ((p.faces[i]).edges[j.val]) := List.getElem?_eq_getElem hj
    obtain ⟨i', j', f', e', ht, hf', he', ht', hne, -⟩ := C25_twins hh hp hf he
    have hi' : i' < p.faces.length := (List.getElem?_eq_some_iff.mp hf').1
    have hj' : j' < 3 := by
      have := (List.getElem?_eq_some_iff.mp he').1
      rwa [three_edges hh hp (List.mem_of_getElem? hf')] at this
    exact ⟨(⟨i', hi'⟩, ⟨j', hj'⟩), _, e', Option.bind_eq_some_iff.mpr ⟨_, hf, he⟩, Option.bind_eq_some_iff.mpr ⟨f', hf', he'⟩, ht, ht',
      fun h => hne (congrArg Fin.val h)⟩
  choose g hg using ex
  have hcard : ((Finset.univ : Finset (Fin p.faces.length × Fin 3)).card : ZMod 2) = 0 := by
    rw [Finset.card_eq_sum_ones, Nat.cast_sum]
    refine Finset.sum_involution (fun a _ => g a) ?_ ?_ ?_ ?_
    · intro a _; decide
    · intro a _ _ h
      obtain ⟨e, e', -, -, -, -, h5⟩ := hg a
      exact h5 (congrArg Prod.fst h)
    · intro a _; exact Finset.mem_univ _
    · intro a _
      obtain ⟨e, e', h1, h2, h3, h4, -⟩ := hg a
      obtain ⟨k, k', q1, q2, q3, q4, -⟩ := hg (g a)
      rw [h2] at q1
      obtain rfl := Option.some.inj q1
      rw [h4] at q3
      have := Option.some.inj q3
      exact Prod.ext (Fin.ext (congrArg Prod.fst this).symm) (Fin.ext (congrArg Prod.snd this).symm)
  rw [Finset.card_univ, Fintype.card_prod, Fintype.card_fin, Fintype.card_fin, ZMod.natCast_eq_zero_iff] at hcard
  rw [even_iff_two_dvd]
  exact (Nat.Coprime.dvd_of_dvd_mul_right (by decide) hcard)

-- the tetrahedron: twelve segments
example : ∃ p, mkPoly tetra (fun _ => true) = .ok p ∧ Even p.faces.length ∧ (plotTraces p).length = 3 * p.faces.length := by
  obtain ⟨p, hp, -⟩ := C26_search_not_entered tetra_isHull (fun _ => true) (fun _ => true)
  exact ⟨p, hp, C82_even tetra_isHull hp, C82_count tetra_isHull hp⟩

end
end Geec

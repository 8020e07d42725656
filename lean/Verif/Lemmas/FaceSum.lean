import Verif.Props.Hull
import Verif.Lemmas.RealKernel
/-
Exceptions of the closed form of a gravity query, and its dependence on the density and the gravitational constant.
-/
namespace Geec
open Arith
noncomputable section

/-- the answer of a call on a new object, in closed form -/
theorem onNew_closed {S : Type} [Arith S] {p : Poly S} (hw : p.WellTwinned) (c : Call S) :
    c.onNew p = facesValue p c.obs c.density c.Gc c.gradient 0 p.faces V3.zeros M3.zeros :=
  getGravity_closed hw clean_fresh _ _

/-- the edges of a face of a constructed body -/
theorem edges_of_hull {h : Hull ℝ} (hh : h.IsHull) {inHull : V3 ℝ → Bool} {p : Poly ℝ} (hp : mkPoly h inHull = .ok p)
    {k : Nat} {f : Face ℝ} (hf : p.faces[k]? = some f) : ∃ s, h.simplices[k]? = some s ∧ ∃ a b c e0 e1 e2, f.edges = [e0, e1, e2] ∧
      List.Perm [a, b, c] [s.1, s.2.1, s.2.2] ∧ f.points = [h.pt a, h.pt b, h.pt c] ∧
      (e0.start = h.pt a ∧ e0.fin = h.pt b) ∧ (e1.start = h.pt b ∧ e1.fin = h.pt c) ∧ (e2.start = h.pt c ∧ e2.fin = h.pt a) := by
  obtain ⟨-, h24⟩ := C24_counter_clockwise hh hp
  obtain ⟨s, a, b, c, hs, -, hperm, hpts, -, hedges, -⟩ := h24 k f hf
  refine ⟨s, hs, a, b, c, ?_⟩
  rcases hE : f.edges with _ | ⟨e0, _ | ⟨e1, _ | ⟨e2, _ | ⟨e3, es⟩⟩⟩⟩ <;> rw [hE] at hedges <;>
    simp only [List.map_cons, List.map_nil, List.cons.injEq, Prod.mk.injEq, reduceCtorEq, and_false] at hedges
  obtain ⟨⟨-, h1, h2⟩, ⟨-, h3, h4⟩, ⟨-, h5, h6⟩, -⟩ := hedges
  exact ⟨e0, e1, e2, rfl, hperm, hpts, ⟨h1, h2⟩, ⟨h3, h4⟩, ⟨h5, h6⟩⟩

theorem edgesValue_ok {S : Type} [Arith S] {p : Poly S} {obs : V3 S} {gr : Bool} {i : Nat} {es : List (Edge S)}
    (h : ∀ e ∈ es, ∃ v, edgeValue p obs gr i e = .ok v) : ∃ vs, edgesValue p obs gr i es = .ok vs ∧ vs.length = es.length := by
  induction es with
  | nil => exact ⟨[], rfl, rfl⟩
  | cons e es ih =>
    obtain ⟨v, hv⟩ := h e (by simp)
    obtain ⟨vs, hvs, hl⟩ := ih (fun e he => h e (by simp [he]))
    exact ⟨v :: vs, by simp only [edgesValue, hv, hvs], by simp [hl]⟩

theorem edgesValue_error {S : Type} [Arith S] {p : Poly S} {obs : V3 S} {gr : Bool} {i : Nat} {es : List (Edge S)} {x : PyErr}
    (h : edgesValue p obs gr i es = .error x) : ∃ e ∈ es, edgeValue p obs gr i e = .error x := by
  induction es with
  | nil => cases h
  | cons e es ih =>
    simp only [edgesValue] at h
    split at h
    · next hv => cases h; exact ⟨e, by simp, hv⟩
    · split at h
      · next hv => cases h; obtain ⟨e', he', hx⟩ := ih hv; exact ⟨e', by simp [he'], hx⟩
      · cases h

theorem facesValue_ok {S : Type} [Arith S] {p : Poly S} {obs : V3 S} {ρ Gc : S} {gr : Bool} (fs : List (Face S)) :
    ∀ i G T, (∀ (k : Nat) f, fs[k]? = some f → ∃ v, faceValue p obs ρ Gc gr (i + k) f = .ok v) →
      ∃ v, facesValue p obs ρ Gc gr i fs G T = .ok v := by
  induction fs with
  | nil => intro i G T _; exact ⟨_, rfl⟩
  | cons f fs ih =>
    intro i G T h
    obtain ⟨⟨g, t⟩, hv⟩ := h 0 f rfl
    simp only [facesValue]
    rw [Nat.add_zero] at hv
    rw [hv]
    apply ih
    intro k f' hf'
    have := h (k + 1) f' hf'
    rwa [show i + (k + 1) = i + 1 + k by omega] at this

theorem facesValue_raises {S : Type} [Arith S] {p : Poly S} {obs : V3 S} {ρ Gc : S} {gr : Bool} {x : PyErr} (fs : List (Face S)) :
    ∀ i G T, (∀ (k : Nat) f y, fs[k]? = some f → faceValue p obs ρ Gc gr (i + k) f = .error y → y = x) →
      (∃ (k : Nat) (f : Face S), fs[k]? = some f ∧ faceValue p obs ρ Gc gr (i + k) f = .error x) →
      facesValue p obs ρ Gc gr i fs G T = .error x := by
  induction fs with
  | nil => rintro i G T _ ⟨k, f, hf, -⟩; cases hf
  | cons f fs ih =>
    rintro i G T h ⟨k, f', hf', hx⟩
    simp only [facesValue]
    rcases hv : faceValue p obs ρ Gc gr i f with y | ⟨g, t⟩
    · simp only
      rw [h 0 f y rfl (by rw [Nat.add_zero]; exact hv)]
    · simp only
      apply ih
      · intro k f' y hf' hy
        rw [show i + 1 + k = i + (k + 1) by omega] at hy
        exact h (k + 1) f' y hf' hy
      · rcases k with _ | k
        · cases hf'
          rw [Nat.add_zero, hv] at hx
          cases hx
        · exact ⟨k, f', hf', by rwa [show i + 1 + k = i + (k + 1) by omega]⟩

/-- every exception of a query is a `ZeroDivisionError` -/
theorem faceValue_error {p : Poly ℝ} (hw : p.WellTwinned) {obs : V3 ℝ} {ρ Gc : ℝ} {gr : Bool} {i : Nat} {f : Face ℝ}
    (hf : p.faces[i]? = some f) (hne : f.edges ≠ []) {x : PyErr} (h : faceValue p obs ρ Gc gr i f = .error x) :
    x = .zeroDivisionError := by
  unfold faceValue at h
  obtain ⟨w, hw'⟩ := omegaValue_ok f obs gr
  rw [hw'] at h
  simp only at h
  split at h
  · next y hy =>
    cases h
    obtain ⟨e, he, hx⟩ := edgesValue_error hy
    obtain ⟨j, hj⟩ := List.getElem?_of_mem he
    obtain ⟨i', j', e', ht, he', -, -⟩ := hw i j e (by unfold Poly.edgeAt; rw [hf]; exact hj)
    unfold edgeValue at hx
    rw [ht] at hx
    simp only [he'] at hx
    split at hx
    · rcases hy' : edgeIntegral e' obs gr with z | z <;> rw [hy'] at hx <;> cases hx
      exact edgeIntegral_error hy'
    · exact edgeIntegral_error hx
  · next vs hvs =>
    have hvl : vs ≠ [] := by
      rintro rfl
      rcases hE : f.edges with _ | ⟨e, es⟩
      · exact hne hE
      · rw [hE] at hvs
        simp only [edgesValue] at hvs
        split at hvs
        · cases hvs
        · split at hvs <;> cases hvs
    rcases vs with _ | ⟨v, vs⟩
    · exact absurd rfl hvl
    · cases h

/-! ### density and gravitational constant -/

/-- all components multiplied by `k` -/
def scaleField (k : ℝ) (v : V3 ℝ × M3 ℝ) : V3 ℝ × M3 ℝ := (V3.smul k v.1, ⟨V3.smul k v.2.r0, V3.smul k v.2.r1, V3.smul k v.2.r2⟩)

theorem M3.ext' {a b : M3 ℝ} (h0 : a.r0 = b.r0) (h1 : a.r1 = b.r1) (h2 : a.r2 = b.r2) : a = b := by
  cases a; cases b; simp_all

theorem faceField_scale (un : V3 ℝ) (d w : ℝ) (dw pqr : V3 ℝ) (dpqr : M3 ℝ) (ρ Gc : ℝ) (gr : Bool) :
    faceField un d w dw pqr dpqr ρ Gc gr = scaleField (ρ * Gc) (faceField un d w dw pqr dpqr 1 1 gr) := by
  unfold faceField scaleField
  cases gr
  · refine Prod.ext (V3.ext' ?_ ?_ ?_) (M3.ext' (V3.ext' ?_ ?_ ?_) (V3.ext' ?_ ?_ ?_) (V3.ext' ?_ ?_ ?_)) <;> simp [M3.zeros] <;> ring
  · refine Prod.ext (V3.ext' ?_ ?_ ?_) (M3.ext' (V3.ext' ?_ ?_ ?_) (V3.ext' ?_ ?_ ?_) (V3.ext' ?_ ?_ ?_)) <;> simp <;> ring

theorem faceValue_scale (p : Poly ℝ) (obs : V3 ℝ) (ρ Gc : ℝ) (gr : Bool) (i : Nat) (f : Face ℝ) :
    faceValue p obs ρ Gc gr i f = (faceValue p obs 1 1 gr i f).map (scaleField (ρ * Gc)) := by
  unfold faceValue
  rcases omegaValue f obs gr with x | w
  · rfl
  · simp only
    rcases edgesValue p obs gr i f.edges with x | vs
    · rfl
    · rcases vs with _ | ⟨v, vs⟩
      · rfl
      · simp only [fieldOfEdges, Except.map, Except.ok.injEq]
        exact faceField_scale _ _ _ _ _ _ _ _ _

theorem facesValue_scale (p : Poly ℝ) (obs : V3 ℝ) (ρ Gc : ℝ) (gr : Bool) (fs : List (Face ℝ)) : ∀ i v,
    facesValue p obs ρ Gc gr i fs (scaleField (ρ * Gc) v).1 (scaleField (ρ * Gc) v).2 =
      (facesValue p obs 1 1 gr i fs v.1 v.2).map (scaleField (ρ * Gc)) := by
  induction fs with
  | nil => intro i v; rfl
  | cons f fs ih =>
    intro i v
    simp only [facesValue]
    rw [faceValue_scale]
    rcases faceValue p obs 1 1 gr i f with x | ⟨g, t⟩
    · rfl
    · show facesValue p obs ρ Gc gr (i + 1) fs ((scaleField (ρ * Gc) v).1.add (scaleField (ρ * Gc) (g, t)).1)
        ((scaleField (ρ * Gc) v).2.add (scaleField (ρ * Gc) (g, t)).2) = _
      rw [← ih (i + 1) (v.1.add g, v.2.add t)]
      congr 1
      · refine V3.ext' ?_ ?_ ?_ <;> simp [scaleField] <;> ring
      · refine M3.ext' (V3.ext' ?_ ?_ ?_) (V3.ext' ?_ ?_ ?_) (V3.ext' ?_ ?_ ?_) <;> simp [scaleField, M3.add] <;> ring

/-- the answer for a density and a constant, from the answer for density 1 and constant 1 -/
theorem onNew_scale {p : Poly ℝ} (hw : p.WellTwinned) (obs : V3 ℝ) (ρ Gc : ℝ) (gr : Bool) :
    Call.onNew p ⟨obs, ρ, Gc, gr⟩ = (Call.onNew p ⟨obs, 1, 1, gr⟩).map (scaleField (ρ * Gc)) := by
  rw [onNew_closed hw, onNew_closed hw]
  have := facesValue_scale p obs ρ Gc gr p.faces 0 (V3.zeros, M3.zeros)
  have hz : scaleField (ρ * Gc) (V3.zeros, M3.zeros) = (V3.zeros, M3.zeros) := by
    refine Prod.ext (V3.ext' ?_ ?_ ?_) (M3.ext' (V3.ext' ?_ ?_ ?_) (V3.ext' ?_ ?_ ?_) (V3.ext' ?_ ?_ ?_)) <;> simp [scaleField, M3.zeros]
  rw [hz] at this
  exact this

end
end Geec

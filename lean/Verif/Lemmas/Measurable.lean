import Verif.Props.Accuracy
import Verif.Lemmas.Reaction
import Mathlib.MeasureTheory.Function.SpecialFunctions.Basic
import Mathlib.MeasureTheory.Measure.Lebesgue.VolumeOfBalls
/-
The gravity that a query returns is a measurable function of the station.
-/
namespace Geec
open Arith MeasureTheory Classical
noncomputable section

/-- a vector field with measurable components -/
def MV {X : Type} [MeasurableSpace X] (f : X → V3 ℝ) : Prop := Measurable (fun q => (f q).x) ∧ Measurable (fun q => (f q).y) ∧ Measurable (fun q => (f q).z)

section
variable {X : Type} [MeasurableSpace X] {f g : X → V3 ℝ} {c d : X → ℝ}

theorem MV.const (a : V3 ℝ) : MV (fun _ : X => a) := ⟨measurable_const, measurable_const, measurable_const⟩
theorem MV.add (hf : MV f) (hg : MV g) : MV fun q => (f q).add (g q) := ⟨hf.1.add hg.1, hf.2.1.add hg.2.1, hf.2.2.add hg.2.2⟩
theorem MV.sub (hf : MV f) (hg : MV g) : MV fun q => (f q).sub (g q) := ⟨hf.1.sub hg.1, hf.2.1.sub hg.2.1, hf.2.2.sub hg.2.2⟩
theorem MV.neg (hf : MV f) : MV fun q => (f q).neg := ⟨hf.1.neg, hf.2.1.neg, hf.2.2.neg⟩
theorem MV.smul (hc : Measurable c) (hf : MV f) : MV fun q => V3.smul (c q) (f q) := ⟨hc.mul hf.1, hc.mul hf.2.1, hc.mul hf.2.2⟩
theorem MV.sdiv (hf : MV f) (hc : Measurable c) : MV fun q => (f q).sdiv (c q) := ⟨hf.1.div hc, hf.2.1.div hc, hf.2.2.div hc⟩
theorem MV.cross (hf : MV f) (hg : MV g) : MV fun q => cross (f q) (g q) :=
  ⟨(hf.2.1.mul hg.2.2).sub (hf.2.2.mul hg.2.1), (hf.2.2.mul hg.1).sub (hf.1.mul hg.2.2), (hf.1.mul hg.2.1).sub (hf.2.1.mul hg.1)⟩
theorem MV.dot (hf : MV f) (hg : MV g) : Measurable fun q => rdot (f q) (g q) := ((hf.1.mul hg.1).add (hf.2.1.mul hg.2.1)).add (hf.2.2.mul hg.2.2)
theorem MV.ite {P : X → Prop} (hP : MeasurableSet {q | P q}) (hf : MV f) (hg : MV g) : MV fun q => if P q then f q else g q := by
  refine ⟨?_, ?_, ?_⟩
  · simp only [apply_ite V3.x]; exact Measurable.ite hP hf.1 hg.1
  · simp only [apply_ite V3.y]; exact Measurable.ite hP hf.2.1 hg.2.1
  · simp only [apply_ite V3.z]; exact Measurable.ite hP hf.2.2 hg.2.2
theorem MV.vlen (hf : MV f) : Measurable fun q => vlen (f q) := (hf.dot hf).sqrt
theorem MV.comp {Y : Type} [MeasurableSpace Y] {k : Y → X} (hf : MV f) (hk : Measurable k) : MV fun y => f (k y) := ⟨hf.1.comp hk, hf.2.1.comp hk, hf.2.2.comp hk⟩
theorem MV.toP (hf : MV f) : Measurable fun q => (f q).toP := hf.1.prodMk (hf.2.1.prodMk hf.2.2)
end

theorem MV.toV : MV P3.toV := ⟨measurable_fst, measurable_fst.comp measurable_snd, measurable_snd.comp measurable_snd⟩

theorem meas_abs {X : Type} [MeasurableSpace X] {c : X → ℝ} (hc : Measurable c) : Measurable fun q => |c q| := hc.norm

/-! ### edges -/

def lineF (cj : ℝ) (Lj : V3 ℝ) (lj rj b2 bj : ℝ) : V3 ℝ :=
  V3.smul (if repsilon < |cj| then Real.log ((Real.sqrt (lj * lj + bj + rj * rj) + lj + b2) / cj) else Real.log (|lj - rj| / rj)) (Lj.sdiv lj)

theorem lineF_eq {cj : ℝ} {Lj : V3 ℝ} {lj : ℝ} {Rj : V3 ℝ} {rj b2 bj : ℝ} {gr : Bool} {v : V3 ℝ × Option (M3 ℝ)}
    (h : lineIntegralAlongEdge cj Lj lj Rj rj b2 bj gr = .ok v) : v.1 = lineF cj Lj lj rj b2 bj := by
  unfold lineIntegralAlongEdge at h
  unfold lineF
  simp only [bind, Except.bind, pure, Except.pure, numbaDiv_real] at h
  split at h
  · next hc =>
    rw [r_lt] at hc
    simp only [r_eps, r_abs] at hc
    rw [if_pos hc]
    split at h
    · cases h
    · next ht =>
      split at ht
      · cases ht
      · cases ht
        split at h <;> cases h <;> rfl
  · next hc =>
    rw [r_lt] at hc
    simp only [r_eps, r_abs] at hc
    rw [if_neg hc]
    split at h
    · cases h
    · next ht =>
      split at ht
      · cases ht
      · cases ht
        split at h
        · split at h
          · cases h
          · cases h; rfl
        · cases h; rfl

def edgeSwap (e : Edge ℝ) (s : V3 ℝ) : Prop :=
  vlen (e.fin.sub s) < vlen (e.start.sub s) ∧ rdot (e.start.sub s) (e.fin.sub s) / (vlen (e.start.sub s) * vlen (e.fin.sub s)) = 1
def edgeNear (e : Edge ℝ) (s : V3 ℝ) : V3 ℝ := if edgeSwap e s then e.fin.sub s else e.start.sub s
def edgeR (e : Edge ℝ) (s : V3 ℝ) : ℝ := if edgeSwap e s then vlen (e.fin.sub s) else vlen (e.start.sub s)
def edgeB (e : Edge ℝ) (s : V3 ℝ) : ℝ := 2 * rdot (edgeNear e s) e.vector
def edgeFlip (e : Edge ℝ) (s : V3 ℝ) : Prop := |edgeR e s + edgeB e s / e.length / 2| < repsilon
def edgeB' (e : Edge ℝ) (s : V3 ℝ) : ℝ := if edgeFlip e s then -edgeB e s else edgeB e s

def edgeF (e : Edge ℝ) (s : V3 ℝ) : V3 ℝ :=
  V3.smul (if edgeSwap e s then -1 else 1) (lineF (edgeR e s + edgeB' e s / e.length / 2) (if edgeFlip e s then e.vector.neg else e.vector) e.length (edgeR e s)
    (edgeB' e s / e.length / 2) (edgeB' e s))

theorem edgeF_eq {e : Edge ℝ} {s : V3 ℝ} {gr : Bool} {v : V3 ℝ × Option (M3 ℝ)} (h : edgeIntegral e s gr = .ok v) : v.1 = edgeF e s := by
  unfold edgeIntegral at h
  simp only [bind, Except.bind, pure, Except.pure] at h
  split at h
  · cases h
  · next w hw =>
    cases h
    have := lineF_eq hw
    dsimp only at this ⊢
    rw [this]
    have hsw : ((Arith.norm (e.fin.sub s) <. Arith.norm (e.start.sub s)) &&
        ((Arith.dot (e.start.sub s) (e.fin.sub s) /. (Arith.norm (e.start.sub s) *. Arith.norm (e.fin.sub s))) ==. Arith.one)) = true ↔ edgeSwap e s := by
      rw [Bool.and_eq_true, r_lt, r_eq]; rfl
    unfold edgeF
    simp only [hsw]
    have hR : (if edgeSwap e s then e.fin.sub s else e.start.sub s) = edgeNear e s := rfl
    have hr : (if edgeSwap e s then Arith.norm (e.fin.sub s) else Arith.norm (e.start.sub s)) = edgeR e s := rfl
    simp only [hR, hr]
    have hfl : (Arith.abs (edgeR e s +. Arith.two *. Arith.dot (edgeNear e s) e.vector /. e.length /. Arith.two) <. Arith.eps) = true ↔ edgeFlip e s := by
      rw [r_lt]; rfl
    simp only [hfl]
    have hb : (if edgeFlip e s then Arith.neg (Arith.two *. Arith.dot (edgeNear e s) e.vector) else Arith.two *. Arith.dot (edgeNear e s) e.vector) = edgeB' e s := rfl
    simp only [hb]
    have hb2 : (if edgeFlip e s then edgeB' e s /. e.length /. Arith.two else Arith.two *. Arith.dot (edgeNear e s) e.vector /. e.length /. Arith.two) =
        edgeB' e s / e.length / 2 := by
      by_cases hf : edgeFlip e s
      · rw [if_pos hf]; rfl
      · rw [if_neg hf]; unfold edgeB'; rw [if_neg hf]; rfl
    simp only [hb2]
    congr 1

theorem edgeF_meas (e : Edge ℝ) : MV fun q => edgeF e (P3.toV q) := by
  have h1 : MV fun q => e.start.sub (P3.toV q) := (MV.const _).sub MV.toV
  have h2 : MV fun q => e.fin.sub (P3.toV q) := (MV.const _).sub MV.toV
  have hs : MeasurableSet {q | edgeSwap e (P3.toV q)} :=
    (measurableSet_lt h2.vlen h1.vlen).inter (measurableSet_eq_fun ((h1.dot h2).div (h1.vlen.mul h2.vlen)) measurable_const)
  have hN : MV fun q => edgeNear e (P3.toV q) := MV.ite hs h2 h1
  have hr : Measurable fun q => edgeR e (P3.toV q) := Measurable.ite hs h2.vlen h1.vlen
  have hB : Measurable fun q => edgeB e (P3.toV q) := measurable_const.mul (hN.dot (MV.const _))
  have hf : MeasurableSet {q | edgeFlip e (P3.toV q)} :=
    measurableSet_lt (meas_abs (hr.add ((hB.div measurable_const).div measurable_const))) measurable_const
  have hB' : Measurable fun q => edgeB' e (P3.toV q) := Measurable.ite hf hB.neg hB
  have hb2 : Measurable fun q => edgeB' e (P3.toV q) / e.length / 2 := (hB'.div measurable_const).div measurable_const
  have hc : Measurable fun q => edgeR e (P3.toV q) + edgeB' e (P3.toV q) / e.length / 2 := hr.add hb2
  refine MV.smul (Measurable.ite hs measurable_const measurable_const) (MV.smul (Measurable.ite (measurableSet_lt measurable_const (meas_abs hc)) ?_ ?_)
    ((MV.ite hf (MV.const _) (MV.const _)).sdiv measurable_const))
  · exact (((((measurable_const.add hB').add (hr.mul hr)).sqrt.add measurable_const).add hb2).div hc).log
  · exact ((meas_abs (measurable_const.sub hr)).div hr).log

theorem edgeValue_meas (p : Poly ℝ) (gr : Bool) (i : Nat) (e : Edge ℝ) :
    ∃ F : P3 → V3 ℝ, MV F ∧ ∀ q v, edgeValue p (P3.toV q) gr i e = .ok v → v.1 = F q := by
  unfold edgeValue
  cases e.twin with
  | none => exact ⟨fun _ => V3.zeros, MV.const _, fun q v h => by cases h⟩
  | some ij =>
    obtain ⟨i', j'⟩ := ij
    dsimp only
    split
    · cases he : p.edgeAt i' j' with
      | none => exact ⟨fun _ => V3.zeros, MV.const _, fun q v h => by cases h⟩
      | some e' =>
        refine ⟨fun q => (edgeF e' (P3.toV q)).neg, (edgeF_meas e').neg, fun q v h => ?_⟩
        dsimp only at h
        cases hv : edgeIntegral e' (P3.toV q) gr with
        | error x => rw [hv] at h; cases h
        | ok w =>
          rw [hv] at h
          cases h
          dsimp only
          rw [← edgeF_eq hv]
          rfl
    · exact ⟨_, edgeF_meas e, fun q v h => edgeF_eq h⟩

theorem V3.add_assoc' (a b c : V3 ℝ) : (a.add b).add c = a.add (b.add c) := by
  refine V3.ext' ?_ ?_ ?_ <;> simp only [add_x, add_y, add_z] <;> ring

theorem edgesValue_meas (p : Poly ℝ) (gr : Bool) (i : Nat) (es : List (Edge ℝ)) :
    ∃ F : P3 → V3 ℝ, MV F ∧ ∀ q vs, edgesValue p (P3.toV q) gr i es = .ok vs → ∀ a, sumPqr vs a = a.add (F q) := by
  induction es with
  | nil =>
    refine ⟨fun _ => V3.zeros, MV.const _, fun q vs h a => ?_⟩
    cases h
    refine V3.ext' ?_ ?_ ?_ <;> simp [sumPqr, V3.add, V3.zeros]
  | cons e es ih =>
    obtain ⟨F, hF, h1⟩ := edgeValue_meas p gr i e
    obtain ⟨F', hF', h2⟩ := ih
    refine ⟨fun q => (F q).add (F' q), hF.add hF', fun q vs h a => ?_⟩
    simp only [edgesValue] at h
    split at h
    · cases h
    · next v hv =>
      split at h
      · cases h
      · next vs' hvs =>
        cases h
        rw [sumPqr, h2 q _ hvs, h1 q _ hv, V3.add_assoc']

/-! ### faces -/

/-- the point of a triangle with given parameters -/
def triPoint (a b c : V3 ℝ) (w : ℝ × ℝ) : V3 ℝ := (a.add (V3.smul w.1 (b.sub a))).add (V3.smul w.2 (c.sub a))

theorem triPoint_meas (a b c : V3 ℝ) : MV (triPoint a b c) :=
  ((MV.const _).add (MV.smul measurable_fst (MV.const _))).add (MV.smul measurable_snd (MV.const _))

theorem solidAngle_meas (n a b c : V3 ℝ) : Measurable fun q => solidAngle n a b c (P3.toV q) := by
  unfold solidAngle surfaceIntegral
  refine measurable_const.mul ?_
  have hd : MV fun z : P3 × (ℝ × ℝ) => (triPoint a b c z.2).sub (P3.toV z.1) := ((triPoint_meas a b c).comp measurable_snd).sub (MV.toV.comp measurable_fst)
  have h : Measurable fun z : P3 × (ℝ × ℝ) => rdot n ((triPoint a b c z.2).sub (P3.toV z.1)) / vlen ((triPoint a b c z.2).sub (P3.toV z.1)) ^ 3 :=
    ((MV.const n).dot hd).div (hd.vlen.pow_const 3)
  exact (h.stronglyMeasurable.integral_prod_right' (ν := volume.restrict triParam)).measurable

theorem height_meas (f : Face ℝ) : Measurable fun q => f.height (P3.toV q) := (MV.const f.un).dot ((MV.const _).sub MV.toV)

theorem omegaValue_meas {f : Face ℝ} {a b c : V3 ℝ} (hf : f.points = [a, b, c]) (hn : IsNormal f.un a b c) (gr : Bool) :
    ∃ W : P3 → ℝ, Measurable W ∧ ∀ q w, omegaValue f (P3.toV q) gr = .ok w → w.1 = W q := by
  refine ⟨fun q => if repsilon < |rdot f.un (a.sub (P3.toV q))| then -solidAngle f.un a b c (P3.toV q) else 0, ?_, ?_⟩
  · exact Measurable.ite (measurableSet_lt measurable_const (meas_abs ((MV.const _).dot ((MV.const _).sub MV.toV)))) (solidAngle_meas _ _ _ _).neg measurable_const
  · intro q w h
    dsimp only
    split
    · next hh =>
      rw [omegaValue_solidAngle hf hn hh] at h
      cases h
      rfl
    · next hh =>
      have hht : f.height (P3.toV q) = rdot f.un (a.sub (P3.toV q)) := by unfold Face.height; rw [hf]; rfl
      unfold omegaValue at h
      rw [if_neg (by rw [r_lt, hht]; exact hh)] at h
      cases h
      rfl

theorem faceValue_meas (p : Poly ℝ) {f : Face ℝ} {a b c : V3 ℝ} (hf : f.points = [a, b, c]) (hn : IsNormal f.un a b c) (ρ Gc : ℝ) (gr : Bool) (i : Nat) :
    ∃ F : P3 → V3 ℝ, MV F ∧ ∀ q v, faceValue p (P3.toV q) ρ Gc gr i f = .ok v → v.1 = F q := by
  obtain ⟨W, hW, h1⟩ := omegaValue_meas hf hn gr
  obtain ⟨E, hE, h2⟩ := edgesValue_meas p gr i f.edges
  refine ⟨fun q => V3.smul (f.height (P3.toV q) * (-ρ * Gc * 100000)) ((V3.smul (W q) f.un).sub (cross f.un (E q))),
    MV.smul ((height_meas f).mul measurable_const) ((MV.smul hW (MV.const _)).sub ((MV.const _).cross hE)), fun q v h => ?_⟩
  unfold faceValue at h
  split at h
  · cases h
  · next w hw =>
    split at h
    · cases h
    · next vs hvs =>
      cases vs with
      | nil => cases h
      | cons v' vs =>
        cases h
        have h3 := h2 q _ hvs V3.zeros
        have h4 : sumPqr vs v'.1 = E q := by
          have e0 : ∀ x : V3 ℝ, V3.zeros.add x = x := by
            intro x; refine V3.ext' ?_ ?_ ?_ <;> simp [V3.add, V3.zeros]
          rw [sumPqr, e0, e0] at h3
          exact h3
        rw [Motion.faceField_fst, h4, h1 q _ hw]

theorem facesValue_meas (p : Poly ℝ) (ρ Gc : ℝ) (gr : Bool) (fs : List (Face ℝ)) (hfs : ∀ f ∈ fs, ∃ a b c, f.points = [a, b, c] ∧ IsNormal f.un a b c) :
    ∀ i, ∃ F : P3 → V3 ℝ, MV F ∧ ∀ q G T v, facesValue p (P3.toV q) ρ Gc gr i fs G T = .ok v → v.1 = G.add (F q) := by
  induction fs with
  | nil =>
    refine fun i => ⟨fun _ => V3.zeros, MV.const _, fun q G T v h => ?_⟩
    cases h
    refine V3.ext' ?_ ?_ ?_ <;> simp [V3.add, V3.zeros]
  | cons f fs ih =>
    intro i
    obtain ⟨a, b, c, hf, hn⟩ := hfs f (by simp)
    obtain ⟨F, hF, h1⟩ := faceValue_meas p hf hn ρ Gc gr i
    obtain ⟨F', hF', h2⟩ := ih (fun f hf => hfs f (by simp [hf])) (i + 1)
    refine ⟨fun q => (F q).add (F' q), hF.add hF', fun q G T v h => ?_⟩
    simp only [facesValue] at h
    split at h
    · cases h
    · next g t hg =>
      dsimp only
      rw [h2 q _ _ _ h, ← h1 q _ hg, V3.add_assoc']

/-- **the gravity that is returned is a measurable function of the station** -/
theorem answer_measurable {h : Hull ℝ} (hh : h.IsHull) {inHull : V3 ℝ → Bool} {p : Poly ℝ} (hp : mkPoly h inHull = .ok p) (ρ Gc : ℝ) (gr : Bool) :
    ∃ F : P3 → V3 ℝ, MV F ∧ ∀ q v, Call.onNew p ⟨P3.toV q, ρ, Gc, gr⟩ = .ok v → v.1 = F q := by
  obtain ⟨F, hF, h1⟩ := facesValue_meas p ρ Gc gr p.faces (fun f hf => by
    obtain ⟨k, hk⟩ := List.getElem?_of_mem hf
    obtain ⟨t, -, h2, -, h3, -⟩ := face_facts hh hp hk
    exact ⟨_, _, _, h2, h3⟩) 0
  refine ⟨F, hF, fun q v hv => ?_⟩
  rw [onNew_closed (wellTwinned_of_hull hh hp)] at hv
  rw [h1 q _ _ _ hv]
  refine V3.ext' ?_ ?_ ?_ <;> simp [V3.add, V3.zeros]

end
end Geec

import Verif.Props.WholeGrid

/-! C128: what is read of any grid whose axes are said by numbers. -/

namespace Geec
open Arith
noncomputable section

/-- An axis said by start, end and step; a missing start is 0, a missing step is 1. -/
def AxisIs (l : List (Val ℝ)) (a b s : ℝ) : Prop :=
  ∃ u v w, l = [u, v, w] ∧ ((∃ i, u = .num i a) ∨ u = .null ∧ a = 0) ∧ (∃ i, v = .num i b) ∧ ((∃ i, w = .num i s) ∨ w = .null ∧ s = 1)

/-- `n` values of the axis come before its end: exactly the first `n`, whatever the direction. -/
def ComeBefore (a b s : ℝ) (n : ℕ) : Prop := ∀ k : ℕ, k < n ↔ 0 < s ∧ a + k * s < b ∨ s < 0 ∧ b < a + k * s

/-- The end is a whole step or more behind the start. -/
def EndsBehind (a b s : ℝ) : Prop := 0 < s ∧ b ≤ a - s ∨ s < 0 ∧ a - s ≤ b

theorem AxisIs.nums {l : List (Val ℝ)} {a b s : ℝ} (h : AxisIs l a b s) : ∃ i, axisNums l = .ok (a, b, s, i) := by
  obtain ⟨u, v, w, rfl, ⟨i, rfl⟩ | ⟨rfl, rfl⟩, ⟨j, rfl⟩, ⟨k, rfl⟩ | ⟨rfl, rfl⟩⟩ := h <;> exact ⟨_, rfl⟩

theorem AxisIs.three {l : List (Val ℝ)} {a b s : ℝ} (h : AxisIs l a b s) {w : View ℝ} (hw : w.first = .ok (.list l)) : axis3 w = .ok l := by
  obtain ⟨u, v, x, rfl, -⟩ := h
  simp [axis3, View.getList, hw, Bind.bind, Except.bind, Pure.pure, Except.pure]

theorem stepOk_zero : stepOk (0 : ℝ) = .error .zeroDivisionError := by simp [stepOk, Arith.eq, Arith.zero]

theorem stepOk_ne {s : ℝ} (h : s ≠ 0) : stepOk s = .ok () := by simp [stepOk, Arith.eq, Arith.zero, h]

theorem endsBehind_iff {a b s : ℝ} (h : s ≠ 0) : EndsBehind a b s ↔ ⌈(b - a) / s⌉ < 0 := by
  have e : ⌈(b - a) / s⌉ < 0 ↔ (b - a) / s ≤ -1 := by
    rw [show ⌈(b - a) / s⌉ < 0 ↔ ⌈(b - a) / s⌉ ≤ -1 by omega, Int.ceil_le]; push_cast; rfl
  rw [e]
  rcases lt_or_gt_of_ne h with h | h
  · rw [div_le_iff_of_neg h]
    constructor
    · rintro (⟨h1, -⟩ | ⟨-, h2⟩) <;> linarith
    · intro h1; exact .inr ⟨h, by linarith⟩
  · rw [div_le_iff₀ h]
    constructor
    · rintro (⟨-, h2⟩ | ⟨h1, -⟩) <;> linarith
    · intro h1; exact .inl ⟨h, by linarith⟩

theorem count_behind {a b s : ℝ} (h : s ≠ 0) (hb : EndsBehind a b s) : axisCount Int.ceil a b s = .error .valueError := by
  have := (endsBehind_iff h).mp hb
  simp [axisCount, Arith.eq, Arith.zero, Arith.sub, Arith.div, h, this]

theorem count_before {a b s : ℝ} (h : s ≠ 0) (hb : ¬ EndsBehind a b s) : ∃ n, axisCount Int.ceil a b s = .ok n ∧ ComeBefore a b s n := by
  rw [endsBehind_iff h] at hb
  refine ⟨⌈(b - a) / s⌉.toNat, by simp [axisCount, Arith.eq, Arith.zero, Arith.sub, Arith.div, h, hb], fun k => ?_⟩
  rw [Int.lt_toNat, Int.lt_ceil, Int.cast_natCast]
  rcases lt_or_gt_of_ne h with h | h
  · rw [lt_div_iff_of_neg h]
    constructor
    · intro h1; exact .inr ⟨h, by linarith⟩
    · rintro (⟨h1, -⟩ | ⟨-, h2⟩) <;> linarith
  · rw [lt_div_iff₀ h]
    constructor
    · intro h1; exact .inl ⟨h, by linarith⟩
    · rintro (⟨-, h2⟩ | ⟨h1, -⟩) <;> linarith

section
variable {o : Outside ℝ} {w : View ℝ} {lx ly lz : List (Val ℝ)} {xa xb xs ya yb ys za zb zs : ℝ}

/-- The three axes of the grid. -/
structure GridIs (w : View ℝ) (xa xb xs ya yb ys za zb zs : ℝ) : Prop where
  x : ∃ l, (w.at "xstart_xend_xstep").first = .ok (.list l) ∧ AxisIs l xa xb xs
  y : ∃ l, (w.at "ystart_yend_ystep").first = .ok (.list l) ∧ AxisIs l ya yb ys
  z : ∃ l, (w.at "zstart_zend_zstep").first = .ok (.list l) ∧ AxisIs l za zb zs

/-- **C128** A step of 0 on any axis: `ZeroDivisionError`, whatever the other axes are. -/
theorem C128_zero_step (o : Outside ℝ) (h : GridIs w xa xb xs ya yb ys za zb zs) (h0 : xs = 0 ∨ ys = 0 ∨ zs = 0) :
    readGrid o w = .error .zeroDivisionError := by
  obtain ⟨⟨lx, hx, ax⟩, ⟨ly, hy, ay⟩, ⟨lz, hz, az⟩⟩ := h
  obtain ⟨i, ex⟩ := ax.nums
  obtain ⟨j, ey⟩ := ay.nums
  obtain ⟨k, ez⟩ := az.nums
  simp only [readGrid, ax.three hx, ay.three hy, az.three hz, ex, ey, ez, Bind.bind, Except.bind]
  by_cases h1 : xs = 0
  · subst h1; simp only [stepOk_zero]
  by_cases h2 : ys = 0
  · subst h2; simp only [stepOk_ne h1, stepOk_zero]
  obtain rfl : zs = 0 := by tauto
  simp only [stepOk_ne h1, stepOk_ne h2, stepOk_zero]

/-- **C128** No step is 0 and some axis ends a whole step or more behind its start: `ValueError`. -/
theorem C128_behind (o : Outside ℝ) (ho : o.ceil = Int.ceil) (h : GridIs w xa xb xs ya yb ys za zb zs) (h1 : xs ≠ 0) (h2 : ys ≠ 0) (h3 : zs ≠ 0)
    (hb : EndsBehind xa xb xs ∨ EndsBehind ya yb ys ∨ EndsBehind za zb zs) : readGrid o w = .error .valueError := by
  obtain ⟨⟨lx, hx, ax⟩, ⟨ly, hy, ay⟩, ⟨lz, hz, az⟩⟩ := h
  obtain ⟨i, ex⟩ := ax.nums
  obtain ⟨j, ey⟩ := ay.nums
  obtain ⟨k, ez⟩ := az.nums
  simp only [readGrid, ax.three hx, ay.three hy, az.three hz, ex, ey, ez, Bind.bind, Except.bind, stepOk_ne h1, stepOk_ne h2, stepOk_ne h3, ho]
  by_cases b1 : EndsBehind xa xb xs
  · simp only [count_behind h1 b1]
  obtain ⟨nx, e1, -⟩ := count_before h1 b1
  by_cases b2 : EndsBehind ya yb ys
  · simp only [e1, count_behind h2 b2]
  obtain ⟨ny, e2, -⟩ := count_before h2 b2
  have b3 := (hb.resolve_left b1).resolve_left b2
  simp only [e1, e2, count_behind h3 b3]

/-- **C128** Otherwise the grid is read: on each axis the values that come before its end, upwards or downwards, perhaps none, the last coordinate changing first. -/
theorem C128_points (o : Outside ℝ) (ho : o.ceil = Int.ceil) (h : GridIs w xa xb xs ya yb ys za zb zs) (h1 : xs ≠ 0) (h2 : ys ≠ 0) (h3 : zs ≠ 0)
    (b1 : ¬ EndsBehind xa xb xs) (b2 : ¬ EndsBehind ya yb ys) (b3 : ¬ EndsBehind za zb zs) :
    ∃ c nx ny nz, readGrid o w = .ok c ∧ ComeBefore xa xb xs nx ∧ ComeBefore ya yb ys ny ∧ ComeBefore za zb zs nz ∧
      c.rows = (steps xa xs nx).flatMap fun x => (steps ya ys ny).flatMap fun y => (steps za zs nz).map fun z => ⟨x, y, z⟩ := by
  obtain ⟨⟨lx, hx, ax⟩, ⟨ly, hy, ay⟩, ⟨lz, hz, az⟩⟩ := h
  obtain ⟨i, ex⟩ := ax.nums
  obtain ⟨j, ey⟩ := ay.nums
  obtain ⟨k, ez⟩ := az.nums
  obtain ⟨nx, e1, k1⟩ := count_before h1 b1
  obtain ⟨ny, e2, k2⟩ := count_before h2 b2
  obtain ⟨nz, e3, k3⟩ := count_before h3 b3
  refine ⟨⟨gridPoints (axisValues xa xs nx) (axisValues ya ys ny) (axisValues za zs nz), i && j && k⟩, nx, ny, nz, ?_, k1, k2, k3, ?_⟩
  · simp only [readGrid, ax.three hx, ay.three hy, az.three hz, ex, ey, ez, Bind.bind, Except.bind, stepOk_ne h1, stepOk_ne h2, stepOk_ne h3, ho, e1, e2, e3]
    rfl
  · rw [← steps_eq, ← steps_eq, ← steps_eq]; rfl

/-- **C128** A grid is read without exception exactly if no step is 0 and no axis ends a whole step or more behind its start. -/
theorem C128_exact (o : Outside ℝ) (ho : o.ceil = Int.ceil) (h : GridIs w xa xb xs ya yb ys za zb zs) :
    (∃ c, readGrid o w = .ok c) ↔ xs ≠ 0 ∧ ys ≠ 0 ∧ zs ≠ 0 ∧ ¬ EndsBehind xa xb xs ∧ ¬ EndsBehind ya yb ys ∧ ¬ EndsBehind za zb zs := by
  constructor
  · rintro ⟨c, hc⟩
    have h0 : ¬ (xs = 0 ∨ ys = 0 ∨ zs = 0) := fun h0 => by rw [C128_zero_step o h h0] at hc; cases hc
    have hb : ¬ (EndsBehind xa xb xs ∨ EndsBehind ya yb ys ∨ EndsBehind za zb zs) := fun hb => by
      rw [C128_behind o ho h (by tauto) (by tauto) (by tauto) hb] at hc; cases hc
    tauto
  · rintro ⟨h1, h2, h3, b1, b2, b3⟩
    obtain ⟨c, -, -, -, hc, -⟩ := C128_points o ho h h1 h2 h3 b1 b2 b3
    exact ⟨c, hc⟩
end

/-- The axis has no value: its end is not ahead of its start. -/
def NoValue (a b s : ℝ) : Prop := 0 < s ∧ b ≤ a ∨ s < 0 ∧ a ≤ b

theorem steps_none {a b s : ℝ} {n : ℕ} (h : ComeBefore a b s n) (hn : NoValue a b s) : steps a s n = [] := by
  have : n = 0 := by
    by_contra h0
    rcases (h 0).mp (by omega) with ⟨h1, h2⟩ | ⟨h1, h2⟩ <;> rcases hn with ⟨h3, h4⟩ | ⟨h3, h4⟩ <;> push_cast at h2 <;> linarith
  subst this; rfl

theorem massesMap_same {f : Dataset ℝ → Except PyErr Unit × Dataset ℝ} {ms : List (Mass ℝ)} (h : ∀ m ∈ ms, f m.dataset = (.ok (), m.dataset)) : massesMap f ms = .ok ms := by
  refine mapM_ok.mpr (List.forall₂_same.mpr fun m hm => ?_)
  rw [h m hm]

/-- the bodies are read, the observation points decide -/
theorem runTable_observer {g : Geodesy ℝ} {o : Outside ℝ} {lib : HullLib ℝ} (hlib : lib.Honest) {cfg : View ℝ} (gr : Bool)
    (hshow : configShow cfg = .ok ()) {ms : List (Mass ℝ)} (hms : getMasses g o cfg = .ok ms) (hne : ms ≠ [])
    (hcm : ∀ m ∈ ms, m.dataset.crs.name = .CART) (hhull : ∀ m ∈ ms, ∃ h, lib.convexHull m.dataset.coords.rows = .ok h) :
    (∀ err, getObserver g o cfg = .error err → runTable g o lib cfg gr = .error err) ∧
    (∀ ob, getObserver g o cfg = .ok ob → ob.dataset.crs.name = .CART → ob.dataset.coords.rows = [] → runTable g o lib cfg gr = .error .valueError) := by
  obtain ⟨ps, hps⟩ := polys_exist hlib ms hhull
  have e1 : massesMap (fun d => (.ok (), d.toLon180)) ms = .ok ms := massesMap_same fun m hm => by simp [Dataset.toLon180, hcm m hm]
  have e2 : massesMap (Dataset.toEllipsoidHeight g) ms = .ok ms := massesMap_same fun m hm => by
    simp [Dataset.toEllipsoidHeight, hcm m hm, Dataset.apply, crsId]
  have e3 : massesMap (Dataset.toEcef g) ms = .ok ms := massesMap_same fun m hm => by simp [Dataset.toEcef, hcm m hm, Dataset.apply, crsId]
  have e4 : ms.mapM (fun m => polyhedronOf lib m.dataset.coords.rows) = .ok ps := mapM_ok.mpr hps
  obtain ⟨first, e5⟩ : ∃ first, firstMass ms = .ok first := by
    rcases ms with _ | ⟨m, ms⟩
    · exact absurd rfl hne
    · exact ⟨m, rfl⟩
  constructor
  · intro err he
    simp only [runTable, hshow, hms, e1, e2, e3, e4, e5, he, Bind.bind, Except.bind]
  · intro ob he hc hr
    have e6 : outcome (Dataset.toWgs84 g ob.dataset) = .ok ob.dataset := by simp [Dataset.toWgs84, hc, Dataset.apply, crsId, outcome]
    simp only [runTable, hshow, hms, e1, e2, e3, e4, e5, he, e6, hr, Bind.bind, Except.bind, List.isEmpty_nil, if_true]

/-- **C128** A run with Cartesian bodies and a Cartesian grid: a step of 0 on any axis is a `ZeroDivisionError`; if no step is 0 and some axis has no value, because its end is at
its start or behind it, the run raises `ValueError`.  In neither case is there a table. -/
theorem C128_run (g : Geodesy ℝ) (o : Outside ℝ) (ho : o.ceil = Int.ceil) (lib : HullLib ℝ) (hlib : lib.Honest) (cfg : View ℝ) (gr : Bool)
    (hshow : configShow cfg = .ok ()) (ms : List (Mass ℝ)) (hms : getMasses g o cfg = .ok ms) (hne : ms ≠ [])
    (hcm : ∀ m ∈ ms, m.dataset.crs.name = .CART) (hhull : ∀ m ∈ ms, ∃ h, lib.convexHull m.dataset.coords.rows = .ok h)
    (hp : ((cfg.at "observers").at "points").first = .ok .null) (hf : ((cfg.at "observers").at "file_path").first = .ok .null)
    (hg : ∃ k v items, ((cfg.at "observers").at "grid").first = .ok (.dict ((k, v) :: items))) (hr : readRef ((cfg.at "observers").at "crs") = .ok .CART)
    {xa xb xs ya yb ys za zb zs : ℝ} (h : GridIs ((cfg.at "observers").at "grid") xa xb xs ya yb ys za zb zs) :
    (xs = 0 ∨ ys = 0 ∨ zs = 0 → runTable g o lib cfg gr = .error .zeroDivisionError) ∧
    (xs ≠ 0 → ys ≠ 0 → zs ≠ 0 → NoValue xa xb xs ∨ NoValue ya yb ys ∨ NoValue za zb zs → runTable g o lib cfg gr = .error .valueError) := by
  obtain ⟨k1, k2⟩ := runTable_observer hlib gr hshow hms hne hcm hhull
  obtain ⟨k, v, items, hg⟩ := hg
  have hc : readCoords o (cfg.at "observers") = readGrid o ((cfg.at "observers").at "grid") := by
    simp only [readCoords, View.truthy, hp, hf, hg, Bind.bind, Except.bind, Pure.pure, Except.pure, Val.truthy, Bool.false_eq_true, if_false,
      List.isEmpty_cons, Bool.not_false, if_true]
  constructor
  · intro h0
    apply k1
    simp only [getObserver, getDataset, hc, C128_zero_step o h h0, Bind.bind, Except.bind]
  · intro h1 h2 h3 hn
    by_cases hb : EndsBehind xa xb xs ∨ EndsBehind ya yb ys ∨ EndsBehind za zb zs
    · apply k1
      simp only [getObserver, getDataset, hc, C128_behind o ho h h1 h2 h3 hb, Bind.bind, Except.bind]
    · simp only [not_or] at hb
      obtain ⟨c, nx, ny, nz, e, c1, c2, c3, hrows⟩ := C128_points o ho h h1 h2 h3 hb.1 hb.2.1 hb.2.2
      have hob : getObserver g o cfg = .ok (mkObserver ⟨c, ⟨.CART, none, none, .ELLPS⟩⟩) := by
        simp only [getObserver, getDataset, hc, e, getCrs_of_ref hr (.inl rfl) g realArith, Bind.bind, Except.bind, Pure.pure, Except.pure]
      refine k2 _ hob rfl ?_
      show c.rows = []
      rw [hrows]
      rcases hn with hn | hn | hn
      · rw [steps_none c1 hn]; rfl
      · simp [steps_none c2 hn]
      · simp [steps_none c3 hn]

/-- a grid going down on the first axis, with no start and no step on the second -/
def downGrid (c : ℝ) : View ℝ := View.root [.dict [("xstart_xend_xstep", .list [.num true 10, .num true 0, .num true (-5)]),
  ("ystart_yend_ystep", .list [.null, .num true 2, .null]), ("zstart_zend_zstep", .list [.num true 0, .num true 3, .num false c])]]

theorem downGrid_is (c : ℝ) : GridIs (downGrid c) 10 0 (-5) 0 2 1 0 3 c := by
  refine ⟨⟨[.num true 10, .num true 0, .num true (-5)], ?_, _, _, _, rfl, .inl ⟨_, rfl⟩, ⟨_, rfl⟩, .inl ⟨_, rfl⟩⟩,
    ⟨[.null, .num true 2, .null], ?_, _, _, _, rfl, .inr ⟨rfl, rfl⟩, ⟨_, rfl⟩, .inr ⟨rfl, rfl⟩⟩,
    ⟨[.num true 0, .num true 3, .num false c], ?_, _, _, _, rfl, .inl ⟨_, rfl⟩, ⟨_, rfl⟩, .inl ⟨_, rfl⟩⟩⟩ <;>
  simp [downGrid, View.root, View.at, View.sub, resolveKey, Val.sub, assoc, View.first]

/-- upwards, downwards and by default: the grid is read; with a last step of 0 or -1 it is not -/
example (o : Outside ℝ) (ho : o.ceil = Int.ceil) : (∃ c, readGrid o (downGrid 1.5) = .ok c) ∧ readGrid o (downGrid 0) = .error .zeroDivisionError ∧
    readGrid o (downGrid (-1)) = .error .valueError := by
  refine ⟨(C128_exact o ho (downGrid_is _)).mpr ?_, C128_zero_step o (downGrid_is _) (by simp), C128_behind o ho (downGrid_is _) ?_ ?_ ?_ ?_⟩ <;>
  norm_num [EndsBehind]

/-- C128_run: the two halves of the tetrahedron with a step of 0, and with a grid that ends where it starts, with and without gradient -/
example (gr : Bool) : runTable toyGeo noFiles fourPoints (halvesGrid ⟨2, 3, 1⟩ ⟨3, 2, 0⟩ ⟨5, 6, 1⟩) gr = .error .zeroDivisionError ∧
    runTable toyGeo noFiles fourPoints (halvesGrid ⟨2, 3, 1⟩ ⟨3, 2, -1⟩ ⟨5, 5, 1⟩) gr = .error .valueError := by
  have hhull : ∀ m ∈ halvesMasses .CART 2 2, ∃ h, fourPoints.convexHull m.dataset.coords.rows = .ok h := by
    intro m hm
    simp only [halvesMasses, List.mem_cons, List.not_mem_nil, or_false] at hm
    rcases hm with rfl | rfl
    · exact ⟨_, fourPoints_A⟩
    · exact ⟨_, fourPoints_B⟩
  have hcm : ∀ m ∈ halvesMasses .CART 2 2, m.dataset.crs.name = .CART := by
    intro m hm
    simp only [halvesMasses, List.mem_cons, List.not_mem_nil, or_false] at hm
    rcases hm with rfl | rfl <;> rfl
  have key := fun x y z => C128_run toyGeo noFiles rfl fourPoints fourPoints_honest (halvesGrid x y z) gr rfl (halvesMasses .CART 2 2)
    (halves_masses findMember_cart (.inl rfl) "cart" "ellps" 2 2) (List.cons_ne_nil _ _) hcm hhull rfl rfl ⟨_, _, _, rfl⟩ (halvesGrid_section x y z).ref
    (xa := x.start) (xb := x.stop) (xs := x.step) (ya := y.start) (yb := y.stop) (ys := y.step) (za := z.start) (zb := z.stop) (zs := z.step)
    ⟨⟨_, rfl, _, _, _, rfl, .inl ⟨_, rfl⟩, ⟨_, rfl⟩, .inl ⟨_, rfl⟩⟩, ⟨_, rfl, _, _, _, rfl, .inl ⟨_, rfl⟩, ⟨_, rfl⟩, .inl ⟨_, rfl⟩⟩,
      ⟨_, rfl, _, _, _, rfl, .inl ⟨_, rfl⟩, ⟨_, rfl⟩, .inl ⟨_, rfl⟩⟩⟩
  exact ⟨(key _ _ _).1 (by simp), (key _ _ _).2 (by norm_num) (by norm_num) (by norm_num) (.inr (.inr (.inl ⟨by norm_num, by norm_num⟩)))⟩

end
end Geec

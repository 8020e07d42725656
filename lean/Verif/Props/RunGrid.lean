import Verif.Props.RunJoint
import Verif.Props.Config
import Verif.Spec.Binary
/-
C102: grids of observation points in floating point.
-/
namespace Geec
open Filter Topology
noncomputable section

/-- start, end and step of one axis of a grid, as written in the configuration -/
structure Axis where
  start : ℝ
  stop : ℝ
  step : ℝ

/-- the number of steps from start to end, not rounded -/
def Axis.ratio (a : Axis) : ℝ := (a.stop - a.start) / a.step

/-- The number of values along the axis cannot be changed by rounding: either the end is not a whole number of steps away from the start, or all three numbers
are integers. -/
structure Axis.Sound (a : Axis) : Prop where
  step : a.step ≠ 0
  nonneg : 0 ≤ a.ratio
  sound : (∀ n : ℤ, a.ratio ≠ n) ∨ ∃ i j k : ℤ, a.start = i ∧ a.stop = j ∧ a.step = k ∧ k ∣ j - i

/-- the axis with its numbers changed -/
def Axis.map (f : ℝ → ℝ) (a : Axis) : Axis := ⟨f a.start, f a.stop, f a.step⟩

/-- a section whose coordinates are given as a grid, in Cartesian coordinates; `dt` tells whether all numbers are integers -/
structure GridSection (w : View ℝ) (x y z : Axis) (dt : Bool) : Prop where
  points : (w.at "points").first = .ok .null
  file : (w.at "file_path").first = .ok .null
  grid : ∃ k v items, (w.at "grid").first = .ok (.dict ((k, v) :: items))
  axes : ∃ i1 i2 i3 j1 j2 j3 k1 k2 k3, dt = ((i1 && i2 && i3) && (j1 && j2 && j3) && (k1 && k2 && k3)) ∧
    ((w.at "grid").at "xstart_xend_xstep").first = .ok (.list [.num i1 x.start, .num i2 x.stop, .num i3 x.step]) ∧
    ((w.at "grid").at "ystart_yend_ystep").first = .ok (.list [.num j1 y.start, .num j2 y.stop, .num j3 y.step]) ∧
    ((w.at "grid").at "zstart_zend_zstep").first = .ok (.list [.num k1 z.start, .num k2 z.stop, .num k3 z.step])
  ref : readRef (w.at "crs") = .ok .CART

theorem GridSection.map {w : View ℝ} {x y z : Axis} {dt : Bool} (h : GridSection w x y z dt) (f : ℝ → ℝ) :
    GridSection (w.mapNum f) (x.map f) (y.map f) (z.map f) dt := by
  obtain ⟨k, v, items, hg⟩ := h.grid
  obtain ⟨i1, i2, i3, j1, j2, j3, k1, k2, k3, e, hx, hy, hz⟩ := h.axes
  refine ⟨?_, ?_, ⟨k, v.mapNum f, items.map fun p => (p.1, p.2.mapNum f), ?_⟩, ⟨i1, i2, i3, j1, j2, j3, k1, k2, k3, e, ?_, ?_, ?_⟩, ?_⟩
  · rw [View.at_map, View.first_map, h.points, outcomeMap, Val.mapNum]
  · rw [View.at_map, View.first_map, h.file, outcomeMap, Val.mapNum]
  · rw [View.at_map, View.first_map, hg, outcomeMap, Val.mapNum_dict, List.map_cons]
  · simp only [View.at_map, View.first_map, hx, outcomeMap, Val.mapNum, List.map_cons, List.map_nil, Axis.map]
  · simp only [View.at_map, View.first_map, hy, outcomeMap, Val.mapNum, List.map_cons, List.map_nil, Axis.map]
  · simp only [View.at_map, View.first_map, hz, outcomeMap, Val.mapNum, List.map_cons, List.map_nil, Axis.map]
  · rw [View.at_map, readRef_map]; exact h.ref

/-- the points of the grid that are read with the arithmetic `A`, if the numbers of values along the axes are given -/
def gridWith (A : Arith ℝ) (x y z : Axis) (nx ny nz : ℕ) : List (V3 ℝ) :=
  gridPoints (@axisValues ℝ A x.start x.step nx) (@axisValues ℝ A y.start y.step ny) (@axisValues ℝ A z.start z.step nz)

theorem readCoords_grid {w : View ℝ} {x y z : Axis} {dt : Bool} (h : GridSection w x y z dt) (o : Outside ℝ) (A : Arith ℝ) {nx ny nz : ℕ}
    (hx : @axisCount ℝ A o.ceil x.start x.stop x.step = .ok nx) (hy : @axisCount ℝ A o.ceil y.start y.stop y.step = .ok ny)
    (hz : @axisCount ℝ A o.ceil z.start z.stop z.step = .ok nz) : @readCoords ℝ A o w = .ok ⟨gridWith A x y z nx ny nz, dt⟩ := by
  obtain ⟨k, v, items, hg⟩ := h.grid
  obtain ⟨i1, i2, i3, j1, j2, j3, k1, k2, k3, rfl, ax, ay, az⟩ := h.axes
  simp only [readCoords, View.truthy, h.points, h.file, hg, Bind.bind, Except.bind, Pure.pure, Except.pure, Val.truthy, Bool.false_eq_true, if_false,
    List.isEmpty_cons, Bool.not_false, if_true, readGrid, axis3, View.getList, ax, ay, az, axisNums, @stepOk_of_count ℝ A _ _ _ _ _ hx, @stepOk_of_count ℝ A _ _ _ _ _ hy,
    @stepOk_of_count ℝ A _ _ _ _ _ hz, hx, hy, hz, gridWith]

theorem getObserver_grid {cfg : View ℝ} {x y z : Axis} {dt : Bool} (h : GridSection (cfg.at "observers") x y z dt) (g : Geodesy ℝ) (o : Outside ℝ) (A : Arith ℝ) {nx ny nz : ℕ}
    (hx : @axisCount ℝ A o.ceil x.start x.stop x.step = .ok nx) (hy : @axisCount ℝ A o.ceil y.start y.stop y.step = .ok ny)
    (hz : @axisCount ℝ A o.ceil z.start z.stop z.step = .ok nz) :
    @getObserver ℝ A g o cfg = .ok ⟨⟨⟨gridWith A x y z nx ny nz, dt⟩, ⟨.CART, none, none, .ELLPS⟩⟩, ["x_mes", "y_mes", "z_mes"], ["(m)", "(m)", "(m)"]⟩ := by
  simp only [getObserver, getDataset, readCoords_grid h o A hx hy hz, getCrs_of_ref h.ref (.inl rfl) g A, Bind.bind, Except.bind, Pure.pure, Except.pure, mkObserver]

/-! ### Numbers of values -/

/-- the axis as it is read -/
def Axis.weighed (A : Setting) (a : Axis) : Axis := a.map A.weigh

theorem cont_ratio (a : Axis) (hs : a.step ≠ 0) : Cont (fun A => A.div (A.sub (A.weigh a.stop) (A.weigh a.start)) (A.weigh a.step)) :=
  cont_div (cont_sub (cont_weigh _) (cont_weigh _)) (cont_weigh _) hs

/-- **C102** The number of values along an axis in accurate arithmetic: it is that of exact arithmetic, or one more, if the end is a whole number of steps away from the start. -/
theorem count_near (a : Axis) (hs : a.step ≠ 0) (h0 : 0 ≤ a.ratio) : ∀ᶠ A : Setting in precise, ∃ n : ℕ,
    @axisCount ℝ A Int.ceil (a.weighed A).start (a.weighed A).stop (a.weighed A).step = .ok n ∧ ⌈a.ratio⌉ ≤ n ∧ (n : ℤ) ≤ ⌊a.ratio⌋ + 1 := by
  have h1 := eq_false (cont_weigh a.step) cont_zero hs
  have h2 := (cont_ratio a hs).tendsto
  have e : (ideal.div (ideal.sub (ideal.weigh a.stop) (ideal.weigh a.start)) (ideal.weigh a.step)) = a.ratio := rfl
  rw [e] at h2
  have h3 := (tendsto_order.mp h2).1 (⌈a.ratio⌉ - 1 : ℝ) (by linarith [Int.ceil_lt_add_one a.ratio])
  have h4 := (tendsto_order.mp h2).2 (⌊a.ratio⌋ + 1 : ℝ) (Int.lt_floor_add_one _)
  filter_upwards [h1, h3, h4] with A k1 k3 k4
  set r := A.div (A.sub (A.weigh a.stop) (A.weigh a.start)) (A.weigh a.step) with hr
  have c0 : 0 ≤ ⌈a.ratio⌉ := Int.ceil_nonneg h0
  have c1 : ⌈a.ratio⌉ ≤ ⌈r⌉ := by
    rw [Int.le_ceil_iff]; exact k3
  have c2 : ⌈r⌉ ≤ ⌊a.ratio⌋ + 1 := by
    rw [Int.ceil_le]; push_cast; exact k4.le
  refine ⟨⌈r⌉.toNat, ?_, ?_, ?_⟩
  · have : @axisCount ℝ A Int.ceil (a.weighed A).start (a.weighed A).stop (a.weighed A).step =
        if A.eq (A.weigh a.step) A.zero then .error .zeroDivisionError else if ⌈r⌉ < 0 then .error .valueError else .ok ⌈r⌉.toNat := rfl
    rw [this, k1, if_neg (by simp), if_neg (by omega)]
  · omega
  · omega

/-! ### Values -/

theorem axis_near (a : Axis) (n : ℕ) : ∃ C, ∀ᶠ q in fine, List.Forall₂ (fun x y => |x - y| ≤ C * q.2)
    (@axisValues ℝ q.1 (a.weighed q.1).start (a.weighed q.1).step n) (axisValues a.start a.step n) := by
  let Q : ℕ → ℝ → Setting → Prop := fun k ε A => |A.add (A.mul (A.ofNat k) (A.weigh a.step)) (A.weigh a.start) - (k * a.step + a.start)| ≤ ε
  obtain ⟨C, hC⟩ := rate_list (Q := Q) (fun hab h => le_trans h hab) (List.range n) (by
    intro k _
    obtain ⟨C, hC⟩ := (cont_add (cont_mul (cont_ofNat k) (cont_weigh a.step)) (cont_weigh a.start)).bound
    refine ⟨C, ?_⟩
    filter_upwards [hC, accuracy_pos] with q h1 h2
    rw [Real.norm_eq_abs, Real.norm_eq_abs, abs_of_pos h2] at h1
    exact h1)
  refine ⟨C, ?_⟩
  filter_upwards [hC] with q hq
  unfold axisValues
  rw [List.forall₂_map_left_iff, List.forall₂_map_right_iff, List.forall₂_same]
  exact hq

theorem gridPoints_near {ε : ℝ} {xs ys zs xs' ys' zs' : List ℝ} (hx : List.Forall₂ (fun a b => |a - b| ≤ ε) xs' xs)
    (hy : List.Forall₂ (fun a b => |a - b| ≤ ε) ys' ys) (hz : List.Forall₂ (fun a b => |a - b| ≤ ε) zs' zs) :
    List.Forall₂ (NearV ε) (gridPoints xs' ys' zs') (gridPoints xs ys zs) := by
  unfold gridPoints
  refine List.rel_flatMap hx fun x' x hx => List.rel_flatMap hy fun y' y hy => ?_
  rw [List.forall₂_map_left_iff, List.forall₂_map_right_iff]
  exact hz.imp fun z' z hz => ⟨hx, hy, hz⟩

theorem grid_near (x y z : Axis) (nx ny nz : ℕ) : ∃ C, 1 ≤ C ∧ ∀ᶠ q in fine, List.Forall₂ (NearV (C * q.2))
    (gridWith q.1 (x.weighed q.1) (y.weighed q.1) (z.weighed q.1) nx ny nz) (gridWith realArith x y z nx ny nz) := by
  obtain ⟨C1, h1⟩ := axis_near x nx
  obtain ⟨C2, h2⟩ := axis_near y ny
  obtain ⟨C3, h3⟩ := axis_near z nz
  refine ⟨max (max 1 C1) (max C2 C3), (le_max_left _ _).trans (le_max_left _ _), ?_⟩
  filter_upwards [h1, h2, h3, accuracy_pos] with q k1 k2 k3 h0
  exact gridPoints_near (k1.imp fun _ _ h => h.trans (mul_le_mul_of_nonneg_right ((le_max_right _ _).trans (le_max_left _ _)) h0.le))
    (k2.imp fun _ _ h => h.trans (mul_le_mul_of_nonneg_right ((le_max_left _ _).trans (le_max_right _ _)) h0.le))
    (k3.imp fun _ _ h => h.trans (mul_le_mul_of_nonneg_right ((le_max_right _ _).trans (le_max_right _ _)) h0.le))

theorem axisValues_nodup {a s : ℝ} (hs : s ≠ 0) (n : ℕ) : (axisValues a s n).Nodup := by
  refine List.Nodup.map ?_ List.nodup_range
  intro i j hij
  have h : (i : ℝ) * s + a = j * s + a := hij
  exact_mod_cast mul_right_cancel₀ hs (add_right_cancel h)

theorem grid_nodup {x y z : Axis} (hx : x.step ≠ 0) (hy : y.step ≠ 0) (hz : z.step ≠ 0) (nx ny nz : ℕ) : (gridWith realArith x y z nx ny nz).Nodup := by
  unfold gridWith gridPoints
  rw [List.nodup_flatMap]
  refine ⟨fun a _ => ?_, ?_⟩
  · rw [List.nodup_flatMap]
    refine ⟨fun b _ => (axisValues_nodup hz nz).map fun c d h => (V3.mk.inj h).2.2, (axisValues_nodup hy ny).imp fun hbc => ?_⟩
    rw [Function.onFun, List.disjoint_left]
    intro p h1 h2
    obtain ⟨_, _, rfl⟩ := List.mem_map.mp h1
    obtain ⟨_, _, h⟩ := List.mem_map.mp h2
    exact hbc (V3.mk.inj h).2.1.symm
  · refine (axisValues_nodup hx nx).imp fun hab => ?_
    rw [Function.onFun, List.disjoint_left]
    intro p h1 h2
    obtain ⟨_, _, h1⟩ := List.mem_flatMap.mp h1
    obtain ⟨_, _, h2⟩ := List.mem_flatMap.mp h2
    obtain ⟨_, _, rfl⟩ := List.mem_map.mp h1
    obtain ⟨_, _, h⟩ := List.mem_map.mp h2
    exact hab (V3.mk.inj h).1.symm

/-! ### The theorems -/

/-- in exact arithmetic -/
theorem count_exact (a : Axis) (hs : a.step ≠ 0) (h0 : 0 ≤ a.ratio) : axisCount Int.ceil a.start a.stop a.step = .ok ⌈a.ratio⌉.toNat := by
  have h1 : realArith.eq a.step realArith.zero = false := decide_eq_false hs
  have : axisCount Int.ceil a.start a.stop a.step =
      if realArith.eq a.step realArith.zero then .error .zeroDivisionError else if ⌈a.ratio⌉ < 0 then .error .valueError else .ok ⌈a.ratio⌉.toNat := rfl
  rw [this, h1, if_neg (by simp), if_neg (not_lt.mpr (Int.ceil_nonneg h0))]

/-- along a sound axis the number of values is not changed by rounding, if integers are not rounded -/
theorem count_rounded {a : Axis} (ha : a.Sound) : ∃ K, 0 < K ∧ ∀ (rnd : ℝ → ℝ) (δ : ℝ), 0 < δ → δ ≤ 1 / K → (∀ x, |x| ≤ K → |rnd x - x| ≤ δ * max 1 |x|) →
    (∀ n : ℤ, |(n : ℝ)| ≤ K → rnd n = n) →
    @axisCount ℝ (roundArith rnd) Int.ceil (rnd a.start) (rnd a.stop) (rnd a.step) = .ok ⌈a.ratio⌉.toNat := by
  rcases ha.sound with h | ⟨i, j, k, hi, hj, hk, m, hm⟩
  · have hf : ⌊a.ratio⌋ + 1 = ⌈a.ratio⌉ := by
      have h1 : (⌊a.ratio⌋ : ℝ) < a.ratio := lt_of_le_of_ne (Int.floor_le _) (h _).symm
      symm
      rw [Int.ceil_eq_iff]
      push_cast
      exact ⟨by linarith, (Int.lt_floor_add_one _).le⟩
    have key := count_near a ha.step ha.nonneg
    rw [hf] at key
    let Q : ℝ → Setting → Prop := fun _ A => @axisCount ℝ A Int.ceil (a.weighed A).start (a.weighed A).stop (a.weighed A).step = .ok ⌈a.ratio⌉.toNat
    have mono : ∀ {x y : ℝ} {A}, x ≤ y → Q x A → Q y A := fun _ h => h
    obtain ⟨K, hK, k⟩ := one_roundoff_joint (Q := Q) mono (one_constant (Q := Q) mono ⟨0, by
      filter_upwards [eventually_fst.mpr key] with q hq
      obtain ⟨n, h1, h2, h3⟩ := hq
      show @axisCount ℝ q.1 _ _ _ _ = _
      rw [h1]
      congr 1
      omega⟩)
    exact ⟨K, hK, fun rnd δ h1 h2 h3 _ => k rnd δ h1 h2 h3⟩
  · have hk0 : (k : ℝ) ≠ 0 := hk ▸ ha.step
    have hr : a.ratio = m := by
      rw [Axis.ratio, hi, hj, hk, div_eq_iff hk0]
      have : (j : ℝ) - i = k * m := by exact_mod_cast hm
      rw [this]; ring
    refine ⟨|(i : ℝ)| + |(j : ℝ)| + |(k : ℝ)| + |(m : ℝ)| + |((j - i : ℤ) : ℝ)| + 1, by positivity, fun rnd δ _ _ _ hint => ?_⟩
    have p1 := abs_nonneg (i : ℝ)
    have p2 := abs_nonneg (j : ℝ)
    have p3 := abs_nonneg (k : ℝ)
    have p4 := abs_nonneg (m : ℝ)
    have p5 := abs_nonneg ((j - i : ℤ) : ℝ)
    have q0 : rnd 0 = 0 := by
      have := hint 0 (by simp only [Int.cast_zero, abs_zero]; positivity)
      simpa using this
    have q1 := hint i (by linarith)
    have q2 := hint j (by linarith)
    have q3 := hint k (by linarith)
    have q4 := hint m (by linarith)
    have q5 := hint (j - i) (by linarith)
    have hdiv : rnd (rnd (rnd a.stop - rnd a.start) / rnd a.step) = m := by
      rw [hi, hj, hk, q1, q2, q3, show (j : ℝ) - i = ((j - i : ℤ) : ℝ) by push_cast; ring, q5]
      have : ((j - i : ℤ) : ℝ) / k = m := by rw [div_eq_iff hk0, hm]; push_cast; ring
      rw [this, q4]
    have h1 : realArith.eq (rnd a.step) (rnd 0) = false := decide_eq_false (by rw [hk, q3, q0]; exact hk0)
    have hm0 : 0 ≤ m := by
      have := ha.nonneg
      rw [hr] at this
      exact_mod_cast this
    have : @axisCount ℝ (roundArith rnd) Int.ceil (rnd a.start) (rnd a.stop) (rnd a.step) =
        if realArith.eq (rnd a.step) (rnd 0) then .error .zeroDivisionError
        else if ⌈rnd (rnd (rnd a.stop - rnd a.start) / rnd a.step)⌉ < 0 then .error .valueError
        else .ok ⌈rnd (rnd (rnd a.stop - rnd a.start) / rnd a.step)⌉.toNat := rfl
    rw [this, h1, if_neg (by simp), hdiv, hr, Int.ceil_intCast, if_neg (by omega)]

/-- **C102** (the true part) `geec run` with a grid in floating point.  A configuration with plain bodies and a Cartesian grid of observation points gives the table
`t` in exact arithmetic, and no comparison is a tie at any point of the grid.  The axes are sound.  Then there is a constant `K` such that, with all numbers rounded
on reading and after every operation with the unit roundoff `δ ≤ 1 / K`, and integers up to `K` not changed by rounding, the run returns a table with the same
labels and the same number of lines, in the same order, and with coordinates and Gx, Gy, Gz within `K δ` of those of `t`; and all numbers, if no point of the grid is on the line of an edge. -/
theorem C102_partial (g : Geodesy ℝ) (o : Outside ℝ) (ho : o.ceil = Int.ceil) (lib : HullLib ℝ) (hlib : lib.Honest) (cfg : View ℝ) (l : List (View ℝ))
    (hcfg : PlainBodies cfg l) (x y z : Axis) (dt : Bool) (hgrid : GridSection (cfg.at "observers") x y z dt) (hx : x.Sound) (hy : y.Sound) (hz : z.Sound)
    (gr : Bool) (t : Table ℝ) (h : runTable g o lib cfg gr = .ok t) (ms : List (Mass ℝ)) (hms : getMasses g o cfg = .ok ms) (ob : Observer ℝ)
    (hob : getObserver g o cfg = .ok ob) (hd : ∀ p ∈ ob.dataset.coords.rows, DecidedPoint lib ms p) :
    ∃ K, 0 < K ∧ ∀ (rnd : ℝ → ℝ) (δ : ℝ), 0 < δ → δ ≤ 1 / K → (∀ a, |a| ≤ K → |rnd a - a| ≤ δ * max 1 |a|) → (∀ n : ℤ, |(n : ℝ)| ≤ K → rnd n = n) →
      ∀ lib' : HullLib ℝ, (∀ m ∈ ms, ∀ H, lib.convexHull m.dataset.coords.rows = .ok H →
        lib'.convexHull (m.dataset.coords.rows.map (V3.rounded rnd)) = .ok { H with points := H.points.map (V3.rounded rnd) }) →
      ∃ t', @runTable ℝ (roundArith rnd) g (o.mapNum rnd) lib' (cfg.mapNum rnd) gr = .ok t' ∧ t'.columns = t.columns ∧
      List.Forall₂ (fun row row0 => row.length = 12 ∧ row0.length = 12 ∧ List.Forall₂ (fun a b => |a - b| ≤ K * δ) (row.take 6) (row0.take 6) ∧
        ((∀ p ∈ ob.dataset.coords.rows, OffLinesPoint lib ms p) → List.Forall₂ (fun a b => |a - b| ≤ K * δ) row row0)) t'.rows t.rows := by
  set off := ∀ p ∈ ob.dataset.coords.rows, OffLinesPoint lib ms p with hoff
  set nx := ⌈x.ratio⌉.toNat
  set ny := ⌈y.ratio⌉.toNat
  set nz := ⌈z.ratio⌉.toNat
  have hob' := getObserver_grid hgrid g o realArith (by rw [ho]; exact count_exact x hx.step hx.nonneg) (by rw [ho]; exact count_exact y hy.step hy.nonneg)
    (by rw [ho]; exact count_exact z hz.step hz.nonneg)
  obtain rfl := Except.ok.inj (hob'.symm.trans hob)
  -- the run for all settings
  let Q : ℝ → Setting → Prop := fun ε A => ∀ (o' : Outside ℝ) (lib' : HullLib ℝ) (cfg' : View ℝ), configShow cfg' = .ok () →
    @getMasses ℝ A g o' cfg' = .ok (ms.map (·.changed A)) →
    @getObserver ℝ A g o' cfg' = .ok (Observer.changed A ⟨⟨⟨gridWith realArith x y z nx ny nz, dt⟩, ⟨.CART, none, none, .ELLPS⟩⟩, ["x_mes", "y_mes", "z_mes"], ["(m)", "(m)", "(m)"]⟩) →
    lib.Follows A lib' ms → ∃ t', @runTable ℝ A g o' lib' cfg' gr = .ok t' ∧ t'.columns = t.columns ∧ List.Forall₂ (RowNear A ε off) t'.rows t.rows
  have mono : ∀ {a b : ℝ} {A}, a ≤ b → Q a A → Q b A := by
    intro a b A hab hQ o' lib' cfg' k0 k1 k2 k3
    obtain ⟨t', h1, h2, h3⟩ := hQ o' lib' cfg' k0 k1 k2 k3
    exact ⟨t', h1, h2, h3.imp fun _ _ hr => hr.mono hab⟩
  obtain ⟨C, hC⟩ := run_rate g o lib hlib cfg gr t h ms hms _ hob ((plain_bodies hcfg g o realArith).2 ms hms) rfl hd off id
  obtain ⟨M, hM, k⟩ := one_constant (Q := Q) mono ⟨C, hC.mono fun q hq => hq g⟩
  -- the points of the grid
  obtain ⟨D, hD, hnear⟩ := grid_near x y z nx ny nz
  let Q' : ℝ → Setting → Prop := fun ε A => ∀ (o' : Outside ℝ) (lib' : HullLib ℝ) (cfg' : View ℝ), configShow cfg' = .ok () →
    @getMasses ℝ A g o' cfg' = .ok (ms.map (·.changed A)) →
    @getObserver ℝ A g o' cfg' = .ok ⟨⟨⟨gridWith A (x.weighed A) (y.weighed A) (z.weighed A) nx ny nz, dt⟩, ⟨.CART, none, none, .ELLPS⟩⟩, ["x_mes", "y_mes", "z_mes"], ["(m)", "(m)", "(m)"]⟩ →
    lib.Follows A lib' ms → ∃ t', @runTable ℝ A g o' lib' cfg' gr = .ok t' ∧ t'.columns = t.columns ∧
    List.Forall₂ (fun row row0 => row.length = 12 ∧ row0.length = 12 ∧ List.Forall₂ (fun a b => |a - b| ≤ ε) (row.take 6) (row0.take 6) ∧
        (off → List.Forall₂ (fun a b => |a - b| ≤ ε) row row0)) t'.rows t.rows
  have mono' : ∀ {a b : ℝ} {A}, a ≤ b → Q' a A → Q' b A := by
    intro a b A hab hQ o' lib' cfg' k0 k1 k2 k3
    obtain ⟨t', h1, h2, h3⟩ := hQ o' lib' cfg' k0 k1 k2 k3
    exact ⟨t', h1, h2, h3.imp fun _ _ hr => ⟨hr.1, hr.2.1, hr.2.2.1.imp fun _ _ h => h.trans hab, fun hf => (hr.2.2.2 hf).imp fun _ _ h => h.trans hab⟩⟩
  have hD0 : 0 < D := by linarith
  obtain ⟨K1, hK1, k'⟩ := one_roundoff_joint (Q := Q') mono' (one_constant (Q := Q') mono' ⟨M * D, by
    filter_upwards [hnear, accuracy_pos, accurate_on hM, accuracy_le (show 0 < 1 / (M * D) by positivity)] with q hq h0 hA hle
    intro o' lib' cfg' k0 k1 k2 k3
    have hu : 0 < D * q.2 := by positivity
    obtain ⟨f, f1, f2⟩ := exists_move hu.le (grid_nodup hx.step hy.step hz.step nx ny nz) hq
    let B : Setting := { q.1 with place := f }
    have hle' : q.2 ≤ D * q.2 := by nlinarith
    have hB : B.AccurateOn M (D * q.2) :=
      { hA.mono hM le_rfl hle' with
        place := fun p _ => f2 p }
    obtain ⟨t', j1, j2, j3⟩ := k B (D * q.2) hu (by
      rw [le_div_iff₀ hM]
      rw [le_div_iff₀ (by positivity)] at hle
      nlinarith) hB o' lib' cfg' k0 k1 (by
        refine k2.trans ?_
        rw [Observer.changed]
        show _ = Except.ok (Observer.mk ⟨⟨(gridWith realArith x y z nx ny nz).map f, dt⟩, _⟩ _ _)
        rw [f1]) k3
    refine ⟨t', j1, j2, j3.imp fun row row0 hr => ?_⟩
    rw [mul_assoc]
    exact ⟨hr.1, hr.2.1, hr.2.2.2.1, hr.2.2.2.2⟩⟩)
  -- their number
  obtain ⟨K2, hK2, c2⟩ := count_rounded hx
  obtain ⟨K3, hK3, c3⟩ := count_rounded hy
  obtain ⟨K4, hK4, c4⟩ := count_rounded hz
  have m1 : K1 ≤ max (max K1 K2) (max K3 K4) := (le_max_left _ _).trans (le_max_left _ _)
  have m2 : K2 ≤ max (max K1 K2) (max K3 K4) := (le_max_right _ _).trans (le_max_left _ _)
  have m3 : K3 ≤ max (max K1 K2) (max K3 K4) := (le_max_left _ _).trans (le_max_right _ _)
  have m4 : K4 ≤ max (max K1 K2) (max K3 K4) := (le_max_right _ _).trans (le_max_right _ _)
  refine ⟨max (max K1 K2) (max K3 K4), hK1.trans_le m1, fun rnd δ h1 h2 h3 hint lib' hl => ?_⟩
  have d1 := k' rnd δ h1 (h2.trans (one_div_le_one_div_of_le hK1 m1)) fun a ha => h3 a (ha.trans m1)
  have d2 := c2 rnd δ h1 (h2.trans (one_div_le_one_div_of_le hK2 m2)) (fun a ha => h3 a (ha.trans m2)) fun n hn => hint n (hn.trans m2)
  have d3 := c3 rnd δ h1 (h2.trans (one_div_le_one_div_of_le hK3 m3)) (fun a ha => h3 a (ha.trans m3)) fun n hn => hint n (hn.trans m3)
  have d4 := c4 rnd δ h1 (h2.trans (one_div_le_one_div_of_le hK4 m4)) (fun a ha => h3 a (ha.trans m4)) fun n hn => hint n (hn.trans m4)
  have hgrid' : GridSection ((cfg.mapNum rnd).at "observers") (x.map rnd) (y.map rnd) (z.map rnd) dt := by
    rw [View.at_map]; exact hgrid.map rnd
  have ho' : (o.mapNum rnd).ceil = Int.ceil := ho
  have hob2 := getObserver_grid hgrid' g (o.mapNum rnd) (roundArith rnd) (by rw [ho']; exact d2) (by rw [ho']; exact d3) (by rw [ho']; exact d4)
  exact mono' (mul_le_mul_of_nonneg_right m1 h1.le) d1 (o.mapNum rnd) lib' (cfg.mapNum rnd) (configShow_map (run_shown h))
    (masses_map (A := roundSetting rnd) hcfg hms rfl rfl rfl (roundArith rnd)) hob2 hl

/-- **C102** The number of values along an axis in floating point: that of exact arithmetic, or one more, if the end is a whole number of steps away from the start. -/
theorem C102_count (a : Axis) (hs : a.step ≠ 0) (h0 : 0 ≤ a.ratio) :
    ∃ K, 0 < K ∧ ∀ (rnd : ℝ → ℝ) (δ : ℝ), 0 < δ → δ ≤ 1 / K → (∀ x, |x| ≤ K → |rnd x - x| ≤ δ * max 1 |x|) →
      ∃ n : ℕ, @axisCount ℝ (roundArith rnd) Int.ceil (rnd a.start) (rnd a.stop) (rnd a.step) = .ok n ∧
        ((n : ℤ) = ⌈a.ratio⌉ ∨ (n : ℤ) = ⌈a.ratio⌉ + 1 ∧ a.ratio = ⌈a.ratio⌉) := by
  let Q : ℝ → Setting → Prop := fun _ A => ∃ n : ℕ, @axisCount ℝ A Int.ceil (a.weighed A).start (a.weighed A).stop (a.weighed A).step = .ok n ∧
    ⌈a.ratio⌉ ≤ n ∧ (n : ℤ) ≤ ⌊a.ratio⌋ + 1
  have mono : ∀ {x y : ℝ} {A}, x ≤ y → Q x A → Q y A := fun _ h => h
  obtain ⟨K, hK, k⟩ := one_roundoff_joint (Q := Q) mono (one_constant (Q := Q) mono ⟨0, eventually_fst.mpr (count_near a hs h0)⟩)
  refine ⟨K, hK, fun rnd δ h1 h2 h3 => ?_⟩
  obtain ⟨n, j1, j2, j3⟩ := k rnd δ h1 h2 h3
  refine ⟨n, j1, ?_⟩
  rcases eq_or_ne (n : ℤ) ⌈a.ratio⌉ with h | h
  · exact .inl h
  · have hfc := Int.floor_le_ceil a.ratio
    have e : ⌊a.ratio⌋ = ⌈a.ratio⌉ := by omega
    refine .inr ⟨by omega, le_antisymm (Int.le_ceil _) ?_⟩
    rw [← e]
    exact Int.floor_le _

/-- **C102, exactly.** Along an axis, every arithmetic that is accurate enough gives as many values as exact arithmetic, if and
only if the end is not a whole number of steps away from the start. -/
theorem C102_exact_count (a : Axis) (hs : a.step ≠ 0) (h0 : 0 ≤ a.ratio) :
    (∃ K, 0 < K ∧ ∀ (rnd : ℝ → ℝ) (δ : ℝ), 0 < δ → δ ≤ 1 / K → (∀ x, |x| ≤ K → |rnd x - x| ≤ δ * max 1 |x|) →
      @axisCount ℝ (roundArith rnd) Int.ceil (rnd a.start) (rnd a.stop) (rnd a.step) =
        axisCount Int.ceil a.start a.stop a.step) ↔ ∀ n : ℤ, a.ratio ≠ n := by
  have hx := count_exact a hs h0
  constructor
  · rintro ⟨K, hK, h⟩ N hN
    have hN0 : 0 ≤ N := by rw [hN] at h0; exact_mod_cast h0
    have hcount : ∀ (rnd : ℝ → ℝ), rnd a.step ≠ rnd 0 →
        (N : ℝ) < rnd (rnd (rnd a.stop - rnd a.start) / rnd a.step) →
        @axisCount ℝ (roundArith rnd) Int.ceil (rnd a.start) (rnd a.stop) (rnd a.step) ≠
          axisCount Int.ceil a.start a.stop a.step := by
      intro rnd h1 h2 h3
      rw [hx, hN, Int.ceil_intCast] at h3
      have h4 : N + 1 ≤ ⌈rnd (rnd (rnd a.stop - rnd a.start) / rnd a.step)⌉ := by
        rw [Int.add_one_le_iff, Int.lt_ceil]; exact h2
      have h5 : @axisCount ℝ (roundArith rnd) Int.ceil (rnd a.start) (rnd a.stop) (rnd a.step) =
          .ok ⌈rnd (rnd (rnd a.stop - rnd a.start) / rnd a.step)⌉.toNat := by
        have e1 : (@Arith.eq ℝ (roundArith rnd) (rnd a.step) (@Arith.zero ℝ (roundArith rnd))) = false := decide_eq_false h1
        have e2 : ¬ ⌈rnd (rnd (rnd a.stop - rnd a.start) / rnd a.step)⌉ < 0 := by omega
        unfold axisCount
        rw [e1]
        exact if_neg e2
      rw [h5] at h3
      have h6 := Except.ok.inj h3
      omega
    have hKp : 0 < 1 / K := one_div_pos.mpr hK
    rcases eq_or_lt_of_le hN0 with h1 | h1
    · -- the axis has no length: the difference 0 is rounded to a small number
      have hz : a.stop - a.start = 0 := by
        have : a.ratio = 0 := by rw [hN, ← h1]; simp
        unfold Axis.ratio at this
        rcases div_eq_zero_iff.mp this with h | h
        · exact h
        · exact absurd h hs
      obtain ⟨δ, hKp, hδ1, hδ2⟩ : ∃ δ : ℝ, 0 < δ ∧ δ ≤ 1 / K ∧ δ < |a.step| :=
        ⟨min (1 / K) (|a.step| / 2), lt_min hKp (half_pos (abs_pos.mpr hs)), min_le_left _ _,
          (min_le_right _ _).trans_lt (half_lt_self (abs_pos.mpr hs))⟩
      let d : ℝ := if 0 < a.step then δ else -δ
      have hd : |d| = δ := by
        by_cases h : 0 < a.step
        · simp only [d, if_pos h]; exact abs_of_pos hKp
        · simp only [d, if_neg h]; rw [abs_neg]; exact abs_of_pos hKp
      have hds : a.step ≠ d := fun h => by rw [h, hd] at hδ2; exact lt_irrefl _ hδ2
      have hdq : 0 < d / a.step := by
        by_cases h : 0 < a.step
        · simp only [d, if_pos h]; exact div_pos hKp h
        · simp only [d, if_neg h]
          exact div_pos_of_neg_of_neg (by linarith) (lt_of_le_of_ne (not_lt.mp h) hs)
      let rnd : ℝ → ℝ := fun x => if x = 0 then d else x
      have e : a.stop = a.start := by linarith
      refine hcount rnd (by simp only [rnd, if_neg hs, if_pos]; exact hds) ?_ (h rnd δ hKp hδ1 fun x _ => ?_)
      · rw [e, sub_self, ← h1]
        simp only [rnd, if_pos, if_neg hs, if_neg hdq.ne']
        simpa using hdq
      · by_cases hx0 : x = 0
        · have e1 : rnd x = d := if_pos hx0
          rw [e1, hx0, sub_zero, hd, abs_zero, max_eq_left zero_le_one, mul_one]
        · simp only [rnd, if_neg hx0, sub_self, abs_zero]
          positivity
    · -- every rounding makes the number a little larger
      have hNp : (0 : ℝ) < N := by exact_mod_cast h1
      let rnd : ℝ → ℝ := fun x => (1 + 1 / K) * x
      have hp : 0 < 1 + 1 / K := by linarith
      refine hcount rnd (by simp only [rnd, mul_zero]; exact mul_ne_zero hp.ne' hs) ?_ (h rnd (1 / K) hKp le_rfl fun x _ => ?_)
      · have e : rnd (rnd (rnd a.stop - rnd a.start) / rnd a.step) = (1 + 1 / K) * (1 + 1 / K) * N := by
          rw [← hN]
          simp only [rnd, Axis.ratio]
          field_simp
        rw [e]
        nlinarith [mul_pos hKp hNp, mul_pos hKp hKp, mul_pos (mul_pos hKp hKp) hNp]
      · have e : rnd x - x = 1 / K * x := by simp only [rnd]; ring
        rw [e, abs_mul, abs_of_pos hKp]
        exact mul_le_mul_of_nonneg_left (le_max_right _ _) hKp.le
  · intro h
    obtain ⟨K, hK, k⟩ := C102_count a hs h0
    refine ⟨K, hK, fun rnd δ h1 h2 h3 => ?_⟩
    obtain ⟨n, j1, j2⟩ := k rnd δ h1 h2 h3
    rw [j1, hx]
    rcases j2 with j2 | ⟨-, j2⟩
    · rw [← j2]; rfl
    · exact absurd j2 (h _)

theorem nearest_13 : nearest 52 (13 / 10) = 5854679515581645 / 2 ^ 52 := by
  rw [nearest_eq (e := 0) (m := 5854679515581645)] <;> norm_num [abs_lt]

theorem nearest_01 : nearest 52 (1 / 10) = 7205759403792794 / 2 ^ 56 := by
  rw [nearest_eq (e := -4) (m := 7205759403792794)]
  · rw [show (-4 - ((52 : ℕ) : ℤ) : ℤ) = -(56 : ℕ) by norm_num, zpow_neg, zpow_natCast]; norm_num
  · rw [abs_of_pos (by norm_num), show (-4 : ℤ) = -(4 : ℕ) by norm_num, zpow_neg, zpow_natCast]; norm_num
  · rw [abs_of_pos (by norm_num), show (-4 + 1 : ℤ) = -(3 : ℕ) by norm_num, zpow_neg, zpow_natCast]; norm_num
  · rw [show (((52 : ℕ) : ℤ) - -4 : ℤ) = (56 : ℕ) by norm_num, zpow_natCast]; norm_num [abs_lt]

theorem nearest_03 : nearest 52 (1351079888211149 / 2 ^ 52) = 1351079888211149 / 2 ^ 52 := by
  rw [nearest_eq (e := -2) (m := 5404319552844596)]
  · rw [show (-2 - ((52 : ℕ) : ℤ) : ℤ) = -(54 : ℕ) by norm_num, zpow_neg, zpow_natCast]; norm_num
  · rw [abs_of_pos (by norm_num), show (-2 : ℤ) = -(2 : ℕ) by norm_num, zpow_neg, zpow_natCast]; norm_num
  · rw [abs_of_pos (by norm_num), show (-2 + 1 : ℤ) = -(1 : ℕ) by norm_num, zpow_neg, zpow_natCast]; norm_num
  · rw [show (((52 : ℕ) : ℤ) - -2 : ℤ) = (54 : ℕ) by norm_num, zpow_natCast]; norm_num [abs_lt]

theorem nearest_3 : nearest 52 (21617278211378384 / 7205759403792794) = 6755399441055745 / 2 ^ 51 := by
  rw [nearest_eq (e := 1) (m := 6755399441055745)]
  · rw [show (1 - ((52 : ℕ) : ℤ) : ℤ) = -(51 : ℕ) by norm_num, zpow_neg, zpow_natCast]; norm_num
  · rw [abs_of_pos (by norm_num)]; norm_num
  · rw [abs_of_pos (by norm_num), show (1 + 1 : ℤ) = (2 : ℕ) by norm_num, zpow_natCast]; norm_num
  · rw [show (((52 : ℕ) : ℤ) - 1 : ℤ) = (51 : ℕ) by norm_num, zpow_natCast]; norm_num [abs_lt]

theorem nearest_small {n : ℤ} (h : |(n : ℝ)| < 2 ^ 53) : nearest 52 n = n := nearest_int h

theorem count_tie : @axisCount ℝ (roundArith (nearest 52)) Int.ceil (nearest 52 1) (nearest 52 (13 / 10)) (nearest 52 (1 / 10)) = .ok 4 := by
  have e1 : nearest 52 1 = 1 := by simpa using nearest_small (n := 1) (by norm_num)
  have e0 : nearest 52 0 = 0 := by simpa using nearest_small (n := 0) (by norm_num)
  have hdiv : nearest 52 (nearest 52 (nearest 52 (13 / 10) - nearest 52 1) / nearest 52 (1 / 10)) = 6755399441055745 / 2 ^ 51 := by
    rw [e1, nearest_13, show (5854679515581645 : ℝ) / 2 ^ 52 - 1 = 1351079888211149 / 2 ^ 52 by norm_num, nearest_03, nearest_01,
      show (1351079888211149 : ℝ) / 2 ^ 52 / (7205759403792794 / 2 ^ 56) = 21617278211378384 / 7205759403792794 by norm_num, nearest_3]
  have hc : ⌈(6755399441055745 : ℝ) / 2 ^ 51⌉ = 4 := by
    rw [Int.ceil_eq_iff]; norm_num
  have h1 : realArith.eq (nearest 52 (1 / 10)) (nearest 52 0) = false := decide_eq_false (by rw [nearest_01, e0]; norm_num)
  have : @axisCount ℝ (roundArith (nearest 52)) Int.ceil (nearest 52 1) (nearest 52 (13 / 10)) (nearest 52 (1 / 10)) =
      if realArith.eq (nearest 52 (1 / 10)) (nearest 52 0) then .error .zeroDivisionError
      else if ⌈nearest 52 (nearest 52 (nearest 52 (13 / 10) - nearest 52 1) / nearest 52 (1 / 10))⌉ < 0 then .error .valueError
      else .ok ⌈nearest 52 (nearest 52 (nearest 52 (13 / 10) - nearest 52 1) / nearest 52 (1 / 10))⌉.toNat := rfl
  rw [this, h1, if_neg (by simp), hdiv, hc]
  rfl

theorem count_unit : @axisCount ℝ (roundArith (nearest 52)) Int.ceil (nearest 52 0) (nearest 52 1) (nearest 52 1) = .ok 1 := by
  have e1 : nearest 52 1 = 1 := by simpa using nearest_small (n := 1) (by norm_num)
  have e0 : nearest 52 0 = 0 := by simpa using nearest_small (n := 0) (by norm_num)
  have h1 : realArith.eq (1 : ℝ) (0 : ℝ) = false := decide_eq_false one_ne_zero
  have : @axisCount ℝ (roundArith (nearest 52)) Int.ceil (nearest 52 0) (nearest 52 1) (nearest 52 1) =
      if realArith.eq (nearest 52 1) (nearest 52 0) then .error .zeroDivisionError
      else if ⌈nearest 52 (nearest 52 (nearest 52 1 - nearest 52 0) / nearest 52 1)⌉ < 0 then .error .valueError
      else .ok ⌈nearest 52 (nearest 52 (nearest 52 1 - nearest 52 0) / nearest 52 1)⌉.toNat := rfl
  rw [this]
  simp only [e1, e0, sub_zero, div_one, h1, Int.ceil_one, Bool.false_eq_true, if_false]
  rfl

theorem gridPoints_length {α : Type} [Arith α] (xs ys zs : List α) : (gridPoints xs ys zs).length = xs.length * (ys.length * zs.length) := by
  simp only [gridPoints, List.length_flatMap, List.length_map]
  simp

/-- **C102** That a grid has the same points in floating point is false.  With double precision numbers and operations the grid whose x goes from 1 to 1.3 by 0.1 has
four values of x; three in exact arithmetic. -/
theorem C102_false (g : Geodesy ℝ) (o : Outside ℝ) (ho : o.ceil = Int.ceil) (cfg : View ℝ) (dt : Bool)
    (h : GridSection (cfg.at "observers") ⟨1, 13 / 10, 1 / 10⟩ ⟨0, 1, 1⟩ ⟨0, 1, 1⟩ dt) :
    ∃ ob ob' : Observer ℝ, getObserver g o cfg = .ok ob ∧
      @getObserver ℝ (roundArith (nearest 52)) g (o.mapNum (nearest 52)) (cfg.mapNum (nearest 52)) = .ok ob' ∧
      ob.dataset.coords.rows.length = 3 ∧ ob'.dataset.coords.rows.length = 4 := by
  have r1 : Axis.ratio ⟨1, 13 / 10, 1 / 10⟩ = 3 := by norm_num [Axis.ratio]
  have r2 : Axis.ratio ⟨0, 1, 1⟩ = 1 := by norm_num [Axis.ratio]
  have c1 := count_exact ⟨1, 13 / 10, 1 / 10⟩ (by norm_num) (by rw [r1]; norm_num)
  have c2 := count_exact ⟨0, 1, 1⟩ (by norm_num) (by rw [r2]; norm_num)
  rw [r1] at c1
  rw [r2] at c2
  have h' : GridSection ((cfg.mapNum (nearest 52)).at "observers") ⟨nearest 52 1, nearest 52 (13 / 10), nearest 52 (1 / 10)⟩ ⟨nearest 52 0, nearest 52 1, nearest 52 1⟩
      ⟨nearest 52 0, nearest 52 1, nearest 52 1⟩ dt := by rw [View.at_map]; exact h.map (nearest 52)
  have ho' : (o.mapNum (nearest 52)).ceil = Int.ceil := ho
  refine ⟨_, _, getObserver_grid h g o realArith (by rw [ho]; exact c1) (by rw [ho]; exact c2) (by rw [ho]; exact c2),
    getObserver_grid h' g _ (roundArith (nearest 52)) (by rw [ho']; exact count_tie) (by rw [ho']; exact count_unit) (by rw [ho']; exact count_unit), ?_, ?_⟩
  · simp only [gridWith, gridPoints_length, axisValues, List.length_map, List.length_range]
    norm_num
    rfl
  · simp only [gridWith, gridPoints_length, axisValues, List.length_map, List.length_range]

/-- rounding to `p + 1` significant bits is allowed in C98, C101 and C102 if `p` is large enough -/
theorem nearest_allowed {K : ℝ} (hK : 0 < K) : ∃ P : ℕ, ∀ p ≥ P, (0 : ℝ) < 2⁻¹ ^ (p + 1) ∧ (2⁻¹ : ℝ) ^ (p + 1) ≤ 1 / K ∧
    (∀ a : ℝ, |a| ≤ K → |nearest p a - a| ≤ 2⁻¹ ^ (p + 1) * max 1 |a|) ∧ ∀ n : ℤ, |(n : ℝ)| ≤ K → nearest p n = n := by
  obtain ⟨P, hP⟩ := pow_unbounded_of_one_lt K (show (1 : ℝ) < 2 by norm_num)
  refine ⟨P, fun p hp => ?_⟩
  have h : K < 2 ^ (p + 1) := hP.trans_le (pow_le_pow_right₀ (by norm_num) (by omega))
  refine ⟨by positivity, ?_, fun a _ => (nearest_error p a).trans (mul_le_mul_of_nonneg_left (le_max_right _ _) (by positivity)), fun n hn => nearest_int (hn.trans_lt h)⟩
  rw [inv_pow, ← one_div]
  exact one_div_le_one_div_of_le hK h.le

/-- **C102** with binary floating point numbers of `p + 1` significant bits (`p = 52` in double precision): from some number of bits on, the run returns, with as many
lines, and the error is at most a constant times `2^-p`. -/
theorem C102_bits (g : Geodesy ℝ) (o : Outside ℝ) (ho : o.ceil = Int.ceil) (lib : HullLib ℝ) (hlib : lib.Honest) (cfg : View ℝ) (l : List (View ℝ))
    (hcfg : PlainBodies cfg l) (x y z : Axis) (dt : Bool) (hgrid : GridSection (cfg.at "observers") x y z dt) (hx : x.Sound) (hy : y.Sound) (hz : z.Sound)
    (gr : Bool) (t : Table ℝ) (h : runTable g o lib cfg gr = .ok t) (ms : List (Mass ℝ)) (hms : getMasses g o cfg = .ok ms) (ob : Observer ℝ)
    (hob : getObserver g o cfg = .ok ob) (hd : ∀ p ∈ ob.dataset.coords.rows, DecidedPoint lib ms p) :
    ∃ (P : ℕ) (K : ℝ), ∀ p ≥ P, ∀ lib' : HullLib ℝ, (∀ m ∈ ms, ∀ H, lib.convexHull m.dataset.coords.rows = .ok H →
        lib'.convexHull (m.dataset.coords.rows.map (V3.rounded (nearest p))) = .ok { H with points := H.points.map (V3.rounded (nearest p)) }) →
      ∃ t', @runTable ℝ (roundArith (nearest p)) g (o.mapNum (nearest p)) lib' (cfg.mapNum (nearest p)) gr = .ok t' ∧ t'.columns = t.columns ∧
      List.Forall₂ (fun row row0 => row.length = 12 ∧ row0.length = 12 ∧ List.Forall₂ (fun a b => |a - b| ≤ K * 2⁻¹ ^ p) (row.take 6) (row0.take 6) ∧
        ((∀ p ∈ ob.dataset.coords.rows, OffLinesPoint lib ms p) → List.Forall₂ (fun a b => |a - b| ≤ K * 2⁻¹ ^ p) row row0)) t'.rows t.rows := by
  obtain ⟨K, hK, k⟩ := C102_partial g o ho lib hlib cfg l hcfg x y z dt hgrid hx hy hz gr t h ms hms ob hob hd
  obtain ⟨P, hP⟩ := nearest_allowed hK
  refine ⟨P, K, fun p hp lib' hl => ?_⟩
  obtain ⟨h1, h2, h3, h4⟩ := hP p hp
  obtain ⟨t', j1, j2, j3⟩ := k (nearest p) _ h1 h2 h3 h4 lib' hl
  have hle : K * 2⁻¹ ^ (p + 1) ≤ K * 2⁻¹ ^ p := mul_le_mul_of_nonneg_left (pow_le_pow_of_le_one (by norm_num) (by norm_num) (by omega)) hK.le
  exact ⟨t', j1, j2, j3.imp fun row row0 hr => ⟨hr.1, hr.2.1, hr.2.2.1.imp fun _ _ h => h.trans hle, fun hf => (hr.2.2.2 hf).imp fun _ _ h => h.trans hle⟩⟩

/-! ### Concrete cases -/

/-- the section of observers of a grid -/
def gridVal (x y z : Axis) : Val ℝ := .dict [("points", .null), ("file_path", .null),
  ("grid", .dict [("xstart_xend_xstep", .list [.num false x.start, .num false x.stop, .num false x.step]),
    ("ystart_yend_ystep", .list [.num false y.start, .num false y.stop, .num false y.step]),
    ("zstart_zend_zstep", .list [.num false z.start, .num false z.stop, .num false z.step])]),
  ("crs", crsVal "cart" "ellps")]

/-- the two bodies that tile a tetrahedron, observed on a grid -/
def halvesGrid (x y z : Axis) : View ℝ := View.root [.dict [
  ("masses", .list [massVal "cart" 2 ⟨0, 0, 0⟩ ⟨1, 0, 0⟩ ⟨1 / 2, 1 / 2, 0⟩ ⟨0, 0, 1⟩,
    massVal "cart" 2 ⟨0, 0, 0⟩ ⟨1 / 2, 1 / 2, 0⟩ ⟨0, 1, 0⟩ ⟨0, 0, 1⟩]),
  ("observers", gridVal x y z)]]

theorem halvesGrid_section (x y z : Axis) : GridSection ((halvesGrid x y z).at "observers") x y z false := by
  refine ⟨rfl, rfl, ⟨_, _, _, rfl⟩, ⟨_, _, _, _, _, _, _, _, _, rfl, rfl, rfl, rfl⟩, ?_⟩
  have h2 : ((⟨[.ok (crsVal "cart" "ellps")]⟩ : View ℝ).at "ref").getOptStr "ellps" = .ok "cart" := rfl
  show readRef (⟨[.ok (crsVal "cart" "ellps")]⟩ : View ℝ) = .ok .CART
  simp only [readRef, h2, Bind.bind, Except.bind, findMember_cart]; rfl

theorem halvesGrid_bodies (x y z : Axis) : PlainBodies (halvesGrid x y z) [⟨[.ok (massVal "cart" 2 ⟨0, 0, 0⟩ ⟨1, 0, 0⟩ ⟨1 / 2, 1 / 2, 0⟩ ⟨0, 0, 1⟩)]⟩,
      ⟨[.ok (massVal "cart" 2 ⟨0, 0, 0⟩ ⟨1 / 2, 1 / 2, 0⟩ ⟨0, 1, 0⟩ ⟨0, 0, 1⟩)]⟩] :=
  ⟨rfl, (halves_plain 2 2).body⟩

/-- C102_false: a configuration with that grid -/
example : ∃ ob ob' : Observer ℝ, getObserver toyGeo noFiles (halvesGrid ⟨1, 13 / 10, 1 / 10⟩ ⟨0, 1, 1⟩ ⟨0, 1, 1⟩) = .ok ob ∧
    @getObserver ℝ (roundArith (nearest 52)) toyGeo (noFiles.mapNum (nearest 52)) ((halvesGrid ⟨1, 13 / 10, 1 / 10⟩ ⟨0, 1, 1⟩ ⟨0, 1, 1⟩).mapNum (nearest 52)) = .ok ob' ∧
    ob.dataset.coords.rows.length = 3 ∧ ob'.dataset.coords.rows.length = 4 :=
  C102_false toyGeo noFiles rfl _ _ (halvesGrid_section _ _ _)

/-- C102: from 0 to 3.5 by 1 every arithmetic that is accurate enough gives four values, from 0 to 3 by 1 some give four instead of three -/
example : (∃ K, 0 < K ∧ ∀ (rnd : ℝ → ℝ) (δ : ℝ), 0 < δ → δ ≤ 1 / K → (∀ x, |x| ≤ K → |rnd x - x| ≤ δ * max 1 |x|) →
      @axisCount ℝ (roundArith rnd) Int.ceil (rnd 0) (rnd (7 / 2)) (rnd 1) = axisCount Int.ceil (0 : ℝ) (7 / 2) 1) ∧
    ¬ ∃ K, 0 < K ∧ ∀ (rnd : ℝ → ℝ) (δ : ℝ), 0 < δ → δ ≤ 1 / K → (∀ x, |x| ≤ K → |rnd x - x| ≤ δ * max 1 |x|) →
      @axisCount ℝ (roundArith rnd) Int.ceil (rnd 0) (rnd 3) (rnd 1) = axisCount Int.ceil (0 : ℝ) 3 1 := by
  constructor
  · refine (C102_exact_count ⟨0, 7 / 2, 1⟩ one_ne_zero (by norm_num [Axis.ratio])).mpr fun n hn => ?_
    have h1 : (7 / 2 : ℝ) = n := by rw [← hn]; norm_num [Axis.ratio]
    have h2 : (7 : ℝ) = ((2 * n : ℤ) : ℝ) := by push_cast; linarith
    have h3 : (7 : ℤ) = 2 * n := by exact_mod_cast h2
    omega
  · intro h
    exact (C102_exact_count ⟨0, 3, 1⟩ one_ne_zero (by norm_num [Axis.ratio])).mp h 3 (by norm_num [Axis.ratio])

/-- C102: x from 2 to 2.5 by 1 and y from 3 to 3.5 by 1, which are not whole numbers of steps, and z from 5 to 6 by 1, which are integers -/
example : ∃ (P : ℕ) (K : ℝ), ∀ p ≥ P, ∃ t' row G,
    @runTable ℝ (roundArith (nearest p)) toyGeo (noFiles.mapNum (nearest p)) anyFour ((halvesGrid ⟨2, 5 / 2, 1⟩ ⟨3, 7 / 2, 1⟩ ⟨5, 6, 1⟩).mapNum (nearest p)) false = .ok t' ∧
    t'.rows = [row] ∧ row[5]? = some G ∧ |G - 100000 * 1 * 2 * sumOver (halvesMasses .CART 2 2) (fun B => (attraction B ⟨2, 3, 5⟩).z)| ≤ K * 2⁻¹ ^ p := by
  have half : ∀ n : ℤ, (1 / 2 : ℝ) ≠ n := by
    intro n hn
    have : (1 : ℝ) = ((2 * n : ℤ) : ℝ) := by push_cast; linarith
    have : (1 : ℤ) = 2 * n := by exact_mod_cast this
    omega
  have rx : Axis.ratio ⟨2, 5 / 2, 1⟩ = 1 / 2 := by norm_num [Axis.ratio]
  have ry : Axis.ratio ⟨3, 7 / 2, 1⟩ = 1 / 2 := by norm_num [Axis.ratio]
  have rz : Axis.ratio ⟨5, 6, 1⟩ = 1 := by norm_num [Axis.ratio]
  have sx : Axis.Sound ⟨2, 5 / 2, 1⟩ := ⟨by norm_num, by rw [rx]; norm_num, .inl (by rw [rx]; exact half)⟩
  have sy : Axis.Sound ⟨3, 7 / 2, 1⟩ := ⟨by norm_num, by rw [ry]; norm_num, .inl (by rw [ry]; exact half)⟩
  have sz : Axis.Sound ⟨5, 6, 1⟩ := ⟨by norm_num, by rw [rz]; norm_num, .inr ⟨5, 6, 1, by norm_num, by norm_num, by norm_num, by norm_num⟩⟩
  have c : ⌈(1 / 2 : ℝ)⌉.toNat = 1 := by
    rw [show ⌈(1 / 2 : ℝ)⌉ = 1 by rw [Int.ceil_eq_iff]; norm_num]; rfl
  have hob := getObserver_grid (halvesGrid_section ⟨2, 5 / 2, 1⟩ ⟨3, 7 / 2, 1⟩ ⟨5, 6, 1⟩) toyGeo noFiles realArith (count_exact _ sx.step sx.nonneg)
    (count_exact _ sy.step sy.nonneg) (count_exact _ sz.step sz.nonneg)
  rw [rx, ry, rz, c, Int.ceil_one, show Int.toNat 1 = 1 from rfl, show gridWith realArith ⟨2, 5 / 2, 1⟩ ⟨3, 7 / 2, 1⟩ ⟨5, 6, 1⟩ 1 1 1 = [⟨2, 3, 5⟩] by
    simp [gridWith, gridPoints, axisValues]] at hob
  have hms : getMasses toyGeo noFiles (halvesGrid ⟨2, 5 / 2, 1⟩ ⟨3, 7 / 2, 1⟩ ⟨5, 6, 1⟩) = .ok (halvesMasses .CART 2 2) :=
    halves_masses findMember_cart (.inl rfl) "cart" "ellps" 2 2
  have hhull : ∀ m ∈ halvesMasses .CART 2 2, ∃ h, fourPoints.convexHull m.dataset.coords.rows = .ok h := by
    intro m hm
    simp only [halvesMasses, List.mem_cons, List.not_mem_nil, or_false] at hm
    rcases hm with rfl | rfl
    · exact ⟨_, fourPoints_A⟩
    · exact ⟨_, fourPoints_B⟩
  have hdec : DecidedPoint fourPoints (halvesMasses .CART 2 2) ⟨2, 3, 5⟩ := halves_at halfA_decided halfB_decided 2 2
  obtain ⟨ps, hps⟩ := polys_exist fourPoints_honest _ hhull
  have hr := of_plain hms hob (fun m hm => (plain_bodies (halvesGrid_bodies _ _ _) toyGeo noFiles realArith).2 _ hms m hm) rfl hps
  obtain ⟨t, ht⟩ := run_returns_of (gr := false) hr rfl (by simp [halvesMasses]) (List.cons_ne_nil _ _) (by
    intro m hm H q hH hq p hp ρ Gc
    obtain rfl : p = ⟨2, 3, 5⟩ := List.mem_singleton.mp hp
    obtain ⟨G, T, hv⟩ := C22_total (fourPoints_honest _ _ hH).2 hq (hdec m hm H hH).ne_corner ρ Gc
    exact ⟨_, hv⟩)
  obtain ⟨P, K, k⟩ := C102_bits toyGeo noFiles rfl fourPoints fourPoints_honest _ _ (halvesGrid_bodies _ _ _) _ _ _ _ (halvesGrid_section _ _ _) sx sy sz false t ht _ hms _ hob (by
    intro p hp
    obtain rfl : p = ⟨2, 3, 5⟩ := List.mem_singleton.mp hp
    exact hdec)
  refine ⟨P, K, fun p hp => ?_⟩
  obtain ⟨t', j1, -, j3⟩ := k p hp anyFour (anyFour_follows _ _)
  have hlen : t.rows.length = 1 := by
    obtain ⟨r', _, _, hr', _, _, _, hrows⟩ := runTable_ok ht
    obtain rfl := hr'.unique hr
    exact hrows.length_eq.symm
  obtain ⟨row0, e0, -, e1⟩ := @C69_newton toyGeo noFiles fourPoints fourPoints_honest _ false t _ ht hr 2 1 (by
      intro m hm
      simp only [halvesMasses, List.mem_cons, List.not_mem_nil, or_false] at hm
      rcases hm with rfl | rfl <;> exact ⟨rfl, rfl⟩) 0 ⟨2, 3, 5⟩ rfl (halves_at halfA_regular halfB_regular 2 2)
  obtain ⟨r0, hr0⟩ : ∃ r0, t.rows = [r0] := List.length_eq_one_iff.mp hlen
  rw [hr0] at e0 j3
  obtain rfl : r0 = row0 := by simpa using e0
  cases j3' : t'.rows with
  | nil => rw [j3'] at j3; cases j3
  | cons row rs =>
    rw [j3'] at j3
    cases j3 with
    | cons hrow hnil =>
      cases hnil
      obtain ⟨_, _, e3, _⟩ := hrow
      rw [e1] at e3
      have : ∃ G, (row.take 6)[5]? = some G ∧ |G - 100000 * 1 * 2 * sumOver (halvesMasses .CART 2 2) (fun B => (attraction B ⟨2, 3, 5⟩).z)| ≤ K * 2⁻¹ ^ p := by
        obtain ⟨G, h1, h2⟩ := forall₂_get e3.flip (i := 5) rfl
        exact ⟨G, h1, h2⟩
      obtain ⟨G, g1, g2⟩ := this
      refine ⟨t', row, G, j1, j3', ?_, g2⟩
      rw [List.getElem?_take] at g1
      simpa using g1

end
end Geec

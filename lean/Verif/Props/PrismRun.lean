import Verif.Props.PrismFloat
import Verif.Props.AnyHullTensor
/-
C116 in floating point: the tensor, and whole runs.
-/
namespace Geec
open Arith MeasureTheory Metric Set Filter Topology
noncomputable section

variable {pts : List (V3 ℝ)} {x1 x2 y1 y2 z1 z2 : ℝ}

/-- the derivative of the field of the block, by the formula of Nagy; `s` is the station -/
def nagyTensor (x1 x2 y1 y2 z1 z2 : ℝ) (s : V3 ℝ) : M3 ℝ :=
  ⟨⟨-corners (fun x y z => Real.arctan (y * z / (x * rad3 x y z))) (x1 - s.x) (x2 - s.x) (y1 - s.y) (y2 - s.y) (z1 - s.z) (z2 - s.z),
    corners (fun x y z => Real.log (z + rad3 x y z)) (x1 - s.x) (x2 - s.x) (y1 - s.y) (y2 - s.y) (z1 - s.z) (z2 - s.z),
    corners (fun x y z => Real.log (y + rad3 x y z)) (x1 - s.x) (x2 - s.x) (y1 - s.y) (y2 - s.y) (z1 - s.z) (z2 - s.z)⟩,
   ⟨corners (fun x y z => Real.log (z + rad3 x y z)) (x1 - s.x) (x2 - s.x) (y1 - s.y) (y2 - s.y) (z1 - s.z) (z2 - s.z),
    -corners (fun x y z => Real.arctan (z * x / (y * rad3 x y z))) (x1 - s.x) (x2 - s.x) (y1 - s.y) (y2 - s.y) (z1 - s.z) (z2 - s.z),
    corners (fun x y z => Real.log (x + rad3 x y z)) (x1 - s.x) (x2 - s.x) (y1 - s.y) (y2 - s.y) (z1 - s.z) (z2 - s.z)⟩,
   ⟨corners (fun x y z => Real.log (y + rad3 x y z)) (x1 - s.x) (x2 - s.x) (y1 - s.y) (y2 - s.y) (z1 - s.z) (z2 - s.z),
    corners (fun x y z => Real.log (x + rad3 x y z)) (x1 - s.x) (x2 - s.x) (y1 - s.y) (y2 - s.y) (z1 - s.z) (z2 - s.z),
    -corners (fun x y z => Real.arctan (x * y / (z * rad3 x y z))) (x1 - s.x) (x2 - s.x) (y1 - s.y) (y2 - s.y) (z1 - s.z) (z2 - s.z)⟩⟩

/-- the corners of the block, each once, and points inside -/
def BlockPoints (pts : List (V3 ℝ)) (x1 x2 y1 y2 z1 z2 : ℝ) : Prop :=
  pts.Nodup ∧ ∀ p ∈ pts, (p.x ∈ [x1, x2] ∧ p.y ∈ [y1, y2] ∧ p.z ∈ [z1, z2]) ∨ (x1 < p.x ∧ p.x < x2 ∧ y1 < p.y ∧ p.y < y2 ∧ z1 < p.z ∧ p.z < z2)

/-- a station off the six planes is on the line of no edge, whatever triangulation is found -/
theorem SeesBlock.offLines (hb : SpansBlock pts x1 x2 y1 y2 z1 z2) {s : V3 ℝ} {D : ℝ} (hs : SeesBlock pts x1 x2 y1 y2 z1 z2 D s) (hx : s.x ∉ [x1, x2])
    (hy : s.y ∉ [y1, y2]) (hz : s.z ∉ [z1, z2]) {h : Hull ℝ} (hpts : h.points = pts) (hh : h.IsHull) : h.OffLines s := by
  intro t ht i j hi hj hij h0
  obtain ⟨n, c, hn, hpl, hap, k | k | k | k⟩ := SeesBlock.plane hb hpts hh hs ht
  · exact hx (k.1 ▸ k.2)
  · exact hy (k.1 ▸ k.2)
  · exact hz (k.1 ▸ k.2)
  · have e1 := hpl i hi
    have e2 := hpl j hj
    have hne := corner_pt_ne hh ht hi hj hij
    generalize h.pt i = P at *
    generalize h.pt j = Q at *
    have hX := congrArg V3.x h0
    have hY := congrArg V3.y h0
    have hZ := congrArg V3.z h0
    simp only [cross_x, cross_y, cross_z, sub_x, sub_y, sub_z, zeros_x, zeros_y, zeros_z] at hX hY hZ
    simp only [rdot] at e1 e2 k
    have key : ((Q.x - P.x) ^ 2 + (Q.y - P.y) ^ 2 + (Q.z - P.z) ^ 2) * (n.x * (P.x - s.x) + n.y * (P.y - s.y) + n.z * (P.z - s.z)) = 0 := by
      linear_combination (((P.x - s.x) * (Q.x - P.x) + (P.y - s.y) * (Q.y - P.y) + (P.z - s.z) * (Q.z - P.z)) * (e2 - e1)) +
        (n.y * (Q.z - P.z) * hX - n.z * (Q.y - P.y) * hX) + (n.z * (Q.x - P.x) * hY - n.x * (Q.z - P.z) * hY) + (n.x * (Q.y - P.y) * hZ - n.y * (Q.x - P.x) * hZ)
    rcases mul_eq_zero.mp key with h1 | h1
    · apply hne
      have a := sq_nonneg (Q.x - P.x)
      have b := sq_nonneg (Q.y - P.y)
      have c := sq_nonneg (Q.z - P.z)
      have ex : Q.x - P.x = 0 := pow_eq_zero_iff (n := 2) (by norm_num) |>.mp (by linarith)
      have ey : Q.y - P.y = 0 := pow_eq_zero_iff (n := 2) (by norm_num) |>.mp (by linarith)
      have ez : Q.z - P.z = 0 := pow_eq_zero_iff (n := 2) (by norm_num) |>.mp (by linarith)
      exact V3.ext' (by linarith) (by linarith) (by linarith)
    · exact k (by linarith)

/-- off the six planes, the formula of Nagy is the derivative of the attraction of the block -/
theorem nagy_derivative (hb : SpansBlock pts x1 x2 y1 y2 z1 z2) {s : V3 ℝ} {D : ℝ} (hs : SeesBlock pts x1 x2 y1 y2 z1 z2 D s) (hx : s.x ∉ [x1, x2])
    (hy : s.y ∉ [y1, y2]) (hz : s.z ∉ [z1, z2]) {h : Hull ℝ} (hpts : h.points = pts) (hh : h.IsHull) {inHull : V3 ℝ → Bool} {p : Poly ℝ} (hp : mkPoly h inHull = .ok p)
    (ρ Gc : ℝ) : ∃ G, Call.onNew p ⟨s, ρ, Gc, true⟩ = .ok (G, ⟨V3.smul (1000000000 * Gc * ρ) (nagyTensor x1 x2 y1 y2 z1 z2 s).r0,
      V3.smul (1000000000 * Gc * ρ) (nagyTensor x1 x2 y1 y2 z1 z2 s).r1, V3.smul (1000000000 * Gc * ρ) (nagyTensor x1 x2 y1 y2 z1 z2 s).r2⟩) := by
  obtain ⟨hc, hoff⟩ := SeesBlock.clear hb hpts hh hs hx hy hz
  obtain ⟨G, ⟨r0, r1, r2⟩, hv, k0, k1, k2⟩ := C116_tensor hb hpts hh hp hs hc hoff ρ Gc
  obtain rfl := k0 hx
  obtain rfl := k1 hy
  obtain rfl := k2 hz
  exact ⟨G, hv⟩

/-- **C116** The tensor of the prism formula and floating point: a block given by its corners (each once) and points inside it, in any order, and a station apart from
the six planes of its faces, inside or outside; the points, the station, the density and the constant are rounded with the unit roundoff `δ ≤ 1 / K`, the hull
library triangulates the rounded points in any way, all operations are rounded.  The polyhedron is built, and the tensor returned is within `K δ` of the formula. -/
theorem C116_tensor_float (hb : SpansBlock pts x1 x2 y1 y2 z1 z2) (hn : BlockPoints pts x1 x2 y1 y2 z1 z2)
    {s : V3 ℝ} {D : ℝ} (hs : SeesBlock pts x1 x2 y1 y2 z1 z2 D s) (hx : s.x ∉ [x1, x2]) (hy : s.y ∉ [y1, y2]) (hz : s.z ∉ [z1, z2]) (ρ Gc : ℝ) :
    ∃ K, 0 < K ∧ ∀ (rnd : ℝ → ℝ) (δ : ℝ), 0 < δ → δ ≤ 1 / K → (∀ a, |a| ≤ K → |rnd a - a| ≤ δ * max 1 |a|) → ∀ (h' : Hull ℝ) (inHull' : V3 ℝ → Bool),
      h'.points = pts.map (V3.rounded rnd) → h'.IsHull → h'.Tidy → ∃ p' G' T',
      @mkPoly ℝ (roundArith rnd) h' inHull' = .ok p' ∧
      @Call.onNew ℝ (roundArith rnd) p' ⟨s.rounded rnd, rnd ρ, rnd Gc, true⟩ = .ok (G', T') ∧
      NearM (K * δ) T' ⟨V3.smul (1000000000 * Gc * ρ) (nagyTensor x1 x2 y1 y2 z1 z2 s).r0, V3.smul (1000000000 * Gc * ρ) (nagyTensor x1 x2 y1 y2 z1 z2 s).r1,
        V3.smul (1000000000 * Gc * ρ) (nagyTensor x1 x2 y1 y2 z1 z2 s).r2⟩ := by
  have hf := hb.firm hn.1 hn.2
  have htr : ∀ h : Hull ℝ, h.points = pts → h.IsHull → h.TensorRegular s := fun h e hh =>
    ⟨SeesBlock.regular hb e hh hs, (SeesBlock.clear hb e hh hs hx hy hz).1, (SeesBlock.clear hb e hh hs hx hy hz).2⟩
  obtain ⟨h, e, hh, -⟩ := (C104_exists pts).mpr hf.solid
  obtain ⟨p, hp⟩ := hull_mkPoly_ok hh (fun _ => true)
  obtain ⟨G, hv⟩ := nagy_derivative hb hs hx hy hz e hh hp ρ Gc
  have hT := C19_newton hh hp (htr h e hh) hv
  have eb : h.body = convexHull ℝ {q | ∃ p ∈ pts, q = p.toP} := by unfold Hull.body; rw [e]
  rw [eb] at hT
  exact C103_tensor hf (s := s) (fun h e hh => ⟨SeesBlock.decided hb hs hx hy hz h e hh, SeesBlock.offLines hb hs hx hy hz e hh, htr h e hh⟩) ρ Gc hT

/-- outside, the formula of Nagy gives the integrals -/
theorem nagy_tidal (hb : SpansBlock pts x1 x2 y1 y2 z1 z2) {s : V3 ℝ} {D : ℝ} (hs : SeesBlock pts x1 x2 y1 y2 z1 z2 D s) (hx : s.x ∉ [x1, x2])
    (hy : s.y ∉ [y1, y2]) (hz : s.z ∉ [z1, z2]) (hout : s.toP ∉ block x1 x2 y1 y2 z1 z2) : tidal (solidOf pts) s = nagyTensor x1 x2 y1 y2 z1 z2 s := by
  obtain ⟨h, e, hh, -⟩ := (C104_exists pts).mpr ⟨((x1 + x2) / 2, (y1 + y2) / 2, (z1 + z2) / 2), hb.interior
    ⟨⟨by linarith [hb.hx], by linarith [hb.hx]⟩, ⟨by linarith [hb.hy], by linarith [hb.hy]⟩, ⟨by linarith [hb.hz], by linarith [hb.hz]⟩⟩⟩
  obtain ⟨p, hp⟩ := hull_mkPoly_ok hh (fun _ => true)
  have eb : h.body = solidOf pts := by rw [← e]; rfl
  obtain ⟨G, hv⟩ := nagy_derivative hb hs hx hy hz e hh hp 1 (1 / 1000000000)
  obtain ⟨hc, hoff⟩ := SeesBlock.clear hb e hh hs hx hy hz
  obtain ⟨k0, k1, k2⟩ := C62_tidal_integrals hh hp ⟨SeesBlock.regular hb e hh hs, hc, hoff⟩ (by rw [eb, hb.solid]; exact hout) hv
  have one : ∀ v : V3 ℝ, V3.smul (1000000000 * (1 / 1000000000) * 1) v = v := by
    intro v
    refine V3.ext' ?_ ?_ ?_ <;> simp
  simp only [one, eb] at k0 k1 k2
  rcases ht : tidal (solidOf pts) s with ⟨r0, r1, r2⟩
  rw [ht] at k0 k1 k2
  dsimp only at k0 k1 k2
  rw [← k0, ← k1, ← k2]

/-- the nine columns behind the coordinates of a station by the formula of Nagy, for blocks with corners `lo`, `hi` and equal densities -/
def nagyColumns (ms : List (Mass ℝ)) (lo hi : Mass ℝ → V3 ℝ) (ρ Gc : ℝ) (p : V3 ℝ) : List ℝ :=
  let F := fun m => nagyField (lo m).x (hi m).x (lo m).y (hi m).y (lo m).z (hi m).z p
  let T := fun m => nagyTensor (lo m).x (hi m).x (lo m).y (hi m).y (lo m).z (hi m).z p
  [100000 * Gc * ρ * (ms.map fun m => (F m).x).sum, 100000 * Gc * ρ * (ms.map fun m => (F m).y).sum, 100000 * Gc * ρ * (ms.map fun m => (F m).z).sum,
   1000000000 * Gc * ρ * (ms.map fun m => (T m).r0.x).sum, 1000000000 * Gc * ρ * (ms.map fun m => (T m).r0.y).sum,
   1000000000 * Gc * ρ * (ms.map fun m => (T m).r0.z).sum, 1000000000 * Gc * ρ * (ms.map fun m => (T m).r1.y).sum,
   1000000000 * Gc * ρ * (ms.map fun m => (T m).r1.z).sum, 1000000000 * Gc * ρ * (ms.map fun m => (T m).r2.z).sum]

/-- **C116** End to end in floating point: a plain configuration whose bodies are blocks of equal density, given by their corners and points inside, and whose observation
points are outside the blocks and apart from the planes of their faces.  With all numbers rounded on reading and after every operation, and any hull library that
triangulates the rounded points, `geec run --gradient` prints a table whose lines hold, to within `K δ`, the sums of the prism formula. -/
theorem C116_run_float (g : Geodesy ℝ) (o : Outside ℝ) (cfg : View ℝ) (l : List (View ℝ)) (hcfg : PlainConfig cfg l)
    (hshow : configShow cfg = .ok ()) (ms : List (Mass ℝ)) (hms : getMasses g o cfg = .ok ms) (hne : ms ≠ []) (ob : Observer ℝ)
    (hob : getObserver g o cfg = .ok ob) (hne' : ob.dataset.coords.rows ≠ []) (ρ Gc : ℝ) (hρ : ∀ m ∈ ms, m.density = ρ ∧ m.gravityConstant = Gc)
    (lo hi : Mass ℝ → V3 ℝ) (D : ℝ)
    (hb : ∀ m ∈ ms, SpansBlock m.dataset.coords.rows (lo m).x (hi m).x (lo m).y (hi m).y (lo m).z (hi m).z ∧
      BlockPoints m.dataset.coords.rows (lo m).x (hi m).x (lo m).y (hi m).y (lo m).z (hi m).z)
    (hs : ∀ m ∈ ms, ∀ p ∈ ob.dataset.coords.rows, SeesBlock m.dataset.coords.rows (lo m).x (hi m).x (lo m).y (hi m).y (lo m).z (hi m).z D p ∧
      p.x ∉ [(lo m).x, (hi m).x] ∧ p.y ∉ [(lo m).y, (hi m).y] ∧ p.z ∉ [(lo m).z, (hi m).z] ∧
      p.toP ∉ block (lo m).x (hi m).x (lo m).y (hi m).y (lo m).z (hi m).z) :
    ∃ K, 0 < K ∧ ∀ (rnd : ℝ → ℝ) (δ : ℝ), 0 < δ → δ ≤ 1 / K → (∀ a, |a| ≤ K → |rnd a - a| ≤ δ * max 1 |a|) → ∀ lib : HullLib ℝ,
      (∀ m ∈ ms, ∃ H, lib.convexHull (m.dataset.coords.rows.map (V3.rounded rnd)) = .ok H ∧ H.points = m.dataset.coords.rows.map (V3.rounded rnd) ∧
        H.IsHull ∧ H.Tidy) →
      ∃ t, @runTable ℝ (roundArith rnd) g (o.mapNum rnd) lib (cfg.mapNum rnd) true = .ok t ∧ t.rows.length = ob.dataset.coords.rows.length ∧
      ∀ (i : Nat) (p : V3 ℝ), ob.dataset.coords.rows[i]? = some p →
        ∃ row, t.rows[i]? = some row ∧ row.take 3 = [rnd p.x, rnd p.y, rnd p.z] ∧
          List.Forall₂ (fun a b => |a - b| ≤ K * δ) (row.drop 3) (nagyColumns ms lo hi ρ Gc p) := by
  obtain ⟨K, hK, k⟩ := C103_run_tidal g o cfg l hcfg hshow ms hms hne ob hob hne' ρ Gc hρ (fun m hm => (hb m hm).1.firm (hb m hm).2.1 (hb m hm).2.2) (by
    intro m hm h e hh p hp
    obtain ⟨k1, k2, k3, k4, k5⟩ := hs m hm p hp
    obtain ⟨hc, hoff⟩ := SeesBlock.clear (hb m hm).1 e hh k1 k2 k3 k4
    have eb : h.body = solidOf m.dataset.coords.rows := by rw [← e]; rfl
    exact ⟨SeesBlock.decided (hb m hm).1 k1 k2 k3 k4 h e hh, SeesBlock.offLines (hb m hm).1 k1 k2 k3 k4 e hh, ⟨SeesBlock.regular (hb m hm).1 e hh k1, hc, hoff⟩,
      by rw [eb, (hb m hm).1.solid]; exact k5⟩)
  refine ⟨K, hK, fun rnd δ h1 h2 h3 lib hl => ?_⟩
  obtain ⟨t, k1, k2, k3⟩ := k rnd δ h1 h2 h3 lib hl
  refine ⟨t, k1, k2, fun i p hip => ?_⟩
  obtain ⟨row, e1, e2, e3⟩ := k3 i p hip
  refine ⟨row, e1, e2, ?_⟩
  have hp := List.mem_of_getElem? hip
  have key : ∀ f : V3 ℝ → ℝ, sumOver ms (fun B => f (attraction B p)) = (ms.map fun m => f (nagyField (lo m).x (hi m).x (lo m).y (hi m).y (lo m).z (hi m).z p)).sum := by
    intro f
    unfold sumOver
    congr 1
    apply List.map_congr_left
    intro m hm
    show f (attraction (solidOf m.dataset.coords.rows) p) = _
    rw [(hb m hm).1.solid, block_attraction (hb m hm).1.hx.le (hb m hm).1.hy.le (hb m hm).1.hz.le]
    rfl
  have key2 : ∀ f : M3 ℝ → ℝ, sumOver ms (fun B => f (tidal B p)) = (ms.map fun m => f (nagyTensor (lo m).x (hi m).x (lo m).y (hi m).y (lo m).z (hi m).z p)).sum := by
    intro f
    unfold sumOver
    congr 1
    apply List.map_congr_left
    intro m hm
    obtain ⟨k1, k2, k3, k4, k5⟩ := hs m hm p hp
    show f (tidal (solidOf m.dataset.coords.rows) p) = _
    rw [nagy_tidal (hb m hm).1 k1 k2 k3 k4 k5]
  have e : fieldColumns ms ρ Gc p = nagyColumns ms lo hi ρ Gc p := by
    unfold fieldColumns nagyColumns
    rw [key V3.x, key V3.y, key V3.z, key2 (fun T => T.r0.x), key2 (fun T => T.r0.y), key2 (fun T => T.r0.z), key2 (fun T => T.r1.y), key2 (fun T => T.r1.z),
      key2 (fun T => T.r2.z)]
  rw [← e]
  exact e3

/-! ### The cube of the tests -/

theorem testCube_points : BlockPoints testCube (-1/2) (1/2) (-1/2) (1/2) (-1) 0 := by
  refine ⟨by simp [testCube]; norm_num, fun p hp => .inl ?_⟩
  simp only [testCube, List.mem_cons, List.not_mem_nil, or_false] at hp
  rcases hp with rfl | rfl | rfl | rfl | rfl | rfl | rfl | rfl <;> simp

/-- the station (0, 1, 1/4) -/
theorem testCube_seen_aside : SeesBlock testCube (-1/2) (1/2) (-1/2) (1/2) (-1) 0 5 ⟨0, 1, 1/4⟩ := by
  refine testCube_sees (by norm_num) (by norm_num) (by rw [abs_le]; norm_num) ?_ ?_ ?_ <;>
  · intro c hc
    apply apart_of
    simp only [List.mem_cons, List.not_mem_nil, or_false] at hc
    rcases hc with rfl | rfl <;> norm_num

/-- C116: the tensor of the cube of the tests at (0, 1, 1/4), in floating point with any hull library -/
example : ∃ K, 0 < K ∧ ∀ (rnd : ℝ → ℝ) (δ : ℝ), 0 < δ → δ ≤ 1 / K → (∀ a, |a| ≤ K → |rnd a - a| ≤ δ * max 1 |a|) → ∀ (h' : Hull ℝ) (inHull' : V3 ℝ → Bool),
    h'.points = testCube.map (V3.rounded rnd) → h'.IsHull → h'.Tidy → ∃ p' G' T',
    @mkPoly ℝ (roundArith rnd) h' inHull' = .ok p' ∧
    @Call.onNew ℝ (roundArith rnd) p' ⟨V3.rounded rnd ⟨0, 1, 1/4⟩, rnd 1000, rnd 1, true⟩ = .ok (G', T') ∧
    |T'.r2.z - 1000000000 * 1 * 1000 * (nagyTensor (-1/2) (1/2) (-1/2) (1/2) (-1) 0 ⟨0, 1, 1/4⟩).r2.z| ≤ K * δ := by
  obtain ⟨K, hK, k⟩ := C116_tensor_float testCube_spans testCube_points testCube_seen_aside (by norm_num) (by norm_num) (by norm_num) 1000 1
  refine ⟨K, hK, fun rnd δ h1 h2 h3 h' inHull' e hh ht => ?_⟩
  obtain ⟨p', G', T', k1, k2, k3⟩ := k rnd δ h1 h2 h3 h' inHull' e hh ht
  exact ⟨p', G', T', k1, k2, k3.2.2.2.2⟩

/-- a configuration with the cube of the tests as the body and (0, 1, 1/4) as the observation point -/
def cubeConfig : View ℝ := View.root [.dict [
  ("masses", .list [.dict [("density", .num false 1000), ("gravity_constant", .num false 1), ("points", .list (testCube.map pointVal)), ("file_path", .null),
    ("crs", crsVal "cart" "ellps")]]),
  ("observers", observersVal "cart" "ellps" ⟨0, 1, 1/4⟩)]]

/-- its body as read -/
def cubeMass : Mass ℝ := ⟨1000, 1, ⟨⟨testCube, false⟩, ⟨.CART, none, none, .ELLPS⟩⟩⟩

theorem cubeConfig_plain : PlainConfig cubeConfig [⟨[.ok (.dict [("density", .num false 1000), ("gravity_constant", .num false 1),
    ("points", .list (testCube.map pointVal)), ("file_path", .null), ("crs", crsVal "cart" "ellps")])]⟩] := by
  have hr : readRef (⟨[.ok (crsVal "cart" "ellps")]⟩ : View ℝ) = .ok .CART := by
    have h2 : ((⟨[.ok (crsVal "cart" "ellps")]⟩ : View ℝ).at "ref").getOptStr "ellps" = .ok "cart" := rfl
    simp only [readRef, h2, Bind.bind, Except.bind, findMember_cart]; rfl
  refine ⟨⟨rfl, ?_⟩, ⟨.inl ⟨_, _, rfl⟩, hr⟩⟩
  intro w hw
  rw [List.mem_singleton] at hw
  subst hw
  exact ⟨.inl ⟨.inl ⟨_, _, rfl⟩, hr⟩, ⟨_, _, rfl⟩, ⟨_, _, rfl⟩⟩

theorem cubeConfig_masses : getMasses toyGeo noFiles cubeConfig = .ok [cubeMass] := by
  have h2 : (cubeConfig.at "masses").iter = .ok [⟨[.ok (.dict [("density", .num false 1000), ("gravity_constant", .num false 1),
    ("points", .list (testCube.map pointVal)), ("file_path", .null), ("crs", crsVal "cart" "ellps")])]⟩] := rfl
  have h4 : readCoords noFiles ⟨[.ok (.dict [("density", .num false 1000), ("gravity_constant", .num false 1),
    ("points", .list (testCube.map pointVal)), ("file_path", .null), ("crs", crsVal "cart" "ellps")])]⟩ = .ok ⟨testCube, false⟩ := rfl
  have h5 : (⟨[.ok (.dict [("density", .num false 1000), ("gravity_constant", .num false 1),
    ("points", .list (testCube.map pointVal)), ("file_path", .null), ("crs", crsVal "cart" "ellps")])]⟩ : View ℝ).at "crs" = ⟨[.ok (crsVal "cart" "ellps")]⟩ := rfl
  simp only [getMasses, h2, Bind.bind, Except.bind, List.mapM_cons, List.mapM_nil, getMass, getDataset, h4, h5, getCrs_plain findMember_cart (.inl rfl)]
  rfl

theorem cubeConfig_observer : getObserver toyGeo noFiles cubeConfig = .ok (mkObserver ⟨⟨[⟨0, 1, 1/4⟩], false⟩, ⟨.CART, none, none, .ELLPS⟩⟩) := by
  have h4 : readCoords noFiles (cubeConfig.at "observers") = .ok ⟨[⟨0, 1, 1/4⟩], false⟩ := rfl
  have h5 : (cubeConfig.at "observers").at "crs" = ⟨[.ok (crsVal "cart" "ellps")]⟩ := rfl
  simp only [getObserver, getDataset, h4, h5, getCrs_plain findMember_cart (.inl rfl), Bind.bind, Except.bind]
  rfl

/-- C116: the run for the cube of the tests: the table is near the formula of Nagy in any precise enough arithmetic, with any hull library -/
example : ∃ K, 0 < K ∧ ∀ (rnd : ℝ → ℝ) (δ : ℝ), 0 < δ → δ ≤ 1 / K → (∀ a, |a| ≤ K → |rnd a - a| ≤ δ * max 1 |a|) → ∀ lib : HullLib ℝ,
    (∀ m ∈ [cubeMass], ∃ H, lib.convexHull (m.dataset.coords.rows.map (V3.rounded rnd)) = .ok H ∧ H.points = m.dataset.coords.rows.map (V3.rounded rnd) ∧
      H.IsHull ∧ H.Tidy) →
    ∃ t row, @runTable ℝ (roundArith rnd) toyGeo (noFiles.mapNum rnd) lib (cubeConfig.mapNum rnd) true = .ok t ∧ t.rows[0]? = some row ∧
      List.Forall₂ (fun a b => |a - b| ≤ K * δ) (row.drop 3) (nagyColumns [cubeMass] (fun _ => ⟨-1/2, -1/2, -1⟩) (fun _ => ⟨1/2, 1/2, 0⟩) 1000 1 ⟨0, 1, 1/4⟩) := by
  obtain ⟨K, hK, k⟩ := C116_run_float toyGeo noFiles cubeConfig _ cubeConfig_plain rfl [cubeMass] cubeConfig_masses (List.cons_ne_nil _ _) _ cubeConfig_observer
    (List.cons_ne_nil _ _) 1000 1 (by intro m hm; rw [List.mem_singleton] at hm; subst hm; exact ⟨rfl, rfl⟩) (fun _ => ⟨-1/2, -1/2, -1⟩) (fun _ => ⟨1/2, 1/2, 0⟩) 5
    (by intro m hm; rw [List.mem_singleton] at hm; subst hm; exact ⟨testCube_spans, testCube_points⟩) (by
      intro m hm p hp
      rw [List.mem_singleton] at hm
      subst hm
      obtain rfl : p = ⟨0, 1, 1/4⟩ := List.mem_singleton.mp hp
      refine ⟨testCube_seen_aside, by norm_num, by norm_num, by norm_num, fun h => ?_⟩
      have h2 : (1 : ℝ) ≤ 1 / 2 := h.2.1.2
      norm_num at h2)
  refine ⟨K, hK, fun rnd δ h1 h2 h3 lib hl => ?_⟩
  obtain ⟨t, k1, -, k2⟩ := k rnd δ h1 h2 h3 lib hl
  obtain ⟨row, e1, -, e2⟩ := k2 0 ⟨0, 1, 1/4⟩ rfl
  exact ⟨t, row, k1, e1, e2⟩

end
end Geec

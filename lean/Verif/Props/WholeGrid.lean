import Verif.Props.WholePrism
import Verif.Props.WholeDensities
import Verif.Props.RunGrid
/-
C127: from texts to texts with a grid of observation points.
-/
namespace Geec
open Arith
noncomputable section

/-- the first `n` values from `a` with step `s` -/
def steps (a s : ℝ) (n : ℕ) : List ℝ := (List.range n).map fun i : ℕ => a + i * s

/-- Going from `a` with the step `s`, `n` values come before `b`, at least one: the last of them is before `b`, the next one is not. -/
def StepsBefore (a b s : ℝ) (n : ℕ) : Prop := 1 ≤ n ∧ (0 < s ∧ a + (n - 1) * s < b ∧ b ≤ a + n * s ∨ s < 0 ∧ b < a + (n - 1) * s ∧ a + n * s ≤ b)

/-- The configuration says an axis of the grid by three numbers, and `n` values of it come before its end. -/
def SaysAxis (e : Surroundings ℝ) (w : Val ℚ) (name : String) (xs : List ℝ) : Prop :=
  ∃ i j k a b s n, Says w ["grid", name] (.list [.num i a, .num j b, .num k s]) ∧ StepsBefore (e.lit a) (e.lit b) (e.lit s) n ∧ xs = steps (e.lit a) (e.lit s) n

/-- A configuration of Cartesian bodies, observed at the nodes of a Cartesian grid, the last coordinate changing first; the other parameters are there, with any values. -/
structure SaysGridRun (e : Surroundings ℝ) (d : Disk) (v : Val ℚ) (bodies : List (BodyEntry ℝ)) (pts : List (V3 ℝ)) : Prop where
  masses : ∃ vs, Says v ["masses"] (.list vs) ∧ List.Forall₂ (SaysBody e d) vs bodies
  observers : ∃ w, Says v ["observers"] w ∧ Says w ["points"] .null ∧ Says w ["file_path"] .null ∧
    (∃ s : String, Says w ["crs", "ref"] (.str s) ∧ s.toUpper = "CART") ∧
    (∀ p ∈ [["crs", "name"], ["crs", "semimajor_axis"], ["crs", "semiminor_axis"], ["crs", "longitude_origin"], ["crs", "latitude_origin"], ["crs", "altitude_origin"]], ∃ x, Says w p x) ∧
    ∃ xs ys zs, SaysAxis e w "xstart_xend_xstep" xs ∧ SaysAxis e w "ystart_yend_ystep" ys ∧ SaysAxis e w "zstart_zend_zstep" zs ∧
      pts = xs.flatMap fun x => ys.flatMap fun y => zs.map fun z => ⟨x, y, z⟩

theorem StepsBefore.count {a b s : ℝ} {n : ℕ} (h : StepsBefore a b s n) : axisCount Int.ceil a b s = .ok n := by
  obtain ⟨-, h⟩ := h
  have hs : s ≠ 0 := by rcases h with h | h; exacts [h.1.ne', h.1.ne]
  have hc : ⌈(b - a) / s⌉ = (n : ℤ) := by
    rw [Int.ceil_eq_iff]
    push_cast
    rcases h with ⟨h1, h2, h3⟩ | ⟨h1, h2, h3⟩
    · exact ⟨by rw [lt_div_iff₀ h1]; linarith, by rw [div_le_iff₀ h1]; linarith⟩
    · exact ⟨by rw [lt_div_iff_of_neg h1]; linarith, by rw [div_le_iff_of_neg h1]; linarith⟩
  simp only [axisCount, Arith.eq, Arith.zero, Arith.sub, Arith.div, decide_eq_true_eq, hs, if_false, hc]
  simp

theorem steps_eq (a s : ℝ) (n : ℕ) : axisValues a s n = steps a s n := by
  unfold axisValues steps
  apply List.map_congr_left
  intro i _
  show (i : ℝ) * s + a = _
  ring

theorem says_dict {v x : Val ℚ} {k k' : String} (h : Says v [k, k'] x) : ∃ key y items, Says v [k] (.dict ((key, y) :: items)) := by
  unfold Says at h
  simp only [List.map_cons, List.map_nil, Val.lookup] at h
  rcases hs : v.sub (.name k) with y | _ | _
  · rw [hs] at h
    rcases y with _ | _ | _ | _ | _ | items
    all_goals first | (exfalso; simp [Val.sub] at h; done) | skip
    rcases items with _ | ⟨⟨key, y⟩, items⟩
    · simp [Val.sub, assoc] at h
    · exact ⟨key, y, items, by unfold Says; simp [Val.lookup, hs]⟩
  · rw [hs] at h; cases h
  · rw [hs] at h; cases h

/-- **C127** The bodies and the observation points of a run with a grid are those that the configuration file says, whatever the other configuration files say. -/
theorem C127_read (e : Surroundings ℝ) (hceil : e.ceil = Int.ceil) {d : Disk} (hd : d.WF) (h0 : d [] = some .dir) {v : Val ℚ} {bodies : List (BodyEntry ℝ)} {pts : List (V3 ℝ)}
    (h : SaysGridRun e d v bodies pts) : Reads e d v bodies pts := by
  intro user dflt
  have hroot : (View.root (setupSources (some (v.read e.lit)) user dflt)).Top (v.read e.lit) := ⟨_, rfl⟩
  generalize View.root (setupSources (some (v.read e.lit)) user dflt) = cfg at hroot
  obtain ⟨vs, h1, h2⟩ := h.masses
  obtain ⟨w, h3, hp, hf, ⟨s, hs, hs'⟩, hoth, xs, ys, zs, hx, hy, hz, rfl⟩ := h.observers
  have ho := hroot.says h3
  rw [View.path_one] at ho
  obtain ⟨ws, hiter, k1, ms, k2, k3⟩ := bodies_read e hd h0 h1 h2 hroot
  obtain ⟨i1, i2, i3, xa, xb, xs', nx, hx1, hx2, rfl⟩ := hx
  obtain ⟨j1, j2, j3, ya, yb, ys', ny, hy1, hy2, rfl⟩ := hy
  obtain ⟨l1, l2, l3, za, zb, zs', nz, hz1, hz2, rfl⟩ := hz
  have hgrid : GridSection (cfg.at "observers") ⟨e.lit xa, e.lit xb, e.lit xs'⟩ ⟨e.lit ya, e.lit yb, e.lit ys'⟩ ⟨e.lit za, e.lit zb, e.lit zs'⟩
      ((i1 && i2 && i3) && (j1 && j2 && j3) && (l1 && l2 && l3)) := by
    refine ⟨?_, ?_, ?_, ⟨i1, i2, i3, j1, j2, j3, l1, l2, l3, rfl, ?_, ?_, ?_⟩, ?_⟩
    · have := (ho.says hp).first
      rwa [read_null] at this
    · have := (ho.says hf).first
      rwa [read_null] at this
    · obtain ⟨key, y, items, hk⟩ := says_dict hx1
      have := (ho.says hk).first
      rw [View.path_one, Val.read, readDict] at this
      exact ⟨_, _, _, this⟩
    · have := (ho.says hx1).first
      simp only [read_list, List.map_cons, List.map_nil, read_num] at this
      exact this
    · have := (ho.says hy1).first
      simp only [read_list, List.map_cons, List.map_nil, read_num] at this
      exact this
    · have := (ho.says hz1).first
      simp only [read_list, List.map_cons, List.map_nil, read_num] at this
      exact this
    · have k := (ho.says hs).first
      rw [read_str] at k
      have k' : (((cfg.at "observers").at "crs").at "ref").first = .ok (.str s) := k
      simp only [readRef, View.getOptStr, k', Bind.bind, Except.bind, hs', findMember_CART]
      rfl
  have hob := getObserver_grid hgrid e.geodesy (Outside.ofDisk e.csv e.resolve e.ceil (setupLogger e.install d).2) realArith
    (nx := nx) (ny := ny) (nz := nz) (by rw [← hx2.count]; simp only [Outside.ofDisk, hceil]) (by rw [← hy2.count]; simp only [Outside.ofDisk, hceil])
    (by rw [← hz2.count]; simp only [Outside.ofDisk, hceil])
  refine ⟨?_, ⟨ms, ?_, k3⟩, ⟨_, hob, ?_, rfl, rfl, rfl⟩⟩
  · have hshow : showAll (cfg.at "observers") observersShown = .ok () := by
      refine showAll_found fun p hp' => ?_
      have hp' : p = ["points"] ∨ p = ["file_path"] ∨ p = ["crs", "ref"] ∨ p = ["grid", "xstart_xend_xstep"] ∨ p = ["grid", "ystart_yend_ystep"] ∨ p = ["grid", "zstart_zend_zstep"] ∨
          p ∈ [["crs", "name"], ["crs", "semimajor_axis"], ["crs", "semiminor_axis"], ["crs", "longitude_origin"], ["crs", "latitude_origin"], ["crs", "altitude_origin"]] := by
        simp only [observersShown, List.mem_cons, List.not_mem_nil, or_false] at hp' ⊢
        tauto
      rcases hp' with rfl | rfl | rfl | rfl | rfl | rfl | hp'
      · exact ⟨_, (ho.says hp).first⟩
      · exact ⟨_, (ho.says hf).first⟩
      · exact ⟨_, (ho.says hs).first⟩
      · exact ⟨_, (ho.says hx1).first⟩
      · exact ⟨_, (ho.says hy1).first⟩
      · exact ⟨_, (ho.says hz1).first⟩
      · obtain ⟨x, hx⟩ := hoth p hp'
        exact ⟨_, (ho.says hx).first⟩
    simp only [configShow, hiter, k1, hshow, Bind.bind, Except.bind]
  · simp only [getMasses, hiter, Bind.bind, Except.bind, k2]
  · show gridPoints _ _ _ = _
    rw [show @axisValues ℝ realArith = axisValues from rfl, steps_eq, steps_eq, steps_eq]
    rfl

theorem steps_ne_nil {a b s : ℝ} {n : ℕ} (h : StepsBefore a b s n) : ∃ x, x ∈ steps a s n :=
  ⟨a + (0 : ℕ) * s, List.mem_map.mpr ⟨0, List.mem_range.mpr h.1, rfl⟩⟩

theorem SaysGridRun.ne_nil {e : Surroundings ℝ} {d : Disk} {v : Val ℚ} {bodies : List (BodyEntry ℝ)} {pts : List (V3 ℝ)} (h : SaysGridRun e d v bodies pts) : pts ≠ [] := by
  obtain ⟨w, h3, hp, hf, hs, hoth, xs, ys, zs, hx, hy, hz, rfl⟩ := h.observers
  obtain ⟨i1, i2, i3, xa, xb, xs', nx, hx1, hx2, rfl⟩ := hx
  obtain ⟨j1, j2, j3, ya, yb, ys', ny, hy1, hy2, rfl⟩ := hy
  obtain ⟨l1, l2, l3, za, zb, zs', nz, hz1, hz2, rfl⟩ := hz
  obtain ⟨x, hx⟩ := steps_ne_nil hx2
  obtain ⟨y, hy⟩ := steps_ne_nil hy2
  obtain ⟨z, hz⟩ := steps_ne_nil hz2
  exact List.ne_nil_of_mem (List.mem_flatMap.mpr ⟨x, hx, List.mem_flatMap.mpr ⟨y, hy, List.mem_map.mpr ⟨z, hz, rfl⟩⟩⟩)

/-- **C127** From texts to texts with a grid.  The configuration file says Cartesian bodies of the same density and constant and a Cartesian grid of observation points by start, end
and step of its three axes.  Then `geec run` returns, and the output has, after the two lines of titles, a line for each node of the grid, the last coordinate changing first, with the
coordinates of the node, `1e5 Gc ρ` times the sum of Newton's integrals over the convex hulls of the points of the bodies, and six zeros. -/
theorem C127_run (e : Surroundings ℝ) (hceil : e.ceil = Int.ceil) (hlib : e.hull.Honest) (hplain : ∀ x, PlainField (e.csv.text x)) {d : Disk} {args : List (List Char)} {v : Val ℚ}
    {q : Path} (hcall : e.Calls d args false v q) {bodies : List (BodyEntry ℝ)} {pts : List (V3 ℝ)} (hsays : SaysGridRun e d v bodies pts) (hne : bodies ≠ [])
    (hhull : ∀ b ∈ bodies, ∃ h, e.hull.convexHull b.points = .ok h) {ρ Gc : ℝ} (hsame : SameDensity bodies ρ Gc) (hclear : ∀ p ∈ pts, ClearPoint e.hull bodies p) :
    ∃ d', geecProgram e args d = some (.done, d') ∧ (∀ r, r ≠ q → d' r = (setupLogger e.install d).2 r) ∧
      d' q = some (.text (outputText e.csv pts fun p => [
        100000 * Gc * ρ * bodySum bodies (fun B => (attraction B p).x),
        100000 * Gc * ρ * bodySum bodies (fun B => (attraction B p).y),
        100000 * Gc * ρ * bodySum bodies (fun B => (attraction B p).z), 0, 0, 0, 0, 0, 0])) :=
  run_of_reads e hlib hplain hcall (C127_read e hceil hcall.disk hcall.top hsays) hsays.ne_nil hne hhull hsame hclear

/-- **C127** The same with `--gradient`, at nodes outside the bodies: the last six numbers are `1e9 Gc ρ` times the sums of the tidal integrals. -/
theorem C127_gradient (e : Surroundings ℝ) (hceil : e.ceil = Int.ceil) (hlib : e.hull.Honest) (hplain : ∀ x, PlainField (e.csv.text x)) {d : Disk} {args : List (List Char)} {v : Val ℚ}
    {q : Path} (hcall : e.Calls d args true v q) {bodies : List (BodyEntry ℝ)} {pts : List (V3 ℝ)} (hsays : SaysGridRun e d v bodies pts) (hne : bodies ≠ [])
    (hhull : ∀ b ∈ bodies, ∃ h, e.hull.convexHull b.points = .ok h) {ρ Gc : ℝ} (hsame : SameDensity bodies ρ Gc) (hclear : ∀ p ∈ pts, ClearTensor e.hull bodies p) :
    ∃ d', geecProgram e args d = some (.done, d') ∧ (∀ r, r ≠ q → d' r = (setupLogger e.install d).2 r) ∧
      d' q = some (.text (outputText e.csv pts fun p => [
        100000 * Gc * ρ * bodySum bodies (fun B => (attraction B p).x),
        100000 * Gc * ρ * bodySum bodies (fun B => (attraction B p).y),
        100000 * Gc * ρ * bodySum bodies (fun B => (attraction B p).z),
        1000000000 * Gc * ρ * bodySum bodies (fun B => (tidal B p).r0.x),
        1000000000 * Gc * ρ * bodySum bodies (fun B => (tidal B p).r0.y),
        1000000000 * Gc * ρ * bodySum bodies (fun B => (tidal B p).r0.z),
        1000000000 * Gc * ρ * bodySum bodies (fun B => (tidal B p).r1.y),
        1000000000 * Gc * ρ * bodySum bodies (fun B => (tidal B p).r1.z),
        1000000000 * Gc * ρ * bodySum bodies (fun B => (tidal B p).r2.z)])) :=
  gradient_of_reads e hlib hplain hcall (C127_read e hceil hcall.disk hcall.top hsays) hsays.ne_nil hne hhull hsame hclear

namespace Whole

/-- the surroundings with a hull library for the block -/
noncomputable def aroundCube : Surroundings ℝ := { around with hull := cubeLib }

theorem cubeLib_honest : cubeLib.Honest := by
  intro pts h hh
  simp only [cubeLib] at hh
  split at hh
  · rename_i e
    cases hh
    obtain ⟨k1, k2, -⟩ := Classical.choose_spec (hull_of_firm cube_firm)
    exact ⟨k1.trans e.symm, k2⟩
  · cases hh

/-- a configuration file with a block and a grid -/
def gridFile : List (List Char) := [
  "masses:".toList,
  "  - density: 2".toList,
  "    gravity_constant: 1".toList,
  "    points: [[0, 0, 0], [1, 0, 0], [0, 1, 0], [1, 1, 0], [0, 0, 1], [1, 0, 1], [0, 1, 1], [1, 1, 1]]".toList,
  "    file_path:".toList,
  "    crs:".toList,
  "      ref: cart".toList,
  "      name:".toList,
  "      vdatum:".toList,
  "      semimajor_axis:".toList,
  "      semiminor_axis:".toList,
  "      longitude_origin:".toList,
  "      latitude_origin:".toList,
  "      altitude_origin:".toList,
  "observers:".toList,
  "  points:".toList,
  "  file_path:".toList,
  "  crs:".toList,
  "    ref: cart".toList,
  "    name:".toList,
  "    vdatum:".toList,
  "    semimajor_axis:".toList,
  "    semiminor_axis:".toList,
  "    longitude_origin:".toList,
  "    latitude_origin:".toList,
  "    altitude_origin:".toList,
  "  grid:".toList,
  "    xstart_xend_xstep: [2, 3, 1]".toList,
  "    ystart_yend_ystep: [2, 5, 2]".toList,
  "    zstart_zend_zstep: [5, 8, 5]".toList]

/-- what is written in it -/
def gridValue : List (String × Val ℚ) := [("masses", .list [.dict [("density", .num true 2), ("gravity_constant", .num true 1), ("points", .list cubePts), ("file_path", .null), 
  ("crs", .dict [("ref", .str "cart"), ("name", .null), ("vdatum", .null), ("semimajor_axis", .null), ("semiminor_axis", .null), ("longitude_origin", .null), ("latitude_origin", .null), ("altitude_origin", .null)])]]), 
  ("observers", .dict [("points", .null), ("file_path", .null), 
  ("crs", .dict [("ref", .str "cart"), ("name", .null), ("vdatum", .null), ("semimajor_axis", .null), ("semiminor_axis", .null), ("longitude_origin", .null), ("latitude_origin", .null), ("altitude_origin", .null)]), 
  ("grid", .dict [("xstart_xend_xstep", .list [.num true 2, .num true 3, .num true 1]), ("ystart_yend_ystep", .list [.num true 2, .num true 5, .num true 2]), ("zstart_zend_zstep", .list [.num true 5, .num true 8, .num true 5])])])]

theorem n3 : Inline ['3'] (.num true 3) := by simpa [digitOf] using digit_inline (c := '3') (by decide)
theorem n8 : Inline ['8'] (.num true 8) := by simpa [digitOf] using digit_inline (c := '8') (by decide)
theorem tri_231 : Inline "[2, 3, 1]".toList (.list [.num true 2, .num true 3, .num true 1]) := by
  have := triple_inline n2 n3 n1
  rw [show "[2, 3, 1]".toList = ['[', '2', ',', ' ', '3', ',', ' ', '1', ']'] by decide +kernel]
  exact this

theorem tri_252 : Inline "[2, 5, 2]".toList (.list [.num true 2, .num true 5, .num true 2]) := by
  have := triple_inline n2 n5 n2
  rw [show "[2, 5, 2]".toList = ['[', '2', ',', ' ', '5', ',', ' ', '2', ']'] by decide +kernel]
  exact this

theorem tri_585 : Inline "[5, 8, 5]".toList (.list [.num true 5, .num true 8, .num true 5]) := by
  have := triple_inline n5 n8 n5
  rw [show "[5, 8, 5]".toList = ['[', '5', ',', ' ', '8', ',', ' ', '5', ']'] by decide +kernel]
  exact this

theorem grid_lines : List.Forall₂ YamlLine gridFile [[(0, "masses:".toList)], [(2, ['-']), (4, "density: 2".toList)], [(4, "gravity_constant: 1".toList)], [(4, "points: [[0, 0, 0], [1, 0, 0], [0, 1, 0], [1, 1, 0], [0, 0, 1], [1, 0, 1], [0, 1, 1], [1, 1, 1]]".toList)], [(4, "file_path:".toList)], [(4, "crs:".toList)], [(6, "ref: cart".toList)], [(6, "name:".toList)], [(6, "vdatum:".toList)], [(6, "semimajor_axis:".toList)], [(6, "semiminor_axis:".toList)], [(6, "longitude_origin:".toList)], [(6, "latitude_origin:".toList)], [(6, "altitude_origin:".toList)], [(0, "observers:".toList)], [(2, "points:".toList)], [(2, "file_path:".toList)], [(2, "crs:".toList)], [(4, "ref: cart".toList)], [(4, "name:".toList)], [(4, "vdatum:".toList)], [(4, "semimajor_axis:".toList)], [(4, "semiminor_axis:".toList)], [(4, "longitude_origin:".toList)], [(4, "latitude_origin:".toList)], [(4, "altitude_origin:".toList)], [(2, "grid:".toList)], [(4, "xstart_xend_xstep: [2, 3, 1]".toList)], [(4, "ystart_yend_ystep: [2, 5, 2]".toList)], [(4, "zstart_zend_zstep: [5, 8, 5]".toList)]] :=
  (.cons (y_text (by decide +kernel)) (.cons (y_hyphen (i := 2) (by decide +kernel)) (.cons (y_text (by decide +kernel)) (.cons (y_text (by decide +kernel)) (.cons (y_text (by decide +kernel)) (.cons (y_text (by decide +kernel)) (.cons (y_text (by decide +kernel)) (.cons (y_text (by decide +kernel)) (.cons (y_text (by decide +kernel)) (.cons (y_text (by decide +kernel)) (.cons (y_text (by decide +kernel)) (.cons (y_text (by decide +kernel)) (.cons (y_text (by decide +kernel)) (.cons (y_text (by decide +kernel)) (.cons (y_text (by decide +kernel)) (.cons (y_text (by decide +kernel)) (.cons (y_text (by decide +kernel)) (.cons (y_text (by decide +kernel)) (.cons (y_text (by decide +kernel)) (.cons (y_text (by decide +kernel)) (.cons (y_text (by decide +kernel)) (.cons (y_text (by decide +kernel)) (.cons (y_text (by decide +kernel)) (.cons (y_text (by decide +kernel)) (.cons (y_text (by decide +kernel)) (.cons (y_text (by decide +kernel)) (.cons (y_text (by decide +kernel)) (.cons (y_text (by decide +kernel)) (.cons (y_text (by decide +kernel)) (.cons (y_text (by decide +kernel)) .nil))))))))))))))))))))))))))))))

theorem grid_writes : Writes gridFile (.dict gridValue) := by
  have h := Block.dict 0 _ _ (List.cons_ne_nil _ _)
    (e_block kw_masses (line := "masses:") (by decide +kernel) (by decide +kernel) (by decide : 0 < 2) (.list 2 _ _ (List.cons_ne_nil _ _) (.item 2 4 _ _ _ _ (by decide) (.dict 4 _ _ (List.cons_ne_nil _ _) (e_inline kw_density (line := "density: 2") (by decide +kernel) n2 (by decide +kernel) (e_inline kw_gravity_constant (line := "gravity_constant: 1") (by decide +kernel) n1 (by decide +kernel) (e_inline kw_points (line := "points: [[0, 0, 0], [1, 0, 0], [0, 1, 0], [1, 1, 0], [0, 0, 1], [1, 0, 1], [0, 1, 1], [1, 1, 1]]") (by decide +kernel) cubeInline (by decide +kernel) (e_null kw_file_path (line := "file_path:") (by decide +kernel) (by decide +kernel) (e_block kw_crs (line := "crs:") (by decide +kernel) (by decide +kernel) (by decide : 4 < 6) (.dict 6 _ _ (List.cons_ne_nil _ _) (e_inline kw_ref (line := "ref: cart") (by decide +kernel) (w_inline w_cart) (by decide +kernel) (e_null kw_name (line := "name:") (by decide +kernel) (by decide +kernel) (e_null kw_vdatum (line := "vdatum:") (by decide +kernel) (by decide +kernel) (e_null kw_semimajor_axis (line := "semimajor_axis:") (by decide +kernel) (by decide +kernel) (e_null kw_semiminor_axis (line := "semiminor_axis:") (by decide +kernel) (by decide +kernel) (e_null kw_longitude_origin (line := "longitude_origin:") (by decide +kernel) (by decide +kernel) (e_null kw_latitude_origin (line := "latitude_origin:") (by decide +kernel) (by decide +kernel) (e_null kw_altitude_origin (line := "altitude_origin:") (by decide +kernel) (by decide +kernel) (.nil 6)))))))))) (.nil 4))))))) (.nil 2))) (e_block kw_observers (line := "observers:") (by decide +kernel) (by decide +kernel) (by decide : 0 < 2) (.dict 2 _ _ (List.cons_ne_nil _ _) (e_null kw_points (line := "points:") (by decide +kernel) (by decide +kernel) (e_null kw_file_path (line := "file_path:") (by decide +kernel) (by decide +kernel) (e_block kw_crs (line := "crs:") (by decide +kernel) (by decide +kernel) (by decide : 2 < 4) (.dict 4 _ _ (List.cons_ne_nil _ _) (e_inline kw_ref (line := "ref: cart") (by decide +kernel) (w_inline w_cart) (by decide +kernel) (e_null kw_name (line := "name:") (by decide +kernel) (by decide +kernel) (e_null kw_vdatum (line := "vdatum:") (by decide +kernel) (by decide +kernel) (e_null kw_semimajor_axis (line := "semimajor_axis:") (by decide +kernel) (by decide +kernel) (e_null kw_semiminor_axis (line := "semiminor_axis:") (by decide +kernel) (by decide +kernel) (e_null kw_longitude_origin (line := "longitude_origin:") (by decide +kernel) (by decide +kernel) (e_null kw_latitude_origin (line := "latitude_origin:") (by decide +kernel) (by decide +kernel) (e_null kw_altitude_origin (line := "altitude_origin:") (by decide +kernel) (by decide +kernel) (.nil 4)))))))))) (e_block kw_grid (line := "grid:") (by decide +kernel) (by decide +kernel) (by decide : 2 < 4) (.dict 4 _ _ (List.cons_ne_nil _ _) (e_inline kw_xstart_xend_xstep (line := "xstart_xend_xstep: [2, 3, 1]") (by decide +kernel) tri_231 (by decide +kernel) (e_inline kw_ystart_yend_ystep (line := "ystart_yend_ystep: [2, 5, 2]") (by decide +kernel) tri_252 (by decide +kernel) (e_inline kw_zstart_zend_zstep (line := "zstart_zend_zstep: [5, 8, 5]") (by decide +kernel) tri_585 (by decide +kernel) (.nil 4))))) (.nil 2)))))) (.nil 0)))
  refine ⟨0, _, grid_lines, ?_⟩
  unfold gridValue
  simpa only [List.flatten_cons, List.flatten_nil, List.cons_append, List.nil_append, List.append_nil] using h

theorem grid_plain : PlainLines gridFile := by
  have h : gridFile.all (fun l => l.all fun c => 32 ≤ c.toNat && c.toNat ≤ 126) = true := by decide +kernel
  intro l hl c hc
  have := List.all_eq_true.mp (List.all_eq_true.mp h l hl) c hc
  simp only [Bool.and_eq_true, decide_eq_true_eq] at this
  exact .inl this

/-- what is on the gridDisk -/
def gridContents : List (Path × Node) := [([], .dir), (["a".toList], .dir), (["a".toList, "geec".toList], .dir), (["a".toList, "geec".toList, "data".toList], .dir),
  (["a".toList, "geec".toList, "data".toList, "geoids".toList], .dir),
  (["a".toList, "geec".toList, "data".toList, "geoids".toList, "egm2008-2_5.pgm".toList], .text "P5".toList),
  (["a".toList, "geec".toList, "data".toList, "geoids".toList, "egm96-5.pgm".toList], .text "P5".toList),
  (["a".toList, "geec".toList, "data".toList, "geoids".toList, "egm84-15.pgm".toList], .text "P5".toList),
  (["a".toList, "in.yaml".toList], .text (unlines gridFile)), (["a".toList, "p.csv".toList], .text "2,3,5\n".toList)]

/-- the gridDisk -/
def gridDisk : Disk := fun p => (gridContents.find? (·.1 = p)).map (·.2)

theorem grid_wf : gridDisk.WF := by
  have h : gridContents.all (fun x => x.1 == [] || decide (gridDisk x.1.dropLast = some .dir)) = true := by decide +kernel
  intro p c hp
  rcases hf : gridContents.find? (·.1 = p ++ [c]) with _ | x
  · exact absurd (by rw [gridDisk, hf]; rfl) hp
  · have h1 := List.all_eq_true.mp h x (List.mem_of_find?_eq_some hf)
    have h2 : x.1 = p ++ [c] := by simpa using List.find?_some hf
    rw [h2] at h1
    simpa using h1

theorem grid_calls (gr : Bool) : aroundCube.Calls gridDisk (theWords (if gr then "--gradient" else "--no-gradient")) gr (.dict gridValue) ["a".toList, "out.csv".toList] where
  disk := grid_wf
  top := by decide +kernel
  grids := by
    intro n hn
    refine ⟨"P5".toList, ?_, by decide +kernel⟩
    simp only [List.mem_cons, List.not_mem_nil, or_false] at hn
    show gridDisk (["a".toList] ++ ["geec".toList, "data".toList, "geoids".toList, n]) = some (.text "P5".toList)
    rcases hn with rfl | rfl | rfl <;> decide +kernel
  logger := by
    have h : isOkB (setupLogger install gridDisk).1 = true := by decide +kernel
    show (setupLogger install gridDisk).1 = .ok ()
    rcases hh : (setupLogger install gridDisk).1 with e | u
    · rw [hh] at h; cases h
    · rfl
  other := by
    have h1 : gridDisk ["home".toList, "config.yaml".toList] = none := by decide +kernel
    have h2 : gridDisk (install.cfg ++ ["config_default.yaml".toList]) = none := by decide +kernel
    refine ⟨.dict [], .dict [], .missing fun t h => ?_, .missing fun t h => ?_, ?_, ?_⟩
    · exact absurd (h1.symm.trans h) (by simp)
    · exact absurd (h2.symm.trans h) (by simp)
    · show ["home".toList, "config.yaml".toList] ≠ install.logFile
      decide +kernel
    · show install.cfg ++ ["config_default.yaml".toList] ≠ install.logFile
      decide +kernel
  words := by
    refine ⟨["--gradient".toList, "out.txt".toList, "--config=in.yaml".toList, (if gr then "--gradient" else "--no-gradient").toList],
      [("--gradient".toList, []), ("--config".toList, "in.yaml".toList), ((if gr then "--gradient" else "--no-gradient").toList, [])], "out.txt".toList, "in.yaml".toList,
      gridFile, gridValue, .inl rfl, ?_, ?_, ?_, ?_, by decide +kernel, ?_, ?_, grid_plain, rfl, grid_writes, by decide +kernel, ?_⟩
    · refine .flag _ _ _ _ (by simp) (.operand _ _ _ _ rfl (.inl (by decide +kernel)) ?_)
      rw [show "--config=in.yaml".toList = "--config".toList ++ '=' :: "in.yaml".toList by decide +kernel]
      refine .attached _ _ _ _ _ (by simp) (.flag _ _ _ _ ?_ .nil)
      cases gr <;> simp
    · rintro ⟨v, hv⟩
      simp only [List.mem_cons, List.not_mem_nil, or_false, Prod.mk.injEq] at hv
      rcases hv with ⟨h, -⟩ | ⟨h, -⟩ | ⟨h, -⟩
      · exact absurd h (by decide +kernel)
      · exact absurd h (by decide +kernel)
      · cases gr
        · exact absurd h (by decide +kernel)
        · exact absurd h (by decide +kernel)
    · refine .inl ⟨[("--gradient".toList, [])], [((if gr then "--gradient" else "--no-gradient").toList, [])], rfl, fun w hw => ?_⟩
      simp only [List.mem_cons, List.not_mem_nil, or_false, Prod.mk.injEq] at hw
      cases gr
      · exact absurd hw.1 (by decide +kernel)
      · exact absurd hw.1 (by decide +kernel)
    · cases gr
      · refine ⟨fun h => (by cases h), ?_⟩
        intro h
        have h' := (gradient_iff _).mp h
        exact absurd h' (by decide +kernel)
      · refine ⟨fun _ => ⟨[("--gradient".toList, []), ("--config".toList, "in.yaml".toList)], [], [], rfl, by simp⟩, fun _ => rfl⟩
    · show ["a".toList, (String.ofList "in.yaml".toList).toList] ≠ install.logFile
      decide +kernel
    · show gridDisk ["a".toList, (String.ofList "in.yaml".toList).toList] = some (.text (unlines gridFile))
      decide +kernel
    · exact pathSuffixReplaced_iff.mpr (by rfl)
  place := by decide +kernel
  free := by
    refine ⟨by decide +kernel, ?_⟩
    show ¬ ["a".toList, "out.csv".toList] <+: install.logdir
    decide +kernel
  writable := rfl



theorem grid_says : SaysGridRun aroundCube gridDisk (.dict gridValue) [cubeBody] [⟨2, 2, 5⟩, ⟨2, 4, 5⟩] where
  masses := by
    refine ⟨_, rfl, .cons ?_ .nil⟩
    refine ⟨⟨?_, ⟨"cart", rfl, cart_upper⟩, ?_⟩, ⟨true, 2, rfl, ?_⟩, ⟨true, 1, rfl, ?_⟩, ⟨.null, rfl⟩⟩
    · have := SaysPoints.listed (e := aroundCube) (d := gridDisk) (v := ?_) cubePts [⟨0, 0, 0⟩, ⟨1, 0, 0⟩, ⟨0, 1, 0⟩, ⟨1, 1, 0⟩, ⟨0, 0, 1⟩, ⟨1, 0, 1⟩, ⟨0, 1, 1⟩, ⟨1, 1, 1⟩] ?_ ?_ (by simp)
      · simpa [cubeBody, cubePoints, aroundCube, around] using this
      · rfl
      · exact .cons ⟨_, _, _, rfl⟩ (.cons ⟨_, _, _, rfl⟩ (.cons ⟨_, _, _, rfl⟩ (.cons ⟨_, _, _, rfl⟩ (.cons ⟨_, _, _, rfl⟩ (.cons ⟨_, _, _, rfl⟩ (.cons ⟨_, _, _, rfl⟩
          (.cons ⟨_, _, _, rfl⟩ .nil)))))))
    · intro p hp
      simp only [List.mem_cons, List.not_mem_nil, or_false] at hp
      rcases hp with rfl | rfl | rfl | rfl | rfl | rfl | rfl | rfl <;> exact ⟨_, rfl⟩
    · simp [cubeBody, aroundCube, around]
    · simp [cubeBody, aroundCube, around]
  observers := by
    refine ⟨_, rfl, rfl, rfl, ⟨"cart", rfl, cart_upper⟩, ?_, [2], [2, 4], [5], ⟨true, true, true, 2, 3, 1, 1, rfl, ?_, ?_⟩, ⟨true, true, true, 2, 5, 2, 2, rfl, ?_, ?_⟩,
      ⟨true, true, true, 5, 8, 5, 1, rfl, ?_, ?_⟩, by simp⟩
    · intro p hp
      simp only [List.mem_cons, List.not_mem_nil, or_false] at hp
      rcases hp with rfl | rfl | rfl | rfl | rfl | rfl <;> exact ⟨_, rfl⟩
    · refine ⟨le_refl _, .inl ?_⟩; simp only [aroundCube, around]; norm_num
    · norm_num [aroundCube, around, steps, List.range_succ]
    · refine ⟨by norm_num, .inl ?_⟩; simp only [aroundCube, around]; norm_num
    · norm_num [aroundCube, around, steps, List.range_succ]
    · refine ⟨le_refl _, .inl ?_⟩; simp only [aroundCube, around]; norm_num
    · norm_num [aroundCube, around, steps, List.range_succ]

theorem grid_beside : ∀ p ∈ [(⟨2, 2, 5⟩ : V3 ℝ), ⟨2, 4, 5⟩], BesidePrism cubeBody ⟨0, 0, 0⟩ ⟨1, 1, 1⟩ 7 p := by
  intro p hp
  have hp : p.x = 2 ∧ (p.y = 2 ∨ p.y = 4) ∧ p.z = 5 := by
    simp only [List.mem_cons, List.not_mem_nil, or_false] at hp
    rcases hp with rfl | rfl <;> norm_num
  obtain ⟨x, y, z⟩ := p
  obtain ⟨rfl, hy, rfl⟩ := hp
  dsimp only at hy
  refine ⟨⟨?_, ?_, ?_, ?_⟩, by norm_num, by rcases hy with rfl | rfl <;> norm_num, by norm_num, fun h => ?_⟩
  · intro p hp
    obtain ⟨a1, a2, a3, a4, a5, a6⟩ := cube_prism.1.inside p hp
    unfold vlen
    apply Real.sqrt_le_iff.mpr ⟨by norm_num, ?_⟩
    simp only [rdot, sub_x, sub_y, sub_z]
    rcases hy with rfl | rfl <;> nlinarith
  · intro c hc
    simp only [List.mem_cons, List.not_mem_nil, or_false] at hc
    rcases hc with rfl | rfl <;> apply apart_seven <;> norm_num
  · intro c hc
    simp only [List.mem_cons, List.not_mem_nil, or_false] at hc
    rcases hy with rfl | rfl <;> rcases hc with rfl | rfl <;> apply apart_seven <;> norm_num [abs_of_pos]
  · intro c hc
    simp only [List.mem_cons, List.not_mem_nil, or_false] at hc
    rcases hc with rfl | rfl <;> apply apart_seven <;> norm_num [abs_of_pos]
  · have h2 : (2 : ℝ) ≤ 1 := h.1.2
    norm_num at h2

theorem grid_clear : ∀ p ∈ [(⟨2, 2, 5⟩ : V3 ℝ), ⟨2, 4, 5⟩], ClearTensor cubeLib [cubeBody] p := by
  intro p hp
  have hb := grid_beside p hp
  have hz : p.z = 5 := by
    simp only [List.mem_cons, List.not_mem_nil, or_false] at hp
    rcases hp with rfl | rfl <;> rfl
  have hh : ∀ h, cubeLib.convexHull cubeBody.points = .ok h → _ := fun h e => prism_clear cube_prism hb (cubeLib_honest _ _ e).1 (cubeLib_honest _ _ e).2
  refine ⟨fun b hb' => ?_, fun b hb' => ?_⟩
  · obtain rfl : b = cubeBody := by simpa using hb'
    refine ⟨fun h => ?_, fun h e => (hh h e).2.2.1.regular⟩
    have := (cube_prism.1.inside p h).2.2.2.2.2
    rw [hz] at this
    norm_num at this
  · obtain rfl : b = cubeBody := by simpa using hb'
    refine ⟨fun a ha c hc heq => ?_, fun h e => (hh h e).2.2⟩
    have h1 : rdot (c.sub a) (c.sub a) = rdot (a.sub p) (a.sub p) := by
      have h := congrArg (fun t : ℝ => t * t) heq
      simpa only [vlen_sq] using h
    obtain ⟨a1, a2, a3, a4, a5, a6⟩ := cube_prism.1.inside a ha
    obtain ⟨c1, c2, c3, c4, c5, c6⟩ := cube_prism.1.inside c hc
    dsimp only at a1 a2 a3 a4 a5 a6 c1 c2 c3 c4 c5 c6
    simp only [rdot, sub_x, sub_y, sub_z, hz] at h1
    nlinarith [sq_nonneg (a.x - p.x), sq_nonneg (a.y - p.y), mul_nonneg (sub_nonneg.mpr a6) (sub_nonneg.mpr a6)]

theorem grid_hull : ∀ b ∈ [cubeBody], ∃ h, cubeLib.convexHull b.points = .ok h := by
  intro b hb
  obtain rfl : b = cubeBody := by simpa using hb
  exact ⟨_, if_pos rfl⟩

theorem grid_same : SameDensity [cubeBody] 2 1 := by
  intro b hb
  obtain rfl : b = cubeBody := by simpa using hb
  exact ⟨rfl, rfl⟩

/-- C127_run: the lines of the two nodes (2, 2, 5) and (2, 4, 5) of the grid -/
example : ∃ d', geecProgram aroundCube (theWords "--no-gradient") gridDisk = some (.done, d') ∧ d' ["a".toList, "out.csv".toList] =
    some (.text (outputText around.csv [⟨2, 2, 5⟩, ⟨2, 4, 5⟩] fun p => [100000 * 1 * 2 * bodySum [cubeBody] (fun B => (attraction B p).x),
      100000 * 1 * 2 * bodySum [cubeBody] (fun B => (attraction B p).y), 100000 * 1 * 2 * bodySum [cubeBody] (fun B => (attraction B p).z), 0, 0, 0, 0, 0, 0])) := by
  obtain ⟨d', h1, -, h2⟩ := C127_run aroundCube rfl cubeLib_honest whole_text (grid_calls false) grid_says (List.cons_ne_nil _ _) grid_hull grid_same (fun p hp => (grid_clear p hp).1)
  exact ⟨d', h1, h2⟩

/-- C127_gradient: the same with `--gradient`, all hypotheses hold -/
example : ∃ d' t, geecProgram aroundCube (theWords "--gradient") gridDisk = some (.done, d') ∧ d' ["a".toList, "out.csv".toList] = some (.text t) := by
  obtain ⟨d', h1, -, h2⟩ := C127_gradient aroundCube rfl cubeLib_honest whole_text (grid_calls true) grid_says (List.cons_ne_nil _ _) grid_hull grid_same grid_clear
  exact ⟨d', _, h1, h2⟩

end Whole

end
end Geec

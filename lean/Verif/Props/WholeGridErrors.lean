import Verif.Props.GridExact
import Verif.Props.WholeInputs

/-! C128 from the text of the configuration: the program raises and writes nothing. -/

namespace Geec
open Arith
noncomputable section

/-- A configuration of Cartesian bodies and a Cartesian grid, its axes said by three numbers, whatever they are; the other parameters are there, with any values. -/
structure SaysAnyGrid (e : Surroundings ℝ) (d : Disk) (v : Val ℚ) (bodies : List (BodyEntry ℝ)) (xa xb xs ya yb ys za zb zs : ℚ) : Prop where
  masses : ∃ vs, Says v ["masses"] (.list vs) ∧ List.Forall₂ (SaysBody e d) vs bodies
  observers : ∃ w, Says v ["observers"] w ∧ Says w ["points"] .null ∧ Says w ["file_path"] .null ∧
    (∃ s : String, Says w ["crs", "ref"] (.str s) ∧ s.toUpper = "CART") ∧
    (∀ p ∈ [["crs", "name"], ["crs", "semimajor_axis"], ["crs", "semiminor_axis"], ["crs", "longitude_origin"], ["crs", "latitude_origin"], ["crs", "altitude_origin"]], ∃ x, Says w p x) ∧
    (∃ i j k, Says w ["grid", "xstart_xend_xstep"] (.list [.num i xa, .num j xb, .num k xs])) ∧
    (∃ i j k, Says w ["grid", "ystart_yend_ystep"] (.list [.num i ya, .num j yb, .num k ys])) ∧
    (∃ i j k, Says w ["grid", "zstart_zend_zstep"] (.list [.num i za, .num j zb, .num k zs]))

/-- **C128** The program on a configuration file with a Cartesian grid.  A step of 0 on any axis: it ends with `ZeroDivisionError`.  No step of 0, but an axis that ends at its start
or behind it: it ends with `ValueError`.  In both cases nothing is written but the log, with and without gradient. -/
theorem C128_program (e : Surroundings ℝ) (hceil : e.ceil = Int.ceil) (hlib : e.hull.Honest) {d : Disk} {args : List (List Char)} {gr : Bool} {v : Val ℚ} {q : Path}
    (hcall : e.Calls d args gr v q) {bodies : List (BodyEntry ℝ)} {xa xb xs ya yb ys za zb zs : ℚ} (h : SaysAnyGrid e d v bodies xa xb xs ya yb ys za zb zs) (hne : bodies ≠ [])
    (hhull : ∀ b ∈ bodies, ∃ h, e.hull.convexHull b.points = .ok h) :
    (e.lit xs = 0 ∨ e.lit ys = 0 ∨ e.lit zs = 0 → geecProgram e args d = some (.raised .zeroDivisionError, (setupLogger e.install d).2)) ∧
    (e.lit xs ≠ 0 → e.lit ys ≠ 0 → e.lit zs ≠ 0 →
      NoValue (e.lit xa) (e.lit xb) (e.lit xs) ∨ NoValue (e.lit ya) (e.lit yb) (e.lit ys) ∨ NoValue (e.lit za) (e.lit zb) (e.lit zs) →
      geecProgram e args d = some (.raised .valueError, (setupLogger e.install d).2)) := by
  obtain ⟨user, dflt, hold⟩ := hcall.other
  have hout := ((hcall.runs hold).outcome).2
  have hroot : (View.root (setupSources (some (v.read e.lit)) (some user) dflt)).Top (v.read e.lit) := ⟨_, rfl⟩
  generalize View.root (setupSources (some (v.read e.lit)) (some user) dflt) = cfg at hroot hout
  obtain ⟨vs, h1, h2⟩ := h.masses
  obtain ⟨w, h3, hp, hf, ⟨s, hs, hs'⟩, hoth, ⟨i1, i2, i3, hx⟩, ⟨j1, j2, j3, hy⟩, ⟨l1, l2, l3, hz⟩⟩ := h.observers
  have ho := hroot.says h3
  rw [View.path_one] at ho
  obtain ⟨ws, hiter, k1, ms, k2, k3⟩ := bodies_read e hcall.disk hcall.top h1 h2 hroot
  have hshow : configShow cfg = .ok () := by
    have hshow : showAll (cfg.at "observers") observersShown = .ok () := by
      refine showAll_found fun p hp' => ?_
      have hp' : p = ["points"] ∨ p = ["file_path"] ∨ p = ["crs", "ref"] ∨ p = ["grid", "xstart_xend_xstep"] ∨ p = ["grid", "ystart_yend_ystep"] ∨ p = ["grid", "zstart_zend_zstep"] ∨
          p ∈ [["crs", "name"], ["crs", "semimajor_axis"], ["crs", "semiminor_axis"], ["crs", "longitude_origin"], ["crs", "latitude_origin"], ["crs", "altitude_origin"]] := by
        simp only [observersShown, List.mem_cons, List.not_mem_nil, or_false] at hp' ⊢
        tauto
      rcases hp' with rfl | rfl | rfl | rfl | rfl | rfl | hp'
      · exact ⟨_, (ho.says hp).first⟩
      · exact ⟨_, (ho.says hf).first⟩
      · exact ⟨_, (ho.says hs).first⟩
      · exact ⟨_, (ho.says hx).first⟩
      · exact ⟨_, (ho.says hy).first⟩
      · exact ⟨_, (ho.says hz).first⟩
      · obtain ⟨x, hx⟩ := hoth p hp'
        exact ⟨_, (ho.says hx).first⟩
    simp only [configShow, hiter, k1, hshow, Bind.bind, Except.bind]
  have hms : getMasses e.geodesy (Outside.ofDisk e.csv e.resolve e.ceil (setupLogger e.install d).2) cfg = .ok ms := by
    simp only [getMasses, hiter, Bind.bind, Except.bind, k2]
  have kp := (ho.says hp).first
  rw [read_null] at kp
  have kf := (ho.says hf).first
  rw [read_null] at kf
  have kg : ∃ k v items, ((cfg.at "observers").at "grid").first = .ok (.dict ((k, v) :: items)) := by
    obtain ⟨key, y, items, hk⟩ := says_dict hx
    have := (ho.says hk).first
    rw [View.path_one, Val.read, readDict] at this
    exact ⟨_, _, _, this⟩
  have kr : readRef ((cfg.at "observers").at "crs") = .ok .CART := by
    have k := (ho.says hs).first
    rw [read_str] at k
    have k' : (((cfg.at "observers").at "crs").at "ref").first = .ok (.str s) := k
    simp only [readRef, View.getOptStr, k', Bind.bind, Except.bind, hs', findMember_CART]
    rfl
  have kx := (ho.says hx).first
  have ky := (ho.says hy).first
  have kz := (ho.says hz).first
  simp only [read_list, List.map_cons, List.map_nil, read_num] at kx ky kz
  have hgrid : GridIs ((cfg.at "observers").at "grid") (e.lit xa) (e.lit xb) (e.lit xs) (e.lit ya) (e.lit yb) (e.lit ys) (e.lit za) (e.lit zb) (e.lit zs) :=
    ⟨⟨_, kx, _, _, _, rfl, .inl ⟨_, rfl⟩, ⟨_, rfl⟩, .inl ⟨_, rfl⟩⟩, ⟨_, ky, _, _, _, rfl, .inl ⟨_, rfl⟩, ⟨_, rfl⟩, .inl ⟨_, rfl⟩⟩,
      ⟨_, kz, _, _, _, rfl, .inl ⟨_, rfl⟩, ⟨_, rfl⟩, .inl ⟨_, rfl⟩⟩⟩
  obtain ⟨r1, r2⟩ := C128_run e.geodesy (Outside.ofDisk e.csv e.resolve e.ceil (setupLogger e.install d).2) (by simp only [Outside.ofDisk, hceil]) e.hull hlib cfg gr hshow ms hms
    (by rintro rfl; cases k3; exact hne rfl) (fun m hm => by obtain ⟨b, -, hb⟩ := member k3 hm; exact hb.2.2.2)
    (fun m hm => by obtain ⟨b, hb, hr⟩ := member k3 hm; rw [hr.2.2.1]; exact hhull b hb) kp kf kg kr hgrid
  exact ⟨fun h0 => hout _ (r1 h0), fun a1 a2 a3 hn => hout _ (r2 a1 a2 a3 hn)⟩

namespace Whole

/-- a configuration file with a block and a grid that ends where it starts on the last axis -/
def flatFile : List (List Char) := [
  "masses:".toList,
  "  - density: 2".toList,
  "    gravity_constant: 1".toList,
  "    points: [[0, 0, 0], [1, 0, 0], [0, 1, 0], [1, 1, 0], [0, 0, 1], [1, 0, 1], [0, 1, 1], [1, 1, 1]]".toList,
  "    file_path:".toList,
  "    crs:".toList,
  "      ref: cart".toList,
  "      name:".toList,
  "      vdatum:".toList,
  "      semimajor_axis:".toList,
  "      semiminor_axis:".toList,
  "      longitude_origin:".toList,
  "      latitude_origin:".toList,
  "      altitude_origin:".toList,
  "observers:".toList,
  "  points:".toList,
  "  file_path:".toList,
  "  crs:".toList,
  "    ref: cart".toList,
  "    name:".toList,
  "    vdatum:".toList,
  "    semimajor_axis:".toList,
  "    semiminor_axis:".toList,
  "    longitude_origin:".toList,
  "    latitude_origin:".toList,
  "    altitude_origin:".toList,
  "  grid:".toList,
  "    xstart_xend_xstep: [2, 3, 1]".toList,
  "    ystart_yend_ystep: [2, 5, 2]".toList,
  "    zstart_zend_zstep: [5, 5, 1]".toList]

/-- what is written in it -/
def flatValue : List (String × Val ℚ) := [("masses", .list [.dict [("density", .num true 2), ("gravity_constant", .num true 1), ("points", .list cubePts), ("file_path", .null), 
  ("crs", .dict [("ref", .str "cart"), ("name", .null), ("vdatum", .null), ("semimajor_axis", .null), ("semiminor_axis", .null), ("longitude_origin", .null), ("latitude_origin", .null), ("altitude_origin", .null)])]]), 
  ("observers", .dict [("points", .null), ("file_path", .null), 
  ("crs", .dict [("ref", .str "cart"), ("name", .null), ("vdatum", .null), ("semimajor_axis", .null), ("semiminor_axis", .null), ("longitude_origin", .null), ("latitude_origin", .null), ("altitude_origin", .null)]), 
  ("grid", .dict [("xstart_xend_xstep", .list [.num true 2, .num true 3, .num true 1]), ("ystart_yend_ystep", .list [.num true 2, .num true 5, .num true 2]), ("zstart_zend_zstep", .list [.num true 5, .num true 5, .num true 1])])])]

theorem tri_551 : Inline "[5, 5, 1]".toList (.list [.num true 5, .num true 5, .num true 1]) := by
  have := triple_inline n5 n5 n1
  rw [show "[5, 5, 1]".toList = ['[', '5', ',', ' ', '5', ',', ' ', '1', ']'] by decide +kernel]
  exact this

theorem flat_lines : List.Forall₂ YamlLine flatFile [[(0, "masses:".toList)], [(2, ['-']), (4, "density: 2".toList)], [(4, "gravity_constant: 1".toList)], [(4, "points: [[0, 0, 0], [1, 0, 0], [0, 1, 0], [1, 1, 0], [0, 0, 1], [1, 0, 1], [0, 1, 1], [1, 1, 1]]".toList)], [(4, "file_path:".toList)], [(4, "crs:".toList)], [(6, "ref: cart".toList)], [(6, "name:".toList)], [(6, "vdatum:".toList)], [(6, "semimajor_axis:".toList)], [(6, "semiminor_axis:".toList)], [(6, "longitude_origin:".toList)], [(6, "latitude_origin:".toList)], [(6, "altitude_origin:".toList)], [(0, "observers:".toList)], [(2, "points:".toList)], [(2, "file_path:".toList)], [(2, "crs:".toList)], [(4, "ref: cart".toList)], [(4, "name:".toList)], [(4, "vdatum:".toList)], [(4, "semimajor_axis:".toList)], [(4, "semiminor_axis:".toList)], [(4, "longitude_origin:".toList)], [(4, "latitude_origin:".toList)], [(4, "altitude_origin:".toList)], [(2, "grid:".toList)], [(4, "xstart_xend_xstep: [2, 3, 1]".toList)], [(4, "ystart_yend_ystep: [2, 5, 2]".toList)], [(4, "zstart_zend_zstep: [5, 5, 1]".toList)]] :=
  (.cons (y_text (by decide +kernel)) (.cons (y_hyphen (i := 2) (by decide +kernel)) (.cons (y_text (by decide +kernel)) (.cons (y_text (by decide +kernel)) (.cons (y_text (by decide +kernel)) (.cons (y_text (by decide +kernel)) (.cons (y_text (by decide +kernel)) (.cons (y_text (by decide +kernel)) (.cons (y_text (by decide +kernel)) (.cons (y_text (by decide +kernel)) (.cons (y_text (by decide +kernel)) (.cons (y_text (by decide +kernel)) (.cons (y_text (by decide +kernel)) (.cons (y_text (by decide +kernel)) (.cons (y_text (by decide +kernel)) (.cons (y_text (by decide +kernel)) (.cons (y_text (by decide +kernel)) (.cons (y_text (by decide +kernel)) (.cons (y_text (by decide +kernel)) (.cons (y_text (by decide +kernel)) (.cons (y_text (by decide +kernel)) (.cons (y_text (by decide +kernel)) (.cons (y_text (by decide +kernel)) (.cons (y_text (by decide +kernel)) (.cons (y_text (by decide +kernel)) (.cons (y_text (by decide +kernel)) (.cons (y_text (by decide +kernel)) (.cons (y_text (by decide +kernel)) (.cons (y_text (by decide +kernel)) (.cons (y_text (by decide +kernel)) .nil))))))))))))))))))))))))))))))

theorem flat_writes : Writes flatFile (.dict flatValue) := by
  have h := Block.dict 0 _ _ (List.cons_ne_nil _ _)
    (e_block kw_masses (line := "masses:") (by decide +kernel) (by decide +kernel) (by decide : 0 < 2) (.list 2 _ _ (List.cons_ne_nil _ _) (.item 2 4 _ _ _ _ (by decide) (.dict 4 _ _ (List.cons_ne_nil _ _) (e_inline kw_density (line := "density: 2") (by decide +kernel) n2 (by decide +kernel) (e_inline kw_gravity_constant (line := "gravity_constant: 1") (by decide +kernel) n1 (by decide +kernel) (e_inline kw_points (line := "points: [[0, 0, 0], [1, 0, 0], [0, 1, 0], [1, 1, 0], [0, 0, 1], [1, 0, 1], [0, 1, 1], [1, 1, 1]]") (by decide +kernel) cubeInline (by decide +kernel) (e_null kw_file_path (line := "file_path:") (by decide +kernel) (by decide +kernel) (e_block kw_crs (line := "crs:") (by decide +kernel) (by decide +kernel) (by decide : 4 < 6) (.dict 6 _ _ (List.cons_ne_nil _ _) (e_inline kw_ref (line := "ref: cart") (by decide +kernel) (w_inline w_cart) (by decide +kernel) (e_null kw_name (line := "name:") (by decide +kernel) (by decide +kernel) (e_null kw_vdatum (line := "vdatum:") (by decide +kernel) (by decide +kernel) (e_null kw_semimajor_axis (line := "semimajor_axis:") (by decide +kernel) (by decide +kernel) (e_null kw_semiminor_axis (line := "semiminor_axis:") (by decide +kernel) (by decide +kernel) (e_null kw_longitude_origin (line := "longitude_origin:") (by decide +kernel) (by decide +kernel) (e_null kw_latitude_origin (line := "latitude_origin:") (by decide +kernel) (by decide +kernel) (e_null kw_altitude_origin (line := "altitude_origin:") (by decide +kernel) (by decide +kernel) (.nil 6)))))))))) (.nil 4))))))) (.nil 2))) (e_block kw_observers (line := "observers:") (by decide +kernel) (by decide +kernel) (by decide : 0 < 2) (.dict 2 _ _ (List.cons_ne_nil _ _) (e_null kw_points (line := "points:") (by decide +kernel) (by decide +kernel) (e_null kw_file_path (line := "file_path:") (by decide +kernel) (by decide +kernel) (e_block kw_crs (line := "crs:") (by decide +kernel) (by decide +kernel) (by decide : 2 < 4) (.dict 4 _ _ (List.cons_ne_nil _ _) (e_inline kw_ref (line := "ref: cart") (by decide +kernel) (w_inline w_cart) (by decide +kernel) (e_null kw_name (line := "name:") (by decide +kernel) (by decide +kernel) (e_null kw_vdatum (line := "vdatum:") (by decide +kernel) (by decide +kernel) (e_null kw_semimajor_axis (line := "semimajor_axis:") (by decide +kernel) (by decide +kernel) (e_null kw_semiminor_axis (line := "semiminor_axis:") (by decide +kernel) (by decide +kernel) (e_null kw_longitude_origin (line := "longitude_origin:") (by decide +kernel) (by decide +kernel) (e_null kw_latitude_origin (line := "latitude_origin:") (by decide +kernel) (by decide +kernel) (e_null kw_altitude_origin (line := "altitude_origin:") (by decide +kernel) (by decide +kernel) (.nil 4)))))))))) (e_block kw_grid (line := "grid:") (by decide +kernel) (by decide +kernel) (by decide : 2 < 4) (.dict 4 _ _ (List.cons_ne_nil _ _) (e_inline kw_xstart_xend_xstep (line := "xstart_xend_xstep: [2, 3, 1]") (by decide +kernel) tri_231 (by decide +kernel) (e_inline kw_ystart_yend_ystep (line := "ystart_yend_ystep: [2, 5, 2]") (by decide +kernel) tri_252 (by decide +kernel) (e_inline kw_zstart_zend_zstep (line := "zstart_zend_zstep: [5, 5, 1]") (by decide +kernel) tri_551 (by decide +kernel) (.nil 4))))) (.nil 2)))))) (.nil 0)))
  refine ⟨0, _, flat_lines, ?_⟩
  unfold flatValue
  simpa only [List.flatten_cons, List.flatten_nil, List.cons_append, List.nil_append, List.append_nil] using h

theorem flat_plain : PlainLines flatFile := by
  have h : flatFile.all (fun l => l.all fun c => 32 ≤ c.toNat && c.toNat ≤ 126) = true := by decide +kernel
  intro l hl c hc
  have := List.all_eq_true.mp (List.all_eq_true.mp h l hl) c hc
  simp only [Bool.and_eq_true, decide_eq_true_eq] at this
  exact .inl this

/-- what is on the disk -/
def flatContents : List (Path × Node) := [([], .dir), (["a".toList], .dir), (["a".toList, "geec".toList], .dir), (["a".toList, "geec".toList, "data".toList], .dir),
  (["a".toList, "geec".toList, "data".toList, "geoids".toList], .dir),
  (["a".toList, "geec".toList, "data".toList, "geoids".toList, "egm2008-2_5.pgm".toList], .text "P5".toList),
  (["a".toList, "geec".toList, "data".toList, "geoids".toList, "egm96-5.pgm".toList], .text "P5".toList),
  (["a".toList, "geec".toList, "data".toList, "geoids".toList, "egm84-15.pgm".toList], .text "P5".toList),
  (["a".toList, "in.yaml".toList], .text (unlines flatFile)), (["a".toList, "p.csv".toList], .text "2,3,5\n".toList)]

/-- the flatDisk -/
def flatDisk : Disk := fun p => (flatContents.find? (·.1 = p)).map (·.2)

theorem flat_wf : flatDisk.WF := by
  have h : flatContents.all (fun x => x.1 == [] || decide (flatDisk x.1.dropLast = some .dir)) = true := by decide +kernel
  intro p c hp
  rcases hf : flatContents.find? (·.1 = p ++ [c]) with _ | x
  · exact absurd (by rw [flatDisk, hf]; rfl) hp
  · have h1 := List.all_eq_true.mp h x (List.mem_of_find?_eq_some hf)
    have h2 : x.1 = p ++ [c] := by simpa using List.find?_some hf
    rw [h2] at h1
    simpa using h1

theorem flat_calls (gr : Bool) : aroundCube.Calls flatDisk (theWords (if gr then "--gradient" else "--no-gradient")) gr (.dict flatValue) ["a".toList, "out.csv".toList] where
  disk := flat_wf
  top := by decide +kernel
  grids := by
    intro n hn
    refine ⟨"P5".toList, ?_, by decide +kernel⟩
    simp only [List.mem_cons, List.not_mem_nil, or_false] at hn
    show flatDisk (["a".toList] ++ ["geec".toList, "data".toList, "geoids".toList, n]) = some (.text "P5".toList)
    rcases hn with rfl | rfl | rfl <;> decide +kernel
  logger := by
    have h : isOkB (setupLogger install flatDisk).1 = true := by decide +kernel
    show (setupLogger install flatDisk).1 = .ok ()
    rcases hh : (setupLogger install flatDisk).1 with e | u
    · rw [hh] at h; cases h
    · rfl
  other := by
    have h1 : flatDisk ["home".toList, "config.yaml".toList] = none := by decide +kernel
    have h2 : flatDisk (install.cfg ++ ["config_default.yaml".toList]) = none := by decide +kernel
    refine ⟨.dict [], .dict [], .missing fun t h => ?_, .missing fun t h => ?_, ?_, ?_⟩
    · exact absurd (h1.symm.trans h) (by simp)
    · exact absurd (h2.symm.trans h) (by simp)
    · show ["home".toList, "config.yaml".toList] ≠ install.logFile
      decide +kernel
    · show install.cfg ++ ["config_default.yaml".toList] ≠ install.logFile
      decide +kernel
  words := by
    refine ⟨["--gradient".toList, "out.txt".toList, "--config=in.yaml".toList, (if gr then "--gradient" else "--no-gradient").toList],
      [("--gradient".toList, []), ("--config".toList, "in.yaml".toList), ((if gr then "--gradient" else "--no-gradient").toList, [])], "out.txt".toList, "in.yaml".toList,
      flatFile, flatValue, .inl rfl, ?_, ?_, ?_, ?_, by decide +kernel, ?_, ?_, flat_plain, rfl, flat_writes, by decide +kernel, ?_⟩
    · refine .flag _ _ _ _ (by simp) (.operand _ _ _ _ rfl (.inl (by decide +kernel)) ?_)
      rw [show "--config=in.yaml".toList = "--config".toList ++ '=' :: "in.yaml".toList by decide +kernel]
      refine .attached _ _ _ _ _ (by simp) (.flag _ _ _ _ ?_ .nil)
      cases gr <;> simp
    · rintro ⟨v, hv⟩
      simp only [List.mem_cons, List.not_mem_nil, or_false, Prod.mk.injEq] at hv
      rcases hv with ⟨h, -⟩ | ⟨h, -⟩ | ⟨h, -⟩
      · exact absurd h (by decide +kernel)
      · exact absurd h (by decide +kernel)
      · cases gr
        · exact absurd h (by decide +kernel)
        · exact absurd h (by decide +kernel)
    · refine .inl ⟨[("--gradient".toList, [])], [((if gr then "--gradient" else "--no-gradient").toList, [])], rfl, fun w hw => ?_⟩
      simp only [List.mem_cons, List.not_mem_nil, or_false, Prod.mk.injEq] at hw
      cases gr
      · exact absurd hw.1 (by decide +kernel)
      · exact absurd hw.1 (by decide +kernel)
    · cases gr
      · refine ⟨fun h => (by cases h), ?_⟩
        intro h
        have h' := (gradient_iff _).mp h
        exact absurd h' (by decide +kernel)
      · refine ⟨fun _ => ⟨[("--gradient".toList, []), ("--config".toList, "in.yaml".toList)], [], [], rfl, by simp⟩, fun _ => rfl⟩
    · show ["a".toList, (String.ofList "in.yaml".toList).toList] ≠ install.logFile
      decide +kernel
    · show flatDisk ["a".toList, (String.ofList "in.yaml".toList).toList] = some (.text (unlines flatFile))
      decide +kernel
    · exact pathSuffixReplaced_iff.mpr (by rfl)
  place := by decide +kernel
  free := by
    refine ⟨by decide +kernel, ?_⟩
    show ¬ ["a".toList, "out.csv".toList] <+: install.logdir
    decide +kernel
  writable := rfl



theorem flat_says : SaysAnyGrid aroundCube flatDisk (.dict flatValue) [cubeBody] 2 3 1 2 5 2 5 5 1 where
  masses := by
    refine ⟨_, rfl, .cons ?_ .nil⟩
    refine ⟨⟨?_, ⟨"cart", rfl, cart_upper⟩, ?_⟩, ⟨true, 2, rfl, ?_⟩, ⟨true, 1, rfl, ?_⟩, ⟨.null, rfl⟩⟩
    · have := SaysPoints.listed (e := aroundCube) (d := flatDisk) (v := ?_) cubePts [⟨0, 0, 0⟩, ⟨1, 0, 0⟩, ⟨0, 1, 0⟩, ⟨1, 1, 0⟩, ⟨0, 0, 1⟩, ⟨1, 0, 1⟩, ⟨0, 1, 1⟩, ⟨1, 1, 1⟩] ?_ ?_ (by simp)
      · simpa [cubeBody, cubePoints, aroundCube, around] using this
      · rfl
      · exact .cons ⟨_, _, _, rfl⟩ (.cons ⟨_, _, _, rfl⟩ (.cons ⟨_, _, _, rfl⟩ (.cons ⟨_, _, _, rfl⟩ (.cons ⟨_, _, _, rfl⟩ (.cons ⟨_, _, _, rfl⟩ (.cons ⟨_, _, _, rfl⟩
          (.cons ⟨_, _, _, rfl⟩ .nil)))))))
    · intro p hp
      simp only [List.mem_cons, List.not_mem_nil, or_false] at hp
      rcases hp with rfl | rfl | rfl | rfl | rfl | rfl | rfl | rfl <;> exact ⟨_, rfl⟩
    · simp [cubeBody, aroundCube, around]
    · simp [cubeBody, aroundCube, around]
  observers := by
    refine ⟨_, rfl, rfl, rfl, ⟨"cart", rfl, cart_upper⟩, ?_, ⟨true, true, true, rfl⟩, ⟨true, true, true, rfl⟩, ⟨true, true, true, rfl⟩⟩
    intro p hp
    simp only [List.mem_cons, List.not_mem_nil, or_false] at hp
    rcases hp with rfl | rfl | rfl | rfl | rfl | rfl <;> exact ⟨_, rfl⟩

/-- C128_program: the block and a grid from 5 to 5 along the last axis -/
example (gr : Bool) : geecProgram aroundCube (theWords (if gr then "--gradient" else "--no-gradient")) flatDisk = some (.raised .valueError, (setupLogger install flatDisk).2) :=
  (C128_program aroundCube rfl cubeLib_honest (flat_calls gr) flat_says (List.cons_ne_nil _ _) grid_hull).2 (by norm_num [aroundCube, around]) (by norm_num [aroundCube, around])
    (by norm_num [aroundCube, around]) (.inr (.inr (.inl (by norm_num [aroundCube, around]))))

end Whole

end
end Geec

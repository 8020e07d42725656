import Verif.Props.RunRate
import Verif.Props.Joint
/-
C101 for whole runs: `geec run` of a configuration whose numbers are rounded when they are read, in floating point.
-/
namespace Geec
open Filter
noncomputable section

/-! ### A configuration whose numbers are changed -/

/-- every number of a value changed by `f` -/
def Val.mapNum (f : ℝ → ℝ) : Val ℝ → Val ℝ
  | .null => .null
  | .bool b => .bool b
  | .num i x => .num i (f x)
  | .str s => .str s
  | .list l => .list (l.map fun v => v.mapNum f)
  | .dict l => .dict (l.attach.map fun p => (p.1.1, p.1.2.mapNum f))
decreasing_by
  · simp_wf
    have := List.sizeOf_lt_of_mem ‹_ ∈ _›
    omega
  · have := List.sizeOf_lt_of_mem p.2
    obtain ⟨⟨a, b⟩, hp⟩ := p
    simp only [Prod.mk.sizeOf_spec] at this
    simp_wf
    omega

theorem Val.mapNum_dict (f : ℝ → ℝ) (l : List (String × Val ℝ)) : (Val.dict l).mapNum f = .dict (l.map fun p => (p.1, p.2.mapNum f)) := by
  rw [Val.mapNum]
  congr 1
  exact List.ext_getElem (by simp) (by intros; simp)

/-- an outcome with its number changed -/
def outcomeMap (f : ℝ → ℝ) : Except PyErr (Val ℝ) → Except PyErr (Val ℝ)
  | .ok v => .ok (v.mapNum f)
  | .error e => .error e

/-- the configuration in which every number is changed by `f`, in all sources -/
def View.mapNum (f : ℝ → ℝ) (w : View ℝ) : View ℝ := ⟨w.items.map (outcomeMap f)⟩

/-- the files in which every number is changed by `f` -/
def Outside.mapNum (f : ℝ → ℝ) (o : Outside ℝ) : Outside ℝ :=
  { o with readCsv := fun p => match o.readCsv p with
    | .ok c => .ok ⟨c.rows.map (V3.rounded f), c.intDtype⟩
    | .error e => .error e }

theorem assoc_map (f : ℝ → ℝ) (k : String) (l : List (String × Val ℝ)) :
    assoc k (l.map fun p => (p.1, p.2.mapNum f)) = (assoc k l).map (Val.mapNum f) := by
  induction l with
  | nil => rfl
  | cons p l ih =>
    simp only [List.map_cons, assoc]
    split
    · rfl
    · exact ih

/-- sub-values -/
theorem Val.sub_map (f : ℝ → ℝ) (v : Val ℝ) (k : Key) : (v.mapNum f).sub k = match v.sub k with
    | .found x => .found (x.mapNum f)
    | .missing => .missing
    | .notSubscriptable => .notSubscriptable := by
  cases v with
  | null => cases k <;> simp [Val.mapNum, Val.sub]
  | bool b => cases k <;> simp [Val.mapNum, Val.sub]
  | num i x => cases k <;> simp [Val.mapNum, Val.sub]
  | str s => cases k <;> simp [Val.mapNum, Val.sub]
  | list l =>
    cases k with
    | name s => simp [Val.mapNum, Val.sub]
    | idx n =>
      simp only [Val.mapNum, Val.sub, List.getElem?_map]
      cases l[n]? <;> rfl
  | dict l =>
    cases k with
    | name s =>
      simp only [Val.mapNum_dict, Val.sub, assoc_map]
      cases assoc s l <;> rfl
    | idx n => simp [Val.mapNum_dict, Val.sub]

theorem resolveKey_map (f : ℝ → ℝ) (k : Key) (l : List (Except PyErr (Val ℝ))) :
    resolveKey k (l.map (outcomeMap f)) = (resolveKey k l).map (outcomeMap f) := by
  induction l with
  | nil => rfl
  | cons r l ih =>
    cases r with
    | error e => rfl
    | ok v =>
      simp only [List.map_cons, outcomeMap, resolveKey, Val.sub_map]
      cases v.sub k with
      | found x => simp only [List.map_cons, outcomeMap, ih]
      | missing => exact ih
      | notSubscriptable => rfl

theorem View.sub_map (f : ℝ → ℝ) (w : View ℝ) (k : Key) : (w.mapNum f).sub k = (w.sub k).mapNum f := by
  simp only [View.sub, View.mapNum, resolveKey_map]

theorem View.at_map (f : ℝ → ℝ) (w : View ℝ) (s : String) : (w.mapNum f).at s = (w.at s).mapNum f := View.sub_map f w _

theorem View.first_map (f : ℝ → ℝ) (w : View ℝ) : (w.mapNum f).first = outcomeMap f w.first := by
  obtain ⟨l⟩ := w
  cases l <;> rfl

theorem View.path_map (f : ℝ → ℝ) (p : List String) (w : View ℝ) : (w.mapNum f).path p = (w.path p).mapNum f := by
  induction p generalizing w with
  | nil => rfl
  | cons s p ih =>
    show ((w.mapNum f).at s).path p = _
    rw [View.at_map]
    exact ih (w.at s)

theorem View.iter_map {f : ℝ → ℝ} {w : View ℝ} {l : List (View ℝ)} (h : w.iter = .ok l) : (w.mapNum f).iter = .ok (l.map (View.mapNum f)) := by
  simp only [View.iter, View.first_map] at h ⊢
  rcases hv : w.first with e | v <;> rw [hv] at h
  · cases e <;> simp only [reduceCtorEq] at h
    cases h
    rfl
  · cases v <;> simp only [reduceCtorEq] at h
    cases h
    simp only [outcomeMap, Val.mapNum, List.length_map, List.map_map, Function.comp_def, View.sub_map]

theorem showAll_map (f : ℝ → ℝ) (w : View ℝ) (l : List (List String)) : showAll (w.mapNum f) l = showAll w l := by
  induction l with
  | nil => rfl
  | cons p l ih =>
    simp only [showAll, View.path_map, View.first_map]
    cases (w.path p).first <;> simp only [outcomeMap, ih]

/-- the changed configuration is logged if the configuration is -/
theorem configShow_map {f : ℝ → ℝ} {cfg : View ℝ} (h : configShow cfg = .ok ()) : configShow (cfg.mapNum f) = .ok () := by
  obtain ⟨l, hl, h⟩ := except_bind_ok h
  rw [configShow, View.at_map, View.iter_map hl]
  have : ∀ l : List (View ℝ), (l.map (View.mapNum f)).forM (fun m => showAll m massShown) = l.forM (fun m => showAll m massShown) := by
    intro l
    induction l with
    | nil => rfl
    | cons w l ih =>
      show (showAll (w.mapNum f) massShown >>= fun _ => (l.map (View.mapNum f)).forM (fun m => showAll m massShown)) =
        (showAll w massShown >>= fun _ => l.forM (fun m => showAll m massShown))
      rw [showAll_map, ih]
  show (do (l.map (View.mapNum f)).forM (fun m => showAll m massShown); showAll ((cfg.mapNum f).at "observers") observersShown) = _
  rw [this, View.at_map, showAll_map]
  exact h

/-! ### Reading it -/

theorem pointOf_map {f : ℝ → ℝ} {v : Val ℝ} {r : V3 ℝ × Bool} (h : pointOf v = .ok r) : pointOf (v.mapNum f) = .ok (r.1.rounded f, r.2) := by
  unfold pointOf at h
  split at h
  · cases h
    simp only [Val.mapNum, List.map_cons, List.map_nil]
    rfl
  · cases h

theorem arrayOf_map {f : ℝ → ℝ} {v : Val ℝ} {c : Coords ℝ} (h : arrayOf v = .ok c) : arrayOf (v.mapNum f) = .ok ⟨c.rows.map (V3.rounded f), c.intDtype⟩ := by
  cases v <;> simp only [arrayOf, reduceCtorEq] at h
  rename_i l
  obtain ⟨ps, hps, h⟩ := except_bind_ok h
  cases h
  have : (l.map fun v => v.mapNum f).mapM pointOf = .ok (ps.map fun r => (r.1.rounded f, r.2)) := by
    replace hps := mapM_ok.mp hps
    clear h
    induction hps with
    | nil => rfl
    | cons h1 _ ih =>
      rw [List.map_cons, List.mapM_cons, pointOf_map h1, ih]
      rfl
  simp only [Val.mapNum, arrayOf, this, Bind.bind, Except.bind, Pure.pure, Except.pure, List.map_map, List.all_map]
  rfl

theorem readRef_map (f : ℝ → ℝ) (w : View ℝ) : readRef (w.mapNum f) = readRef w := by
  have : ((w.mapNum f).at "ref").getOptStr "ellps" = (w.at "ref").getOptStr "ellps" := by
    simp only [View.getOptStr, View.at_map, View.first_map]
    rcases (w.at "ref").first with e | v
    · cases e <;> rfl
    · cases v <;> simp only [outcomeMap, Val.mapNum, Val.mapNum_dict]
  simp only [readRef, this]

theorem PlainSection.map {w : View ℝ} {n : CRSName} (hw : PlainSection w n) (f : ℝ → ℝ) : PlainSection (w.mapNum f) n := by
  refine ⟨?_, by rw [View.at_map, readRef_map]; exact hw.ref⟩
  simp only [View.at_map, View.first_map]
  rcases hw.points with ⟨v, vs, h⟩ | ⟨h, s, hs, h'⟩
  · exact .inl ⟨_, _, by rw [h, outcomeMap, Val.mapNum, List.map_cons]⟩
  · exact .inr ⟨by rw [h, outcomeMap, Val.mapNum], s, hs, by rw [h', outcomeMap, Val.mapNum]⟩

theorem readCoords_map {w : View ℝ} {n : CRSName} (hw : PlainSection w n) {f : ℝ → ℝ} {o : Outside ℝ} {c : Coords ℝ} (h : readCoords o w = .ok c) :
    readCoords (o.mapNum f) (w.mapNum f) = .ok ⟨c.rows.map (V3.rounded f), c.intDtype⟩ := by
  rcases hw.points with ⟨v, vs, hv⟩ | ⟨hv, s, hs, h'⟩
  · have hv' : ((w.mapNum f).at "points").first = .ok (.list ((v :: vs).map fun v => v.mapNum f)) := by
      rw [View.at_map, View.first_map, hv, outcomeMap, Val.mapNum]
    simp only [readCoords, View.truthy, hv, Bind.bind, Except.bind, Pure.pure, Except.pure, Val.truthy, List.isEmpty_cons, Bool.not_false, if_true] at h
    have := arrayOf_map (f := f) h
    rw [Val.mapNum] at this
    simp only [readCoords, View.truthy, hv', Bind.bind, Except.bind, Pure.pure, Except.pure, Val.truthy, List.map_cons, List.isEmpty_cons, Bool.not_false, if_true]
    exact this
  · have hv' : ((w.mapNum f).at "points").first = .ok .null := by rw [View.at_map, View.first_map, hv, outcomeMap, Val.mapNum]
    have h'' : ((w.mapNum f).at "file_path").first = .ok (.str s) := by rw [View.at_map, View.first_map, h', outcomeMap, Val.mapNum]
    simp only [readCoords, View.truthy, hv, h', Bind.bind, Except.bind, Pure.pure, Except.pure, Val.truthy, Bool.false_eq_true, if_false,
      ne_eq, hs, not_false_eq_true, decide_true, if_true, View.getStr] at h
    simp only [readCoords, View.truthy, hv', h'', Bind.bind, Except.bind, Pure.pure, Except.pure, Val.truthy, Bool.false_eq_true, if_false,
      ne_eq, hs, not_false_eq_true, decide_true, if_true, View.getStr, Outside.mapNum]
    split at h
    · rename_i hf
      refine (if_pos hf).trans ?_
      rw [h]
    · cases h

theorem getDataset_map {w : View ℝ} {n : CRSName} (hw : PlainSection w n) (hn : n = .CART ∨ n = .ECEF) {f : ℝ → ℝ} {g : Geodesy ℝ} {o : Outside ℝ} {d : Dataset ℝ}
    (h : getDataset g o w = .ok d) : getDataset g (o.mapNum f) (w.mapNum f) = .ok ⟨⟨d.coords.rows.map (V3.rounded f), d.coords.intDtype⟩, d.crs⟩ := by
  obtain ⟨c, hc, h⟩ := except_bind_ok h
  rw [getCrs_of_ref hw.ref hn] at h
  cases h
  rw [getDataset, readCoords_map hw hc, getCrs_of_ref (hw.map f).ref hn]
  rfl

theorem PlainBodies.map {cfg : View ℝ} {l : List (View ℝ)} (h : PlainBodies cfg l) (f : ℝ → ℝ) : PlainBodies (cfg.mapNum f) (l.map (View.mapNum f)) := by
  refine ⟨by rw [View.at_map]; exact View.iter_map h.bodies, ?_⟩
  intro w' hw'
  obtain ⟨w, hw, rfl⟩ := List.mem_map.mp hw'
  obtain ⟨h1, ⟨i, x, h2⟩, j, y, h3⟩ := h.body w hw
  refine ⟨h1.imp (·.map f) (·.map f), ⟨i, f x, ?_⟩, j, f y, ?_⟩
  · rw [View.at_map, View.first_map, h2, outcomeMap, Val.mapNum]
  · rw [View.at_map, View.first_map, h3, outcomeMap, Val.mapNum]

/-- plain bodies with changed numbers give the same masses, with changed numbers -/
theorem masses_map {cfg : View ℝ} {l : List (View ℝ)} (hcfg : PlainBodies cfg l) {f : ℝ → ℝ} {g : Geodesy ℝ} {o : Outside ℝ}
    {ms : List (Mass ℝ)} (hms : getMasses g o cfg = .ok ms) {A : Setting} (h1 : A.move = V3.rounded f) (h2 : A.weigh = f) (h3 : A.scale = f) (B : Arith ℝ) :
    @getMasses ℝ B g (o.mapNum f) (cfg.mapNum f) = .ok (ms.map (·.changed A)) := by
  rw [(plain_bodies (hcfg.map f) g (o.mapNum f) B).1]
  clear B
  have hl : (((cfg.mapNum f).at "masses").iter) = .ok (l.map (View.mapNum f)) := (hcfg.map f).bodies
  simp only [getMasses, hcfg.bodies, hl, Bind.bind, Except.bind] at hms ⊢
  replace hms := mapM_ok.mp hms
  have hb := hcfg.body
  have hA : ∀ m : Mass ℝ, m.changed A = ⟨f m.density, f m.gravityConstant, ⟨⟨m.dataset.coords.rows.map (V3.rounded f), m.dataset.coords.intDtype⟩, m.dataset.crs⟩⟩ := by
    intro m; rw [Mass.changed, h1, h2, h3]
  simp only [hA]
  clear hl hcfg
  induction hms with
  | nil => rfl
  | cons h1 _ ih =>
    rename_i w m l ms _
    have hw := hb w (by simp)
    have h2 : getMass g (o.mapNum f) (w.mapNum f) =
        .ok ⟨f m.density, f m.gravityConstant, ⟨⟨m.dataset.coords.rows.map (V3.rounded f), m.dataset.coords.intDtype⟩, m.dataset.crs⟩⟩ := by
      obtain ⟨hs, ⟨i, x, h2⟩, j, y, h3⟩ := hw
      obtain ⟨d, hd, h1⟩ := except_bind_ok h1
      simp only [View.getNum, h2, h3] at h1
      cases h1
      have hd' : getDataset g (o.mapNum f) (w.mapNum f) = .ok ⟨⟨d.coords.rows.map (V3.rounded f), d.coords.intDtype⟩, d.crs⟩ :=
        hs.elim (fun hs => getDataset_map hs (.inl rfl) hd) (fun hs => getDataset_map hs (.inr rfl) hd)
      have h2' : ((w.mapNum f).at "density").first = .ok (.num i (f x)) := by rw [View.at_map, View.first_map, h2, outcomeMap, Val.mapNum]
      have h3' : ((w.mapNum f).at "gravity_constant").first = .ok (.num j (f y)) := by rw [View.at_map, View.first_map, h3, outcomeMap, Val.mapNum]
      simp only [getMass, hd', View.getNum, h2', h3']
      rfl
    rw [List.map_cons, List.mapM_cons, h2, ih fun w hw => hb w (by simp [hw])]
    rfl

/-- a plain configuration with changed numbers gives the same masses and observers, with changed numbers -/
theorem reading_map {cfg : View ℝ} {l : List (View ℝ)} (hcfg : PlainConfig cfg l) {f : ℝ → ℝ} {g : Geodesy ℝ} {o : Outside ℝ}
    {ms : List (Mass ℝ)} (hms : getMasses g o cfg = .ok ms) {ob : Observer ℝ} (hob : getObserver g o cfg = .ok ob) (A : Arith ℝ) :
    @getMasses ℝ A g (o.mapNum f) (cfg.mapNum f) = .ok (ms.map (·.changed (roundSetting f))) ∧
    @getObserver ℝ A g (o.mapNum f) (cfg.mapNum f) = .ok (ob.changed (roundSetting f)) := by
  refine ⟨masses_map (A := roundSetting f) hcfg.toPlainBodies hms rfl rfl rfl A, ?_⟩
  have hp := getDataset_plain (hcfg.observers.map f) (.inl rfl) g (o.mapNum f) A
  rw [← View.at_map] at hp
  have e : @getObserver ℝ A g (o.mapNum f) (cfg.mapNum f) = @getObserver ℝ realArith g (o.mapNum f) (cfg.mapNum f) := by simp only [getObserver, hp.1]
  rw [e]
  clear e hp A
  obtain ⟨d, hd, hob⟩ := except_bind_ok hob
  cases hob
  have hn := (getDataset_plain hcfg.observers (.inl rfl) g o realArith).2 d hd
  rw [getObserver, View.at_map, getDataset_map hcfg.observers (.inl rfl) hd]
  simp only [Bind.bind, Except.bind, Pure.pure, Except.pure, mkObserver, hn]
  rfl

/-! ### The theorems -/

/-- **C101** `geec run` in floating point, from the numbers as written.  A plain configuration gives the table `t` in exact arithmetic, and no comparison is a
tie at any observation point.  Then there is a constant `K` such that, when all numbers of the configuration and of its files are rounded and so is the result of every
operation, with the unit roundoff `δ ≤ 1 / K`, and the hull library triangulates the rounded points as it does the points, the run returns; its table
has the same labels, the rounded coordinates, and every Gx, Gy, Gz within `K δ` of that of `t`; and every number, if no observation point is on the line of an edge. -/
theorem C101_run (g : Geodesy ℝ) (o : Outside ℝ) (lib : HullLib ℝ) (hlib : lib.Honest) (cfg : View ℝ) (l : List (View ℝ)) (hcfg : PlainConfig cfg l)
    (gr : Bool) (t : Table ℝ) (h : runTable g o lib cfg gr = .ok t) (ms : List (Mass ℝ)) (hms : getMasses g o cfg = .ok ms) (ob : Observer ℝ)
    (hob : getObserver g o cfg = .ok ob) (hd : ∀ p ∈ ob.dataset.coords.rows, DecidedPoint lib ms p) :
    ∃ K, 0 < K ∧ ∀ (rnd : ℝ → ℝ) (δ : ℝ), 0 < δ → δ ≤ 1 / K → (∀ a, |a| ≤ K → |rnd a - a| ≤ δ * max 1 |a|) → ∀ lib' : HullLib ℝ,
      (∀ m ∈ ms, ∀ H, lib.convexHull m.dataset.coords.rows = .ok H →
        lib'.convexHull (m.dataset.coords.rows.map (V3.rounded rnd)) = .ok { H with points := H.points.map (V3.rounded rnd) }) →
      ∃ t', @runTable ℝ (roundArith rnd) g (o.mapNum rnd) lib' (cfg.mapNum rnd) gr = .ok t' ∧ t'.columns = t.columns ∧
      List.Forall₂ (fun row row0 => row.length = 12 ∧ row0.length = 12 ∧ row.take 3 = (row0.take 3).map rnd ∧
        List.Forall₂ (fun a b => |a - b| ≤ K * δ) (row.take 6) (row0.take 6) ∧
        ((∀ p ∈ ob.dataset.coords.rows, OffLinesPoint lib ms p) → List.Forall₂ (fun a b => |a - b| ≤ K * δ) row row0)) t'.rows t.rows := by
  have hp := plain_reading hcfg g o
  let Q : ℝ → Setting → Prop := fun ε A => ∀ (o' : Outside ℝ) (lib' : HullLib ℝ) (cfg' : View ℝ), configShow cfg' = .ok () →
    @getMasses ℝ A g o' cfg' = .ok (ms.map (·.changed A)) → @getObserver ℝ A g o' cfg' = .ok (ob.changed A) →
    lib.Follows A lib' ms → ∃ t', @runTable ℝ A g o' lib' cfg' gr = .ok t' ∧ t'.columns = t.columns ∧
    List.Forall₂ (RowNear A ε (∀ p ∈ ob.dataset.coords.rows, OffLinesPoint lib ms p)) t'.rows t.rows
  have mono : ∀ {a b : ℝ} {A}, a ≤ b → Q a A → Q b A := by
    intro a b A hab hQ o' lib' cfg' k0 k1 k2 k3
    obtain ⟨t', h1, h2, h3⟩ := hQ o' lib' cfg' k0 k1 k2 k3
    exact ⟨t', h1, h2, h3.imp fun _ _ hr => hr.mono hab⟩
  obtain ⟨C, hC⟩ := run_rate g o lib hlib cfg gr t h ms hms ob hob ((hp realArith).2.2.1 ms hms) ((hp realArith).2.2.2 ob hob) hd
    (∀ p ∈ ob.dataset.coords.rows, OffLinesPoint lib ms p) id
  obtain ⟨K, hK, k⟩ := one_roundoff_joint (Q := Q) mono (one_constant (Q := Q) mono ⟨C, hC.mono fun q hq => hq g⟩)
  refine ⟨K, hK, fun rnd δ h1 h2 h3 lib' hl => ?_⟩
  obtain ⟨r1, r2⟩ := reading_map hcfg (f := rnd) hms hob (roundArith rnd)
  obtain ⟨t', j1, j2, j3⟩ := k rnd δ h1 h2 h3 (o.mapNum rnd) lib' (cfg.mapNum rnd) (configShow_map (run_shown h)) r1 r2 hl
  refine ⟨t', j1, j2, j3.imp fun row row0 hr => ⟨hr.1, hr.2.1, ?_, hr.2.2.2.1, hr.2.2.2.2⟩⟩
  obtain ⟨p, e1, e2⟩ := hr.2.2.1
  rw [e1, e2]
  rfl

/-- **C101** Newton's law, from the numbers as written: with bodies of equal density `ρ` and constant `Gc` and observation points in regular position, the run with
all numbers rounded on reading and all operations rounded, with the unit roundoff `δ ≤ 1 / K`, returns a table whose line of the i-th point holds its rounded
coordinates and, to within `K δ`, `1e5 Gc ρ` times the attraction at the point as written of the solids spanned by the points as written. -/
theorem C101_run_newton (g : Geodesy ℝ) (o : Outside ℝ) (lib : HullLib ℝ) (hlib : lib.Honest) (cfg : View ℝ) (l : List (View ℝ)) (hcfg : PlainConfig cfg l)
    (hshow : configShow cfg = .ok ()) (ms : List (Mass ℝ)) (hms : getMasses g o cfg = .ok ms) (hne : ms ≠ []) (ob : Observer ℝ)
    (hob : getObserver g o cfg = .ok ob) (hne' : ob.dataset.coords.rows ≠ []) (hhull : ∀ m ∈ ms, ∃ h, lib.convexHull m.dataset.coords.rows = .ok h)
    (ρ Gc : ℝ) (hρ : ∀ m ∈ ms, m.density = ρ ∧ m.gravityConstant = Gc)
    (hd : ∀ p ∈ ob.dataset.coords.rows, DecidedPoint lib ms p ∧ RegularPoint lib ms p) :
    ∃ K, 0 < K ∧ ∀ (rnd : ℝ → ℝ) (δ : ℝ), 0 < δ → δ ≤ 1 / K → (∀ a, |a| ≤ K → |rnd a - a| ≤ δ * max 1 |a|) → ∀ lib' : HullLib ℝ,
      (∀ m ∈ ms, ∀ H, lib.convexHull m.dataset.coords.rows = .ok H →
        lib'.convexHull (m.dataset.coords.rows.map (V3.rounded rnd)) = .ok { H with points := H.points.map (V3.rounded rnd) }) →
      ∃ t, @runTable ℝ (roundArith rnd) g (o.mapNum rnd) lib' (cfg.mapNum rnd) false = .ok t ∧ t.rows.length = ob.dataset.coords.rows.length ∧
      ∀ (i : Nat) (p : V3 ℝ), ob.dataset.coords.rows[i]? = some p →
        ∃ G : V3 ℝ, (t.rows[i]?).map (List.take 6) = some [rnd p.x, rnd p.y, rnd p.z, G.x, G.y, G.z] ∧
        |G.x - 100000 * Gc * ρ * sumOver ms (fun B => (attraction B p).x)| ≤ K * δ ∧
        |G.y - 100000 * Gc * ρ * sumOver ms (fun B => (attraction B p).y)| ≤ K * δ ∧
        |G.z - 100000 * Gc * ρ * sumOver ms (fun B => (attraction B p).z)| ≤ K * δ := by
  have hp := plain_reading hcfg g o
  have hcm := (hp realArith).2.2.1 ms hms
  have hco := (hp realArith).2.2.2 ob hob
  obtain ⟨ps, hps⟩ := polys_exist hlib ms hhull
  have hr := of_plain hms hob hcm hco hps
  obtain ⟨t0, ht0⟩ := run_returns_of hr hshow hne hne' (gr := false) (by
    intro m hm H q hH hq p hp ρ Gc
    obtain ⟨G, T, hv⟩ := C22_total (hlib _ _ hH).2 hq ((hd p hp).1 m hm H hH).ne_corner ρ Gc
    exact ⟨_, hv⟩)
  have hlen : t0.rows.length = ob.dataset.coords.rows.length := by
    obtain ⟨r', _, _, hr', _, _, _, hrows⟩ := runTable_ok ht0
    obtain rfl := hr'.unique hr
    exact hrows.length_eq.symm
  obtain ⟨K, hK, k⟩ := C101_run g o lib hlib cfg l hcfg false t0 ht0 ms hms ob hob (fun p hp => (hd p hp).1)
  refine ⟨K, hK, fun rnd δ hδ hδK hr' lib' hl => ?_⟩
  obtain ⟨t, h1, -, h3⟩ := k rnd δ hδ hδK hr' lib' hl
  refine ⟨t, h1, h3.length_eq.trans hlen, fun i p hi => ?_⟩
  obtain ⟨row0, e0, -, e1⟩ := @C69_newton g o lib hlib cfg false t0 _ ht0 hr ρ Gc hρ i p hi (hd p (List.mem_of_getElem? hi)).2
  obtain ⟨row, e2, -, -, e3, e4, -⟩ := forall₂_get h3.flip e0
  have e5 : row0.take 3 = [p.x, p.y, p.z] := by
    have := congrArg (List.take 3) e1
    rw [List.take_take] at this
    simpa using this
  rw [e1] at e4
  rw [e2]
  rw [e5] at e3
  have e6 : (row.take 6).take 3 = [rnd p.x, rnd p.y, rnd p.z] := by rw [List.take_take]; exact e3
  simp only [Option.map_some]
  generalize row.take 6 = r6 at e4 e6
  cases e4 with | cons _ e4 => cases e4 with | cons _ e4 => cases e4 with | cons _ e4 => cases e4 with | cons f1 e4 => cases e4 with | cons f2 e4 => cases e4 with | cons f3 e4 =>
  cases e4
  simp only [List.take, List.cons.injEq, and_true] at e6
  obtain ⟨rfl, rfl, rfl⟩ := e6
  exact ⟨⟨_, _, _⟩, rfl, f1, f2, f3⟩

/-! ### Concrete cases -/

/-- a hull library that joins any four points in the same way -/
def anyFour : HullLib ℝ := ⟨fun pts => .ok { tetra with points := pts }, fun _ _ => true⟩

theorem anyFour_follows (rnd : ℝ → ℝ) (ms : List (Mass ℝ)) : ∀ m ∈ ms, ∀ H, fourPoints.convexHull m.dataset.coords.rows = .ok H →
    anyFour.convexHull (m.dataset.coords.rows.map (V3.rounded rnd)) = .ok { H with points := H.points.map (V3.rounded rnd) } := by
  intro m _ H hH
  simp only [fourPoints] at hH
  split at hH
  · cases hH; rfl
  · cases hH

/-- C101: the run of two bodies that tile a tetrahedron, with all numbers of the configuration rounded -/
example : ∃ K, 0 < K ∧ ∀ (rnd : ℝ → ℝ) (δ : ℝ), 0 < δ → δ ≤ 1 / K → (∀ a, |a| ≤ K → |rnd a - a| ≤ δ * max 1 |a|) →
    ∃ t row G, @runTable ℝ (roundArith rnd) toyGeo (noFiles.mapNum rnd) anyFour ((halves "cart" "cart" "ellps" 2 2).mapNum rnd) false = .ok t ∧
    t.rows[0]? = some row ∧ row[5]? = some G ∧
    |G - 100000 * 1 * 2 * sumOver (halvesMasses .CART 2 2) (fun B => (attraction B ⟨2, 3, 5⟩).z)| ≤ K * δ := by
  obtain ⟨K, hK, k⟩ := C101_run_newton toyGeo noFiles fourPoints fourPoints_honest _ _ (halves_plain 2 2) (halves_show _ _ _ _ _) _
    (halves_masses findMember_cart (.inl rfl) _ _ _ _) (by simp [halvesMasses]) _ (halves_observer (getCrs_plain findMember_cart (.inl rfl) "ellps") _ _ _)
    (List.cons_ne_nil _ _) (by
      intro m hm
      simp only [halvesMasses, List.mem_cons, List.not_mem_nil, or_false] at hm
      rcases hm with rfl | rfl
      · exact ⟨_, fourPoints_A⟩
      · exact ⟨_, fourPoints_B⟩) 2 1 (by
      intro m hm
      simp only [halvesMasses, List.mem_cons, List.not_mem_nil, or_false] at hm
      rcases hm with rfl | rfl <;> exact ⟨rfl, rfl⟩) (by
      intro p hp
      obtain rfl : p = ⟨2, 3, 5⟩ := List.mem_singleton.mp hp
      exact ⟨halves_at halfA_decided halfB_decided 2 2, halves_at halfA_regular halfB_regular 2 2⟩)
  refine ⟨K, hK, fun rnd δ h1 h2 h3 => ?_⟩
  obtain ⟨t, k1, -, k2⟩ := k rnd δ h1 h2 h3 anyFour (anyFour_follows rnd _)
  obtain ⟨G, e1, -, -, e2⟩ := k2 0 ⟨2, 3, 5⟩ rfl
  obtain ⟨row, e3, e4⟩ := Option.map_eq_some_iff.mp e1
  refine ⟨t, row, G.z, k1, e3, ?_, e2⟩
  have := congrArg (·[5]?) e4
  simpa using this

end
end Geec

import Verif.Model.Record
import Verif.Props.RunLaws
/-
C99: the parameters that a run logs are a record of what it computes.
-/
namespace Geec
open Arith
set_option linter.unusedSectionVars false
variable {S : Type} [Arith S]

/-! ### what is logged -/

theorem logItems_end (w : View S) (ps : List (List String)) : ∀ is : List ShowItem,
    (is.filterMap fun | .text _ => none | .param _ p _ => some p) = ps → (logItems w is).1 = showAll w ps := by
  intro is
  induction is generalizing ps with
  | nil => rintro rfl; rfl
  | cons i is ih =>
    cases i with
    | text s => intro h; simp only [logItems]; exact ih ps h
    | param b p a =>
      rintro rfl
      simp only [logItems, List.filterMap_cons, showAll]
      cases (w.path p).first with
      | error e => rfl
      | ok v => exact ih _ rfl

theorem logMasses_end (ms : List (View S)) : (logMasses ms).1 = ms.forM fun m => showAll m massShown := by
  induction ms with
  | nil => rfl
  | cons m ms ih =>
    have h := logItems_end m massShown massItems rfl
    simp only [logMasses, List.forM_eq_forM, List.forM_cons, ← h]
    rcases hm : logItems m massItems with ⟨e | ⟨⟩, l⟩
    · rfl
    · simp only [ih, List.forM_eq_forM]; rfl

/-- **C99** `show` ends as the model of `geec run` says: it raises if and only if a parameter is missing, with the same exception. -/
theorem C99_show (version : String) (cfg : View S) : (showLog version cfg).1 = configShow cfg := by
  simp only [showLog, configShow]
  cases (cfg.at "masses").iter with
  | error e => rfl
  | ok ms =>
    have h := logMasses_end ms
    simp only [bind, Except.bind, List.forM_eq_forM] at h ⊢
    rcases hl : logMasses ms with ⟨e | ⟨⟩, l⟩
    · rw [hl] at h; rw [← h]
    · rw [hl] at h; rw [← h]
      exact logItems_end _ observersShown observerItems rfl

theorem logItems_length (w : View S) (is : List ShowItem) (h : (logItems w is).1 = .ok ()) : (logItems w is).2.length = is.length := by
  induction is with
  | nil => rfl
  | cons i is ih =>
    cases i with
    | text s => simp only [logItems, List.length_cons] at h ⊢; rw [ih h]
    | param b p a =>
      simp only [logItems] at h ⊢
      cases hp : (w.path p).first with
      | error e => rw [hp] at h; cases h
      | ok v => rw [hp] at h; simp only [List.length_cons] at h ⊢; rw [ih h]

theorem logItems_inj (w w' : View S) (is : List ShowItem) (h : (logItems w is).1 = .ok ()) (h' : (logItems w' is).1 = .ok ())
    (heq : (logItems w is).2 = (logItems w' is).2) : ∀ b p a, .param b p a ∈ is → (w.path p).first = (w'.path p).first := by
  induction is with
  | nil => intro b p a hm; cases hm
  | cons i is ih =>
    intro b p a hm
    cases i with
    | text s =>
      simp only [logItems, List.cons.injEq, true_and] at h h' heq
      exact ih h h' heq b p a (by simpa using hm)
    | param b1 p1 a1 =>
      simp only [logItems] at h h' heq
      cases hp : (w.path p1).first with
      | error e => rw [hp] at h; cases h
      | ok v =>
        cases hp' : (w'.path p1).first with
        | error e => rw [hp'] at h'; cases h'
        | ok v' =>
          rw [hp] at h heq
          rw [hp'] at h' heq
          simp only [List.cons.injEq, LogLine.mk.injEq, Option.some.injEq, true_and, and_true] at h h' heq
          rcases List.mem_cons.mp hm with hm | hm
          · cases hm; rw [hp, hp', heq.1]
          · exact ih h h' heq.2 b p a hm

theorem logMasses_length (ms : List (View S)) (h : (logMasses ms).1 = .ok ()) : (logMasses ms).2.length = massItems.length * ms.length := by
  induction ms with
  | nil => rfl
  | cons m ms ih =>
    simp only [logMasses] at h ⊢
    have hlen := logItems_length m massItems
    rcases hm : logItems m massItems with ⟨e | ⟨⟩, l⟩
    · rw [hm] at h; cases h
    · rw [hm] at h hlen
      simp only [List.length_append, List.length_cons] at h hlen ⊢
      rw [ih h, hlen trivial]; ring

/-- two sections that show the same parameters -/
def SameShown (is : List ShowItem) (w w' : View S) : Prop := ∀ b p a, .param b p a ∈ is → (w.path p).first = (w'.path p).first

theorem logMasses_inj : ∀ (ms ms' : List (View S)), (logMasses ms).1 = .ok () → (logMasses ms').1 = .ok () →
    (logMasses ms).2 = (logMasses ms').2 → List.Forall₂ (SameShown massItems) ms ms' := by
  intro ms
  induction ms with
  | nil =>
    intro ms' h h' heq
    have h1 := logMasses_length ms' h'
    rw [← heq] at h1
    cases ms' with
    | nil => exact .nil
    | cons m ms' => simp [logMasses, massItems] at h1
  | cons m ms ih =>
    intro ms' h h' heq
    cases ms' with
    | nil =>
      have h1 := logMasses_length (m :: ms) h
      rw [heq] at h1
      simp [logMasses, massItems] at h1
    | cons m' ms' =>
      have hl := logItems_length m massItems
      have hl' := logItems_length m' massItems
      have hi := logItems_inj m m' massItems
      simp only [logMasses] at h h' heq
      rcases hm : logItems m massItems with ⟨e | ⟨⟩, l⟩
      · rw [hm] at h; cases h
      · rcases hm' : logItems m' massItems with ⟨e | ⟨⟩, l'⟩
        · rw [hm'] at h'; cases h'
        · rw [hm] at h heq hl hi
          rw [hm'] at h' heq hl' hi
          simp only at h h' heq hl hl' hi
          obtain ⟨e1, e2⟩ := List.append_inj heq ((hl trivial).trans (hl' trivial).symm)
          exact .cons (hi trivial trivial e1) (ih ms' h h' e2)

/-- equal logs of two configurations that can be shown: the same parameters of as many masses, and of the observers -/
theorem showLog_inj (version : String) (cfg cfg' : View S) (h : configShow cfg = .ok ()) (h' : configShow cfg' = .ok ())
    (heq : (showLog version cfg).2 = (showLog version cfg').2) : ∃ ms ms', (cfg.at "masses").iter = .ok ms ∧ (cfg'.at "masses").iter = .ok ms' ∧
    List.Forall₂ (SameShown massItems) ms ms' ∧ SameShown observerItems (cfg.at "observers") (cfg'.at "observers") := by
  rw [← C99_show version] at h h'
  simp only [showLog] at h h' heq
  cases hi : (cfg.at "masses").iter with
  | error e => rw [hi] at h; cases h
  | ok ms =>
    cases hi' : (cfg'.at "masses").iter with
    | error e => rw [hi'] at h'; cases h'
    | ok ms' =>
      rw [hi] at h heq
      rw [hi'] at h' heq
      simp only at h h' heq
      have hl := logMasses_length ms
      have hl' := logMasses_length ms'
      have hj := logMasses_inj ms ms'
      rcases hm : logMasses ms with ⟨e | ⟨⟩, l⟩
      · rw [hm] at h; cases h
      · rcases hm' : logMasses ms' with ⟨e | ⟨⟩, l'⟩
        · rw [hm'] at h'; cases h'
        · rw [hm] at h heq hl hj
          rw [hm'] at h' heq hl' hj
          simp only [List.cons_append, List.nil_append, List.cons.injEq, true_and] at h h' heq hl hl' hj
          have k := logItems_length _ observerItems h
          have k' := logItems_length _ observerItems h'
          obtain ⟨e1, e2⟩ := List.append_inj' heq (by simp only [List.length_cons, k, k'])
          simp only [List.cons.injEq, true_and] at e2
          exact ⟨ms, ms', rfl, rfl, hj trivial trivial e1, logItems_inj _ _ _ h h' e2⟩

/-! ### what is computed from it -/

theorem first_of_shown {is : List ShowItem} {w w' : View S} (h : SameShown is w w') (b : String) (k : String) (a : String) (hm : .param b [k] a ∈ is) :
    (w.at k).first = (w'.at k).first := h b [k] a hm

theorem first_of_shown2 {is : List ShowItem} {w w' : View S} (h : SameShown is w w') (b : String) (j k : String) (a : String) (hm : .param b [j, k] a ∈ is) :
    ((w.at j).at k).first = ((w'.at j).at k).first := h b [j, k] a hm

/-- the reference system from the parameters that are shown and the vertical datum -/
theorem getCrs_of_first {g : Geodesy S} {w w' : View S} (h : ∀ k ∈ ["ref", "name", "semimajor_axis", "semiminor_axis", "longitude_origin",
    "latitude_origin", "altitude_origin"], (w.at k).first = (w'.at k).first) {c c' : Crs S} (hc : getCrs g w = .ok c) (hc' : getCrs g w' = .ok c') :
    c' = { c with vdatum := c'.vdatum } ∧ ((w.at "vdatum").first = (w'.at "vdatum").first → c = c') := by
  have hr : readRef w = readRef w' := by simp only [readRef, View.getOptStr, h "ref" (by simp)]
  have he : readEllipsoidParameters g w = readEllipsoidParameters g w' := by
    simp only [readEllipsoidParameters, View.getAny, h "name" (by simp), h "semimajor_axis" (by simp), h "semiminor_axis" (by simp)]
  have hn : readEnuParameters w = readEnuParameters w' := by
    simp only [readEnuParameters, View.getNum, h "longitude_origin" (by simp), h "latitude_origin" (by simp), h "altitude_origin" (by simp)]
  have hv : (w.at "vdatum").first = (w'.at "vdatum").first → readVdatum w = readVdatum w' := by
    intro h; simp only [readVdatum, View.getOptStr, h]
  simp only [getCrs, createEllipsoidCrs, createLocalEnuCrs, hr, he, hn] at hc hc'
  obtain ⟨n, hn, hc⟩ := except_bind_ok hc
  obtain ⟨n', hn', hc'⟩ := except_bind_ok hc'
  obtain rfl : n = n' := Except.ok.inj (hn.symm.trans hn')
  have hmk : ∀ {nm : CRSName} {e : Option (Ell S)} {u : Option (Enu S)} {v v' : VDatum} {c c' : Crs S}, mkCrs g nm e u v = .ok c → mkCrs g nm e u v' = .ok c' →
      c' = { c with vdatum := c'.vdatum } ∧ (v = v' → c = c') := by
    intro nm e u v v' c c' h1 h2
    refine ⟨?_, fun hv => ?_⟩
    · simp only [mkCrs] at h1 h2
      by_cases hnm : nm = .ENU
      · simp only [hnm, if_true] at h1 h2
        cases u <;> cases e <;> simp only [reduceCtorEq] at h1 h2
        rename_i u e
        by_cases hq : g.ellEq u.ellps e = true
        · rw [if_pos hq] at h1 h2
          cases h1; cases h2; rfl
        · rw [if_neg hq] at h1; cases h1
      · rw [if_neg hnm] at h1 h2
        cases h1; cases h2; rfl
    · subst hv; exact Except.ok.inj (h1.symm.trans h2)
  cases n with
  | CART => obtain ⟨a, b⟩ := hmk hc hc'; exact ⟨a, fun _ => b rfl⟩
  | ECEF => obtain ⟨a, b⟩ := hmk hc hc'; exact ⟨a, fun _ => b rfl⟩
  | ELLPS =>
    obtain ⟨p, hp, hc⟩ := except_bind_ok hc
    obtain ⟨p', hp', hc'⟩ := except_bind_ok hc'
    obtain rfl : p = p' := Except.ok.inj (hp.symm.trans hp')
    obtain ⟨v, hv1, hc⟩ := except_bind_ok hc
    obtain ⟨v', hv2, hc'⟩ := except_bind_ok hc'
    obtain ⟨e, he1, hc⟩ := except_bind_ok hc
    obtain ⟨e', he2, hc'⟩ := except_bind_ok hc'
    obtain rfl : e = e' := Except.ok.inj (he1.symm.trans he2)
    obtain ⟨a, b⟩ := hmk hc hc'
    exact ⟨a, fun hh => b (Except.ok.inj (hv1.symm.trans ((hv hh).trans hv2)))⟩
  | ENU =>
    obtain ⟨p, hp, hc⟩ := except_bind_ok hc
    obtain ⟨p', hp', hc'⟩ := except_bind_ok hc'
    obtain rfl : p = p' := Except.ok.inj (hp.symm.trans hp')
    obtain ⟨q, hq, hc⟩ := except_bind_ok hc
    obtain ⟨q', hq', hc'⟩ := except_bind_ok hc'
    obtain rfl : q = q' := Except.ok.inj (hq.symm.trans hq')
    obtain ⟨v, hv1, hc⟩ := except_bind_ok hc
    obtain ⟨v', hv2, hc'⟩ := except_bind_ok hc'
    obtain ⟨e, he1, hc⟩ := except_bind_ok hc
    obtain ⟨e', he2, hc'⟩ := except_bind_ok hc'
    obtain rfl : e = e' := Except.ok.inj (he1.symm.trans he2)
    obtain ⟨a, b⟩ := hmk hc hc'
    exact ⟨a, fun hh => b (Except.ok.inj (hv1.symm.trans ((hv hh).trans hv2)))⟩

/-- the coordinates from the parameters that are shown, if the grid is among them or is not used -/
theorem readCoords_of_first {o : Outside S} {w w' : View S} (hp : (w.at "points").first = (w'.at "points").first)
    (hf : (w.at "file_path").first = (w'.at "file_path").first)
    (hg : (∃ v, ((w.at "points").first = .ok v ∨ (w.at "file_path").first = .ok v) ∧ v.truthy = true) ∨
      ∀ k ∈ ["xstart_xend_xstep", "ystart_yend_ystep", "zstart_zend_zstep"], ((w.at "grid").at k).first = ((w'.at "grid").at k).first)
    {c c' : Coords S} (hc : readCoords o w = .ok c) (hc' : readCoords o w' = .ok c') : c = c' := by
  simp only [readCoords, View.truthy, ← hp, View.getStr, ← hf] at hc hc'
  obtain ⟨b, hb, hc⟩ := except_bind_ok hc
  rw [hb] at hc'
  change (if b = true then _ else _) = _ at hc'
  obtain ⟨vp, hvp, hbp⟩ := except_bind_ok hb
  cases hbp
  split at hc
  · rename_i ht
    rw [if_pos ht] at hc'
    exact Except.ok.inj (hc.symm.trans hc')
  · rename_i ht
    rw [if_neg ht] at hc'
    obtain ⟨b, hb2, hc⟩ := except_bind_ok hc
    rw [hb2] at hc'
    change (if b = true then _ else _) = _ at hc'
    obtain ⟨vf, hvf, hbf⟩ := except_bind_ok hb2
    cases hbf
    split at hc
    · rename_i ht
      rw [if_pos ht] at hc'
      exact Except.ok.inj (hc.symm.trans hc')
    · rename_i ht2
      rw [if_neg ht2] at hc'
      rcases hg with ⟨v, hv | hv, hvt⟩ | hg
      · rw [hvp] at hv; cases hv; exact absurd hvt ht
      · rw [hvf] at hv; cases hv; exact absurd hvt ht2
      · obtain ⟨b, -, hc⟩ := except_bind_ok hc
        obtain ⟨b', -, hc'⟩ := except_bind_ok hc'
        split at hc
        · split at hc'
          · simp only [readGrid, axis3, View.getList, hg _ (List.mem_cons_self ..), hg "ystart_yend_ystep" (by simp), hg "zstart_zend_zstep" (by simp)] at hc hc'
            exact Except.ok.inj (hc.symm.trans hc')
          · cases hc'
        · cases hc

/-- A mass that has points or a file (and so takes nothing from a grid). -/
def HasSource (m : View S) : Prop := ∃ v, ((m.at "points").first = .ok v ∨ (m.at "file_path").first = .ok v) ∧ v.truthy = true

/-- Two masses that give the same values for the three axes of a grid. -/
def SameGrid (w w' : View S) : Prop :=
  ∀ k ∈ ["xstart_xend_xstep", "ystart_yend_ystep", "zstart_zend_zstep"], ((w.at "grid").at k).first = ((w'.at "grid").at k).first

theorem getMass_of_shown {g : Geodesy S} {o : Outside S} {w w' : View S} (h : SameShown massItems w w') (hs : HasSource w ∨ SameGrid w w') {m m' : Mass S}
    (hm : getMass g o w = .ok m) (hm' : getMass g o w' = .ok m') : m = m' := by
  simp only [getMass, getDataset] at hm hm'
  obtain ⟨d, hd, hm⟩ := except_bind_ok hm
  obtain ⟨d', hd', hm'⟩ := except_bind_ok hm'
  obtain ⟨c, hc, hd⟩ := except_bind_ok hd
  obtain ⟨c', hc', hd'⟩ := except_bind_ok hd'
  obtain ⟨r, hr, hd⟩ := except_bind_ok hd
  obtain ⟨r', hr', hd'⟩ := except_bind_ok hd'
  obtain rfl : c = c' := readCoords_of_first (first_of_shown h "    points  : " _ "" (by simp [massItems])) (first_of_shown h "    file_path: " _ "" (by simp [massItems])) hs hc hc'
  obtain rfl : r = r' := by
    refine (getCrs_of_first ?_ hr hr').2 (first_of_shown2 h "      vdatum: " _ _ "" (by simp [massItems]))
    intro k hk
    simp only [List.mem_cons, List.not_mem_nil, or_false] at hk
    rcases hk with rfl | rfl | rfl | rfl | rfl | rfl | rfl
    · exact first_of_shown2 h "    ref: " _ _ "" (by simp [massItems])
    · exact first_of_shown2 h "      name: " _ _ "" (by simp [massItems])
    · exact first_of_shown2 h "      semimajor_axis: " _ _ "" (by simp [massItems])
    · exact first_of_shown2 h "      semiminor_axis: " _ _ "" (by simp [massItems])
    · exact first_of_shown2 h "      longitude_origin: " _ _ "" (by simp [massItems])
    · exact first_of_shown2 h "      latitude_origin: " _ _ "" (by simp [massItems])
    · exact first_of_shown2 h "      altitude_origin: " _ _ "" (by simp [massItems])
  cases hd; cases hd'
  simp only [View.getNum, first_of_shown h "  density: " "density" " kg m-3" (by simp [massItems]),
    first_of_shown h "  gravity_constant: " "gravity_constant" " m3 kg-1 s-2" (by simp [massItems])] at hm hm'
  exact Except.ok.inj (hm.symm.trans hm')

theorem getMasses_of_shown {g : Geodesy S} {o : Outside S} {ws ws' : List (View S)} (h : List.Forall₂ (SameShown massItems) ws ws')
    (hs : ∀ (i : Nat) w w', ws[i]? = some w → ws'[i]? = some w' → HasSource w ∨ SameGrid w w') {ms ms' : List (Mass S)} (hm : List.Forall₂ (fun w m => getMass g o w = .ok m) ws ms)
    (hm' : List.Forall₂ (fun w m => getMass g o w = .ok m) ws' ms') : ms = ms' := by
  induction h generalizing ms ms' with
  | nil => cases hm; cases hm'; rfl
  | cons h _ ih =>
    cases hm with
    | cons a hm =>
      cases hm' with
      | cons b hm' =>
        rw [getMass_of_shown h (hs 0 _ _ rfl rfl) a b, ih (fun i w w' hw hw' => hs (i + 1) w w' hw hw') hm hm']

theorem getObserver_of_shown {g : Geodesy S} {o : Outside S} {cfg cfg' : View S} (h : SameShown observerItems (cfg.at "observers") (cfg'.at "observers"))
    {ob ob' : Observer S} (hob : getObserver g o cfg = .ok ob) (hob' : getObserver g o cfg' = .ok ob') :
    ∃ d v, ob = mkObserver d ∧ ob' = mkObserver { d with crs := { d.crs with vdatum := v } } := by
  simp only [getObserver, getDataset] at hob hob'
  obtain ⟨d, hd, hm⟩ := except_bind_ok hob
  obtain ⟨d', hd', hm'⟩ := except_bind_ok hob'
  obtain ⟨c, hc, hd⟩ := except_bind_ok hd
  obtain ⟨c', hc', hd'⟩ := except_bind_ok hd'
  obtain ⟨r, hr, hd⟩ := except_bind_ok hd
  obtain ⟨r', hr', hd'⟩ := except_bind_ok hd'
  obtain rfl : c = c' := by
    refine readCoords_of_first (first_of_shown h "    points: " _ "" (by simp [observerItems])) (first_of_shown h "    file_path: " _ "" (by simp [observerItems])) (.inr ?_) hc hc'
    intro k hk
    simp only [List.mem_cons, List.not_mem_nil, or_false] at hk
    rcases hk with rfl | rfl | rfl
    · exact first_of_shown2 h "      xstart_xend_xstep: " _ _ "" (by simp [observerItems])
    · exact first_of_shown2 h "      ystart_yend_ystep: " _ _ "" (by simp [observerItems])
    · exact first_of_shown2 h "      zstart_zend_zstep: " _ _ "" (by simp [observerItems])
  have hcrs := (getCrs_of_first (by
    intro k hk
    simp only [List.mem_cons, List.not_mem_nil, or_false] at hk
    rcases hk with rfl | rfl | rfl | rfl | rfl | rfl | rfl
    · exact first_of_shown2 h "    ref: " _ _ "" (by simp [observerItems])
    · exact first_of_shown2 h "       name: " _ _ "" (by simp [observerItems])
    · exact first_of_shown2 h "       semimajor_axis: " _ _ "" (by simp [observerItems])
    · exact first_of_shown2 h "       semiminor_axis: " _ _ "" (by simp [observerItems])
    · exact first_of_shown2 h "      longitude_origin: " _ _ "" (by simp [observerItems])
    · exact first_of_shown2 h "      latitude_origin: " _ _ "" (by simp [observerItems])
    · exact first_of_shown2 h "      altitude_origin: " _ _ "\n" (by simp [observerItems])) hr hr').1
  cases hd; cases hd'; cases hm; cases hm'
  exact ⟨_, _, rfl, by rw [hcrs]⟩

/-- The statement of C99: two runs that return and log the same parameters give the same table. -/
def C99_statement (S : Type) [Arith S] : Prop := ∀ (version : String) (g : Geodesy S) (o : Outside S) (lib : HullLib S) (cfg cfg' : View S) (gr : Bool)
  (t t' : Table S), runTable g o lib cfg gr = .ok t → runTable g o lib cfg' gr = .ok t' → (showLog version cfg).2 = (showLog version cfg').2 → t = t'

/-- **C99** (part) The log and the grids of the bodies are a record of the run: two runs that return and log the same parameters give the same table, if the bodies
that have neither points nor a file have the same grids in both. -/
theorem C99_grids (version : String) (g : Geodesy S) (o : Outside S) (lib : HullLib S) (cfg cfg' : View S) (gr : Bool) (t t' : Table S)
    (h : runTable g o lib cfg gr = .ok t) (h' : runTable g o lib cfg' gr = .ok t') (hlog : (showLog version cfg).2 = (showLog version cfg').2)
    (ws : List (View S)) (hws : (cfg.at "masses").iter = .ok ws) (ws' : List (View S)) (hws' : (cfg'.at "masses").iter = .ok ws')
    (hsrc : ∀ (i : Nat) w w', ws[i]? = some w → ws'[i]? = some w' → HasSource w ∨ SameGrid w w') : t = t' := by
  obtain ⟨ms0, ms', h1, h2, h3, h4⟩ := showLog_inj version cfg cfg' (run_shows h) (run_shows h') hlog
  obtain rfl : ws = ms0 := Except.ok.inj (hws.symm.trans h1)
  obtain rfl : ws' = ms' := Except.ok.inj (hws'.symm.trans h2)
  obtain ⟨r, first, rest, hr, hf, hne, hcol, hrow⟩ := runTable_ok h
  obtain ⟨r', first', rest', hr', hf', hne', hcol', hrow'⟩ := runTable_ok h'
  have e : r.configured = r'.configured := by
    have k := hr.configured
    have k' := hr'.configured
    simp only [getMasses, h1, h2, bind, Except.bind] at k k'
    exact getMasses_of_shown h3 hsrc (mapM_ok.mp k) (mapM_ok.mp k')
  obtain ⟨e1, e2⟩ := masses_det hr hr' e
  obtain ⟨rfl, -⟩ := List.cons.inj (hf.symm.trans (e1.trans hf'))
  obtain ⟨d, v, ho, ho'⟩ := getObserver_of_shown h4 hr.observer hr'.observer
  have hds : ∀ d : Dataset S, (mkObserver d).dataset = d := by
    intro d; simp only [mkObserver]; cases d.crs.name <;> rfl
  have est : r.stations.coords.rows = r'.stations.coords.rows := by
    have k := toWgs84_points hr.stations
    have k' := toWgs84_points hr'.stations
    rw [ho, hds] at k
    rw [ho', hds] at k'
    refine forall₂_functional (fun p q q' a b => ?_) k k'
    exact Except.ok.inj (a.symm.trans b)
  have ecol : t.columns = t'.columns := by
    rw [hcol, hcol', ho, ho']
    simp only [mkObserver]
    cases d.crs.name <;> rfl
  have erow : t.rows = t'.rows := by
    have hw : r.world = r'.world := by simp only [RunData.world, e2]
    have hbd : r.bodies = r'.bodies := by simp only [RunData.bodies, e2]
    rw [est, hw, hbd] at hrow
    refine forall₂_functional (fun p a b ha hb => ?_) hrow hrow'
    obtain ⟨s, w, -, rfl, hs⟩ := ha
    obtain ⟨s', w', -, rfl, hs'⟩ := hb
    rw [hs'] at hs
    cases hs; rfl
  cases t; cases t'
  simp only at ecol erow
  rw [ecol, erow]

/-- **C99** (part) Two runs that return and log the same parameters give the same table, if no body takes its points from a grid. -/
theorem C99_partial (version : String) (g : Geodesy S) (o : Outside S) (lib : HullLib S) (cfg cfg' : View S) (gr : Bool) (t t' : Table S)
    (h : runTable g o lib cfg gr = .ok t) (h' : runTable g o lib cfg' gr = .ok t') (hlog : (showLog version cfg).2 = (showLog version cfg').2)
    (ws : List (View S)) (hws : (cfg.at "masses").iter = .ok ws) (hsrc : ∀ w ∈ ws, HasSource w) : t = t' := by
  obtain ⟨-, ws', -, hws', -, -⟩ := showLog_inj version cfg cfg' (run_shows h) (run_shows h') hlog
  exact C99_grids version g o lib cfg cfg' gr t t' h h' hlog ws hws ws' hws' fun i w w' hw _ => .inl (hsrc w (List.mem_of_getElem? hw))

/-- **C99** `geec.config.main` on files that a run returns with completes, and logs what the run logs. -/
theorem C99_main (version : String) (g : Geodesy S) (o : Outside S) (lib : HullLib S) (gr : Bool) (argFile userFile : Option (Val S)) (defaults : Val S)
    (t : Table S) (h : runTable g o lib (View.root (setupSources argFile userFile defaults)) gr = .ok t) :
    configMain version none (argFile.map .ok) userFile defaults = (.ok (), (showLog version (View.root (setupSources argFile userFile defaults))).2) := by
  have h1 : (showLog version (View.root (setupSources argFile userFile defaults))).1 = .ok () := (C99_show version _).trans (run_shows h)
  rw [← h1]
  cases argFile <;> rfl

section
attribute [local instance] toyArith

/-- a configuration with one body whose points come from a grid that begins at `x` -/
def Toy.gridBody (x : Rat) : View Rat := View.root [.dict [
  ("masses", .list [.dict [("density", .num false 2), ("gravity_constant", .num false 1), ("points", .null), ("file_path", .null),
    ("grid", .dict [("xstart_xend_xstep", Toy.point x (x + 2) 1), ("ystart_yend_ystep", Toy.point 0 2 1), ("zstart_zend_zstep", Toy.point 0 2 1)]),
    ("crs", Toy.crsSection "cart" "ellps")]]),
  ("observers", Toy.observerSection "cart" "ellps")]]

/-- the outside world with a real `math.ceil` -/
def Toy.ceiling : Outside Rat := { Toy.outside with ceil := fun q => -(-q.num / q.den) }

/-- a hull library that knows boxes given as grids -/
def Toy.boxes : HullLib Rat where
  convexHull := fun pts => .ok {
    points := pts
    vertices := [0, 1, 2, 3, 4, 5, 6, 7]
    simplices := [(0, 1, 3), (0, 3, 2), (4, 5, 7), (4, 7, 6), (0, 1, 5), (0, 5, 4), (2, 3, 7), (2, 7, 6), (0, 2, 6), (0, 6, 4), (1, 3, 7), (1, 7, 5)]
    neighbors := [[10, 1, 4], [6, 8, 0], [11, 3, 5], [7, 9, 2], [11, 5, 0], [2, 9, 4], [10, 7, 1], [3, 8, 6], [7, 9, 1], [3, 5, 8], [6, 11, 0], [2, 4, 10]] }
  inHull := fun _ _ => true

/-- **C99** is false as stated: `show` does not log the grid of a mass, although the program reads it. -/
theorem C99_false : ¬ C99_statement Rat := by
  intro h
  have ret : ∀ {α : Type} {x : Except PyErr α}, isOkB x = true → ∃ y, x = .ok y := by
    intro α x h
    cases x with
    | ok y => exact ⟨y, rfl⟩
    | error e => cases h
  obtain ⟨t, ht⟩ := ret (x := runTable Toy.geo Toy.ceiling Toy.boxes (Toy.gridBody 0) false) (by decide +kernel)
  obtain ⟨t', ht'⟩ := ret (x := runTable Toy.geo Toy.ceiling Toy.boxes (Toy.gridBody 5) false) (by decide +kernel)
  have e := h "" Toy.geo Toy.ceiling Toy.boxes _ _ false t t' ht ht' rfl
  have k : (runTable Toy.geo Toy.ceiling Toy.boxes (Toy.gridBody 0) false).map Table.rows ≠
      (runTable Toy.geo Toy.ceiling Toy.boxes (Toy.gridBody 5) false).map Table.rows := by decide +kernel
  rw [ht, ht', e] at k
  exact k rfl

/-- C99: two configurations that differ in a parameter that is not logged, the vertical datum of the observers, and the same parameters in two files -/
example : ∃ t : Table Rat, runTable Toy.geo Toy.outside Toy.hullLib (Toy.config "cart" "ecef" "ellps") true = .ok t ∧
    runTable Toy.geo Toy.outside Toy.hullLib (Toy.config "cart" "ecef" "egm96") true = .ok t ∧
    runTable Toy.geo Toy.outside Toy.hullLib (View.root [.dict [("observers", Toy.observerSection "ecef" "ellps")],
      .dict [("masses", .list [Toy.massSection "cart" 2 0, Toy.massSection "cart" 5 10]), ("observers", Toy.observerSection "cart" "ellps")]]) true = .ok t ∧
    configMain "1.0" none (some (.ok (.dict [("masses", .list [Toy.massSection "cart" 2 0, Toy.massSection "cart" 5 10]),
      ("observers", Toy.observerSection "ecef" "ellps")]))) none .null = (.ok (), (showLog "1.0" (Toy.config "cart" "ecef" "ellps")).2) := by
  have ret : ∀ {α : Type} {x : Except PyErr α}, isOkB x = true → ∃ y, x = .ok y := by
    intro α x h
    cases x with
    | ok y => exact ⟨y, rfl⟩
    | error e => cases h
  obtain ⟨t, ht⟩ := ret (x := runTable Toy.geo Toy.outside Toy.hullLib (Toy.config "cart" "ecef" "ellps") true) (by decide +kernel)
  obtain ⟨t1, ht1⟩ := ret (x := runTable Toy.geo Toy.outside Toy.hullLib (Toy.config "cart" "ecef" "egm96") true) (by decide +kernel)
  obtain ⟨t2, ht2⟩ := ret (x := runTable Toy.geo Toy.outside Toy.hullLib (View.root [.dict [("observers", Toy.observerSection "ecef" "ellps")],
      .dict [("masses", .list [Toy.massSection "cart" 2 0, Toy.massSection "cart" 5 10]), ("observers", Toy.observerSection "cart" "ellps")]]) true)
      (by decide +kernel)
  have hsrc : ∀ w ∈ [(⟨[.ok (Toy.massSection "cart" 2 0)]⟩ : View Rat), ⟨[.ok (Toy.massSection "cart" 5 10)]⟩], HasSource w := by
    intro w hw
    simp only [List.mem_cons, List.not_mem_nil, or_false] at hw
    rcases hw with rfl | rfl <;> exact ⟨_, .inl rfl, rfl⟩
  have e1 : t = t1 := C99_partial "" Toy.geo Toy.outside Toy.hullLib _ _ true t t1 ht ht1 rfl _ rfl hsrc
  have e2 : t = t2 := C99_partial "" Toy.geo Toy.outside Toy.hullLib _ _ true t t2 ht ht2 rfl _ rfl hsrc
  subst e1; subst e2
  obtain ⟨t3, ht3⟩ := ret (x := runTable Toy.geo Toy.outside Toy.hullLib (View.root (setupSources (some (.dict [("masses", .list [Toy.massSection "cart" 2 0, Toy.massSection "cart" 5 10]),
      ("observers", Toy.observerSection "ecef" "ellps")])) none .null)) true) (by decide +kernel)
  exact ⟨t, ht, ht1, ht2, C99_main "1.0" Toy.geo Toy.outside Toy.hullLib true (some _) none .null t3 ht3⟩
/-- C99_grids: a body from a grid, in one file or below another file, and with another vertical datum of the observers -/
example : ∃ t : Table Rat, runTable Toy.geo Toy.ceiling Toy.boxes (Toy.gridBody 0) false = .ok t ∧
    ∀ t', runTable Toy.geo Toy.ceiling Toy.boxes (View.root [.dict [("verbose", .null)], .dict [
  ("masses", .list [.dict [("density", .num false 2), ("gravity_constant", .num false 1), ("points", .null), ("file_path", .null),
    ("grid", .dict [("xstart_xend_xstep", Toy.point 0 (0 + 2) 1), ("ystart_yend_ystep", Toy.point 0 2 1), ("zstart_zend_zstep", Toy.point 0 2 1)]),
    ("crs", Toy.crsSection "cart" "ellps")]]),
  ("observers", Toy.observerSection "cart" "egm96")]]) false = .ok t' → t = t' := by
  have ret : ∀ {α : Type} {x : Except PyErr α}, isOkB x = true → ∃ y, x = .ok y := by
    intro α x h
    cases x with
    | ok y => exact ⟨y, rfl⟩
    | error e => cases h
  obtain ⟨t, ht⟩ := ret (x := runTable Toy.geo Toy.ceiling Toy.boxes (Toy.gridBody 0) false) (by decide +kernel)
  refine ⟨t, ht, fun t' ht' => C99_grids "" Toy.geo Toy.ceiling Toy.boxes _ _ false t t' ht ht' rfl _ rfl _ rfl ?_⟩
  intro i w w' hw hw'
  rcases i with _ | i
  · cases hw; cases hw'
    right
    intro k hk
    simp only [List.mem_cons, List.not_mem_nil, or_false] at hk
    rcases hk with rfl | rfl | rfl <;> rfl
  · cases hw
end

end Geec

import Verif.Props.CsvFiles
import Verif.Props.Main
/-
C110: a run and the files that it reads.
-/
namespace Geec
open Arith

variable {S : Type} [Arith S]

/-- the sections of the configuration that describe points: the observers and each mass -/
def PointSection (cfg w : View S) : Prop := w = cfg.at "observers" ∨ ∃ vs, (cfg.at "masses").iter = .ok vs ∧ w ∈ vs

/-- a section takes its points from the file `path`: it has no points of its own -/
def TakesFile (w : View S) (path : String) : Prop :=
  (w.at "points").truthy = .ok false ∧ (w.at "file_path").first = .ok (.str path) ∧ path ≠ ""

/-- the configuration reads the file `path` -/
def ReadsFile (cfg : View S) (path : String) : Prop := ∃ w, PointSection cfg w ∧ TakesFile w path

theorem readCoords_congr {o o' : Outside S} {w : View S} (hc : o.ceil = o'.ceil)
    (h : ∀ path, TakesFile w path → o.isFile path = o'.isFile path ∧ (o.isFile path = true → o.readCsv path = o'.readCsv path)) : readCoords o w = readCoords o' w := by
  have hg : readGrid o (w.at "grid") = readGrid o' (w.at "grid") := by simp only [readGrid, hc]
  unfold readCoords
  rw [hg]
  rcases ht : (w.at "points").truthy with e | _ | _
  · rfl
  · rcases hf : (w.at "file_path").first with e | v
    · simp only [View.truthy, hf, Bind.bind, Except.bind]
    · cases v
      case str path =>
        by_cases hp : path = ""
        · simp only [View.truthy, View.getStr, hf, hp, Bind.bind, Except.bind, Pure.pure, Except.pure, Val.truthy, ne_eq, not_true_eq_false, decide_false, Bool.false_eq_true,
            if_false]
        obtain ⟨h1, h2⟩ := h path ⟨ht, hf, hp⟩
        have h3 : (if o.isFile path = true then o.readCsv path else .error .fileNotFoundError) =
            if o'.isFile path = true then o'.readCsv path else .error .fileNotFoundError := by
          rw [← h1]
          split
          · next h => rw [h2 h]
          · rfl
        simp only [View.truthy, View.getStr, hf, Bind.bind, Except.bind, Pure.pure, Except.pure, h3]
      all_goals simp only [View.truthy, View.getStr, hf, Bind.bind, Except.bind, Pure.pure, Except.pure]
  · rfl

theorem getDataset_congr (g : Geodesy S) {o o' : Outside S} {w : View S} (hc : o.ceil = o'.ceil)
    (h : ∀ path, TakesFile w path → o.isFile path = o'.isFile path ∧ (o.isFile path = true → o.readCsv path = o'.readCsv path)) : getDataset g o w = getDataset g o' w := by
  simp only [getDataset, readCoords_congr hc h]

/-- a run depends on the disk only by the files that the configuration reads -/
theorem runTable_congr (g : Geodesy S) {o o' : Outside S} (lib : HullLib S) {cfg : View S} (gr : Bool) (hc : o.ceil = o'.ceil)
    (h : ∀ path, ReadsFile cfg path → o.isFile path = o'.isFile path ∧ (o.isFile path = true → o.readCsv path = o'.readCsv path)) : runTable g o lib cfg gr = runTable g o' lib cfg gr := by
  have h1 : getMasses g o cfg = getMasses g o' cfg := by
    unfold getMasses
    rcases hv : (cfg.at "masses").iter with e | vs
    · rfl
    · have : vs.mapM (getMass g o) = vs.mapM (getMass g o') := by
        have : ∀ l : List (View S), (∀ w ∈ l, w ∈ vs) → l.mapM (getMass g o) = l.mapM (getMass g o') := by
          intro l hl
          induction l with
          | nil => rfl
          | cons w l ih =>
            have hw : getMass g o w = getMass g o' w := by
              simp only [getMass, getDataset_congr g (o := o) (o' := o') (w := w) hc fun p hp => h p ⟨w, .inr ⟨vs, hv, hl w (by simp)⟩, hp⟩]
            rw [List.mapM_cons, List.mapM_cons, hw, ih fun w' hw' => hl w' (by simp [hw'])]
        exact this vs fun _ h => h
      exact this
  have h2 : getObserver g o cfg = getObserver g o' cfg := by
    simp only [getObserver, getDataset_congr g (o := o) (o' := o') (w := cfg.at "observers") hc fun p hp => h p ⟨_, .inl rfl, hp⟩]
  simp only [runTable, h1, h2]

omit [Arith S] in
theorem ofDisk_congr {csv : CsvLib S} {resolve : String → Path} {ceil : S → Int} {d d' : Disk} {path : String}
    (h : ∀ x, d (resolve path) = some (.text x) ↔ d' (resolve path) = some (.text x)) :
    (Outside.ofDisk csv resolve ceil d).isFile path = (Outside.ofDisk csv resolve ceil d').isFile path ∧
      ((Outside.ofDisk csv resolve ceil d).isFile path = true → (Outside.ofDisk csv resolve ceil d).readCsv path = (Outside.ofDisk csv resolve ceil d').readCsv path) := by
  unfold Outside.ofDisk readText
  dsimp only
  rcases h1 : d (resolve path) with _ | ⟨_ | x⟩
  · rcases h2 : d' (resolve path) with _ | ⟨_ | y⟩
    · exact ⟨rfl, fun h => (by cases h)⟩
    · exact ⟨rfl, fun h => (by cases h)⟩
    · have := (h y).mpr h2; rw [h1] at this; cases this
  · rcases h2 : d' (resolve path) with _ | ⟨_ | y⟩
    · exact ⟨rfl, fun h => (by cases h)⟩
    · exact ⟨rfl, fun h => (by cases h)⟩
    · have := (h y).mpr h2; rw [h1] at this; cases this
  · rw [(h x).mp h1]
    exact ⟨rfl, fun _ => rfl⟩

variable {i : Install} {g : Geodesy S} {csv : CsvLib S} {resolve : String → Path} {ceil : S → Int} {lib : HullLib S} {cfg : View S} {gr : Bool}

theorem geecRun_main {output : Option Path} {d : Disk} : geecRun i g csv resolve ceil lib cfg gr output d =
    geecMain i [] (some (.run ((runTable g (Outside.ofDisk csv resolve ceil (setupLogger i d).2) lib cfg gr).map (toCsv csv)) output)) d := by
  unfold geecRun geecMain
  dsimp only
  rcases setupLogger i d with ⟨e | u, d'⟩ <;> rfl

/-- **C110** A file that is neither the output of the run, with the suffix that the program gives it, nor its log is the same after the run as before,
however the run ends. -/
theorem C110_partial (output : Option Path) {d : Disk} (hd : d.WF) (h0 : d [] = some .dir) {q : Path} {t : List Char} (hq : d q = some (.text t)) (hlog : q ≠ i.logFile)
    (hout : ∀ p, output = some p → ¬ PathSuffixReplaced ".csv".toList p q) : (geecRun i g csv resolve ceil lib cfg gr output d).2 q = some (.text t) := by
  rw [geecRun_main]
  by_contra hne
  rw [← hq] at hne
  rcases C83_effects i [] _ hd h0 q hne with ⟨h1, -⟩ | ⟨-, -, h3 | ⟨s, h3, h4⟩⟩
  · rw [hq] at h1; cases h1
  · exact hlog h3
  · cases h3
    rcases hr : (runTable g (Outside.ofDisk csv resolve ceil (setupLogger i d).2) lib cfg gr).map (toCsv csv) with e | x
    · rw [hr] at h4; exact h4
    · rw [hr] at h4
      rcases output with _ | p
      · exact h4
      · exact hout p rfl h4

theorem setupLogger_text {d : Disk} (hd : d.WF) (h0 : d [] = some .dir) {q : Path} (hq : q ≠ i.logFile) (t : List Char) :
    (setupLogger i d).2 q = some (.text t) ↔ d q = some (.text t) := by
  rcases (setupLogger_step i hd h0).1.only q with h | ⟨-, h1, h2⟩ | ⟨h1, -⟩
  · rw [h]
  · rw [h1, h2]; simp
  · exact absurd h1 hq

/-- what is left by a run that returns -/
theorem geecRun_done {p : Path} {d : Disk} (hd : d.WF) (h0 : d [] = some .dir) (h : (geecRun i g csv resolve ceil lib cfg gr (some p) d).1 = .done) :
    ∃ t q, runTable g (Outside.ofDisk csv resolve ceil (setupLogger i d).2) lib cfg gr = .ok t ∧ withSuffix ".csv".toList p = .ok q ∧
      (geecRun i g csv resolve ceil lib cfg gr (some p) d).2 q = some (.text (toCsv csv t)) ∧
      (geecRun i g csv resolve ceil lib cfg gr (some p) d).2 p.dropLast = some .dir ∧
      (geecRun i g csv resolve ceil lib cfg gr (some p) d).2.WF ∧ (geecRun i g csv resolve ceil lib cfg gr (some p) d).2 [] = some .dir := by
  obtain ⟨-, hd1, h01⟩ := setupLogger_step i hd h0
  unfold geecRun at h ⊢
  rcases hl : setupLogger i d with ⟨e | u, d'⟩
  · rw [hl] at h; cases h
  rw [hl] at h hd1 h01
  dsimp only at h hd1 h01 ⊢
  rcases ht : runTable g (Outside.ofDisk csv resolve ceil d') lib cfg gr with e | t
  · rw [ht] at h; cases h
  rw [ht] at h
  simp only [Except.map, Sub2.exec, writeCsv] at h ⊢
  obtain ⟨hd2, h02⟩ := mkdirP_wf i.ro hd1 h01 p.dropLast
  rcases hm : mkdirP i.ro p.dropLast d' with ⟨e | u, d2⟩
  · rw [hm] at h; cases h
  rw [hm] at h hd2 h02
  dsimp only at h hd2 h02 ⊢
  rcases hs : withSuffix ".csv".toList p with e | q
  · rw [hs] at h; cases h
  rw [hs] at h
  dsimp only at h ⊢
  obtain ⟨-, h4, h5⟩ := openWrite_spec i.ro q (toCsv csv t) d2
  obtain ⟨h6, h7⟩ := openWrite_wf i.ro hd2 h02 q (toCsv csv t)
  have hok : (openWrite i.ro q (toCsv csv t) d2).1 = .ok () := by
    rcases ho : (openWrite i.ro q (toCsv csv t) d2).1 with e | u
    · rw [ho] at h; cases h
    · rfl
  obtain ⟨k1, k2, k3⟩ := h4 hok
  have hqd : q.dropLast = p.dropLast := by
    unfold withSuffix at hs
    rcases hg : p.getLast? with _ | n
    · rw [hg] at hs; cases hs
    · rw [hg] at hs; cases hs; rw [List.dropLast_concat]
  refine ⟨t, q, rfl, rfl, k3, ?_, h6, h7⟩
  rw [hqd] at k1
  rw [h5 _ ?_, k1]
  intro hc
  rw [hc] at k1
  exact k2 k1

theorem mkdirFrom_exists (ro : Path → Bool) {d : Disk} : ∀ (rest done : Path), (∀ q, q <+: done ++ rest → d q = some .dir) → mkdirFrom ro d done rest = (.ok (), d) := by
  intro rest
  induction rest with
  | nil => intro done _; rfl
  | cons c cs ih =>
    intro done h
    unfold mkdirFrom
    rw [h (done ++ [c]) ⟨cs, by simp⟩]
    exact ih _ (by rw [List.append_assoc]; exact h)

theorem wf_prefix {d : Disk} (hd : d.WF) (p : Path) (hp : d p = some .dir) : ∀ q, q <+: p → d q = some .dir := by
  induction p using List.reverseRecOn with
  | nil => intro q hq; rw [List.prefix_nil] at hq; rw [hq]; exact hp
  | append_singleton p c ih =>
    intro q hq
    rcases List.prefix_concat_iff.mp hq with h | h
    · rw [h]; exact hp
    · exact ih (hd p c (by rw [hp]; simp)) q h

/-- **C110**, again: a run that has returned, and whose output and log are not among the files that the configuration reads, can be repeated: it returns again and
writes the same text. -/
theorem C110_again {i' : Install} {p : Path} {d : Disk} (hd : d.WF) (h0 : d [] = some .dir) (hdone : (geecRun i g csv resolve ceil lib cfg gr (some p) d).1 = .done)
    (hread : ∀ path, ReadsFile cfg path → ¬ PathSuffixReplaced ".csv".toList p (resolve path) ∧ resolve path ≠ i.logFile ∧ resolve path ≠ i'.logFile)
    (hlog : (setupLogger i' (geecRun i g csv resolve ceil lib cfg gr (some p) d).2).1 = .ok ()) (hlog' : ¬ PathSuffixReplaced ".csv".toList p i'.logFile) :
    (geecRun i' g csv resolve ceil lib cfg gr (some p) (geecRun i g csv resolve ceil lib cfg gr (some p) d).2).1 = .done ∧
    ∀ q, PathSuffixReplaced ".csv".toList p q →
      (geecRun i' g csv resolve ceil lib cfg gr (some p) (geecRun i g csv resolve ceil lib cfg gr (some p) d).2).2 q = (geecRun i g csv resolve ceil lib cfg gr (some p) d).2 q := by
  obtain ⟨t, q, ht, hs, h1, h2, h3, h4⟩ := geecRun_done hd h0 hdone
  have hkeep : ∀ path x, ReadsFile cfg path → ((geecRun i g csv resolve ceil lib cfg gr (some p) d).2 (resolve path) = some (.text x) ↔ (setupLogger i d).2 (resolve path) = some (.text x)) := by
    intro path x hp
    obtain ⟨n1, n2, n3⟩ := hread path hp
    rw [setupLogger_text hd h0 n2]
    constructor
    · intro hx
      by_contra hne
      have hne' : (geecRun i g csv resolve ceil lib cfg gr (some p) d).2 (resolve path) ≠ d (resolve path) := by rw [hx]; exact fun h => hne h.symm
      rw [geecRun_main] at hne' hx
      rcases C83_effects i [] _ hd h0 _ hne' with ⟨-, k, -⟩ | ⟨-, -, k | ⟨s, k1, k2⟩⟩
      · rw [k] at hx; cases hx
      · exact n2 k
      · cases k1
        rw [ht] at k2
        exact n1 k2
    · intro hx
      exact C110_partial (some p) hd h0 hx n2 fun p' hp' => by cases hp'; exact n1
  generalize (geecRun i g csv resolve ceil lib cfg gr (some p) d).2 = d1 at *
  obtain ⟨-, hd2, h02⟩ := setupLogger_step i' h3 h4
  have hq1 : (setupLogger i' d1).2 q = some (.text (toCsv csv t)) := (setupLogger_text h3 h4 (fun h => hlog' (pathSuffixReplaced_iff.mpr (h ▸ hs))) _).mpr h1
  have hp1 : (setupLogger i' d1).2 p.dropLast = some .dir := by
    rcases (setupLogger_step i' h3 h4).1.only p.dropLast with h | ⟨-, -, h⟩ | ⟨-, h, -⟩
    · rw [h, h2]
    · exact h
    · exact absurd h2 h
  have hsame : runTable g (Outside.ofDisk csv resolve ceil (setupLogger i' d1).2) lib cfg gr = .ok t := by
    rw [← ht]
    refine runTable_congr g lib gr rfl fun path hp => ofDisk_congr fun x => ?_
    rw [← hkeep path x hp, setupLogger_text h3 h4 (hread path hp).2.2]
  have hqd : q.dropLast = p.dropLast := by
    unfold withSuffix at hs
    rcases hg : p.getLast? with _ | n
    · rw [hg] at hs; cases hs
    · rw [hg] at hs; cases hs; rw [List.dropLast_concat]
  have e : geecRun i' g csv resolve ceil lib cfg gr (some p) d1 = (.done, fun r => if r = q then some (.text (toCsv csv t)) else (setupLogger i' d1).2 r) := by
    unfold geecRun
    rcases hl : setupLogger i' d1 with ⟨e | u, d2⟩
    · rw [hl] at hlog; cases hlog
    rw [hl] at hsame hd2 h02 hq1 hp1
    dsimp only at hsame hd2 h02 hq1 hp1 ⊢
    rw [hsame]
    have hm : mkdirP i'.ro p.dropLast d2 = (.ok (), d2) := mkdirFrom_exists i'.ro p.dropLast [] (wf_prefix hd2 _ hp1)
    simp only [Except.map, Sub2.exec, writeCsv, hm, hs, openWrite, writeText, hq1, hqd, hp1, reduceCtorEq, false_and, if_false, Option.some.injEq, Outcome.of]
  rw [e]
  refine ⟨rfl, fun q' hq' => ?_⟩
  rw [pathSuffixReplaced_iff, hs] at hq'
  cases hq'
  rw [h1]
  exact if_pos rfl

/-! ### the output in the place of an input -/

theorem bind_ok_eq {α β : Type} {x : Except PyErr α} {a : α} {f : α → Except PyErr β} (h : x = .ok a) : (x >>= f) = f a := by rw [h]; rfl

theorem mapM_or {α β : Type} {f f' : α → Except PyErr β} {e : PyErr} : ∀ {l : List α} {ys : List β}, l.mapM f = .ok ys → (∀ x ∈ l, f' x = f x ∨ f' x = .error e) →
    (l.mapM f' = .ok ys ∨ l.mapM f' = .error e) ∧ ((∃ x ∈ l, f' x = .error e) → l.mapM f' = .error e) := by
  intro l
  induction l with
  | nil => intro ys h _; exact ⟨.inl h, by rintro ⟨x, hx, -⟩; cases hx⟩
  | cons x l ih =>
    intro ys h hx
    rw [List.mapM_cons] at h
    rcases h1 : f x with e1 | y
    · rw [h1] at h; cases h
    rcases h2 : l.mapM f with e2 | zs
    · rw [h1, h2] at h; cases h
    rw [h1, h2] at h
    cases h
    obtain ⟨k1, k2⟩ := ih h2 fun x' h' => hx x' (by simp [h'])
    rw [List.mapM_cons]
    rcases hx x (by simp) with h3 | h3
    · rw [h3, h1]
      constructor
      · rcases k1 with k | k <;> rw [k]
        · exact .inl rfl
        · exact .inr rfl
      · rintro ⟨x', hx', he⟩
        rw [k2 ?_]
        · rfl
        · rcases List.mem_cons.mp hx' with rfl | hx'
          · rw [h3, h1] at he; cases he
          · exact ⟨x', hx', he⟩
    · rw [h3]
      exact ⟨.inr rfl, fun _ => rfl⟩

/-- the file at `q` cannot be read as points any more, the others are as before -/
theorem runTable_spoilt {o o' : Outside S} {t : Table S} (h : runTable g o lib cfg gr = .ok t) (hc : o.ceil = o'.ceil)
    (hsame : ∀ path, ReadsFile cfg path → (o.isFile path = o'.isFile path ∧ (o.isFile path = true → o.readCsv path = o'.readCsv path)) ∨
      (o'.isFile path = true ∧ o'.readCsv path = .error .valueError))
    {w : View S} {path : String} (hw : PointSection cfg w) (htake : TakesFile w path) (hbad : o'.isFile path = true ∧ o'.readCsv path = .error .valueError) :
    runTable g o' lib cfg gr = .error .valueError := by
  have hds : ∀ w, PointSection cfg w → getDataset g o' w = getDataset g o w ∨ getDataset g o' w = .error .valueError := by
    intro w hw
    by_cases hall : ∀ path, TakesFile w path → o.isFile path = o'.isFile path ∧ (o.isFile path = true → o.readCsv path = o'.readCsv path)
    · exact .inl (getDataset_congr g hc hall).symm
    · push Not at hall
      obtain ⟨path, hp, hne⟩ := hall
      rcases hsame path ⟨w, hw, hp⟩ with hs | ⟨h1, h2⟩
      · obtain ⟨k, k'⟩ := hne hs.1
        exact absurd (hs.2 k) k'
      · -- the points are taken from the file, or not at all
        have hg : readGrid o (w.at "grid") = readGrid o' (w.at "grid") := by simp only [readGrid, hc]
        have : readCoords o' w = readCoords o w ∨ readCoords o' w = .error .valueError := by
          simp only [readCoords, View.truthy, View.getStr, hp.2.1, hg, Bind.bind, Except.bind, Pure.pure, Except.pure]
          rcases (w.at "points").first with e | v
          · exact .inl rfl
          · dsimp only
            rcases v.truthy with _ | _
            · rcases (Val.str path : Val S).truthy with _ | _
              · exact .inl rfl
              · rw [h1, h2]; exact .inr rfl
            · exact .inl rfl
        rcases this with h | h
        · left; simp only [getDataset, h]
        · right; simp only [getDataset, h, Bind.bind, Except.bind]
  have hbadds : getDataset g o' w = .error .valueError := by
    obtain ⟨h1, h2, h3⟩ := htake
    have ht : (w.at "file_path").truthy = .ok true := by
      simp only [View.truthy, h2, Bind.bind, Except.bind, Pure.pure, Except.pure, Val.truthy, ne_eq, h3, not_false_eq_true, decide_true]
    have hs : (w.at "file_path").getStr = .ok path := by
      simp only [View.getStr, h2, Bind.bind, Except.bind, Pure.pure, Except.pure]
    have : readCoords o' w = .error .valueError := by
      simp only [readCoords, h1, ht, hs, Bind.bind, Except.bind, Bool.false_eq_true, if_false, if_true, hbad.1, hbad.2]
    simp only [getDataset, this, Bind.bind, Except.bind]
  simp only [runTable] at h
  obtain ⟨u, hshow, h⟩ := except_bind_ok h
  obtain ⟨ms, hms, h⟩ := except_bind_ok h
  obtain ⟨ms1, hms1, h⟩ := except_bind_ok h
  obtain ⟨ms2, hms2, h⟩ := except_bind_ok h
  obtain ⟨ms3, hms3, h⟩ := except_bind_ok h
  obtain ⟨ps, hps, h⟩ := except_bind_ok h
  obtain ⟨first, hfirst, h⟩ := except_bind_ok h
  clear h
  have hmass : ∃ vs, (cfg.at "masses").iter = .ok vs ∧ vs.mapM (getMass g o) = .ok ms := by
    unfold getMasses at hms
    rcases hv : (cfg.at "masses").iter with e | vs
    · rw [hv] at hms; cases hms
    · rw [hv] at hms; exact ⟨vs, rfl, hms⟩
  obtain ⟨vs, hvs, hm⟩ := hmass
  have hgm : ∀ w, PointSection cfg w → getMass g o' w = getMass g o w ∨ getMass g o' w = .error .valueError := by
    intro w hw
    rcases hds w hw with k | k
    · left; simp only [getMass, k]
    · right; simp only [getMass, k, Bind.bind, Except.bind]
  obtain ⟨k1, k2⟩ := mapM_or (f' := getMass g o') (e := .valueError) hm fun w hw => hgm w (.inr ⟨vs, hvs, hw⟩)
  have hgm' : getMasses g o' cfg = vs.mapM (getMass g o') := by unfold getMasses; rw [hvs]; rfl
  have hobs : getObserver g o' cfg = getObserver g o cfg ∨ getObserver g o' cfg = .error .valueError := by
    rcases hds _ (.inl rfl) with k | k
    · left; simp only [getObserver, k]
    · right; simp only [getObserver, k, Bind.bind, Except.bind]
  rcases k1 with k1 | k1
  · -- the masses are as before, so it is the observers
    have hobs' : getObserver g o' cfg = .error .valueError := by
      rcases hw with rfl | ⟨vs', hvs', hw⟩
      · simp only [getObserver, hbadds, Bind.bind, Except.bind]
      · rw [hvs] at hvs'
        cases hvs'
        have := k2 ⟨w, hw, by simp only [getMass, hbadds, Bind.bind, Except.bind]⟩
        rw [k1] at this
        cases this
    have hm' : getMasses g o' cfg = .ok ms := by rw [hgm', k1]
    simp only [runTable]
    rw [bind_ok_eq hshow, bind_ok_eq hm', bind_ok_eq hms1, bind_ok_eq hms2, bind_ok_eq hms3, bind_ok_eq hps, bind_ok_eq hfirst, hobs']
    rfl
  · simp only [runTable]
    rw [bind_ok_eq hshow, hgm', k1]
    rfl

/-- **C110**, the input is lost: a run whose output, with the suffix that the program gives it, is a file from which it takes points writes over this file without
a word, and the same run again raises `ValueError`. -/
theorem C110_overwritten {i' : Install} {p : Path} {d : Disk} (hd : d.WF) (h0 : d [] = some .dir)
    (hdone : (geecRun i g csv resolve ceil lib cfg gr (some p) d).1 = .done) {w : View S} {path : String} (hw : PointSection cfg w) (htake : TakesFile w path)
    (hout : PathSuffixReplaced ".csv".toList p (resolve path)) (hread : ∀ path, ReadsFile cfg path → resolve path ≠ i.logFile ∧ resolve path ≠ i'.logFile)
    (hlog : (setupLogger i' (geecRun i g csv resolve ceil lib cfg gr (some p) d).2).1 = .ok ()) :
    (geecRun i g csv resolve ceil lib cfg gr (some p) d).2 (resolve path) ≠ d (resolve path) ∧
    (geecRun i' g csv resolve ceil lib cfg gr (some p) (geecRun i g csv resolve ceil lib cfg gr (some p) d).2).1 = .raised .valueError := by
  have hover := pathSuffixReplaced_iff.mp hout
  obtain ⟨t, q, ht, hs, h1, h2, h3, h4⟩ := geecRun_done hd h0 hdone
  rw [hover] at hs
  cases hs
  have hnp : ReadsFile cfg path := ⟨w, hw, htake⟩
  have hbad : readCsvText csv (toCsv csv t) = .error .valueError := C109_not_input g _ csv lib cfg gr t ht
  constructor
  · -- else the first run would have failed
    intro he
    rw [h1] at he
    have h5 := (setupLogger_text (i := i) hd h0 (hread path hnp).1 _).mpr he.symm
    have := runTable_spoilt (o' := Outside.ofDisk csv resolve ceil (setupLogger i d).2) ht rfl (fun path _ => .inl ⟨rfl, fun _ => rfl⟩) hw htake
      (by simp only [Outside.ofDisk, readText, h5, hbad, and_self])
    rw [ht] at this
    cases this
  · have hkeep : ∀ path' x, ReadsFile cfg path' → resolve path' ≠ resolve path →
        ((geecRun i g csv resolve ceil lib cfg gr (some p) d).2 (resolve path') = some (.text x) ↔ (setupLogger i d).2 (resolve path') = some (.text x)) := by
      intro path' x hp hne
      rw [setupLogger_text hd h0 (hread path' hp).1]
      constructor
      · intro hx
        by_contra hne2
        have hne' : (geecRun i g csv resolve ceil lib cfg gr (some p) d).2 (resolve path') ≠ d (resolve path') := by rw [hx]; exact fun h => hne2 h.symm
        rw [geecRun_main] at hne' hx
        rcases C83_effects i [] _ hd h0 _ hne' with ⟨-, k, -⟩ | ⟨-, -, k | ⟨s, k1, k2⟩⟩
        · rw [k] at hx; cases hx
        · exact (hread path' hp).1 k
        · cases k1
          rw [ht] at k2
          have k2 : withSuffix ".csv".toList p = .ok (resolve path') := pathSuffixReplaced_iff.mp k2
          rw [hover] at k2
          exact hne (Except.ok.inj k2).symm
      · intro hx
        exact C110_partial (some p) hd h0 hx (hread path' hp).1 fun p' hp' => by
          cases hp'
          rw [pathSuffixReplaced_iff, hover]
          exact fun h => hne (Except.ok.inj h).symm
    generalize (geecRun i g csv resolve ceil lib cfg gr (some p) d).2 = d1 at *
    have hq1 : (setupLogger i' d1).2 (resolve path) = some (.text (toCsv csv t)) := (setupLogger_text h3 h4 (hread path hnp).2 _).mpr h1
    have hb : ∀ path', resolve path' = resolve path → (Outside.ofDisk csv resolve ceil (setupLogger i' d1).2).isFile path' = true ∧
        (Outside.ofDisk csv resolve ceil (setupLogger i' d1).2).readCsv path' = .error .valueError := by
      intro path' hp'
      simp only [Outside.ofDisk, readText, hp', hq1, hbad, and_self]
    have hfail : runTable g (Outside.ofDisk csv resolve ceil (setupLogger i' d1).2) lib cfg gr = .error .valueError := by
      refine runTable_spoilt ht rfl (fun path' hp => ?_) hw htake (hb path rfl)
      by_cases he : resolve path' = resolve path
      · exact .inr (hb path' he)
      · refine .inl (ofDisk_congr fun x => ?_)
        rw [← hkeep path' x hp he, setupLogger_text h3 h4 (hread path' hp).2]
    unfold geecRun
    rcases hl : setupLogger i' d1 with ⟨e | u, d2⟩
    · rw [hl] at hlog; cases hlog
    rw [hl] at hfail
    dsimp only at hfail ⊢
    rw [hfail]
    rfl

/-- a run that returns has found the files that it reads -/
theorem readsFile_text {d : Disk} {t : Table S} (ht : runTable g (Outside.ofDisk csv resolve ceil d) lib cfg gr = .ok t) {path : String} (hp : ReadsFile cfg path) :
    ∃ x, d (resolve path) = some (.text x) := by
  obtain ⟨w, hw, h1, h2, h3⟩ := hp
  have hds : ∃ ds, getDataset g (Outside.ofDisk csv resolve ceil d) w = .ok ds := by
    simp only [runTable] at ht
    obtain ⟨_, _, ht⟩ := except_bind_ok ht
    obtain ⟨ms, hms, ht⟩ := except_bind_ok ht
    obtain ⟨_, _, ht⟩ := except_bind_ok ht
    obtain ⟨_, _, ht⟩ := except_bind_ok ht
    obtain ⟨_, _, ht⟩ := except_bind_ok ht
    obtain ⟨_, _, ht⟩ := except_bind_ok ht
    obtain ⟨_, _, ht⟩ := except_bind_ok ht
    obtain ⟨ob, hob, -⟩ := except_bind_ok ht
    rcases hw with rfl | ⟨vs, hvs, hw⟩
    · obtain ⟨ds, hds, -⟩ := except_bind_ok hob
      exact ⟨ds, hds⟩
    · unfold getMasses at hms
      rw [bind_ok_eq hvs] at hms
      have key : ∀ {vs : List (View S)} {ms : List (Mass S)}, List.Forall₂ (fun v m => getMass g (Outside.ofDisk csv resolve ceil d) v = .ok m) vs ms → w ∈ vs →
          ∃ m, getMass g (Outside.ofDisk csv resolve ceil d) w = .ok m := by
        intro vs ms hf hw
        induction hf with
        | nil => cases hw
        | cons h _ ih =>
          rcases List.mem_cons.mp hw with rfl | hw
          · exact ⟨_, h⟩
          · exact ih hw
      obtain ⟨m, hm⟩ := key (mapM_ok.mp hms) hw
      obtain ⟨ds, hds, -⟩ := except_bind_ok hm
      exact ⟨ds, hds⟩
  obtain ⟨ds, hds⟩ := hds
  obtain ⟨c, hc, -⟩ := except_bind_ok hds
  have ht : (w.at "file_path").truthy = .ok true := by
    simp only [View.truthy, h2, Bind.bind, Except.bind, Pure.pure, Except.pure, Val.truthy, ne_eq, h3, not_false_eq_true, decide_true]
  have hs : (w.at "file_path").getStr = .ok path := by
    simp only [View.getStr, h2, Bind.bind, Except.bind, Pure.pure, Except.pure]
  simp only [readCoords, h1, ht, hs, Bind.bind, Except.bind, Bool.false_eq_true, if_false, if_true] at hc
  rcases hx : d (resolve path) with _ | ⟨_ | x⟩
  · simp [Outside.ofDisk, readText, hx] at hc
  · simp [Outside.ofDisk, readText, hx] at hc
  · exact ⟨x, rfl⟩

/-- **C110**, exactly: after a run that has returned, all the files from which it took points are as before if and only if none of them is the output with the suffix
that the program gives it; and the same run again returns if and only if this is so, and otherwise raises `ValueError`. -/
theorem C110_exact {i' : Install} {p : Path} {d : Disk} (hd : d.WF) (h0 : d [] = some .dir) (hdone : (geecRun i g csv resolve ceil lib cfg gr (some p) d).1 = .done)
    (hread : ∀ path, ReadsFile cfg path → resolve path ≠ i.logFile ∧ resolve path ≠ i'.logFile)
    (hlog : (setupLogger i' (geecRun i g csv resolve ceil lib cfg gr (some p) d).2).1 = .ok ()) (hlog' : ¬ PathSuffixReplaced ".csv".toList p i'.logFile) :
    ((∀ path, ReadsFile cfg path → (geecRun i g csv resolve ceil lib cfg gr (some p) d).2 (resolve path) = d (resolve path)) ↔
      ∀ path, ReadsFile cfg path → ¬ PathSuffixReplaced ".csv".toList p (resolve path)) ∧
    (((geecRun i' g csv resolve ceil lib cfg gr (some p) (geecRun i g csv resolve ceil lib cfg gr (some p) d).2).1 = .done) ↔
      ∀ path, ReadsFile cfg path → ¬ PathSuffixReplaced ".csv".toList p (resolve path)) ∧
    ((geecRun i' g csv resolve ceil lib cfg gr (some p) (geecRun i g csv resolve ceil lib cfg gr (some p) d).2).1 = .done ∨
      (geecRun i' g csv resolve ceil lib cfg gr (some p) (geecRun i g csv resolve ceil lib cfg gr (some p) d).2).1 = .raised .valueError) := by
  by_cases hout : ∀ path, ReadsFile cfg path → ¬ PathSuffixReplaced ".csv".toList p (resolve path)
  · have hag := (C110_again hd h0 hdone (fun path hp => ⟨hout path hp, hread path hp⟩) hlog hlog').1
    refine ⟨⟨fun _ => hout, fun _ path hp => ?_⟩, ⟨fun _ => hout, fun _ => hag⟩, .inl hag⟩
    obtain ⟨t, q, ht, -, -, -, -, -⟩ := geecRun_done hd h0 hdone
    by_contra hne
    rw [geecRun_main] at hne
    rcases C83_effects i [] _ hd h0 _ hne with ⟨h1, h2, -⟩ | ⟨-, -, k | ⟨s, k1, k2⟩⟩
    · obtain ⟨x, hx⟩ := readsFile_text ht hp
      rw [setupLogger_text hd h0 (hread path hp).1, h1] at hx
      cases hx
    · exact (hread path hp).1 k
    · cases k1
      rw [ht] at k2
      exact hout path hp k2
  · push Not at hout
    obtain ⟨path, ⟨w, hw, htake⟩, hp⟩ := hout
    obtain ⟨h1, h2⟩ := C110_overwritten hd h0 hdone hw htake hp hread hlog
    refine ⟨⟨fun h => absurd (h path ⟨w, hw, htake⟩) h1, fun h => absurd hp (h path ⟨w, hw, htake⟩)⟩, ⟨fun h => ?_, fun h => absurd hp (h path ⟨w, hw, htake⟩)⟩, .inr h2⟩
    rw [h2] at h
    cases h

/-! ### Examples -/
namespace Toy
attribute [local instance] nanToy

/-- an installation in `/opt`, started in `/home` -/
def optInstall (log : String) : Install := ⟨["opt".toList], log.toList, [], ["opt".toList, "geec".toList], ["home".toList], fun _ => false⟩

def optDisk : Disk := fun p =>
  if p = [] ∨ p = ["home".toList] ∨ p = ["opt".toList] then some .dir else if p = ["home".toList, "obs.csv".toList] then some (.text "3,5,7\n4,6,9.5\n".toList) else none

theorem optDisk_wf : optDisk.WF := by
  intro p c h
  unfold optDisk at h ⊢
  by_cases h1 : p ++ [c] = [] ∨ p ++ [c] = ["home".toList] ∨ p ++ [c] = ["opt".toList]
  · have : p = [] := by
      rcases h1 with h1 | h1 | h1
      · simp at h1
      · simpa using congrArg List.dropLast h1
      · simpa using congrArg List.dropLast h1
    rw [if_pos (.inl this)]
  · rw [if_neg h1] at h
    by_cases h2 : p ++ [c] = ["home".toList, "obs.csv".toList]
    · have : p = ["home".toList] := by simpa using congrArg List.dropLast h2
      rw [if_pos (.inr (.inl this))]
    · rw [if_neg h2] at h; exact absurd rfl h

theorem fileConfig_reads {path : String} (h : ReadsFile fileConfig path) : path = "obs.csv" := by
  obtain ⟨w, rfl | ⟨vs, hvs, hw⟩, -, hp, -⟩ := h
  · have : ((fileConfig.at "observers").at "file_path").first = .ok (.str "obs.csv") := rfl
    rw [this] at hp
    cases hp
    rfl
  · have : (fileConfig.at "masses").iter = .ok [(fileConfig.at "masses").sub (.idx 0)] := rfl
    rw [this] at hvs
    cases hvs
    rw [List.mem_singleton] at hw
    subst hw
    have : ((((fileConfig.at "masses").sub (.idx 0)).at "file_path").first : Except PyErr (Val (Option Rat))) = .ok .null := rfl
    rw [this] at hp
    cases hp

/-- the run, writing to the file `out` in `/home` -/
def optRun (log out : String) (d : Disk) : Outcome × Disk := geecRun (optInstall log) nanGeo csvLib atHome (fun _ => 0) nanHullLib fileConfig true (some (atHome out)) d

/-- C110_partial and C110_again: with the output `out.txt` the run leaves `obs.csv` as it is and can be repeated -/
example : (optRun "1.log" "out.txt" optDisk).1 = .done ∧ (optRun "1.log" "out.txt" optDisk).2 (atHome "obs.csv") = some (.text "3,5,7\n4,6,9.5\n".toList) ∧
    (optRun "2.log" "out.txt" (optRun "1.log" "out.txt" optDisk).2).1 = .done ∧
    (optRun "2.log" "out.txt" (optRun "1.log" "out.txt" optDisk).2).2 (atHome "out.csv") = (optRun "1.log" "out.txt" optDisk).2 (atHome "out.csv") := by
  have h1 : (optRun "1.log" "out.txt" optDisk).1 = .done := by decide +kernel
  have h2 : isOkB (setupLogger (optInstall "2.log") (optRun "1.log" "out.txt" optDisk).2).1 = true := by decide +kernel
  have h3 : (setupLogger (optInstall "2.log") (optRun "1.log" "out.txt" optDisk).2).1 = .ok () := by
    rcases h : (setupLogger (optInstall "2.log") (optRun "1.log" "out.txt" optDisk).2).1 with e | u
    · rw [h] at h2; cases h2
    · rfl
  have hs : withSuffix ".csv".toList (atHome "out.txt") = .ok (atHome "out.csv") := by rfl
  have h4 := C110_again (i' := optInstall "2.log") optDisk_wf (by decide) h1 (fun path hp => by
    rw [fileConfig_reads hp, pathSuffixReplaced_iff, hs]
    exact ⟨fun h => absurd (Except.ok.inj h) (by decide +kernel), by decide +kernel, by decide +kernel⟩) h3 (by rw [pathSuffixReplaced_iff, hs]; exact fun h => absurd (Except.ok.inj h) (by decide +kernel))
  exact ⟨h1, C110_partial _ optDisk_wf (by decide) (by decide +kernel) (by decide +kernel) (fun p hp => by
    cases hp
    rw [pathSuffixReplaced_iff, hs]
    exact fun h => absurd (Except.ok.inj h) (by decide +kernel)), h4.1, h4.2 _ (pathSuffixReplaced_iff.mpr hs)⟩

/-- with the output `obs.txt` the run writes over the stations `obs.csv`; it cannot be repeated -/
theorem obs_overwritten : (optRun "1.log" "obs.txt" optDisk).1 = .done ∧ (optRun "1.log" "obs.txt" optDisk).2 (atHome "obs.csv") ≠ optDisk (atHome "obs.csv") ∧
    (optRun "2.log" "obs.txt" (optRun "1.log" "obs.txt" optDisk).2).1 = .raised .valueError := by
  have h1 : (optRun "1.log" "obs.txt" optDisk).1 = .done := by decide +kernel
  have h2 : isOkB (setupLogger (optInstall "2.log") (optRun "1.log" "obs.txt" optDisk).2).1 = true := by decide +kernel
  have h3 : (setupLogger (optInstall "2.log") (optRun "1.log" "obs.txt" optDisk).2).1 = .ok () := by
    rcases h : (setupLogger (optInstall "2.log") (optRun "1.log" "obs.txt" optDisk).2).1 with e | u
    · rw [h] at h2; cases h2
    · rfl
  exact ⟨h1, C110_overwritten (i' := optInstall "2.log") optDisk_wf (by decide) h1 (w := fileConfig.at "observers") (path := "obs.csv") (.inl rfl) ⟨rfl, rfl, by decide⟩
    (pathSuffixReplaced_iff.mpr rfl) (fun path hp => by rw [fileConfig_reads hp]; exact ⟨by decide +kernel, by decide +kernel⟩) h3⟩

/-- C110_exact: with the output `obs.txt` the run cannot be repeated, as `obs.csv` is read -/
example : (optRun "2.log" "obs.txt" (optRun "1.log" "obs.txt" optDisk).2).1 ≠ .done := by
  have h2 : isOkB (setupLogger (optInstall "2.log") (optRun "1.log" "obs.txt" optDisk).2).1 = true := by decide +kernel
  have h3 : (setupLogger (optInstall "2.log") (optRun "1.log" "obs.txt" optDisk).2).1 = .ok () := by
    rcases h : (setupLogger (optInstall "2.log") (optRun "1.log" "obs.txt" optDisk).2).1 with e | u
    · rw [h] at h2; cases h2
    · rfl
  intro hdone
  have hs : withSuffix ".csv".toList (atHome "obs.txt") = .ok (atHome "obs.csv") := by rfl
  exact (C110_exact (i' := optInstall "2.log") optDisk_wf (by decide) obs_overwritten.1 (fun path hp => by
    rw [fileConfig_reads hp]; exact ⟨by decide +kernel, by decide +kernel⟩) h3 (by
    rw [pathSuffixReplaced_iff, hs]; exact fun h => absurd (Except.ok.inj h) (by decide +kernel))).2.1.mp hdone "obs.csv"
    ⟨fileConfig.at "observers", .inl rfl, rfl, rfl, by decide⟩ (pathSuffixReplaced_iff.mpr rfl)

/-- **C110 refuted**: a run may change a file that it reads, though its output was given another name. -/
theorem C110_false : ¬ ∀ (i : Install) (csv : CsvLib (Option Rat)) (resolve : String → Path) (lib : HullLib (Option Rat)) (cfg : View (Option Rat)) (gr : Bool) (p : Path) (d : Disk),
    d.WF → d [] = some .dir → ∀ path, ReadsFile cfg path → resolve path ≠ i.logFile → resolve path ≠ p →
      (geecRun i nanGeo csv resolve (fun _ => 0) lib cfg gr (some p) d).2 (resolve path) = d (resolve path) := by
  intro h
  exact obs_overwritten.2.1 (h (optInstall "1.log") csvLib atHome nanHullLib fileConfig true (atHome "obs.txt") optDisk optDisk_wf (by decide) "obs.csv"
    ⟨fileConfig.at "observers", .inl rfl, rfl, rfl, by decide⟩ (by decide +kernel) (by decide +kernel))

end Toy
end Geec

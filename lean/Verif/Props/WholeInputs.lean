import Verif.Props.WholeProgram

/-! What the output of the program depends on. -/

namespace Geec
open Arith
variable {S : Type} [Arith S]

/-- The words call `run`, with gradient if `gr`, and the output file is `q`.  The file named by `--config`, if any, holds `arg`, the user's file holds `user` and the defaults of the package
are `dflt`.  The grids are installed, the log can be written, the directory of the output exists, the output file can be written. -/
structure Surroundings.Runs (e : Surroundings S) (d : Disk) (args : List (List Char)) (gr : Bool) (arg : Option (Val S)) (user dflt : Val S) (q : Path) : Prop where
  disk : d.WF
  top : d [] = some .dir
  grids : GridsInstalled e.grid e.install d
  logger : (setupLogger e.install d).1 = .ok ()
  other : e.Holds d user dflt
  words : ∃ l os output cfg, (args = "run".toList :: l ∨ args = "--".toList :: "run".toList :: l) ∧ RunWords l os [output] ∧ ¬ AsksHelp os ∧
    LastValue "--config".toList os cfg ∧ (gr = true ↔ WantsGradient os) ∧ e.Names d cfg arg ∧ output ≠ [] ∧ PathSuffixReplaced ".csv".toList (e.expand output) q
  place : d q.dropLast = some .dir
  free : d q ≠ some .dir ∧ ¬ q <+: e.install.logdir
  writable : e.install.ro q.dropLast = false

omit [Arith S] in
theorem Surroundings.Calls.runs {e : Surroundings S} {d : Disk} {args : List (List Char)} {gr : Bool} {v : Val ℚ} {q : Path} (h : e.Calls d args gr v q)
    {user dflt : Val S} (hold : e.Holds d user dflt) : e.Runs d args gr (some (v.read e.lit)) user dflt q := by
  obtain ⟨l, os, output, cfg, file, es, k1, k2, k3, k4, k5, k6, k7, k8, k9, rfl, k10, k11, k12⟩ := h.words
  exact ⟨h.disk, h.top, h.grids, h.logger, hold, ⟨l, os, output, cfg, k1, k2, k3, k4, k5, .inr ⟨k6, k7, _, .mapping file es k8 k9 k10, rfl⟩, k11, k12⟩,
    h.place, h.free, h.writable⟩

/-- the run as it is called: the text of the table is in the output, or the exception of the computation is raised and nothing but the log is written -/
theorem Surroundings.Runs.outcome {e : Surroundings S} {d : Disk} {args : List (List Char)} {gr : Bool} {arg : Option (Val S)} {user dflt : Val S} {q : Path}
    (h : e.Runs d args gr arg user dflt q) :
    (∀ t, runTable e.geodesy (Outside.ofDisk e.csv e.resolve e.ceil (setupLogger e.install d).2) e.hull (View.root (setupSources arg (some user) dflt)) gr = .ok t →
      ∃ d', geecProgram e args d = some (.done, d') ∧ d' q = some (.text (toCsv e.csv t)) ∧ ∀ r, r ≠ q → d' r = (setupLogger e.install d).2 r) ∧
    (∀ err, runTable e.geodesy (Outside.ofDisk e.csv e.resolve e.ceil (setupLogger e.install d).2) e.hull (View.root (setupSources arg (some user) dflt)) gr = .error err →
      geecProgram e args d = some (.raised err, (setupLogger e.install d).2)) := by
  obtain ⟨l, os, output, cfg, k1, k2, k3, k4, k5, k6, k11, k12⟩ := h.words
  obtain ⟨hstep, hd1, h01⟩ := setupLogger_step e.install h.disk h.top
  have hrun := C121_run e d h.disk h.top h.grids args l k1 os output cfg gr k2 k3 k4 k5 user dflt h.other arg k6
  rw [if_neg k11] at hrun
  have hl := h.logger
  unfold geecRun at hrun
  rcases hs : setupLogger e.install d with ⟨err | u, d1⟩
  · rw [hs] at hl; cases hl
  rw [hs] at hrun hstep hd1 h01
  dsimp only at hrun hstep hd1 h01 ⊢
  constructor
  · intro t ht
    rw [ht] at hrun
    have hq := pathSuffixReplaced_iff.mp k12
    have hqd : q.dropLast = (e.expand output).dropLast := by
      obtain ⟨dir, name, out, h1, -, rfl⟩ := k12
      rw [h1]; simp
    have hplace : d1 (e.expand output).dropLast = some .dir := by
      rw [← hqd]
      rcases hstep.only q.dropLast with h1 | ⟨-, -, h1⟩ | ⟨-, h1, -⟩
      · rw [h1]; exact h.place
      · exact h1
      · exact absurd h.place h1
    have hfree : d1 q ≠ some .dir := by
      rcases hstep.only q with h1 | ⟨h1, -⟩ | ⟨-, -, t, h1⟩
      · rw [h1]; exact h.free.1
      · exact absurd h1 h.free.2
      · rw [h1]; simp
    have hmk : mkdirP e.install.ro (e.expand output).dropLast d1 = (.ok (), d1) :=
      mkdirFrom_exists e.install.ro _ [] (wf_prefix hd1 _ hplace)
    refine ⟨fun r => if r = q then some (.text (toCsv e.csv t)) else d1 r, ?_, by simp, fun r hr => by simp [hr]⟩
    rw [hrun]
    have hw := h.writable
    rw [hqd] at hw
    simp only [Except.map, Sub2.exec, writeCsv, hmk, hq, openWrite, hw, Bool.false_eq_true, and_false, if_false, writeText, hqd, hplace, hfree, Outcome.of]
  · intro err ht
    rw [hrun, ht]
    rfl

omit [Arith S] in
/-- a file of points with the same text is read in the same way -/
theorem ofDisk_same {csv : CsvLib S} {resolve resolve' : String → Path} {ceil : S → Int} {d d' : Disk} {path : String}
    (h : ∀ t, d (resolve path) = some (.text t) ↔ d' (resolve' path) = some (.text t)) :
    (Outside.ofDisk csv resolve ceil d).isFile path = (Outside.ofDisk csv resolve' ceil d').isFile path ∧
      ((Outside.ofDisk csv resolve ceil d).isFile path = true → (Outside.ofDisk csv resolve ceil d).readCsv path = (Outside.ofDisk csv resolve' ceil d').readCsv path) := by
  unfold Outside.ofDisk readText
  dsimp only
  rcases h1 : d (resolve path) with _ | ⟨_ | x⟩
  · rcases h2 : d' (resolve' path) with _ | ⟨_ | y⟩
    · exact ⟨rfl, fun h => (by cases h)⟩
    · exact ⟨rfl, fun h => (by cases h)⟩
    · have := (h y).mpr h2; rw [h1] at this; cases this
  · rcases h2 : d' (resolve' path) with _ | ⟨_ | y⟩
    · exact ⟨rfl, fun h => (by cases h)⟩
    · exact ⟨rfl, fun h => (by cases h)⟩
    · have := (h y).mpr h2; rw [h1] at this; cases this
  · rw [(h x).mp h1]
    exact ⟨rfl, fun _ => rfl⟩

/-- **C125** What the output depends on.  Two calls of `run`, with any words, on any disks, in any working directories, with any installations, of which both or none ask for the gradient; the
configuration files hold the same values, and each file of points that is read has the same text.  Then both end well and write the same text, or both raise the same exception
and write nothing but the log.  Nothing else on the disk, in the words or in the surroundings has an influence; in particular not the output file that is there before, the log, and the
contents of other files. -/
theorem C125_same (e e' : Surroundings S) (hlibs : e'.geodesy = e.geodesy ∧ e'.csv = e.csv ∧ e'.ceil = e.ceil ∧ e'.hull = e.hull) {d d' : Disk}
    {args args' : List (List Char)} {gr : Bool} {arg : Option (Val S)} {user dflt : Val S} {q q' : Path}
    (h : e.Runs d args gr arg user dflt q) (h' : e'.Runs d' args' gr arg user dflt q')
    (hfiles : ∀ path, ReadsFile (View.root (setupSources arg (some user) dflt)) path → e.resolve path ≠ e.install.logFile ∧ e'.resolve path ≠ e'.install.logFile ∧
      ∀ t, d (e.resolve path) = some (.text t) ↔ d' (e'.resolve path) = some (.text t)) :
    (∃ t r r', geecProgram e args d = some (.done, r) ∧ geecProgram e' args' d' = some (.done, r') ∧ r q = some (.text t) ∧ r' q' = some (.text t)) ∨
    (∃ err, geecProgram e args d = some (.raised err, (setupLogger e.install d).2) ∧ geecProgram e' args' d' = some (.raised err, (setupLogger e'.install d').2)) := by
  obtain ⟨l1, l2, l3, l4⟩ := hlibs
  have hsame : runTable e'.geodesy (Outside.ofDisk e'.csv e'.resolve e'.ceil (setupLogger e'.install d').2) e'.hull (View.root (setupSources arg (some user) dflt)) gr =
      runTable e.geodesy (Outside.ofDisk e.csv e.resolve e.ceil (setupLogger e.install d).2) e.hull (View.root (setupSources arg (some user) dflt)) gr := by
    rw [l1, l2, l3, l4]
    symm
    refine runTable_congr e.geodesy e.hull gr ?_ fun path hp => ?_
    · rfl
    obtain ⟨k1, k2, k3⟩ := hfiles path hp
    exact ofDisk_same fun t => by
      rw [setupLogger_text h.disk h.top k1, setupLogger_text h'.disk h'.top k2]; exact k3 t
  obtain ⟨a1, a2⟩ := h.outcome
  obtain ⟨b1, b2⟩ := h'.outcome
  rcases ht : runTable e.geodesy (Outside.ofDisk e.csv e.resolve e.ceil (setupLogger e.install d).2) e.hull (View.root (setupSources arg (some user) dflt)) gr with err | t
  · exact .inr ⟨err, a2 err ht, b2 err (hsame.trans ht)⟩
  · obtain ⟨r, c1, c2, -⟩ := a1 t ht
    obtain ⟨r', c1', c2', -⟩ := b1 t (hsame.trans ht)
    exact .inl ⟨_, r, r', c1, c1', c2, by rw [c2', l2]⟩

/-! ### Two calls on two disks -/

namespace Whole

/-- the disk of C122 with an output of an earlier run and another file -/
def usedContents : List (Path × Node) := (["a".toList, "out.csv".toList], .text "old\n".toList) :: (["a".toList, "z.txt".toList], .text "z".toList) :: contents

/-- the disk -/
def usedDisk : Disk := fun p => (usedContents.find? (·.1 = p)).map (·.2)

theorem used_wf : usedDisk.WF := by
  have h : usedContents.all (fun x => x.1 == [] || decide (usedDisk x.1.dropLast = some .dir)) = true := by decide +kernel
  intro p c hp
  rcases hf : usedContents.find? (·.1 = p ++ [c]) with _ | x
  · exact absurd (by rw [usedDisk, hf]; rfl) hp
  · have h1 := List.all_eq_true.mp h x (List.mem_of_find?_eq_some hf)
    have h2 : x.1 = p ++ [c] := by simpa using List.find?_some hf
    rw [h2] at h1
    simpa using h1

theorem whole_holds : around.Holds disk (.dict []) (.dict []) := by
  have h1 : disk ["home".toList, "config.yaml".toList] = none := by decide +kernel
  have h2 : disk (install.cfg ++ ["config_default.yaml".toList]) = none := by decide +kernel
  refine ⟨.missing fun t h => ?_, .missing fun t h => ?_, ?_, ?_⟩
  · exact absurd (h1.symm.trans h) (by simp)
  · exact absurd (h2.symm.trans h) (by simp)
  · show ["home".toList, "config.yaml".toList] ≠ install.logFile
    decide +kernel
  · show install.cfg ++ ["config_default.yaml".toList] ≠ install.logFile
    decide +kernel

/-- `-- run out --config in.yaml` -/
def otherWords : List (List Char) := ["--".toList, "run".toList, "out".toList, "--config".toList, "in.yaml".toList]

theorem used_runs : around.Runs usedDisk otherWords false (some ((Val.dict wholeValue).read around.lit)) (.dict []) (.dict []) ["a".toList, "out.csv".toList] where
  disk := used_wf
  top := by decide +kernel
  grids := by
    intro n hn
    refine ⟨"P5".toList, ?_, by decide +kernel⟩
    simp only [List.mem_cons, List.not_mem_nil, or_false] at hn
    show usedDisk (["a".toList] ++ ["geec".toList, "data".toList, "geoids".toList, n]) = some (.text "P5".toList)
    rcases hn with rfl | rfl | rfl <;> decide +kernel
  logger := by
    have h : isOkB (setupLogger install usedDisk).1 = true := by decide +kernel
    show (setupLogger install usedDisk).1 = .ok ()
    rcases hh : (setupLogger install usedDisk).1 with e | u
    · rw [hh] at h; cases h
    · rfl
  other := by
    have h1 : usedDisk ["home".toList, "config.yaml".toList] = none := by decide +kernel
    have h2 : usedDisk (install.cfg ++ ["config_default.yaml".toList]) = none := by decide +kernel
    refine ⟨.missing fun t h => ?_, .missing fun t h => ?_, whole_holds.userLog, whole_holds.dfltLog⟩
    · exact absurd (h1.symm.trans h) (by simp)
    · exact absurd (h2.symm.trans h) (by simp)
  words := by
    refine ⟨["out".toList, "--config".toList, "in.yaml".toList], [("--config".toList, "in.yaml".toList)], "out".toList, "in.yaml".toList, .inr rfl, ?_, ?_, ?_, ?_,
      .inr ⟨by decide +kernel, ?_, _, .mapping wholeFile wholeValue ?_ whole_plain whole_writes, rfl⟩, by decide +kernel, ?_⟩
    · exact .operand _ _ _ _ rfl (.inl (by decide +kernel)) (.separate _ _ _ _ _ (by simp) .nil)
    · exact fun h => absurd ((help_iff _).mpr h) (by decide +kernel)
    · exact (lastValue_iff _ _ _).mpr (by decide +kernel)
    · exact ⟨fun h => (by cases h), fun h => absurd ((gradient_iff _).mp h) (by decide +kernel)⟩
    · show ["a".toList, (String.ofList "in.yaml".toList).toList] ≠ install.logFile
      decide +kernel
    · show usedDisk ["a".toList, (String.ofList "in.yaml".toList).toList] = some (.text (unlines wholeFile))
      decide +kernel
    · exact pathSuffixReplaced_iff.mpr (by rfl)
  place := by decide +kernel
  free := by
    refine ⟨by decide +kernel, ?_⟩
    show ¬ ["a".toList, "out.csv".toList] <+: install.logdir
    decide +kernel
  writable := rfl

theorem used_same {p : Path} (h1 : p ≠ ["a".toList, "out.csv".toList]) (h2 : p ≠ ["a".toList, "z.txt".toList]) : usedDisk p = disk p := by
  simp only [usedDisk, usedContents, List.find?_cons, h1.symm, h2.symm, decide_false, disk]

/-- C125: the run of C122 and a run with other words on a disk with more files write the same text or raise the same exception (the former by C122) -/
example : (∃ t r r', geecProgram around (theWords "--no-gradient") disk = some (.done, r) ∧ geecProgram around otherWords usedDisk = some (.done, r') ∧
      r ["a".toList, "out.csv".toList] = some (.text t) ∧ r' ["a".toList, "out.csv".toList] = some (.text t)) ∨
    (∃ err, geecProgram around (theWords "--no-gradient") disk = some (.raised err, (setupLogger around.install disk).2) ∧
      geecProgram around otherWords usedDisk = some (.raised err, (setupLogger around.install usedDisk).2)) := by
  refine C125_same around around ⟨rfl, rfl, rfl, rfl⟩ ((whole_calls false).runs whole_holds) used_runs fun path hp => ?_
  -- the only file of points is p.csv
  have hpath : path = "p.csv" := by
    have htop : (View.root (setupSources (some ((Val.dict wholeValue).read around.lit)) (some (Val.dict [])) (Val.dict []))).Top ((Val.dict wholeValue).read around.lit) := ⟨_, rfl⟩
    obtain ⟨w, hw, ht, hf, -⟩ := hp
    obtain ⟨⟨vs, h1, h2⟩, wo, h3, h4, -⟩ := whole_says
    rcases hw with rfl | ⟨ws, hi, hw⟩
    · have k : Says (.dict wholeValue) ["observers", "file_path"] (.str "p.csv") := by rfl
      have k1 := (htop.says k).first
      rw [read_str] at k1
      have k2 : .ok (.str "p.csv") = (Except.ok (Val.str path) : Except PyErr (Val ℝ)) := k1.symm.trans hf
      simpa using k2.symm
    · have k : Says (.dict wholeValue) ["masses"] (.list vs) := h1
      have k1 := htop.says k
      rw [read_list, View.path_one] at k1
      simp only [View.iter, k1.first, Except.ok.injEq] at hi
      subst hi
      obtain ⟨i, hi, rfl⟩ := List.mem_map.mp hw
      have hi : i < vs.length := by simpa using hi
      exfalso
      have hlen := h2.length_eq
      obtain ⟨v0, rfl⟩ : ∃ v0, vs = [v0] := List.length_eq_one_iff.mp hlen
      obtain rfl : i = 0 := by simp at hi; omega
      have k0 : v0 = .dict [] ∨ ∃ p ps, Says v0 ["points"] (.list (p :: ps)) := by
        have k' : Says (.dict wholeValue) ["masses"] (.list [v0]) := k
        obtain ⟨a, b, c, h⟩ : ∃ l p ps, Says (.dict wholeValue) ["masses"] (.list [l]) ∧ Says l ["points"] (.list (p :: ps)) := ⟨_, _, _, rfl, rfl⟩
        have : v0 = a := by
          have := k'.symm.trans h.1
          simpa using this
        exact .inr ⟨b, c, this ▸ h.2⟩
      rcases k0 with rfl | ⟨p, ps, k0⟩
      · cases h2 with
        | cons hb _ =>
          obtain ⟨_, _, hx, _⟩ := hb.density
          cases hx
      · have k2 : ((View.root (setupSources (some ((Val.dict wholeValue).read around.lit)) (some (Val.dict [])) (Val.dict []))).at "masses").sub (.idx 0) |>.Top (v0.read around.lit) :=
          k1.sub (by simp [Val.sub])
        have k3 := (k2.says k0).first
        rw [read_list, View.path_one] at k3
        simp [View.truthy, k3, Bind.bind, Except.bind, Pure.pure, Except.pure, Val.truthy] at ht
  subst hpath
  refine ⟨?_, ?_, fun t => ?_⟩
  · show ["a".toList, "p.csv".toList] ≠ install.logFile
    decide +kernel
  · show ["a".toList, "p.csv".toList] ≠ install.logFile
    decide +kernel
  · show disk ["a".toList, "p.csv".toList] = _ ↔ usedDisk ["a".toList, "p.csv".toList] = _
    rw [used_same (by decide +kernel) (by decide +kernel)]

end Whole
end Geec

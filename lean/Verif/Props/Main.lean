import Verif.Model.Main
import Verif.Spec.Suffix
import Mathlib.Tactic.SplitIfs
import Mathlib.Data.List.Induction
import Mathlib.Tactic.ByContra
/-
C83: the program as it is invoked, and what it leaves on the disk.
-/
namespace Geec

/-- whatever exists, exists in a directory -/
def Disk.WF (d : Disk) : Prop := ∀ p c, d (p ++ [c]) ≠ none → d p = some .dir

theorem wf_below {d : Disk} (hd : d.WF) {p : Path} (hp : d p = none) : ∀ r : Path, d (p ++ r) = none := by
  intro r
  induction r using List.reverseRecOn with
  | nil => rwa [List.append_nil]
  | append_singleton r c ih =>
    by_contra h
    rw [← List.append_assoc] at h
    rw [hd _ _ h] at ih
    cases ih

/-- what `mkdir` does: nothing when it raises; when it returns, only missing paths on the way to `p` have changed, to directories -/
theorem mkdirFrom_spec (ro : Path → Bool) {d : Disk} (hd : d.WF) (p : Path) : ∀ done, d done = some .dir →
    (∀ e, (mkdirFrom ro d done p).1 = .error e → (mkdirFrom ro d done p).2 = d) ∧
    (∀ q, (mkdirFrom ro d done p).2 q = d q ∨ (q <+: done ++ p ∧ d q = none ∧ (mkdirFrom ro d done p).2 q = some .dir)) ∧
    ((mkdirFrom ro d done p).1 = .ok () → p ≠ [] → (mkdirFrom ro d done p).2 (done ++ p) = some .dir) ∧
    ((mkdirFrom ro d done p).2.WF) := by
  induction p with
  | nil =>
    intro done hdone
    exact ⟨fun e h => (by cases h), fun q => Or.inl rfl, fun _ h => absurd rfl h, hd⟩
  | cons c cs ih =>
    intro done hdone
    unfold mkdirFrom
    rcases hq : d (done ++ [c]) with _ | ⟨_ | t⟩
    · dsimp only
      split_ifs with hro
      · exact ⟨fun _ _ => rfl, fun q => Or.inl rfl, fun h => (by cases h), hd⟩
      · have new : ∀ q, ((done ++ [c]).isPrefixOf q && q.isPrefixOf (done ++ c :: cs)) = true → d q = none := by
          intro q h
          rw [Bool.and_eq_true, List.isPrefixOf_iff_prefix, List.isPrefixOf_iff_prefix] at h
          obtain ⟨⟨r, rfl⟩, -⟩ := h
          exact wf_below hd hq r
        refine ⟨fun e h => (by cases h), fun q => ?_, fun _ _ => ?_, ?_⟩
        · dsimp only
          split_ifs with h
          · right
            refine ⟨?_, new q h, rfl⟩
            rw [Bool.and_eq_true, List.isPrefixOf_iff_prefix, List.isPrefixOf_iff_prefix] at h
            exact h.2
          · exact Or.inl rfl
        · dsimp only
          rw [if_pos]
          rw [Bool.and_eq_true, List.isPrefixOf_iff_prefix, List.isPrefixOf_iff_prefix]
          exact ⟨⟨cs, by simp⟩, List.prefix_rfl⟩
        · intro q x hx
          dsimp only at hx ⊢
          split_ifs at hx with h
          · rw [Bool.and_eq_true, List.isPrefixOf_iff_prefix, List.isPrefixOf_iff_prefix] at h
            by_cases hq' : done ++ [c] <+: q
            · rw [if_pos]
              rw [Bool.and_eq_true, List.isPrefixOf_iff_prefix, List.isPrefixOf_iff_prefix]
              exact ⟨hq', (List.prefix_append q [x]).trans h.2⟩
            · rw [if_neg]
              · -- then q = done
                have : q = done := by
                  rcases List.prefix_concat_iff.mp h.1 with h1 | h1
                  · exact (List.append_inj_left' h1 rfl).symm
                  · exact absurd h1 hq'
                rw [this]; exact hdone
              · rw [Bool.and_eq_true, List.isPrefixOf_iff_prefix, List.isPrefixOf_iff_prefix]
                exact fun h => hq' h.1
          · split_ifs with h2
            · rfl
            · exact hd _ _ hx
    · dsimp only
      have := ih (done ++ [c]) hq
      rw [List.append_assoc, List.singleton_append] at this
      refine ⟨this.1, this.2.1, fun h _ => ?_, this.2.2.2⟩
      rcases cs with _ | ⟨c', cs⟩
      · exact hq
      · exact this.2.2.1 h (by simp)
    · exact ⟨fun _ _ => rfl, fun q => Or.inl rfl, fun h => (by cases h), hd⟩

/-- what opening a file does -/
theorem openWrite_spec (ro : Path → Bool) (p : Path) (t : List Char) (d : Disk) :
    (∀ e, (openWrite ro p t d).1 = .error e → (openWrite ro p t d).2 = d) ∧
    ((openWrite ro p t d).1 = .ok () → d p.dropLast = some .dir ∧ d p ≠ some .dir ∧ (openWrite ro p t d).2 p = some (.text t)) ∧
    (∀ q, q ≠ p → (openWrite ro p t d).2 q = d q) := by
  unfold openWrite writeText
  by_cases h0 : d p = none ∧ ro p.dropLast = true
  · rw [if_pos h0]; exact ⟨fun _ _ => rfl, fun h => (by cases h), fun _ _ => rfl⟩
  · rw [if_neg h0]
    rcases h1 : d p.dropLast with _ | ⟨_ | c⟩
    · exact ⟨fun _ _ => rfl, fun h => (by cases h), fun _ _ => rfl⟩
    · by_cases h2 : d p = some .dir
      · dsimp only; rw [if_pos h2]; exact ⟨fun _ _ => rfl, fun h => (by cases h), fun _ _ => rfl⟩
      · dsimp only; rw [if_neg h2]; exact ⟨fun _ h => (by cases h), fun _ => ⟨rfl, h2, if_pos rfl⟩, fun q hq => if_neg hq⟩
    · exact ⟨fun _ _ => rfl, fun h => (by cases h), fun _ _ => rfl⟩

/-- a step from one disk to another: paths in `D` may have become directories where there was nothing, and the file `F`, if any, may have been written -/
structure Step (D F : Path → Prop) (d d' : Disk) : Prop where
  only : ∀ q, d' q = d q ∨ (D q ∧ d q = none ∧ d' q = some .dir) ∨ (F q ∧ d q ≠ some .dir ∧ ∃ t, d' q = some (.text t))

theorem Step.refl {D F : Path → Prop} (d : Disk) : Step D F d d := ⟨fun _ => Or.inl rfl⟩

theorem Step.trans {D F D' F' : Path → Prop} {d d' d'' : Disk} (h : Step D F d d') (h' : Step D' F' d' d'') :
    Step (fun q => D q ∨ D' q) (fun q => F q ∨ F' q) d d'' := by
  constructor
  intro q
  rcases h'.only q with e' | ⟨k1', k2', k3'⟩ | ⟨k1', k2', t', k3'⟩
  · rw [e']
    rcases h.only q with e | ⟨k1, k2, k3⟩ | ⟨k1, k2, k3⟩
    · exact Or.inl e
    · exact Or.inr (Or.inl ⟨Or.inl k1, k2, k3⟩)
    · exact Or.inr (Or.inr ⟨Or.inl k1, k2, k3⟩)
  · rcases h.only q with e | ⟨k1, k2, k3⟩ | ⟨k1, k2, t, k3⟩
    · exact Or.inr (Or.inl ⟨Or.inr k1', e ▸ k2', k3'⟩)
    · rw [k3] at k2'; cases k2'
    · rw [k3] at k2'; cases k2'
  · rcases h.only q with e | ⟨k1, k2, k3⟩ | ⟨k1, k2, t, k3⟩
    · exact Or.inr (Or.inr ⟨Or.inr k1', e ▸ k2', t', k3'⟩)
    · exact absurd k3 k2'
    · exact Or.inr (Or.inr ⟨Or.inr k1', k2, t', k3'⟩)

theorem Step.mono {D F D' F' : Path → Prop} {d d' : Disk} (h : Step D F d d') (hD : ∀ q, D q → D' q) (hF : ∀ q, F q → F' q) : Step D' F' d d' :=
  ⟨fun q => (h.only q).imp id (Or.imp (fun k => ⟨hD q k.1, k.2⟩) (fun k => ⟨hF q k.1, k.2⟩))⟩

theorem mkdirP_step (ro : Path → Bool) {d : Disk} (hd : d.WF) (h0 : d [] = some .dir) (p : Path) : Step (fun q => q <+: p) (fun _ => False) d (mkdirP ro p d).2 :=
  ⟨fun q => ((mkdirFrom_spec ro hd p [] h0).2.1 q).imp id Or.inl⟩

theorem openWrite_step (ro : Path → Bool) (p : Path) (t : List Char) (d : Disk) : Step (fun _ => False) (fun q => q = p) d (openWrite ro p t d).2 := by
  obtain ⟨h1, h2, h3⟩ := openWrite_spec ro p t d
  constructor
  intro q
  by_cases hq : q = p
  · subst hq
    rcases he : (openWrite ro q t d).1 with e | u
    · left; rw [h1 e he]
    · obtain ⟨-, h4, h5⟩ := h2 he
      exact Or.inr (Or.inr ⟨rfl, h4, t, h5⟩)
  · exact Or.inl (h3 q hq)

/-- the root stays, and the disk stays well-formed -/
theorem mkdirP_wf (ro : Path → Bool) {d : Disk} (hd : d.WF) (h0 : d [] = some .dir) (p : Path) : (mkdirP ro p d).2.WF ∧ (mkdirP ro p d).2 [] = some .dir := by
  refine ⟨(mkdirFrom_spec ro hd p [] h0).2.2.2, ?_⟩
  rcases (mkdirP_step ro hd h0 p).only [] with h | h | h
  · rw [h, h0]
  · exact h.2.2
  · exact absurd h0 h.2.1

theorem openWrite_wf (ro : Path → Bool) {d : Disk} (hd : d.WF) (h0 : d [] = some .dir) (p : Path) (t : List Char) :
    (openWrite ro p t d).2.WF ∧ (openWrite ro p t d).2 [] = some .dir := by
  obtain ⟨h1, h2, h3⟩ := openWrite_spec ro p t d
  have hst := openWrite_step ro p t d
  constructor
  · intro q c hqc
    rcases he : (openWrite ro p t d).1 with e | u
    · rw [h1 e he] at hqc ⊢; exact hd q c hqc
    · obtain ⟨k1, k2, k3⟩ := h2 he
      have hq : d q = some .dir := by
        by_cases h : q ++ [c] = p
        · rw [← h, List.dropLast_concat] at k1; exact k1
        · rw [h3 _ h] at hqc; exact hd q c hqc
      rcases hst.only q with h | h | h
      · rw [h, hq]
      · exact h.2.2
      · exact absurd hq h.2.1
  · rcases hst.only [] with h | h | h
    · rw [h, h0]
    · exact h.2.2
    · exact absurd h0 h.2.1

/-- the log file of an invocation -/
def Install.logFile (i : Install) : Path := i.base ++ ["log".toList, i.logName]

theorem logFile_eq (i : Install) : i.logFile = i.logdir ++ [i.logName] := by simp [Install.logFile, Install.logdir]

theorem setupLogger_step (i : Install) {d : Disk} (hd : d.WF) (h0 : d [] = some .dir) :
    Step (fun q => q <+: i.logdir) (fun q => q = i.logFile) d (setupLogger i d).2 ∧ (setupLogger i d).2.WF ∧ (setupLogger i d).2 [] = some .dir := by
  have h1 := mkdirP_step i.ro hd h0 i.logdir
  have h2 := mkdirP_wf i.ro hd h0 i.logdir
  unfold setupLogger setupLogdir
  rcases h : mkdirP i.ro i.logdir d with ⟨e | u, d'⟩
  · rw [h] at h1 h2; exact ⟨h1.mono (fun _ h => h) (fun _ h => h.elim), h2⟩
  · rw [h] at h1 h2
    dsimp only at h1 h2 ⊢
    refine ⟨(h1.trans (openWrite_step i.ro _ _ d')).mono ?_ ?_, openWrite_wf i.ro h2.1 h2.2 _ _⟩
    · rintro q (h | h)
      · exact h
      · exact h.elim
    · rintro q (h | h)
      · exact h.elim
      · rw [logFile_eq]; exact h

/-- where a sub-command may write: the CSV file of `run`, the YAML file of `config` -/
def Sub2.file (i : Install) : Sub2 → Path → Prop
  | .run (.ok _) (some p), q => PathSuffixReplaced ".csv".toList p q
  | .config none (some p), q => PathSuffixReplaced ".yaml".toList p q
  | .config none none, q => q = i.cwd ++ ["config_template.yaml".toList]
  | _, _ => False

/-- the directories that a sub-command may make: those above the output of `run` -/
def Sub2.dirs : Sub2 → Path → Prop
  | .run (.ok _) (some p), q => q <+: p.dropLast
  | _, _ => False

theorem writeCsv_step (i : Install) (t : List Char) (p : Path) {d : Disk} (hd : d.WF) (h0 : d [] = some .dir) :
    Step (fun q => q <+: p.dropLast) (fun q => withSuffix ".csv".toList p = .ok q) d (writeCsv i t (some p) d).2 ∧
    (∀ e, (writeCsv i t (some p) d).1 = .error e → Step (fun q => q <+: p.dropLast) (fun _ => False) d (writeCsv i t (some p) d).2) := by
  have h1 := mkdirP_step i.ro hd h0 p.dropLast
  unfold writeCsv
  dsimp only
  rcases h : mkdirP i.ro p.dropLast d with ⟨e | u, d'⟩
  · rw [h] at h1; exact ⟨h1.mono (fun _ h => h) (fun _ h => h.elim), fun _ _ => h1⟩
  · rw [h] at h1
    dsimp only at h1 ⊢
    rcases hs : withSuffix ".csv".toList p with e | q
    · exact ⟨h1.mono (fun _ h => h) (fun _ h => h.elim), fun _ _ => h1⟩
    · dsimp only
      constructor
      · refine (h1.trans (openWrite_step i.ro q t d')).mono ?_ ?_
        · rintro q (h | h)
          · exact h
          · exact h.elim
        · rintro q (h | h)
          · exact h.elim
          · rw [h]
      · intro e he
        rw [(openWrite_spec i.ro q t d').1 e he]; exact h1

theorem exec_step (i : Install) (s : Sub2) {d : Disk} (hd : d.WF) (h0 : d [] = some .dir) :
    Step s.dirs (s.file i) d (s.exec i d).2 ∧ ((s.exec i d).1 ≠ .done → Step s.dirs (fun _ => False) d (s.exec i d).2) := by
  rcases s with ⟨_ | t, _ | p⟩ | ⟨_ | e, out⟩ | _
  · exact ⟨Step.refl d, fun _ => Step.refl d⟩
  · exact ⟨Step.refl d, fun _ => Step.refl d⟩
  · exact ⟨Step.refl d, fun _ => Step.refl d⟩
  · obtain ⟨h1, h2⟩ := writeCsv_step i t p hd h0
    refine ⟨h1.mono (fun _ h => h) (fun _ h => pathSuffixReplaced_iff.mpr h), fun h => ?_⟩
    rcases he : (writeCsv i t (some p) d).1 with e | u
    · exact h2 e he
    · exact absurd (congrArg Outcome.of he) h
  · unfold Sub2.exec
    have key : ∀ path : Path, (∀ q, q = path → Sub2.file i (.config none out) q) →
        ∀ r : Outcome × Disk, r = (match readText (i.cfg ++ ["config_template.yaml".toList]) d with
          | .error e => (.raised e, d)
          | .ok c => (Outcome.of (openWrite i.ro path c d).1, (openWrite i.ro path c d).2)) →
        Step (Sub2.dirs (.config none out)) (Sub2.file i (.config none out)) d r.2 ∧ (r.1 ≠ .done → Step (Sub2.dirs (.config none out)) (fun _ => False) d r.2) := by
      rintro path hpath r rfl
      rcases readText (i.cfg ++ ["config_template.yaml".toList]) d with e | c
      · exact ⟨Step.refl d, fun _ => Step.refl d⟩
      · refine ⟨(openWrite_step i.ro path c d).mono (fun _ h => h.elim) hpath, fun h => ?_⟩
        dsimp only at h ⊢
        rcases he : (openWrite i.ro path c d).1 with e | u
        · rw [(openWrite_spec i.ro path c d).1 e he]; exact Step.refl d
        · exact absurd (congrArg Outcome.of he) h
    rcases out with _ | p
    · exact key _ (fun q h => h) _ rfl
    · dsimp only
      rcases hs : withSuffix ".yaml".toList p with e | q
      · exact ⟨Step.refl d, fun _ => Step.refl d⟩
      · exact key q (fun q' h => by subst h; exact pathSuffixReplaced_iff.mpr hs) _ rfl
  · unfold Sub2.exec
    rcases out with _ | p
    · exact ⟨Step.refl d, fun _ => Step.refl d⟩
    · dsimp only
      rcases withSuffix ".yaml".toList p with e | q
      · exact ⟨Step.refl d, fun _ => Step.refl d⟩
      · exact ⟨Step.refl d, fun _ => Step.refl d⟩
  · exact ⟨Step.refl d, fun _ => Step.refl d⟩

/-- **C83** What an invocation of `geec` can change: missing directories above and including the log directory are made, the log file of the invocation is written, and
the sub-command makes the directories above its output (`run`) and writes its one file; no other path changes. -/
theorem C83_effects (i : Install) (opts : List AppOption) (sub : Option Sub2) {d : Disk} (hd : d.WF) (h0 : d [] = some .dir) (q : Path)
    (hq : (geecMain i opts sub d).2 q ≠ d q) :
    (d q = none ∧ (geecMain i opts sub d).2 q = some .dir ∧ (q <+: i.base ++ ["log".toList] ∨ ∃ s, sub = some s ∧ s.dirs q)) ∨
    (d q ≠ some .dir ∧ (∃ t, (geecMain i opts sub d).2 q = some (.text t)) ∧ (q = i.logFile ∨ ∃ s, sub = some s ∧ s.file i q)) := by
  have fin : ∀ {D F : Path → Prop} {d' : Disk}, Step D F d d' → d' q ≠ d q → (d q = none ∧ d' q = some .dir ∧ D q) ∨ (d q ≠ some .dir ∧ (∃ t, d' q = some (.text t)) ∧ F q) := by
    intro D F d' h hne
    rcases h.only q with k | k | k
    · exact absurd k hne
    · exact Or.inl ⟨k.2.1, k.2.2, k.1⟩
    · exact Or.inr ⟨k.2.1, k.2.2, k.1⟩
  refine fin (D := fun q => q <+: i.logdir ∨ ∃ s, sub = some s ∧ s.dirs q) (F := fun q => q = i.logFile ∨ ∃ s, sub = some s ∧ s.file i q) ?_ hq
  unfold geecMain
  rcases opts with _ | ⟨_ | _, opts⟩
  · rcases sub with _ | s
    · exact Step.refl d
    · obtain ⟨h1, h2, h3⟩ := setupLogger_step i hd h0
      dsimp only
      rcases h : setupLogger i d with ⟨e | u, d'⟩
      · rw [h] at h1; exact h1.mono (fun _ h => Or.inl h) (fun _ h => Or.inl h)
      · rw [h] at h1 h2 h3
        exact (h1.trans (exec_step i s h2 h3).1).mono (fun _ h => h.imp id (fun h => ⟨s, rfl, h⟩)) (fun _ h => h.imp id (fun h => ⟨s, rfl, h⟩))
  · exact Step.refl d
  · have h1 := mkdirP_step i.ro hd h0 i.logdir
    dsimp only
    unfold setupLogdir
    rcases h : mkdirP i.ro i.logdir d with ⟨e | u, d'⟩ <;>
    · rw [h] at h1; exact h1.mono (fun _ h => Or.inl h) (fun _ h => h.elim)

/-- **C83** If the program does not end as a command that returned, no file but the log file of the invocation is written: the texts are as before. -/
theorem C83_failure (i : Install) (opts : List AppOption) (sub : Option Sub2) {d : Disk} (hd : d.WF) (h0 : d [] = some .dir)
    (ho : (geecMain i opts sub d).1 ≠ .done) {q : Path} (hq : q ≠ i.logFile) (t : List Char) :
    (geecMain i opts sub d).2 q = some (.text t) ↔ d q = some (.text t) := by
  have fin : ∀ {D F : Path → Prop} {d' : Disk}, Step D F d d' → (∀ q, F q → q = i.logFile) → (d' q = some (.text t) ↔ d q = some (.text t)) := by
    intro D F d' h hF
    rcases h.only q with k | k | k
    · rw [k]
    · rw [k.2.1, k.2.2]; simp
    · exact absurd (hF q k.1) hq
  unfold geecMain at ho ⊢
  rcases opts with _ | ⟨_ | _, opts⟩
  · rcases sub with _ | s
    · exact Iff.rfl
    · obtain ⟨h1, h2, h3⟩ := setupLogger_step i hd h0
      dsimp only at ho ⊢
      rcases h : setupLogger i d with ⟨e | u, d'⟩
      · rw [h] at h1; exact fin h1 (fun _ h => h)
      · rw [h] at h1 h2 h3 ho
        refine fin (h1.trans ((exec_step i s h2 h3).2 ho)) ?_
        rintro q (h | h)
        · exact h
        · exact h.elim
  · exact Iff.rfl
  · have h1 := mkdirP_step i.ro hd h0 i.logdir
    dsimp only
    unfold setupLogdir
    rcases h : mkdirP i.ro i.logdir d with ⟨e | u, d'⟩ <;>
    · rw [h] at h1; exact fin h1 (fun _ h => h.elim)

/-- **C83** The log directory lies beside the package.  If that directory cannot be written, no sub-command works, not even `config` or `run --help`: each raises and
changes nothing; only `--version` works. -/
theorem C83_readonly (i : Install) {d : Disk} (hbase : ∀ q, q <+: i.base → d q = some .dir)
    (hro : (d (i.base ++ ["log".toList]) = none ∧ i.ro i.base = true) ∨
      (d (i.base ++ ["log".toList]) = some .dir ∧ i.ro (i.base ++ ["log".toList]) = true ∧ d i.logFile = none)) :
    (∀ s, geecMain i [] (some s) d = (.raised .osError, d)) ∧ (∀ opts sub, geecMain i (.version :: opts) sub d = (.exit, d)) := by
  have hro : (d i.logdir = none ∧ i.ro i.base = true) ∨ (d i.logdir = some .dir ∧ i.ro i.logdir = true ∧ d (i.logdir ++ [i.logName]) = none) := by
    rw [← logFile_eq]; exact hro
  have walk : ∀ (rest done : Path), (∀ q, q <+: done ++ rest → d q = some .dir) → mkdirFrom i.ro d done (rest ++ ["log".toList]) =
      match d (done ++ rest ++ ["log".toList]) with
      | some .dir => (.ok (), d)
      | some (.text _) => (.error .osError, d)
      | none => if i.ro (done ++ rest) then (.error .osError, d)
          else (.ok (), fun q => if (done ++ rest ++ ["log".toList]).isPrefixOf q && q.isPrefixOf (done ++ rest ++ ["log".toList]) then some .dir else d q) := by
    intro rest
    induction rest with
    | nil =>
      intro done _
      rw [List.append_nil, List.nil_append]
      rfl
    | cons c cs ih =>
      intro done h
      have hc : d (done ++ [c]) = some .dir := h _ ⟨cs, by simp⟩
      have hcs := ih (done ++ [c]) (by rw [List.append_assoc]; exact h)
      rw [List.append_assoc done [c] cs, List.singleton_append] at hcs
      rw [← hcs, List.cons_append]
      conv_lhs => unfold mkdirFrom
      rw [hc]
  have hw := walk i.base [] hbase
  have hlog : setupLogger i d = (.error .osError, d) := by
    unfold setupLogger setupLogdir mkdirP
    change mkdirFrom i.ro d [] i.logdir = match d i.logdir with
      | some .dir => (.ok (), d)
      | some (.text _) => (.error .osError, d)
      | none => if i.ro i.base then (.error .osError, d)
          else (.ok (), fun q => if i.logdir.isPrefixOf q && q.isPrefixOf i.logdir then some .dir else d q) at hw
    rcases hro with ⟨h1, h2⟩ | ⟨h1, h2, h3⟩
    · rw [hw, h1]; dsimp only; rw [if_pos h2]
    · rw [hw, h1]; dsimp only
      unfold openWrite
      rw [if_pos]
      refine ⟨h3, ?_⟩
      rw [List.dropLast_concat]; exact h2
  refine ⟨fun s => ?_, fun _ _ => rfl⟩
  unfold geecMain
  dsimp only
  rw [hlog]

/-- **C83** `run` makes the directories above its output, where `config` would raise `FileNotFoundError`: if everything can be written, no component of the path is
a file, and the CSV file is not a directory, the table ends up in the CSV file named after the output. -/
theorem C83_run_creates (i : Install) (hro : ∀ q, i.ro q = false) {d : Disk} (hd : d.WF) (h0 : d [] = some .dir) (t : List Char) {dir : Path} {name out : List Char} (hout : SuffixReplaced ".csv".toList name out)
    (hlog : (setupLogger i d).1 = .ok ()) (htext : ∀ q, q <+: dir → ∀ c, (setupLogger i d).2 q ≠ some (.text c))
    (hcsv : (setupLogger i d).2 (dir ++ [out]) ≠ some .dir) :
    (geecMain i [] (some (.run (.ok t) (some (dir ++ [name])))) d).1 = .done ∧
    (geecMain i [] (some (.run (.ok t) (some (dir ++ [name])))) d).2 (dir ++ [out]) = some (.text t) := by
  rw [suffixReplaced_iff] at hout
  subst hout
  obtain ⟨-, h2, h3⟩ := setupLogger_step i hd h0
  unfold geecMain
  dsimp only
  rcases h : setupLogger i d with ⟨e | u, d'⟩
  · rw [h] at hlog; cases hlog
  rw [h] at h2 h3 htext hcsv
  dsimp only at h2 h3 htext hcsv ⊢
  have mk : ∀ (rest done : Path), (∀ q, q <+: done ++ rest → ∀ c, d' q ≠ some (.text c)) → (mkdirFrom i.ro d' done rest).1 = .ok () := by
    intro rest
    induction rest with
    | nil => intro done _; rfl
    | cons c cs ih =>
      intro done hT
      unfold mkdirFrom
      rcases hc : d' (done ++ [c]) with _ | ⟨_ | x⟩
      · dsimp only; rw [hro]; rfl
      · exact ih _ (by rw [List.append_assoc]; exact hT)
      · exact absurd hc (hT _ ⟨cs, by simp⟩ x)
  have hmk := mk dir [] htext
  have hdir : (mkdirP i.ro dir d').2 dir = some .dir := by
    rcases dir with _ | ⟨c, cs⟩
    · exact (mkdirP_wf i.ro h2 h3 []).2
    · exact (mkdirFrom_spec i.ro h2 (c :: cs) [] h3).2.2.1 hmk (by simp)
  have hst := mkdirP_step i.ro h2 h3 dir
  have hcsv' : (mkdirP i.ro dir d').2 (dir ++ [stem name ++ ".csv".toList]) ≠ some .dir := by
    rcases hst.only (dir ++ [stem name ++ ".csv".toList]) with k | k | k
    · rw [k]; exact hcsv
    · exact absurd k.1.length_le (by simp)
    · exact k.1.elim
  have hop : openWrite i.ro (dir ++ [stem name ++ ".csv".toList]) t (mkdirP i.ro dir d').2 =
      (.ok (), fun q => if q = dir ++ [stem name ++ ".csv".toList] then some (.text t) else (mkdirP i.ro dir d').2 q) := by
    unfold openWrite writeText
    rw [if_neg (by rw [hro]; simp), List.dropLast_concat, hdir]
    dsimp only
    rw [if_neg hcsv']
  have hcsvcall : writeCsv i t (some (dir ++ [name])) d' = openWrite i.ro (dir ++ [stem name ++ ".csv".toList]) t (mkdirP i.ro dir d').2 := by
    unfold writeCsv withSuffix
    dsimp only
    rw [List.dropLast_concat, List.getLast?_concat]
    rcases hm : mkdirP i.ro dir d' with ⟨e | u, d''⟩
    · have hmk : (mkdirP i.ro dir d').1 = .ok () := hmk
      rw [hm] at hmk; cases hmk
    · rfl
  unfold Sub2.exec
  dsimp only
  rw [hcsvcall, hop]
  exact ⟨rfl, if_pos rfl⟩

/-- an installation under `/a`, with its configuration files in `/a/c`, and a writable working directory `/w` -/
def sampleInstall (ro : Path → Bool) : Install :=
  { base := ["a".toList], logName := "l".toList, logText := "x".toList, cfg := ["a".toList, "c".toList], cwd := ["w".toList], ro := ro }

/-- its disk: `/`, `/a`, `/a/c`, the template `/a/c/config_template.yaml`, and `/w` -/
def sampleDisk : Disk := fun q =>
  if q = [] ∨ q = ["a".toList] ∨ q = ["a".toList, "c".toList] ∨ q = ["w".toList] then some .dir
  else if q = ["a".toList, "c".toList, "config_template.yaml".toList] then some (.text "t".toList) else none

theorem sampleDisk_wf : sampleDisk.WF := by
  intro p c h
  unfold sampleDisk at h ⊢
  split_ifs at h with h1 h2
  · rw [if_pos]
    rcases h1 with h1 | h1 | h1 | h1
    · simp at h1
    · have := congrArg List.dropLast h1; rw [List.dropLast_concat] at this; left; exact this
    · have := congrArg List.dropLast h1; rw [List.dropLast_concat] at this; right; left; exact this
    · have := congrArg List.dropLast h1; rw [List.dropLast_concat] at this; left; exact this
  · have := congrArg List.dropLast h2; rw [List.dropLast_concat] at this
    rw [if_pos]; right; right; left; exact this
  · exact absurd rfl h

/-- the hypotheses of `C83_effects` and `C83_failure` are met: a `run` that raises writes nothing but the log -/
example : (sampleDisk.WF ∧ sampleDisk [] = some .dir) ∧
    (geecMain (sampleInstall fun _ => false) [] (some (.run (.error .typeError) (some ["w".toList, "o".toList]))) sampleDisk).1 = .raised .typeError := by
  refine ⟨⟨sampleDisk_wf, by decide⟩, by decide⟩

/-- the hypotheses of `C83_readonly` are met by an installation in a directory that cannot be written; `config` then raises although `/w` can be written -/
example : (∀ q, q <+: (sampleInstall fun q => q == ["a".toList]).base → sampleDisk q = some .dir) ∧
    (sampleDisk (sampleInstall fun q => q == ["a".toList]).logdir = none ∧ (sampleInstall fun q => q == ["a".toList]).ro (sampleInstall fun q => q == ["a".toList]).base = true) ∧
    (geecMain (sampleInstall fun q => q == ["a".toList]) [] (some (.config none none)) sampleDisk).1 = .raised .osError ∧
    (geecMain (sampleInstall fun _ => false) [] (some (.config none none)) sampleDisk).1 = .done := by
  refine ⟨?_, by decide, by decide, by decide⟩
  intro q hq
  have hq : q <+: ["a".toList] := hq
  rw [List.prefix_cons_iff] at hq
  rcases hq with h | ⟨t, rfl, ht⟩
  · subst h; decide
  · rw [List.prefix_nil] at ht; subst ht; decide

/-- `run /w/new/o` makes `/w/new` and writes `/w/new/o.csv`; `config --output /w/new/o` raises `FileNotFoundError` -/
example : (setupLogger (sampleInstall fun _ => false) sampleDisk).1 = .ok () ∧
    (geecMain (sampleInstall fun _ => false) [] (some (.run (.ok "1".toList) (some ["w".toList, "new".toList, "o".toList]))) sampleDisk).2 ["w".toList, "new".toList, "o.csv".toList] =
      some (.text "1".toList) ∧
    (geecMain (sampleInstall fun _ => false) [] (some (.config none (some ["w".toList, "new".toList, "o".toList]))) sampleDisk).1 = .raised .fileNotFoundError := by
  refine ⟨by decide, by decide, by decide⟩

end Geec

import Verif.Lemmas.CommandLine
import Verif.Props.Start
import Verif.Props.Yaml
/-
C121: the words of the command line.
-/
namespace Geec
open Arith
variable {S : Type}

/-! ### Configuration files on the disk -/

/-- The file `p` holds a source of the configuration: a mapping is written in it, or nothing but comments. -/
inductive FileSource (lit : ℚ → S) (d : Disk) (p : Path) : Val S → Prop
  | mapping (file : List (List Char)) (es : List (String × Val ℚ)) : d p = some (.text (unlines file)) → PlainLines file → Writes file (.dict es) →
      FileSource lit d p ((Val.dict es).read lit)
  | empty (file : List (List Char)) : d p = some (.text (unlines file)) → PlainLines file → (∀ l ∈ file, YamlLine l []) → FileSource lit d p (.dict [])

/-- the same for a file that need not be there -/
inductive OptionalFile (lit : ℚ → S) (d : Disk) (p : Path) : Val S → Prop
  | there (v : Val S) : FileSource lit d p v → OptionalFile lit d p v
  | missing : (∀ t, d p ≠ some (.text t)) → OptionalFile lit d p (.dict [])

/-- The user's file and the defaults of the package hold `user` and `dflt`; none of them is the log. -/
structure Surroundings.Holds (e : Surroundings S) (d : Disk) (user dflt : Val S) : Prop where
  user : OptionalFile e.lit d e.userFile user
  dflt : OptionalFile e.lit d (e.install.cfg ++ ["config_default.yaml".toList]) dflt
  userLog : e.userFile ≠ e.install.logFile
  dfltLog : e.install.cfg ++ ["config_default.yaml".toList] ≠ e.install.logFile

/-- `cfg`, the value of `--config`, names the file with the source `arg`, which is not the log; if it is empty there is no such source -/
def Surroundings.Names (e : Surroundings S) (d : Disk) (cfg : List Char) (arg : Option (Val S)) : Prop :=
  (cfg = [] ∧ arg = none) ∨
  (cfg ≠ [] ∧ e.resolve (String.ofList cfg) ≠ e.install.logFile ∧ ∃ v, FileSource e.lit d (e.resolve (String.ofList cfg)) v ∧ arg = some v)

theorem FileSource.log {lit : ℚ → S} {i : Install} {d : Disk} (hd : d.WF) (h0 : d [] = some .dir) {p : Path} (hp : p ≠ i.logFile) {v : Val S}
    (h : FileSource lit d p v) : FileSource lit (setupLogger i d).2 p v := by
  rcases h with ⟨file, es, h1, h2, h3⟩ | ⟨file, h1, h2, h3⟩
  · exact .mapping file es ((setupLogger_text hd h0 hp _).mpr h1) h2 h3
  · exact .empty file ((setupLogger_text hd h0 hp _).mpr h1) h2 h3

theorem OptionalFile.log {lit : ℚ → S} {i : Install} {d : Disk} (hd : d.WF) (h0 : d [] = some .dir) {p : Path} (hp : p ≠ i.logFile) {v : Val S}
    (h : OptionalFile lit d p v) : OptionalFile lit (setupLogger i d).2 p v := by
  rcases h with ⟨_, h⟩ | h
  · exact .there _ (h.log hd h0 hp)
  · exact .missing fun t ht => h t ((setupLogger_text hd h0 hp _).mp ht)

theorem FileSource.text {lit : ℚ → S} {d : Disk} {p : Path} {v : Val S} (h : FileSource lit d p v) :
    ∃ t, d p = some (.text t) ∧ configSource lit t = some v := by
  rcases h with ⟨file, es, h1, h2, h3⟩ | ⟨file, h1, h2, h3⟩
  · exact ⟨_, h1, (C118_source lit file h2).1 es h3⟩
  · exact ⟨_, h1, (C118_source lit file h2).2 h3⟩

theorem OptionalFile.source {lit : ℚ → S} {d : Disk} {p : Path} {v : Val S} (h : OptionalFile lit d p v) : optionalSource lit p d = some v := by
  unfold optionalSource
  rcases h with ⟨_, h⟩ | h
  · obtain ⟨t, h1, h2⟩ := h.text
    rw [h1]; exact h2
  · rcases hp : d p with _ | ⟨_ | t⟩
    · rfl
    · rfl
    · exact absurd hp (h t)

theorem Surroundings.Holds.setup {e : Surroundings S} {d : Disk} (hd : d.WF) (h0 : d [] = some .dir) {user dflt : Val S} (h : e.Holds d user dflt) :
    defaultSetup e (setupLogger e.install d).2 = some (user, dflt) := by
  unfold defaultSetup
  rw [(h.user.log hd h0 h.userLog).source, (h.dflt.log hd h0 h.dfltLog).source]

theorem Surroundings.Names.setup {e : Surroundings S} {d : Disk} (hd : d.WF) (h0 : d [] = some .dir) {user dflt : Val S} (h : e.Holds d user dflt)
    {cfg : List Char} {arg : Option (Val S)} (ha : e.Names d cfg arg) :
    configSetup e cfg (setupLogger e.install d).2 = some (.ok (setupSources arg (some user) dflt)) := by
  unfold configSetup
  rw [h.setup hd h0]
  rcases ha with ⟨rfl, rfl⟩ | ⟨hc, hl, v, hv, rfl⟩
  · rfl
  · obtain ⟨t, h1, h2⟩ := (hv.log hd h0 hl).text
    simp only [hc, if_false, argumentSource, readText, h1, h2, Option.map_some]

variable [Arith S]

/-! ### The application -/

theorem appParse {args : List (List Char)} {os : List (List Char × List Char)} {r : List (List Char)} : parseArgs appOption false args = some (os, r) ↔ AppWords args os r :=
  parse_iff appNames false args os r

/-- **C121** Without the geoid grids nothing is done, whatever the words are (C111). -/
theorem C121_grids (e : Surroundings S) (d : Disk) (h : ¬ GridsInstalled e.grid e.install d) (args : List (List Char)) :
    geecProgram e args d = some (.raised .valueError, d) := by
  unfold geecProgram
  rw [(importCrs_spec e.grid e.install d).2 h]

/-- **C121** The application: the words before the command.  Words that are no command line of the application, or have no known command, are a usage error and change
nothing; of the options the first one decides: `--log` makes the log directory, the others change nothing. -/
theorem C121_app (e : Surroundings S) (d : Disk) (h : GridsInstalled e.grid e.install d) (args : List (List Char)) :
    ((∀ os r, ¬ AppWords args os r) → geecProgram e args d = some (.usageError, d)) ∧
    (∀ r, AppWords args [] r → (∀ l, r ≠ "run".toList :: l ∧ r ≠ "config".toList :: l) → geecProgram e args d = some (.usageError, d)) ∧
    (∀ n v os r, AppWords args ((n, v) :: os) r → n ≠ "--log".toList → geecProgram e args d = some (.exit, d)) ∧
    (∀ v os r, AppWords args (("--log".toList, v) :: os) r → ∃ o, geecProgram e args d = some (o, (mkdirP e.install.ro (e.install.base ++ ["log".toList]) d).2) ∧
      (o = .exit ∨ ∃ err, o = .raised err ∧ (mkdirP e.install.ro (e.install.base ++ ["log".toList]) d).1 = .error err)) := by
  unfold geecProgram
  rw [(importCrs_spec e.grid e.install d).1 h]
  refine ⟨fun hn => ?_, fun r hr hc => ?_, fun n v os r hr hn => ?_, fun v os r hr => ?_⟩
  · rcases hp : parseArgs appOption false args with _ | ⟨os, r⟩
    · rfl
    · exact absurd (appParse.mp hp) (hn os r)
  · simp only [appParse.mpr hr]
    rcases r with _ | ⟨c, l⟩
    · rfl
    · have h1 : c ≠ "run".toList := fun hh => (hc l).1 (by rw [hh])
      have h2 : c ≠ "config".toList := fun hh => (hc l).2 (by rw [hh])
      simp only [h1, h2, or_self, if_false]
  · simp only [appParse.mpr hr, hn, if_false]
    rfl
  · simp only [appParse.mpr hr, if_true]
    unfold geecMain setupLogdir Install.logdir
    dsimp only
    rcases mkdirP e.install.ro (e.install.base ++ ["log".toList]) d with ⟨err | u, d'⟩
    · exact ⟨_, rfl, .inr ⟨err, rfl, rfl⟩⟩
    · exact ⟨_, rfl, .inl rfl⟩

theorem program_command (e : Surroundings S) (d : Disk) (h : GridsInstalled e.grid e.install d) {args : List (List Char)} (run : Bool) (l : List (List Char))
    (ha : AppWords args [] ((if run then "run".toList else "config".toList) :: l)) :
    geecProgram e args d = match setupLogger e.install d with
      | (.error err, d') => some (.raised err, d')
      | (.ok (), d') => (subCommand e run l d').map (Sub2.exec e.install d') := by
  unfold geecProgram
  rw [(importCrs_spec e.grid e.install d).1 h]
  simp only [appParse.mpr ha]
  rcases run with _ | _
  · have h1 : "config".toList ≠ "run".toList := by decide +kernel
    simp only [Bool.false_eq_true, if_false, or_true, if_true, h1, decide_false]
    rcases setupLogger e.install d with ⟨err | u, d'⟩ <;> rfl
  · simp only [if_true, true_or, decide_true]
    rcases setupLogger e.install d with ⟨err | u, d'⟩ <;> rfl

/-- **C121** A command is known by its first word, before which `--` may stand. -/
theorem C121_command (c : List Char) (hc : c = "run".toList ∨ c = "config".toList) (args l : List (List Char)) :
    AppWords args [] (c :: l) ↔ args = c :: l ∨ args = "--".toList :: c :: l := by
  have hop : Operand c := by
    left
    rcases hc with rfl | rfl
    · rw [show "run".toList = ['r', 'u', 'n'] by decide +kernel]; simp
    · rw [show "config".toList = ['c', 'o', 'n', 'f', 'i', 'g'] by decide +kernel]; simp
  constructor
  · intro h
    unfold AppWords at h
    cases h with
    | stop => exact .inr rfl
    | operand _ _ _ _ hm => cases hm
    | command => exact .inl rfl
  · rintro (rfl | rfl)
    · exact .command c l rfl hop
    · exact .stop _

/-- **C121** When the logger cannot be set up, a command raises and does nothing else. -/
theorem C121_logger (e : Surroundings S) (d : Disk) (h : GridsInstalled e.grid e.install d) (run : Bool) (l args : List (List Char))
    (ha : AppWords args [] ((if run then "run".toList else "config".toList) :: l)) {err : PyErr} (hlog : (setupLogger e.install d).1 = .error err) :
    geecProgram e args d = some (.raised err, (setupLogger e.install d).2) := by
  rw [program_command e d h run l ha]
  rcases hs : setupLogger e.install d with ⟨err' | u, d'⟩
  · rw [hs] at hlog; cases hlog; rfl
  · rw [hs] at hlog; cases hlog

/-! ### `run` -/

theorem runParse {args : List (List Char)} {os : List (List Char × List Char)} {r : List (List Char)} : parseArgs runOption true args = some (os, r) ↔ RunWords args os r :=
  parse_iff runNames true args os r

theorem parseRun_call {l : List (List Char)} {os : List (List Char × List Char)} {output cfg : List Char} {gr : Bool} (hw : RunWords l os [output])
    (hh : ¬ AsksHelp os) (hc : LastValue "--config".toList os cfg) (hg : gr = true ↔ WantsGradient os) : parseRun l = .call output cfg gr := by
  unfold parseRun
  rw [runParse.mpr hw]
  have h1 : ¬ (os.any (·.1 = "--help".toList) = true) := fun h => hh ((help_iff os).mp h)
  dsimp only
  rw [if_neg h1, (lastValue_iff _ os cfg).mp hc]
  congr 1
  have := (gradient_iff os)
  rw [Bool.eq_iff_iff, ← this, hg]

/-- **C121** `run` does what its words say: the options may stand anywhere and in both spellings, the last one counts, and the other word is the output. -/
theorem C121_run (e : Surroundings S) (d : Disk) (hd : d.WF) (h0 : d [] = some .dir) (h : GridsInstalled e.grid e.install d) (args l : List (List Char))
    (ha : args = "run".toList :: l ∨ args = "--".toList :: "run".toList :: l) (os : List (List Char × List Char)) (output cfg : List Char) (gr : Bool)
    (hw : RunWords l os [output]) (hh : ¬ AsksHelp os) (hc : LastValue "--config".toList os cfg) (hg : gr = true ↔ WantsGradient os)
    (user dflt : Val S) (hold : e.Holds d user dflt) (arg : Option (Val S)) (hn : e.Names d cfg arg) :
    geecProgram e args d = some (geecRun e.install e.geodesy e.csv e.resolve e.ceil e.hull (View.root (setupSources arg (some user) dflt)) gr
      (if output = [] then none else some (e.expand output)) d) := by
  rw [program_command e d h true l ((C121_command _ (.inl rfl) args l).mpr ha)]
  have hs := hn.setup hd h0 hold
  unfold geecRun
  rcases hsl : setupLogger e.install d with ⟨err | u, d'⟩
  · rfl
  · rw [hsl] at hs
    dsimp only at hs ⊢
    unfold subCommand
    rw [if_pos rfl, parseRun_call hw hh hc hg]
    dsimp only
    rw [hs]
    rfl

/-- **C121** `--help` is obeyed wherever it stands as an option, with any number of other words: nothing is computed and nothing but the log is written. -/
theorem C121_help (e : Surroundings S) (d : Disk) (h : GridsInstalled e.grid e.install d) (hlog : (setupLogger e.install d).1 = .ok ()) (args l : List (List Char))
    (os : List (List Char × List Char)) (r : List (List Char)) (hh : AsksHelp os)
    (hw : (RunWords l os r ∧ AppWords args [] ("run".toList :: l)) ∨ (ConfigWords l os r ∧ AppWords args [] ("config".toList :: l))) :
    geecProgram e args d = some (.exit, (setupLogger e.install d).2) := by
  have h1 : os.any (·.1 = "--help".toList) = true := (help_iff os).mpr hh
  rcases hw with ⟨hw, ha⟩ | ⟨hw, ha⟩
  · rw [program_command e d h true l ha]
    rcases hs : setupLogger e.install d with ⟨err' | u, d'⟩
    · rw [hs] at hlog; cases hlog
    · have : parseRun l = .help := by
        unfold parseRun
        rw [runParse.mpr hw]
        dsimp only
        rw [if_pos h1]
      simp only [subCommand, this, if_true, Option.map_some]
      rfl
  · rw [program_command e d h false l ha]
    rcases hs : setupLogger e.install d with ⟨err' | u, d'⟩
    · rw [hs] at hlog; cases hlog
    · have : parseConfig l = .help := by
        unfold parseConfig
        rw [(parse_iff configNames true l os r).mpr hw]
        dsimp only
        rw [if_pos h1]
      simp only [subCommand, this, Bool.false_eq_true, if_false, Option.map_some]
      rfl

/-- **C121** All other words are refused: unless they are options and exactly one other word, `run` is a usage error, and `config` unless they are options only; nothing is
computed and nothing but the log is written. -/
theorem C121_refused (e : Surroundings S) (d : Disk) (h : GridsInstalled e.grid e.install d) (hlog : (setupLogger e.install d).1 = .ok ()) (args l : List (List Char)) :
    (AppWords args [] ("run".toList :: l) → (∀ os r, RunWords l os r → ¬ AsksHelp os ∧ r.length ≠ 1) →
      geecProgram e args d = some (.usageError, (setupLogger e.install d).2)) ∧
    (AppWords args [] ("config".toList :: l) → (∀ os r, ConfigWords l os r → ¬ AsksHelp os ∧ r ≠ []) →
      geecProgram e args d = some (.usageError, (setupLogger e.install d).2)) := by
  constructor
  · intro ha hn
    rw [program_command e d h true l ha]
    rcases hs : setupLogger e.install d with ⟨err' | u, d'⟩
    · rw [hs] at hlog; cases hlog
    · have : parseRun l = .usage := by
        unfold parseRun
        rcases hp : parseArgs runOption true l with _ | ⟨os, r⟩
        · rfl
        · obtain ⟨k1, k2⟩ := hn os r (runParse.mp hp)
          dsimp only
          rw [if_neg fun h => k1 ((help_iff os).mp h)]
          rcases r with _ | ⟨a, _ | ⟨b, r⟩⟩
          · rfl
          · exact absurd rfl k2
          · rfl
      simp only [subCommand, this, if_true, Option.map_some]
      rfl
  · intro ha hn
    rw [program_command e d h false l ha]
    rcases hs : setupLogger e.install d with ⟨err' | u, d'⟩
    · rw [hs] at hlog; cases hlog
    · have : parseConfig l = .usage := by
        unfold parseConfig
        rcases hp : parseArgs configOption true l with _ | ⟨os, r⟩
        · rfl
        · obtain ⟨k1, k2⟩ := hn os r ((parse_iff configNames true l os r).mp hp)
          dsimp only
          rw [if_neg fun h => k1 ((help_iff os).mp h)]
          rcases r with _ | ⟨a, r⟩
          · exact absurd rfl k2
          · rfl
      simp only [subCommand, this, Bool.false_eq_true, if_false, Option.map_some]
      rfl

/-- **C121** The words have one meaning: the options, their values and the other words are determined by them. -/
theorem C121_unique {l : List (List Char)} {os os' : List (List Char × List Char)} {r r' : List (List Char)} :
    (RunWords l os r → RunWords l os' r' → os = os' ∧ r = r') ∧ (ConfigWords l os r → ConfigWords l os' r' → os = os' ∧ r = r') ∧
    (AppWords l os r → AppWords l os' r' → os = os' ∧ r = r') := by
  have key : ∀ {kind : Arg → Option OptKind} {flags valued : List Arg} {mixed : Bool}, OptionNames kind flags valued → Words flags valued mixed l os r →
      Words flags valued mixed l os' r' → os = os' ∧ r = r' := by
    intro kind flags valued mixed hk h h'
    have := (h.parse hk).symm.trans (h'.parse hk)
    simpa using this
  exact ⟨key runNames, key configNames, key appNames⟩

/-- **C121** A configuration file that cannot be opened: the run raises, and nothing but the log is written. -/
theorem C121_unreadable (e : Surroundings S) (d : Disk) (hd : d.WF) (h0 : d [] = some .dir) (h : GridsInstalled e.grid e.install d)
    (hlog : (setupLogger e.install d).1 = .ok ()) (args l : List (List Char))
    (ha : AppWords args [] ("run".toList :: l)) (os : List (List Char × List Char)) (output cfg : List Char)
    (hw : RunWords l os [output]) (hh : ¬ AsksHelp os) (hc : LastValue "--config".toList os cfg) (hne : cfg ≠ [])
    (user dflt : Val S) (hold : e.Holds d user dflt) (hcfg : ∀ t, d (e.resolve (String.ofList cfg)) ≠ some (.text t)) (hl : e.resolve (String.ofList cfg) ≠ e.install.logFile) :
    geecProgram e args d = some (.raised .osError, (setupLogger e.install d).2) := by
  rw [program_command e d h true l ha]
  have hs := hold.setup hd h0
  have hcfg' : ∀ t, (setupLogger e.install d).2 (e.resolve (String.ofList cfg)) ≠ some (.text t) := fun t ht => hcfg t ((setupLogger_text hd h0 hl t).mp ht)
  rcases hs' : setupLogger e.install d with ⟨err' | u, d'⟩
  · rw [hs'] at hlog; cases hlog
  · rw [hs'] at hs hcfg'
    dsimp only at hs hcfg' ⊢
    classical
    have hr : ∃ err, readText (e.resolve (String.ofList cfg)) d' = .error err := by
      unfold readText
      rcases hp : d' (e.resolve (String.ofList cfg)) with _ | ⟨_ | t⟩
      · exact ⟨_, rfl⟩
      · exact ⟨_, rfl⟩
      · exact absurd hp (hcfg' t)
    obtain ⟨err, hr⟩ := hr
    have hp : parseRun l = .call output cfg (decide (WantsGradient os)) := parseRun_call hw hh hc (by simp)
    simp only [subCommand, hp, if_true, configSetup, hs, hne, if_false, argumentSource, hr, Option.map_some]
    rfl

/-! ### `config` -/

/-- **C121** `config` does what its words say: the last `--output` is the file (with the suffix `.yaml`), without any it is `config_template.yaml` in the working directory. -/
theorem C121_config (e : Surroundings S) (d : Disk) (hd : d.WF) (h0 : d [] = some .dir) (h : GridsInstalled e.grid e.install d) (args l : List (List Char))
    (ha : args = "config".toList :: l ∨ args = "--".toList :: "config".toList :: l) (os : List (List Char × List Char)) (output : List Char)
    (hw : ConfigWords l os []) (hh : ¬ AsksHelp os) (hc : LastValue "--output".toList os output)
    (user dflt : Val S) (hold : e.Holds d user dflt) :
    geecProgram e args d = some (geecMain e.install [] (some (.config none (if output = [] then none else some (e.expand output)))) d) := by
  have hs := hold.setup hd h0
  rw [program_command e d h false l ((C121_command _ (.inr rfl) args l).mpr ha)]
  unfold geecMain
  dsimp only
  rcases hsl : setupLogger e.install d with ⟨err | u, d'⟩
  · rfl
  · rw [hsl] at hs
    dsimp only at hs ⊢
    have : parseConfig l = .call output := by
      unfold parseConfig
      rw [(parse_iff configNames true l os []).mpr hw]
      have h1 : ¬ (os.any (·.1 = "--help".toList) = true) := fun h => hh ((help_iff os).mp h)
      dsimp only
      rw [if_neg h1, (lastValue_iff _ os output).mp hc]
    simp only [subCommand, this, Bool.false_eq_true, if_false, hs, Option.map_some]
    rfl

/-! ### All invocations -/

/-- **C121** Whatever the words are: a text file that is changed or made is the log, or the output named by the words of `run` or `config`, with the suffix that the
program gives it. -/
theorem C121_files (e : Surroundings S) (d : Disk) (hd : d.WF) (h0 : d [] = some .dir) (args : List (List Char)) (o : Outcome) (d' : Disk)
    (hr : geecProgram e args d = some (o, d')) (q : Path) (t : List Char) (hq : d' q = some (.text t)) (hne : d q ≠ some (.text t)) :
    q = e.install.logFile ∨
    (∃ l os output, AppWords args [] ("run".toList :: l) ∧ RunWords l os [output] ∧ ¬ AsksHelp os ∧ output ≠ [] ∧ PathSuffixReplaced ".csv".toList (e.expand output) q) ∨
    (∃ l os output, AppWords args [] ("config".toList :: l) ∧ ConfigWords l os [] ∧ ¬ AsksHelp os ∧ LastValue "--output".toList os output ∧
      ((output ≠ [] ∧ PathSuffixReplaced ".yaml".toList (e.expand output) q) ∨ (output = [] ∧ q = e.install.cwd ++ ["config_template.yaml".toList]))) := by
  have hne' : d' q ≠ d q := by rw [hq]; exact fun h => hne h.symm
  by_cases hg : GridsInstalled e.grid e.install d
  swap
  · rw [C121_grids e d hg] at hr
    cases hr
    exact absurd rfl hne'
  have eff : ∀ opts sub, (o, d') = geecMain e.install opts sub d → q = e.install.logFile ∨ ∃ s, sub = some s ∧ s.file e.install q := by
    intro opts sub he
    have h2 : d' = (geecMain e.install opts sub d).2 := congrArg Prod.snd he
    rw [h2] at hne' hq
    rcases C83_effects e.install opts sub hd h0 q hne' with ⟨-, k, -⟩ | ⟨-, -, k⟩
    · rw [k] at hq; cases hq
    · exact k
  rcases hp : parseArgs appOption false args with _ | ⟨_ | ⟨⟨n, v⟩, os⟩, r⟩
  · rw [(C121_app e d hg args).1 (fun os r hw => by rw [appParse.mpr hw] at hp; cases hp)] at hr
    cases hr
    exact absurd rfl hne'
  · have hw := appParse.mp hp
    by_cases hc : ∀ l, r ≠ "run".toList :: l ∧ r ≠ "config".toList :: l
    · rw [(C121_app e d hg args).2.1 r hw hc] at hr
      cases hr
      exact absurd rfl hne'
    · have hex : ∃ run l, AppWords args [] ((if run = true then "run".toList else "config".toList) :: l) := by
        push Not at hc
        obtain ⟨l, hl⟩ := hc
        by_cases h1 : r = "run".toList :: l
        · exact ⟨true, l, by rw [h1] at hw; exact hw⟩
        · exact ⟨false, l, by rw [hl h1] at hw; exact hw⟩
      obtain ⟨run, l, hw⟩ := hex
      rw [program_command e d hg run l hw] at hr
      have hmain : ∀ s, (match setupLogger e.install d with
          | (.error err, d') => some (Outcome.raised err, d')
          | (.ok (), d') => some (Sub2.exec e.install d' s)) = some (geecMain e.install [] (some s) d) := by
        intro s
        unfold geecMain
        dsimp only
        rcases setupLogger e.install d with ⟨err | u, d2⟩ <;> rfl
      have hsub : (∃ s, subCommand e run l (setupLogger e.install d).2 = some s ∧ (o, d') = geecMain e.install [] (some s) d) ∨
          (o, d') = geecMain e.install [] (some (.usage true)) d := by
        rcases hs : setupLogger e.install d with ⟨err | u, d2⟩
        · right
          have := hmain (.usage true)
          rw [hs] at hr this
          exact Option.some.inj (hr.symm.trans this)
        · left
          rw [hs] at hr
          dsimp only at hr ⊢
          rcases hsc : subCommand e run l d2 with _ | s
          · rw [hsc] at hr; cases hr
          · refine ⟨s, rfl, ?_⟩
            have := hmain s
            rw [hs] at this
            rw [hsc] at hr
            exact Option.some.inj (hr.symm.trans this)
      rcases hsub with ⟨s, hs, he⟩ | he
      · rcases eff _ _ he with k | ⟨s', k1, k2⟩
        · exact .inl k
        · cases k1
          right
          rcases run with _ | _
          · right
            simp only [subCommand, Bool.false_eq_true, if_false] at hs hw
            unfold parseConfig at hs
            rcases hp : parseArgs configOption true l with _ | ⟨os, r⟩
            · rw [hp] at hs; cases hs; exact k2.elim
            · rw [hp] at hs
              dsimp only at hs
              by_cases hh : os.any (·.1 = "--help".toList) = true
              · rw [if_pos hh] at hs; cases hs; exact k2.elim
              · rw [if_neg hh] at hs
                rcases r with _ | ⟨a, r⟩
                · dsimp only at hs
                  generalize hv : os.foldl (fun v o => if o.1 = "--output".toList then o.2 else v) [] = output at hs
                  refine ⟨l, os, output, hw, (parse_iff configNames true l os []).mp hp, fun hh' => hh ((help_iff os).mpr hh'), (lastValue_iff _ _ _).mpr hv, ?_⟩
                  rcases hds : defaultSetup e (setupLogger e.install d).2 with _ | ud
                  · rw [hds] at hs; cases hs
                  · rw [hds] at hs
                    simp only [Option.map_some, Option.some.injEq, outputPath] at hs
                    subst hs
                    by_cases ho : output = []
                    · rw [if_pos ho] at k2; exact .inr ⟨ho, k2⟩
                    · rw [if_neg ho] at k2; exact .inl ⟨ho, k2⟩
                · cases hs; exact k2.elim
          · left
            simp only [subCommand, if_true] at hs hw
            unfold parseRun at hs
            rcases hp : parseArgs runOption true l with _ | ⟨os, r⟩
            · rw [hp] at hs; cases hs; exact k2.elim
            · rw [hp] at hs
              dsimp only at hs
              by_cases hh : os.any (·.1 = "--help".toList) = true
              · rw [if_pos hh] at hs; cases hs; exact k2.elim
              · rw [if_neg hh] at hs
                rcases r with _ | ⟨a, _ | ⟨b, r⟩⟩
                · cases hs; exact k2.elim
                · dsimp only at hs
                  rcases hcs : configSetup e (os.foldl (fun v o => if o.1 = "--config".toList then o.2 else v) []) (setupLogger e.install d).2 with _ | srcs
                  · rw [hcs] at hs; cases hs
                  · rw [hcs] at hs
                    simp only [Option.map_some, Option.some.injEq, outputPath] at hs
                    subst hs
                    refine ⟨l, os, a, hw, runParse.mp hp, fun hh' => hh ((help_iff os).mpr hh'), ?_⟩
                    by_cases ho : a = []
                    · rw [if_pos ho] at k2
                      generalize runResult e _ _ _ = res at k2
                      rcases res with _ | _ <;> exact k2.elim
                    · rw [if_neg ho] at k2
                      generalize runResult e _ _ _ = res at k2
                      rcases res with _ | _
                      · exact k2.elim
                      · exact ⟨ho, k2⟩
                · cases hs; exact k2.elim
      · rcases eff _ _ he with k | ⟨s', k1, k2⟩
        · exact .inl k
        · cases k1; exact k2.elim
  · have hw := appParse.mp hp
    have hr' : geecProgram e args d = some (geecMain e.install [if n = "--log".toList then .log else .version] none d) := by
      unfold geecProgram
      rw [(importCrs_spec e.grid e.install d).1 hg]
      dsimp only
      rw [hp]
    rw [hr'] at hr
    rcases eff _ _ (Option.some.inj hr).symm with k | ⟨s', k1, k2⟩
    · exact .inl k
    · cases k1

end Geec

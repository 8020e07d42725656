import Verif.Model.Yaml
import Verif.Model.Csv
import Verif.Model.Start
/-
The whole program: from the words of the command line and the texts on the disk to the texts on the disk afterwards.
Models the parsing of the command line by click 8.1.4 (`parser.py`, `core.py`), as declared through typer 0.9.0 at /repo/geec/cli.py:28-57, 108-117, 161-186, and the
loading of the configuration files by confuse 2.0.1 at /repo/geec/config.py:63-112.  Not modelled: the environment variables for shell completion and the
expansion of wildcards (Windows only).
-/
namespace Geec
open Arith

/-- a word of the command line -/
abbrev Arg := List Char

/-- the kinds of options: a flag, or an option with a value -/
inductive OptKind
  | flag
  | value
  deriving DecidableEq

/-- `"=" in arg`, `arg.split("=", 1)`: the name of an option and the value attached to it.  Models click `OptionParser._process_opts`. -/
def splitEq : Arg → Arg × Option Arg
  | [] => ([], none)
  | c :: cs => if c = '=' then ([], some cs) else let (n, v) := splitEq cs; (c :: n, v)

/-- whether a word is taken for an option: `arg[:1] in self._opt_prefixes and arglen > 1` -/
def isOption (a : Arg) : Bool := a.head? = some '-' && 1 < a.length

/-- The words of a command line: the options (name and value, flags have an empty one) in their order, and the other words.  `--` ends the options; an option with a value
takes the attached value, or else the next word, whatever it is; an unknown name, a missing value and a flag with a value are usage errors (`none`).  Without `interspersed`
the first other word ends the options.  There are no options of one letter, so that a word with one hyphen in front is never known.
Models click `OptionParser._process_args_for_options`, `_process_opts`, `_match_long_opt`, `_match_short_opt`, `_get_value_from_state`. -/
def parseArgs (kind : Arg → Option OptKind) (interspersed : Bool) : List Arg → Option (List (Arg × Arg) × List Arg)
  | [] => some ([], [])
  | a :: rest =>
    if a = "--".toList then some ([], rest)
    else if isOption a then
      match kind (splitEq a).1, (splitEq a).2 with
      | none, _ => none
      | some .flag, some _ => none
      | some .flag, none => (parseArgs kind interspersed rest).map fun r => (((splitEq a).1, []) :: r.1, r.2)
      | some .value, some v => (parseArgs kind interspersed rest).map fun r => (((splitEq a).1, v) :: r.1, r.2)
      | some .value, none =>
        match rest with
        | [] => none
        | v :: rest => (parseArgs kind interspersed rest).map fun r => (((splitEq a).1, v) :: r.1, r.2)
    else if interspersed then (parseArgs kind interspersed rest).map fun r => (r.1, a :: r.2)
    else some ([], a :: rest)

/-- the options of the application, /repo/geec/cli.py:163-180, and the one that click adds -/
def appOption (n : Arg) : Option OptKind :=
  if n = "--version".toList ∨ n = "--log".toList ∨ n = "--help".toList then some .flag else none

/-- the options of `run`, /repo/geec/cli.py:34-47 -/
def runOption (n : Arg) : Option OptKind :=
  if n = "--config".toList then some .value
  else if n = "--gradient".toList ∨ n = "--no-gradient".toList ∨ n = "--help".toList then some .flag else none

/-- the options of `config`, /repo/geec/cli.py:110-116 -/
def configOption (n : Arg) : Option OptKind :=
  if n = "--output".toList then some .value else if n = "--help".toList then some .flag else none

/-- what a command line of `run` asks for -/
inductive RunCall
  | help
  | usage
  | call (output cfg : Arg) (gradient : Bool)

/-- The command line of `run`: `--help` is eager, so that it is obeyed before the number of arguments is looked at; of repeated options the last one is taken.
Models /repo/geec/cli.py:31-47 and click `Command.parse_args`. -/
def parseRun (args : List Arg) : RunCall :=
  match parseArgs runOption true args with
  | none => .usage
  | some (opts, rest) =>
    if opts.any (·.1 = "--help".toList) then .help
    else
      match rest with
      | [output] => .call output
          (opts.foldl (fun v o => if o.1 = "--config".toList then o.2 else v) [])
          (opts.foldl (fun v o => if o.1 = "--gradient".toList then true else if o.1 = "--no-gradient".toList then false else v) false)
      | _ => .usage

/-- what a command line of `config` asks for -/
inductive ConfigCall
  | help
  | usage
  | call (output : Arg)

/-- The command line of `config`.  Models /repo/geec/cli.py:108-117. -/
def parseConfig (args : List Arg) : ConfigCall :=
  match parseArgs configOption true args with
  | none => .usage
  | some (opts, rest) =>
    if opts.any (·.1 = "--help".toList) then .help
    else
      match rest with
      | [] => .call (opts.foldl (fun v o => if o.1 = "--output".toList then o.2 else v) [])
      | _ => .usage

/-- what the program meets: its installation, the libraries, and how paths are understood -/
structure Surroundings (S : Type) where
  install : Install
  /-- contents that are a geoid grid -/
  grid : List Char → Bool
  geodesy : Geodesy S
  csv : CsvLib S
  ceil : S → Int
  hull : HullLib S
  /-- the number of a literal: Python's `int` and `float` -/
  lit : Rat → S
  /-- the file that a path denotes, from the working directory on (`open`, `Path.is_file`) -/
  resolve : String → Path
  /-- `Path(x).expanduser().resolve()` -/
  expand : Arg → Path
  /-- the configuration file of the user, `~/.config/geec/config.yaml` -/
  userFile : Path

/-- A source that need not be there: the user's file, the defaults.  `none` is a text outside of the modelled part of YAML.
Models confuse `YamlSource.load` with `optional=True`. -/
def optionalSource {S : Type} (lit : Rat → S) (p : Path) (d : Disk) : Option (Val S) :=
  match d p with
  | some (.text t) => configSource lit t
  | _ => some (.dict [])

/-- the file given as argument: not to be able to open it raises confuse's `ConfigReadError`, reported as `osError`.  Models /repo/geec/config.py:108-110. -/
def argumentSource {S : Type} (lit : Rat → S) (p : Path) (d : Disk) : Option (Except PyErr (Val S)) :=
  match readText p d with
  | .error _ => some (.error .osError)
  | .ok t => (configSource lit t).map .ok

/-- The user's file and the defaults.  Models /repo/geec/config.py:63-93. -/
def defaultSetup {S : Type} (e : Surroundings S) (d : Disk) : Option (Val S × Val S) :=
  match optionalSource e.lit e.userFile d, optionalSource e.lit (e.install.cfg ++ ["config_default.yaml".toList]) d with
  | some user, some dflt => some (user, dflt)
  | _, _ => none

/-- the sources of the configuration, or the exception.  Models /repo/geec/config.py:96-112; an empty argument is no argument. -/
def configSetup {S : Type} (e : Surroundings S) (cfg : Arg) (d : Disk) : Option (Except PyErr (List (Val S))) :=
  match defaultSetup e d with
  | none => none
  | some (user, dflt) =>
    if cfg = [] then some (.ok (setupSources none (some user) dflt))
    else
      match argumentSource e.lit (e.resolve (String.ofList cfg)) d with
      | none => none
      | some (.error err) => some (.error err)
      | some (.ok arg) => some (.ok (setupSources (some arg) (some user) dflt))

/-- `none` for an empty argument, /repo/geec/api.py:42 and /repo/geec/cli.py:121 -/
def outputPath {S : Type} (e : Surroundings S) (output : Arg) : Option Path := if output = [] then none else some (e.expand output)

/-- the computation of `run` on the disk `d`.  Models /repo/geec/cli.py:52-102. -/
def runResult {S : Type} [Arith S] (e : Surroundings S) (gradient : Bool) (d : Disk) : Except PyErr (List (Val S)) → Except PyErr (List Char)
  | .error err => .error err
  | .ok sources =>
    (runTable e.geodesy (Outside.ofDisk e.csv e.resolve e.ceil d) e.hull (View.root sources) gradient).map (toCsv e.csv)

/-- The command with its words, after the logger has been set up.  Models /repo/geec/cli.py:31-105, 108-135. -/
def subCommand {S : Type} [Arith S] (e : Surroundings S) (run : Bool) (args : List Arg) (d : Disk) : Option Sub2 :=
  if run then
    match parseRun args with
    | .help => some (.usage true)
    | .usage => some (.usage false)
    | .call output cfg gradient => (configSetup e cfg d).map fun sources => .run (runResult e gradient d sources) (outputPath e output)
  else
    match parseConfig args with
    | .help => some (.usage true)
    | .usage => some (.usage false)
    | .call output => (defaultSetup e d).map fun _ => .config none (outputPath e output)

/-- `python -m geec <words>`.  The first of the options `--version`, `--log`, `--help` ends the program; `--help` prints and ends as `--version` does.  `none` when a
configuration file that is read is outside of the modelled part of YAML.  Models /repo/geec/__main__.py:10-13, /repo/geec/cli.py:28-186 and click `MultiCommand.invoke`. -/
def geecProgram {S : Type} [Arith S] (e : Surroundings S) (args : List Arg) (d : Disk) : Option (Outcome × Disk) :=
  match importCrs e.grid e.install d with
  | .error err => some (.raised err, d)
  | .ok () =>
    match parseArgs appOption false args with
    | none => some (.usageError, d)
    | some ((name, _) :: _, _) => some (geecMain e.install [if name = "--log".toList then .log else .version] none d)
    | some ([], []) => some (.usageError, d)
    | some ([], command :: rest) =>
      if command = "run".toList ∨ command = "config".toList then
        match setupLogger e.install d with
        | (.error err, d') => some (.raised err, d')
        | (.ok (), d') => (subCommand e (command = "run".toList) rest d').map (Sub2.exec e.install d')
      else some (.usageError, d)

end Geec

import Verif.Model.Shipped
/-
The program `geec` as it is invoked: the options of the application, the log directory, and the sub-commands with their effect on the file system.
Models /repo/geec/api.py, the callbacks of /repo/geec/cli.py, and the order in which click calls them.
-/
namespace Geec

/-- an absolute path -/
abbrev Path := List (List Char)

/-- `p.mkdir(parents=True, exist_ok=True)` from the existing directory `done` on: the first missing directory needs a writable parent (`ro` tells the directories
that are not), the directories below it are new and writable.  A component that is a text file raises (`FileExistsError`, `NotADirectoryError`: `osError`).
Simplification: in a file system where something exists below a missing directory (there is none) the order of the checks could be seen. -/
def mkdirFrom (ro : Path → Bool) (d : Disk) (done : Path) : Path → Except PyErr Unit × Disk
  | [] => (.ok (), d)
  | c :: cs =>
    match d (done ++ [c]) with
    | some .dir => mkdirFrom ro d (done ++ [c]) cs
    | some (.text _) => (.error .osError, d)
    | none =>
      if ro done then (.error .osError, d)
      else (.ok (), fun q => if (done ++ [c]).isPrefixOf q && q.isPrefixOf (done ++ c :: cs) then some .dir else d q)

/-- `p.mkdir(parents=True, exist_ok=True)`, as used at /repo/geec/api.py:23 and 44 -/
def mkdirP (ro : Path → Bool) (p : Path) (d : Disk) : Except PyErr Unit × Disk := mkdirFrom ro d [] p

/-- open for writing (or appending to) the file `p` with the text that is in it afterwards; a new file needs a writable directory -/
def openWrite (ro : Path → Bool) (p : Path) (content : List Char) (d : Disk) : Except PyErr Unit × Disk :=
  if d p = none ∧ ro p.dropLast then (.error .osError, d) else writeText p content d

/-- where the program is installed and when it is started -/
structure Install where
  /-- the directory that contains the package (`Path(__file__).parent.parent`) -/
  base : Path
  /-- `geec_{time}.log` at the time of the call -/
  logName : List Char
  /-- what has been logged by the end -/
  logText : List Char
  /-- the package's configuration files -/
  cfg : Path
  /-- the working directory -/
  cwd : Path
  /-- directories that cannot be written -/
  ro : Path → Bool

/-- the log directory, /repo/geec/api.py:21-22 -/
def Install.logdir (i : Install) : Path := i.base ++ ["log".toList]

/-- `setup_logdir`.  Models /repo/geec/api.py:19-24. -/
def setupLogdir (i : Install) (d : Disk) : Except PyErr Unit × Disk := mkdirP i.ro i.logdir d

/-- `setup_logger`: the sink opens its file at once.  Models /repo/geec/api.py:27-36. -/
def setupLogger (i : Install) (d : Disk) : Except PyErr Unit × Disk :=
  match setupLogdir i d with
  | (.error e, d') => (.error e, d')
  | (.ok (), d') => openWrite i.ro (i.logdir ++ [i.logName]) i.logText d'

/-- `write_file` with the text of the data frame; `output` is `none` for an empty argument, else the resolved path.  Models /repo/geec/api.py:39-48 in the order of
the statements: the directory is made before the suffix is changed. -/
def writeCsv (i : Install) (text : List Char) (output : Option Path) (d : Disk) : Except PyErr Unit × Disk :=
  match output with
  | none => (.ok (), d)
  | some p =>
    match mkdirP i.ro p.dropLast d with
    | (.error e, d') => (.error e, d')
    | (.ok (), d') =>
      match withSuffix ".csv".toList p with
      | .error e => (.error e, d')
      | .ok q => openWrite i.ro q text d'

/-- The sub-command of the command line: `run` with what the computation gives (an exception or the text of the table), `config`, or one whose own arguments are
refused or ask for help (click parses them after the callback of the application). -/
inductive Sub2
  | run (result : Except PyErr (List Char)) (output : Option Path)
  | config (setupErr : Option PyErr) (output : Option Path)
  | usage (help : Bool)

/-- an option of the application; both are eager -/
inductive AppOption
  | version
  | log

/-- How the program ends: as a command that returned, by `typer.Exit`, by a usage error, or by an exception. -/
inductive Outcome
  | done
  | exit
  | usageError
  | raised (e : PyErr)
  deriving DecidableEq

/-- a statement that may raise -/
def Outcome.of : Except PyErr Unit → Outcome
  | .ok () => .done
  | .error e => .raised e

/-- The sub-command.  Models /repo/geec/cli.py:31-105 and 109-135. -/
def Sub2.exec (i : Install) (d : Disk) : Sub2 → Outcome × Disk
  | .usage help => (if help then .exit else .usageError, d)
  | .config setupErr output =>
    let path : Except PyErr Path := match output with
      | some p => withSuffix ".yaml".toList p
      | none => .ok (i.cwd ++ ["config_template.yaml".toList])
    match path with
    | .error e => (.raised e, d)
    | .ok path =>
      match setupErr with
      | some e => (.raised e, d)
      | none =>
        match readText (i.cfg ++ ["config_template.yaml".toList]) d with
        | .error e => (.raised e, d)
        | .ok c => let r := openWrite i.ro path c d; (.of r.1, r.2)
  | .run (.error e) _ => (.raised e, d)
  | .run (.ok text) output => let r := writeCsv i text output d; (.of r.1, r.2)

/-- `geec <options> <sub-command>`.  Eager options are handled in the order in which they are given: `--version` ends the program, `--log` makes the log directory
and ends it.  Without a known sub-command click refuses before the callback `main`; else `main` sets up the logger, and then the sub-command is called.
Models /repo/geec/cli.py:148-186, and click 8 `MultiCommand.invoke`. -/
def geecMain (i : Install) (opts : List AppOption) (sub : Option Sub2) (d : Disk) : Outcome × Disk :=
  match opts with
  | .version :: _ => (.exit, d)
  | .log :: _ =>
    match setupLogdir i d with
    | (.error e, d') => (.raised e, d')
    | (.ok (), d') => (.exit, d')
  | [] =>
    match sub with
    | none => (.usageError, d)
    | some s =>
      match setupLogger i d with
      | (.error e, d') => (.raised e, d')
      | (.ok (), d') => s.exec i d'

end Geec

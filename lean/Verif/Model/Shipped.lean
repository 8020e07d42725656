import Verif.Model.Cli
/-
The configuration files shipped with the package, as data, and the `geec config` command.
-/
namespace Geec
open Arith
variable {S : Type}

/-- a list of three numbers written as floats in YAML -/
def floats3 (lit : Rat → S) (a b c : Rat) : Val S := .list [.num false (lit a), .num false (lit b), .num false (lit c)]

/-- a list of three numbers written as integers in YAML -/
def ints3 (lit : Rat → S) (a b c : Rat) : Val S := .list [.num true (lit a), .num true (lit b), .num true (lit c)]

/-- the grid of the three shipped files; /repo/geec/cfg/config_default.yaml:36-39, config_template.yaml:44-47,
config_test.yaml:36-39.  `lit` reads a decimal. -/
def shippedGrid (lit : Rat → S) : Val S := .dict [
  ("xstart_xend_xstep", floats3 lit (-105/100) (106/100) (1/10)),
  ("ystart_yend_ystep", floats3 lit (-105/100) (106/100) (1/10)),
  ("zstart_zend_zstep", ints3 lit 0 1 1)]

/-- `6.67408e-11`, the constant of the three shipped files -/
def shippedConstant : Rat := 667408 / 10 ^ 16

/-- /repo/geec/cfg/config_default.yaml:2-52.  `lit` reads a decimal. -/
def shippedDefaults (lit : Rat → S) : Val S := .dict [
  ("masses", .list [.dict [
    ("points", .null),
    ("file_path", .str "./geec/data/dem0.csv"),
    ("density", .num false (lit 1000)),
    ("gravity_constant", .num false (lit shippedConstant)),
    ("crs", .dict [
      ("ref", .str "ellps"), ("name", .str "wgs84"), ("semimajor_axis", .null), ("semiminor_axis", .null),
      ("longitude_origin", .num false (lit (403/10))), ("latitude_origin", .num false (lit (126/10))),
      ("altitude_origin", .num true (lit 150)), ("vdatum", .str "egm96")])]]),
  ("observers", .dict [
    ("points", .list []),
    ("file_path", .null),
    ("grid", shippedGrid lit),
    ("crs", .dict [
      ("ref", .null), ("name", .str "airy"), ("semimajor_axis", .null), ("semiminor_axis", .null),
      ("longitude_origin", .null), ("latitude_origin", .null), ("altitude_origin", .null)])])]

/-- the unit cube of the template, /repo/geec/cfg/config_template.yaml:8-16 -/
def templateCube (lit : Rat → S) : List (V3 S) :=
  [⟨lit (-1/2), lit (-1/2), lit 0⟩, ⟨lit (1/2), lit (-1/2), lit 0⟩, ⟨lit (1/2), lit (1/2), lit 0⟩,
   ⟨lit (-1/2), lit (1/2), lit 0⟩, ⟨lit (-1/2), lit (-1/2), lit (-1)⟩, ⟨lit (1/2), lit (-1/2), lit (-1)⟩,
   ⟨lit (1/2), lit (1/2), lit (-1)⟩, ⟨lit (-1/2), lit (1/2), lit (-1)⟩]

/-- /repo/geec/cfg/config_template.yaml:2-60.  `lit` reads a decimal. -/
def shippedTemplate (lit : Rat → S) : Val S := .dict [
  ("masses", .list [.dict [
    ("points", .list ((templateCube lit).map (fun p => .list [.num false p.x, .num false p.y, .num false p.z]))),
    ("file_path", .str "/path/to/file/cube.csv"),
    ("density", .num false (lit 1000)),
    ("gravity_constant", .num false (lit shippedConstant)),
    ("crs", .dict [
      ("ref", .str "ellps"), ("name", .null), ("semimajor_axis", .null), ("semiminor_axis", .null),
      ("longitude_origin", .null), ("latitude_origin", .null), ("altitude_origin", .null), ("vdatum", .null)])]]),
  ("observers", .dict [
    ("points", .list []),
    ("file_path", .str ""),
    ("grid", shippedGrid lit),
    ("crs", .dict [
      ("ref", .null), ("name", .null), ("semimajor_axis", .null), ("semiminor_axis", .null),
      ("longitude_origin", .null), ("latitude_origin", .null), ("altitude_origin", .null)])])]

/-- /repo/geec/cfg/config_test.yaml:2-52.  `lit` reads a decimal. -/
def shippedTest (lit : Rat → S) : Val S := .dict [
  ("masses", .list [.dict [
    ("points", .null),
    ("file_path", .str "./geec/data/cube.csv"),
    ("density", .num false (lit 1000)),
    ("gravity_constant", .num false (lit shippedConstant)),
    ("crs", .dict [
      ("ref", .str "cart"), ("name", .null), ("semimajor_axis", .null), ("semiminor_axis", .null),
      ("longitude_origin", .null), ("latitude_origin", .null), ("altitude_origin", .null), ("vdatum", .null)])]]),
  ("observers", .dict [
    ("points", .list []),
    ("file_path", .null),
    ("grid", shippedGrid lit),
    ("crs", .dict [
      ("ref", .str "cart"), ("name", .str "airy"), ("semimajor_axis", .null), ("semiminor_axis", .null),
      ("longitude_origin", .null), ("latitude_origin", .null), ("altitude_origin", .null)])])]

/-! ### The `config` command -/

/-- What is stored under a path: a directory or a text file. -/
inductive Node
  | dir
  | text (content : List Char)
  deriving DecidableEq

/-- A file system: the node under each absolute path, a path being the list of its components. -/
abbrev Disk := List (List Char) → Option Node

/-- `p.with_suffix(suffix)` on an absolute path; the root has an empty name, which raises `ValueError`.
Models `PurePath.with_suffix` as used at /repo/geec/cli.py:124. -/
def withSuffix (suffix : List Char) (p : List (List Char)) : Except PyErr (List (List Char)) :=
  match p.getLast? with
  | none => .error .valueError
  | some name => .ok (p.dropLast ++ [stem name ++ suffix])

/-- `p.write_text(content)`: the parent must be a directory and the path must not be one.
Simplifications: permissions and full disks are not modelled; a parent that is a text file (`NotADirectoryError`) and a
path that is a directory (`IsADirectoryError`) are both reported as `osError`. -/
def writeText (p : List (List Char)) (content : List Char) (d : Disk) : Except PyErr Unit × Disk :=
  match d p.dropLast with
  | none => (.error .fileNotFoundError, d)
  | some (.text _) => (.error .osError, d)
  | some .dir =>
    if d p = some .dir then (.error .osError, d)
    else (.ok (), fun q => if q = p then some (.text content) else d q)

/-- `p.read_text()`; `osError` when the path is a directory -/
def readText (p : List (List Char)) (d : Disk) : Except PyErr (List Char) :=
  match d p with
  | none => .error .fileNotFoundError
  | some .dir => .error .osError
  | some (.text c) => .ok c

/-- `geec config --output …`.  `output` is `none` when the option is absent or empty, else the path
`Path(output).expanduser().resolve()`; `cwd` is the working directory, `pkg` the directory of the package's
configuration files, `setupErr` the exception of `geec.config.setup()` (an unreadable user file), if any.
Models /repo/geec/cli.py:109-135 in the order of the statements.  Log messages are not modelled. -/
def configCmd (setupErr : Option PyErr) (pkg cwd : List (List Char)) (output : Option (List (List Char))) (d : Disk) :
    Except PyErr Unit × Disk :=
  let path : Except PyErr (List (List Char)) := match output with
    | some p => withSuffix ".yaml".toList p
    | none => .ok (cwd ++ ["config_template.yaml".toList])
  match path with
  | .error e => (.error e, d)
  | .ok path =>
    match setupErr with
    | some e => (.error e, d)
    | none =>
      match readText (pkg ++ ["config_template.yaml".toList]) d with
      | .error e => (.error e, d)
      | .ok c => writeText path c d

end Geec

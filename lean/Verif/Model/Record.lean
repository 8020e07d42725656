import Verif.Model.Cli
/-
What `geec.config.show` writes to the log, and the entry point `geec.config.main`.
-/
namespace Geec
open Arith
variable {S : Type} [Arith S]

/-- A message of the log: the text before, the value that is formatted (if any), the text after. -/
structure LogLine (S : Type) where
  before : String
  value : Option (Val S)
  after : String

/-- A statement of `show`: a fixed text, or a parameter with the text before and after it. -/
inductive ShowItem
  | text (s : String)
  | param (before : String) (path : List String) (after : String)

/-- the statements for one mass.  Models /repo/geec/config.py:20-38. -/
def massItems : List ShowItem := [
  .text "  ---",
  .param "  density: " ["density"] " kg m-3",
  .param "  gravity_constant: " ["gravity_constant"] " m3 kg-1 s-2",
  .text "  coordinates:",
  .param "    points  : " ["points"] "",
  .param "    file_path: " ["file_path"] "",
  .text "  crs:",
  .param "    ref: " ["crs", "ref"] "",
  .text "    ellipsoid:",
  .param "      name: " ["crs", "name"] "",
  .param "      semimajor_axis: " ["crs", "semimajor_axis"] "",
  .param "      semiminor_axis: " ["crs", "semiminor_axis"] "",
  .text "    local ENU:",
  .param "      longitude_origin: " ["crs", "longitude_origin"] "",
  .param "      latitude_origin: " ["crs", "latitude_origin"] "",
  .param "      altitude_origin: " ["crs", "altitude_origin"] "",
  .text "    Vertical Datum:",
  .param "      vdatum: " ["crs", "vdatum"] "",
  .text "  ---"]

/-- the statements for the observers.  Models /repo/geec/config.py:43-60. -/
def observerItems : List ShowItem := [
  .text "  coordinates:",
  .param "    points: " ["points"] "",
  .param "    file_path: " ["file_path"] "",
  .text "    grid:",
  .param "      xstart_xend_xstep: " ["grid", "xstart_xend_xstep"] "",
  .param "      ystart_yend_ystep: " ["grid", "ystart_yend_ystep"] "",
  .param "      zstart_zend_zstep: " ["grid", "zstart_zend_zstep"] "",
  .text "  crs:",
  .param "    ref: " ["crs", "ref"] "",
  .text "    ellipsoid:",
  .param "       name: " ["crs", "name"] "",
  .param "       semimajor_axis: " ["crs", "semimajor_axis"] "",
  .param "       semiminor_axis: " ["crs", "semiminor_axis"] "",
  .text "    local ENU:",
  .param "      longitude_origin: " ["crs", "longitude_origin"] "",
  .param "      latitude_origin: " ["crs", "latitude_origin"] "",
  .param "      altitude_origin: " ["crs", "altitude_origin"] "\n"]

/-- A list of statements on a section of the configuration: how it ends, and what has been logged by then.  The text of a message is made before the message is
logged, so nothing is logged for a parameter that is missing.  Models the statements of /repo/geec/config.py:15-60. -/
def logItems (w : View S) : List ShowItem → Except PyErr Unit × List (LogLine S)
  | [] => (.ok (), [])
  | .text s :: is => let r := logItems w is; (r.1, ⟨s, none, ""⟩ :: r.2)
  | .param b p a :: is => match (w.path p).first with
    | .error e => (.error e, [])
    | .ok v => let r := logItems w is; (r.1, ⟨b, some v, a⟩ :: r.2)

/-- the loop over the masses.  Models /repo/geec/config.py:19-38. -/
def logMasses : List (View S) → Except PyErr Unit × List (LogLine S)
  | [] => (.ok (), [])
  | m :: ms => match logItems m massItems with
    | (.error e, l) => (.error e, l)
    | (.ok (), l) => let r := logMasses ms; (r.1, l ++ r.2)

/-- `geec.config.show`: how it ends, and what has been logged by then.  `version` is `geec.__version__`.  Models /repo/geec/config.py:15-60.
(`configShow` in Cli.lean describes only how it ends.) -/
def showLog (version : String) (cfg : View S) : Except PyErr Unit × List (LogLine S) :=
  let start : List (LogLine S) := [⟨"Version: " ++ version, none, ""⟩, ⟨"Configuration:", none, ""⟩, ⟨"Mass Bodies", none, ""⟩]
  match (cfg.at "masses").iter with
  | .error e => (.error e, start)
  | .ok ms =>
    match logMasses ms with
    | (.error e, l) => (.error e, start ++ l)
    | (.ok (), l) =>
      let r := logItems (cfg.at "observers") observerItems
      (r.1, start ++ l ++ ⟨"Observers", none, ""⟩ :: r.2)

/-- `geec.config.main(user_cfg)`: set up the configuration and show it.  `defaultErr` is the exception of reading the package's and the user's file, if any; it is
logged before it is raised again.  `argFile` is the file given as argument: absent, unreadable, or its content; an exception of reading it is not logged.
Models /repo/geec/config.py:115-127, with 63-112. -/
def configMain (version : String) (defaultErr : Option PyErr) (argFile : Option (Except PyErr (Val S))) (userFile : Option (Val S)) (defaults : Val S) :
    Except PyErr Unit × List (LogLine S) :=
  match defaultErr, argFile with
  | some e, _ => (.error e, [⟨"Something goes wrong when loading config file.", none, ""⟩])
  | none, some (.error e) => (.error e, [])
  | none, some (.ok v) => showLog version (View.root (setupSources (some v) userFile defaults))
  | none, none => showLog version (View.root (setupSources none userFile defaults))

end Geec

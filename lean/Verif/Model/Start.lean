import Verif.Model.Main
/-
The start of the program: what the import of the modules does before the command line is looked at.  Models the statements at module level of
/repo/geec/crs.py:240-243, reached from /repo/geec/__main__.py:10 by /repo/geec/cli.py:17-25.
-/
namespace Geec

/-- where the package is, /repo/geec/crs.py:240 -/
def Install.geoids (i : Install) : Path := i.base ++ ["geec".toList, "data".toList, "geoids".toList]

/-- the geoid files, in the order in which they are opened, /repo/geec/crs.py:241-243 -/
def geoidNames : List (List Char) := ["egm2008-2_5.pgm".toList, "egm96-5.pgm".toList, "egm84-15.pgm".toList]

/-- `pgeo.GeoidKarney(path)`: the file is opened and its header is read.  A file that is not there or cannot be read raises pygeodesy's `GeoidError`, contents that are
no grid (`grid` tells which are) its `PGMError`; both are `ValueError`s. -/
def openGeoid (grid : List Char → Bool) (p : Path) (d : Disk) : Except PyErr Unit :=
  match readText p d with
  | .error _ => .error .valueError
  | .ok c => if grid c then .ok () else .error .valueError

/-- the import of `geec.crs`: all three grids are opened, whatever the command is.  Models /repo/geec/crs.py:240-243. -/
def importCrs (grid : List Char → Bool) (i : Install) (d : Disk) : Except PyErr Unit :=
  geoidNames.forM fun n => openGeoid grid (i.geoids ++ [n]) d

/-- `python -m geec <options> <sub-command>`: the imports, and then the application.  Models /repo/geec/__main__.py:10-13. -/
def geecProcess (grid : List Char → Bool) (i : Install) (opts : List AppOption) (sub : Option Sub2) (d : Disk) : Outcome × Disk :=
  match importCrs grid i d with
  | .error e => (.raised e, d)
  | .ok () => geecMain i opts sub d

end Geec

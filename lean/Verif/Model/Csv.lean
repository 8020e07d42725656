import Verif.Model.Main
/-
The text of CSV files: what `pd.read_csv(file_path, sep=",", header=None).values` makes of the text of an input file, and the text that
`df.to_csv(path, index=False)` writes.  Models /repo/geec/dataset.py:125-128 and /repo/geec/api.py:45; both functions are those of pandas 2
(the tokenizer of its C engine, `pandas/_libs/src/parser/tokenizer.c`, and `CSVFormatter`), which is not in the repository.
-/
namespace Geec
open Arith

/-- the states of the tokenizer; a line that so far consists of blanks keeps them -/
inductive CsvState
  | startRecord
  | whitespaceLine (blanks : List Char)
  | startField
  | inField
  | inQuoted
  | quoteInQuoted
  | eatCrnl
  | eatCrnlNop
  deriving DecidableEq, Repr

/-- the tokenizer: the state, the field and the fields of the line being read, and the lines read -/
structure CsvTok where
  state : CsvState
  field : List Char
  fields : List (List Char)
  lines : List (List (List Char))
  deriving DecidableEq, Repr

/-- `END_FIELD` -/
def CsvTok.endField (t : CsvTok) (s : CsvState) : CsvTok := ⟨s, [], t.fields ++ [t.field], t.lines⟩
/-- `END_LINE` -/
def CsvTok.endLine (t : CsvTok) : CsvTok := ⟨.startRecord, [], [], t.lines ++ [t.fields]⟩
/-- `PUSH_CHAR` -/
def CsvTok.push (t : CsvTok) (c : Char) (s : CsvState) : CsvTok := ⟨s, t.field ++ [c], t.fields, t.lines⟩

/-- a character in the state `START_FIELD` -/
def CsvTok.startFieldStep (t : CsvTok) (c : Char) : CsvTok :=
  if c = '\n' then (t.endField .startField).endLine
  else if c = '\r' then t.endField .eatCrnl
  else if c = '"' then { t with state := .inQuoted }
  else if c = ',' then t.endField .startField
  else t.push c .inField

/-- a character in the state `IN_FIELD` -/
def CsvTok.inFieldStep (t : CsvTok) (c : Char) : CsvTok :=
  if c = '\n' then (t.endField .startField).endLine
  else if c = '\r' then t.endField .eatCrnl
  else if c = ',' then t.endField .startField
  else t.push c .inField

/-- the blanks of a line that turned out not to be blank are read again, as the beginning of its first field -/
def CsvTok.replay (t : CsvTok) (blanks : List Char) : CsvTok := { t with state := .inField, field := blanks }

/-- a character at the beginning of a line: empty lines are skipped (`skip_blank_lines=True`) -/
def CsvTok.startRecordStep (t : CsvTok) (c : Char) : CsvTok :=
  if c = '\n' then { t with state := .startRecord }
  else if c = '\r' then { t with state := .eatCrnlNop }
  else if c = ' ' ∨ c = '\t' then { t with state := .whitespaceLine [c] }
  else ({ t with state := .startField } : CsvTok).startFieldStep c

/-- One character.  Models `tokenize_bytes` for `sep=","` and the default options of `pd.read_csv`. -/
def CsvTok.step (t : CsvTok) (c : Char) : CsvTok :=
  match t.state with
  | .startRecord => t.startRecordStep c
  | .whitespaceLine blanks =>
    if c = '\n' then { t with state := .startRecord }
    else if c = '\r' then { t with state := .eatCrnlNop }
    else if c = ' ' ∨ c = '\t' then { t with state := .whitespaceLine (blanks ++ [c]) }
    else (t.replay blanks).inFieldStep c
  | .startField => t.startFieldStep c
  | .inField => t.inFieldStep c
  | .inQuoted => if c = '"' then { t with state := .quoteInQuoted } else t.push c .inQuoted
  | .quoteInQuoted =>
    if c = '\n' then (t.endField .startField).endLine
    else if c = '\r' then t.endField .eatCrnl
    else if c = '"' then t.push c .inQuoted
    else if c = ',' then t.endField .startField
    else t.push c .inField
  | .eatCrnl => if c = '\n' then t.endLine else t.endLine.startRecordStep c
  | .eatCrnlNop => if c = '\n' then { t with state := .startRecord } else ({ t with state := .startRecord } : CsvTok).startRecordStep c

/-- the end of the text; inside quotes it raises `ParserError`, a `ValueError`.  Models `parser_handle_eof`. -/
def CsvTok.finish (t : CsvTok) : Except PyErr (List (List (List Char))) :=
  match t.state with
  | .startRecord | .whitespaceLine _ | .eatCrnlNop => .ok t.lines
  | .inQuoted => .error .valueError
  | .eatCrnl => .ok t.endLine.lines
  | .startField | .inField | .quoteInQuoted => .ok (t.endField .startField).endLine.lines

/-- the fields of the lines of a text -/
def csvTokens (text : List Char) : Except PyErr (List (List (List Char))) :=
  (text.foldl CsvTok.step ⟨.startRecord, [], [], []⟩).finish

/-- what pandas makes of numbers and texts -/
structure CsvLib (S : Type) where
  /-- the number in a field and whether it is written as an integer; missing values, such as the empty field, are NaN; `none` for other texts -/
  number : List Char → Option (S × Bool)
  /-- the text of a number, as written by `to_csv` -/
  text : S → List Char

/-- the lines made equally long: a longer line than the first one raises `ParserError`, a shorter one is filled with empty fields.
No line at all raises `EmptyDataError`.  Both are `ValueError`s. -/
def csvSquare : List (List (List Char)) → Except PyErr (List (List (List Char)))
  | [] => .error .valueError
  | l :: ls =>
    if ls.all (fun m => m.length ≤ l.length) then .ok (l :: ls.map fun m => m ++ List.replicate (l.length - m.length) [])
    else .error .valueError

/-- three fields as numbers -/
def csvPoint (lib : CsvLib S) (l : List (List Char)) : Except PyErr (V3 S × Bool) :=
  match l.map lib.number with
  | [some (x, i), some (y, j), some (z, k)] => .ok (⟨x, y, z⟩, i && j && k)
  | _ => .error .valueError

/-- `pd.read_csv(file_path, sep=",", header=None).values` on the text of the file; the array is of integers when all columns are.
Models /repo/geec/dataset.py:127-128.  Simplifications, as for `np.array` of a list of points (`arrayOf`): a table of other than three columns, or
with a field that is no number (an array of objects), is reported as `ValueError` here and not where the array is used. -/
def readCsvText (lib : CsvLib S) (text : List Char) : Except PyErr (Coords S) := do
  let ls ← csvTokens text
  let ls ← csvSquare ls
  let ps ← ls.mapM (csvPoint lib)
  return ⟨ps.map (·.1), ps.all (·.2)⟩

/-- fields of one line, with the separators and the end of the line -/
def csvLine : List (List Char) → List Char
  | [] => ['\n']
  | [f] => f ++ ['\n']
  | f :: fs => f ++ ',' :: csvLine fs

/-- quotes around a field that needs them (`csv.QUOTE_MINIMAL`) -/
def csvQuote (f : List Char) : List Char :=
  if f.any (fun c => c = ',' || c = '"' || c = '\n' || c = '\r') then '"' :: (f.flatMap fun c => if c = '"' then ['"', '"'] else [c]) ++ ['"'] else f

/-- `df.to_csv(path, index=False)` for columns of two levels: a line of names, a line of units, a line for each row.
Models /repo/geec/api.py:45 on the data frame of /repo/geec/cli.py:95-99. -/
def toCsv (lib : CsvLib S) (t : Table S) : List Char :=
  csvLine (t.columns.map fun c => csvQuote c.1.toList) ++ csvLine (t.columns.map fun c => csvQuote c.2.toList) ++
    t.rows.flatMap fun r => csvLine (r.map fun x => csvQuote (lib.text x))

/-- the files of a disk as a run reads them; `resolve` gives the file that a path in the configuration denotes (relative paths start from the
working directory).  Models /repo/geec/dataset.py:125-132. -/
def Outside.ofDisk (lib : CsvLib S) (resolve : String → Path) (ceil : S → Int) (d : Disk) : Outside S where
  isFile := fun p => match d (resolve p) with
    | some (.text _) => true
    | _ => false
  readCsv := fun p => match readText (resolve p) d with
    | .error e => .error e
    | .ok text => readCsvText lib text
  ceil := ceil

/-- `geec run output` as a program on a disk: the logger is set up, the files are read, the table is computed and its text written.
Models /repo/geec/cli.py:31-105 and 178-186. -/
def geecRun [Arith S] (i : Install) (g : Geodesy S) (csv : CsvLib S) (resolve : String → Path) (ceil : S → Int) (lib : HullLib S) (cfg : View S)
    (gradient : Bool) (output : Option Path) (d : Disk) : Outcome × Disk :=
  match setupLogger i d with
  | (.error e, d') => (.raised e, d')
  | (.ok (), d') =>
    Sub2.exec i d' (.run ((runTable g (Outside.ofDisk csv resolve ceil d') lib cfg gradient).map (toCsv csv)) output)

end Geec

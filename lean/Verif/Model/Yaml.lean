import Verif.Model.Config
/-
The text of configuration files: what `confuse` (`LazyConfig.read`, `set_file`; /repo/geec/config.py:63-112) gets from PyYAML 6 for the text of
a YAML file.  PyYAML is not in the repository; its scanner and its table of implicit types (`yaml/scanner.py`, `yaml/resolver.py`,
`yaml/constructor.py`) are modelled for block mappings, block sequences, flow sequences, plain and double quoted scalars and comments, each
scalar and each flow sequence on one line.  Python's limits on the depth of recursion and on the digits of integers (4300) are not modelled.  On texts outside of this part the functions below return `none`: nothing is said about them.
-/
namespace Geec

/-- a line without comment: its indentation and its text, which is not empty and neither begins nor ends with a blank -/
abbrev YLine := Nat × List Char

/-- blanks at the end are dropped -/
def trimRight (s : List Char) : List Char := (s.reverse.dropWhile (· = ' ')).reverse

/-- Cuts a comment: `#` at the beginning or after a blank, outside of double quotes.  Models `Scanner.scan_to_next_token`. -/
def cutComment : (quoted blank : Bool) → List Char → List Char
  | _, _, [] => []
  | quoted, blank, c :: s =>
    if c = '#' ∧ blank ∧ ¬ quoted then []
    else c :: cutComment (if c = '"' then !quoted else quoted) (c = ' ') s

/-- `- text` on one line is a hyphen and a text whose indentation is its column.  Models `Scanner.fetch_block_entry`. -/
def splitDashes : Nat → YLine → List YLine
  | 0, l => [l]
  | n + 1, (i, s) =>
    match s with
    | '-' :: ' ' :: r =>
      let t := r.dropWhile (· = ' ')
      (i, ['-']) :: splitDashes n (i + 2 + (r.length - t.length), t)
    | _ => [(i, s)]

/-- the lines that one line of the text stands for: none if there is nothing but a comment -/
def yamlLine (s : List Char) : List YLine :=
  let t := s.dropWhile (· = ' ')
  let c := trimRight (cutComment false true t)
  if c = [] then [] else splitDashes c.length (s.length - t.length, c)

/-- a text is cut at the ends of lines -/
def textLines : List Char → List (List Char)
  | [] => [[]]
  | c :: s =>
    match textLines s with
    | [] => [[c]]
    | l :: ls => if c = '\n' then [] :: l :: ls else (c :: l) :: ls

/-! ### Scalars -/

/-- `tag:yaml.org,2002:null` -/
def nullWords : List (List Char) := ["~".toList, "null".toList, "Null".toList, "NULL".toList]

/-- `tag:yaml.org,2002:bool`, true -/
def trueWords : List (List Char) :=
  ["yes".toList, "Yes".toList, "YES".toList, "true".toList, "True".toList, "TRUE".toList, "on".toList, "On".toList, "ON".toList]

/-- `tag:yaml.org,2002:bool`, false -/
def falseWords : List (List Char) :=
  ["no".toList, "No".toList, "NO".toList, "false".toList, "False".toList, "FALSE".toList, "off".toList, "Off".toList, "OFF".toList]

/-- the number that digits stand for -/
def digitsNat (s : List Char) : Nat := s.foldl (fun n c => 10 * n + (c.toNat - '0'.toNat)) 0

/-- a power of ten -/
def tenTo (minus : Bool) (n : Nat) : Rat := if minus then 1 / ((10 ^ n : Nat) : Rat) else ((10 ^ n : Nat) : Rat)

/-- digits before and after the point, and a power of ten -/
def fixedPoint (before after : List Char) : Rat := (digitsNat (before ++ after) : Rat) / ((10 ^ after.length : Nat) : Rat)

/-- The exponent of a float: `[eE][-+][0-9]+`, or nothing. -/
def exponent : List Char → Option Rat
  | [] => some 1
  | e :: s :: ds =>
    if (e = 'e' ∨ e = 'E') ∧ (s = '-' ∨ s = '+') ∧ ds ≠ [] ∧ ds.all Char.isDigit then some (tenTo (s = '-') (digitsNat ds)) else none
  | _ => none

/-- The value of a float after its sign: `[0-9]+\.[0-9]*` with an exponent, and without a sign also `\.[0-9]+` with an exponent.
Simplification: underscores, numbers to base 60, infinity and NaN are outside of the part that is modelled. -/
def unsignedFloat (signed : Bool) (s : List Char) : Option Rat :=
  let before := s.takeWhile Char.isDigit
  match s.dropWhile Char.isDigit with
  | '.' :: r =>
    let after := r.takeWhile Char.isDigit
    if before ≠ [] ∨ (signed = false ∧ after ≠ []) then (exponent (r.dropWhile Char.isDigit)).map (fixedPoint before after * ·) else none
  | _ => none

/-- The value of an integer after its sign: `0|[1-9][0-9]*`. -/
def unsignedInt (s : List Char) : Option Rat :=
  if s ≠ [] ∧ s.all Char.isDigit ∧ (s.head? ≠ some '0' ∨ s = ['0']) then some (digitsNat s) else none

/-- a zero and a digit, or the mark of another base -/
def zeroStart : List Char → Bool
  | '0' :: c :: _ => c.isDigit || c = 'x' || c = 'b'
  | _ => false

/-- texts that PyYAML may give another type, or that it takes as another kind of number -/
def otherNumber (s : List Char) : Bool :=
  s.any (fun c => c = '_' || c = ':') ||
  zeroStart s ||
  s ∈ [".inf".toList, ".Inf".toList, ".INF".toList, ".nan".toList, ".NaN".toList, ".NAN".toList] ||
  (4 ≤ (s.takeWhile Char.isDigit).length && (s.dropWhile Char.isDigit).head? = some '-')

/-- the text `s`, which is `u` after its sign: an integer, a float, or else a string -/
def numberWith (s : List Char) (signed minus : Bool) (u : List Char) : Option (Val Rat) :=
  let sgn : Rat := if minus then -1 else 1
  match unsignedInt u with
  | some q => some (.num true (sgn * q))
  | none =>
    match unsignedFloat signed u with
    | some q => some (.num false (sgn * q))
    | none => if otherNumber u then none else some (.str (String.ofList s))

/-- a text that begins like a number -/
def numberOr (s : List Char) : Option (Val Rat) :=
  match s with
  | '-' :: u => numberWith s true true u
  | '+' :: u => numberWith s true false u
  | u => numberWith s false false u

/-- a colon that would end a key -/
def hasKeyColon : List Char → Bool
  | [] => false
  | [c] => c = ':'
  | c :: d :: s => (c = ':' && d = ' ') || hasKeyColon (d :: s)

/-- Characters with which no plain scalar of the modelled part begins. -/
def noStart : List Char := [',', '[', ']', '{', '}', '#', '&', '*', '!', '|', '>', '%', '@', '`', '?', ':', '=', '<']

/-- A plain scalar: its type is chosen by its text (`Resolver.resolve`, with the tables of YAML 1.1). -/
def plain (s : List Char) : Option (Val Rat) :=
  match s with
  | [] => none
  | c :: r =>
    if s ∈ nullWords then some .null
    else if s ∈ trueWords then some (.bool true)
    else if s ∈ falseWords then some (.bool false)
    else if c ∈ noStart || s.any (fun c => c = '"' || c = '\'' || c = '\t' || c = '\r') || hasKeyColon s then none
    else if c = '-' && (r.head? = none || r.head? = some ' ' || r.head? = some '-') then none
    else if s.take 3 = ['.', '.', '.'] then none
    else if c.isDigit || c = '-' || c = '+' || c = '.' then numberOr s
    else some (.str (String.ofList s))

/-- A double quoted scalar after its first quote, without escapes, and what follows it. -/
def quoted : List Char → Option (List Char × List Char)
  | [] => none
  | c :: s => if c = '"' then some ([], s) else if c = '\\' then none else (quoted s).map fun p => (c :: p.1, p.2)

/-- characters that end a plain scalar in a flow sequence -/
def flowEnd (c : Char) : Bool := c = ',' || c = '[' || c = ']' || c = '{' || c = '}'

mutual
/-- a value in a flow sequence, and what follows it -/
def flowValue : Nat → List Char → Option (Val Rat × List Char)
  | 0, _ => none
  | n + 1, s =>
    match s with
    | '[' :: r => (flowItems n (r.dropWhile (· = ' '))).map fun p => (.list p.1, p.2)
    | '"' :: r => (quoted r).map fun p => (.str (String.ofList p.1), p.2)
    | _ => (plain (trimRight (s.takeWhile fun c => !flowEnd c))).map fun v => (v, s.dropWhile fun c => !flowEnd c)
/-- the items of a flow sequence up to its closing bracket, and what follows it -/
def flowItems : Nat → List Char → Option (List (Val Rat) × List Char)
  | 0, _ => none
  | n + 1, s =>
    match s with
    | ']' :: r => some ([], r)
    | _ =>
      match flowValue n s with
      | none => none
      | some (v, r) =>
        match r.dropWhile (· = ' ') with
        | ']' :: r' => some ([v], r')
        | ',' :: r' => (flowItems n (r'.dropWhile (· = ' '))).map fun p => (v :: p.1, p.2)
        | _ => none
end

/-- a value on one line -/
def inlineValue (s : List Char) : Option (Val Rat) :=
  match s with
  | '[' :: _ => match flowValue (2 * s.length + 2) s with
    | some (v, []) => some v
    | _ => none
  | '"' :: r => match quoted r with
    | some (t, []) => some (.str (String.ofList t))
    | _ => none
  | _ => plain s

/-! ### Blocks -/

/-- `key: rest` or `key:`, cut at the first colon that is followed by a blank or by the end -/
def splitKey : List Char → Option (List Char × List Char)
  | [] => none
  | c :: s =>
    if c = ':' then
      match s with
      | [] => some ([], [])
      | ' ' :: r => some ([], r.dropWhile (· = ' '))
      | _ => (splitKey s).map fun p => (c :: p.1, p.2)
    else (splitKey s).map fun p => (c :: p.1, p.2)

/-- A line that begins an entry of a mapping: its key, which must be a plain string of at most 1024 characters (`Scanner.stale_possible_simple_keys`),
and what follows. -/
def keyLine (s : List Char) : Option (String × List Char) :=
  match s with
  | '[' :: _ => none
  | '"' :: _ => none
  | _ =>
    match splitKey s with
    | none => none
    | some (k, r) =>
      if 1024 < k.length then none
      else match plain k with
        | some (.str k) => some (k, r)
        | _ => none

mutual
/-- a block whose first line has the indentation `i`, and the lines that follow it -/
def blockValue : Nat → Nat → List YLine → Option (Val Rat × List YLine)
  | 0, _, _ => none
  | _ + 1, _, [] => none
  | n + 1, i, (j, s) :: ls =>
    if s = ['-'] then (seqItems n i ((j, s) :: ls)).map fun p => (.list p.1, p.2)
    else match keyLine s with
      | some _ => (mapItems n i ((j, s) :: ls)).map fun p => (.dict p.1, p.2)
      | none => (inlineValue s).map fun v => (v, ls)
/-- the items of a block sequence with the indentation `i` -/
def seqItems : Nat → Nat → List YLine → Option (List (Val Rat) × List YLine)
  | 0, _, _ => none
  | _ + 1, _, [] => some ([], [])
  | n + 1, i, (j, s) :: ls =>
    if j < i then some ([], (j, s) :: ls)
    else if j = i ∧ s = ['-'] then
      match child n i ls with
      | none => none
      | some (v, ls') => (seqItems n i ls').map fun p => (v :: p.1, p.2)
    else none
/-- the entries of a block mapping with the indentation `i`; that a key occurs twice is outside of the modelled part -/
def mapItems : Nat → Nat → List YLine → Option (List (String × Val Rat) × List YLine)
  | 0, _, _ => none
  | _ + 1, _, [] => some ([], [])
  | n + 1, i, (j, s) :: ls =>
    if j < i then some ([], (j, s) :: ls)
    else if j = i then
      match keyLine s with
      | none => none
      | some (k, r) =>
        match (if r = [] then child n i ls else (inlineValue r).map fun v => (v, ls)) with
        | none => none
        | some (v, ls') =>
          match mapItems n i ls' with
          | none => none
          | some (es, ls'') => if es.any (fun p => p.1 = k) then none else some ((k, v) :: es, ls'')
    else none
/-- what belongs to a hyphen or to a key at the end of a line: the block that is indented further, or null -/
def child : Nat → Nat → List YLine → Option (Val Rat × List YLine)
  | 0, _, _ => none
  | _ + 1, _, [] => some (.null, [])
  | n + 1, i, (j, s) :: ls => if i < j then blockValue n j ((j, s) :: ls) else some (.null, (j, s) :: ls)
end

/-- The value of a document. -/
def yamlValue (ls : List YLine) : Option (Val Rat) :=
  match ls with
  | [] => some .null
  | (i, s) :: ls' =>
    match blockValue (4 * (ls.length + 1)) i ((i, s) :: ls') with
    | some (v, []) => some v
    | _ => none

/-- Characters of the modelled part: printable ones (`Reader.NON_PRINTABLE`) and newlines; not tabs, carriage returns and the other line breaks of
YAML, and no byte order mark. -/
def yamlChar (c : Char) : Bool :=
  c = '\n' || (32 ≤ c.toNat && c.toNat ≤ 126) ||
    (160 ≤ c.toNat && c.toNat ≠ 8232 && c.toNat ≠ 8233 && c.toNat ≠ 65279 && c.toNat ≠ 65534 && c.toNat ≠ 65535)

/-- The value of a text. -/
def yaml (text : List Char) : Option (Val Rat) :=
  if text.all yamlChar then yamlValue ((textLines text).flatMap yamlLine) else none

mutual
/-- numbers as the arithmetic `S` has them; `lit` is the conversion by `float` -/
def Val.read {S : Type} (lit : Rat → S) : Val Rat → Val S
  | .null => .null
  | .bool b => .bool b
  | .num i q => .num i (lit q)
  | .str s => .str s
  | .list l => .list (readList lit l)
  | .dict l => .dict (readDict lit l)
/-- a list of values -/
def readList {S : Type} (lit : Rat → S) : List (Val Rat) → List (Val S)
  | [] => []
  | v :: l => v.read lit :: readList lit l
/-- the entries of a mapping -/
def readDict {S : Type} (lit : Rat → S) : List (String × Val Rat) → List (String × Val S)
  | [] => []
  | (k, v) :: l => (k, v.read lit) :: readDict lit l
end

/-- A source of the configuration from the text of a file: `YamlSource.load` makes an empty mapping of an empty document and accepts no other value
than a mapping.  Models confuse 2.0.1 `sources.py` as used at /repo/geec/config.py:74-90, 108-110. -/
def configSource {S : Type} (lit : Rat → S) (text : List Char) : Option (Val S) :=
  match yaml text with
  | some .null => some (.dict [])
  | some (.dict l) => some ((Val.dict l).read lit)
  | _ => none

end Geec

import Verif.Model.Config
import Mathlib.Data.Nat.Digits.Defs
/-
How values are written in a configuration file (C118-C120): decimal numbers, strings, lists in brackets, blocks by indentation, comments.
Nothing here refers to the model of the YAML parser.
-/
namespace Geec

/-- `n` blanks -/
def blanks (n : ℕ) : List Char := List.replicate n ' '

/-- the number that a digit stands for -/
def digitOf (c : Char) : ℕ := c.toNat - 48

/-- the number that a sequence of digits stands for -/
def digitsValue (s : List Char) : ℕ := Nat.ofDigits 10 (s.map digitOf).reverse

/-- a sign; `true` is minus -/
def signText : Option Bool → List Char
  | none => []
  | some true => ['-']
  | some false => ['+']

/-- the factor that a sign stands for -/
def signValue (s : Option Bool) : ℚ := if s = some true then -1 else 1

/-- A number in decimal notation: sign, digits before the point, the point and digits after it, and an exponent: its letter, its sign and its digits. -/
structure Decimal where
  sign : Option Bool
  before : List Char
  after : Option (List Char)
  exp : Option (Char × Option Bool × List Char)

/-- how a number is written -/
def Decimal.text (d : Decimal) : List Char :=
  signText d.sign ++ d.before ++ (match d.after with | none => [] | some a => '.' :: a) ++
    (match d.exp with | none => [] | some (e, s, x) => e :: signText s ++ x)

/-- the number that is written -/
def Decimal.value (d : Decimal) : ℚ :=
  signValue d.sign * (digitsValue (d.before ++ d.after.getD []) / 10 ^ (d.after.getD []).length) *
    (match d.exp with
      | none => 1
      | some (_, s, x) => if s = some true then 1 / 10 ^ digitsValue x else 10 ^ digitsValue x)

/-- What everybody reads as a number (Python's `float` does): there are digits, and the exponent has digits. -/
structure Decimal.Sound (d : Decimal) : Prop where
  before : ∀ c ∈ d.before, c.isDigit = true
  after : ∀ c ∈ d.after.getD [], c.isDigit = true
  nonempty : d.before ++ d.after.getD [] ≠ []
  exp : ∀ e s x, d.exp = some (e, s, x) → (e = 'e' ∨ e = 'E') ∧ x ≠ [] ∧ ∀ c ∈ x, c.isDigit = true

/-- written without point and exponent -/
def Decimal.isInt (d : Decimal) : Bool := d.after.isNone && d.exp.isNone

/-- The notations of YAML 1.1: an integer without leading zeros; or a number with a point, with digits before it or else without a sign, and whose exponent has a sign. -/
structure Decimal.Yaml (d : Decimal) : Prop where
  point : d.after = none → d.exp = none ∧ (d.before.head? ≠ some '0' ∨ d.before = ['0'])
  before : d.before = [] → d.sign = none
  signed : ∀ e s x, d.exp = some (e, s, x) → s ≠ none

/-- Digits before the point with a superfluous zero in front: an octal number in YAML 1.1. -/
def Decimal.Padded (d : Decimal) : Prop := d.before.head? = some '0' ∧ 2 ≤ d.before.length

/-- Characters of words: those of ASCII that are printable, but no blank, comma, quote, bracket or brace. -/
def WordChar (c : Char) : Prop := 33 ≤ c.toNat ∧ c.toNat ≤ 126 ∧ c ∉ [',', '"', '\'', '[', ']', '{', '}']

/-- What may stand on a line: printable characters, but no byte order mark. -/
def Printable (c : Char) : Prop :=
  (32 ≤ c.toNat ∧ c.toNat ≤ 126) ∨ (160 ≤ c.toNat ∧ c.toNat ∉ [0x2028, 0x2029, 0xFEFF, 0xFFFE, 0xFFFF])

/-- A word: it begins with a letter or a slash, does not end with a colon, and is none of the words for null, true and false. -/
structure Word (s : List Char) : Prop where
  first : ∃ c r, s = c :: r ∧ (c.isAlpha = true ∨ c = '/')
  chars : ∀ c ∈ s, WordChar c
  last : s.getLast? ≠ some ':'
  plain : String.ofList s ∉ ["null", "Null", "NULL", "yes", "Yes", "YES", "no", "No", "NO", "true", "True", "TRUE", "false", "False", "FALSE",
    "on", "On", "ON", "off", "Off", "OFF"]

mutual
/-- A value on one line and how it is written; a number in another notation than those of YAML is a string (`text`). -/
inductive Inline : List Char → Val ℚ → Prop
  | null (s : List Char) : String.ofList s ∈ ["~", "null", "Null", "NULL"] → Inline s .null
  | true (s : List Char) : String.ofList s ∈ ["yes", "Yes", "YES", "true", "True", "TRUE", "on", "On", "ON"] → Inline s (.bool true)
  | false (s : List Char) : String.ofList s ∈ ["no", "No", "NO", "false", "False", "FALSE", "off", "Off", "OFF"] → Inline s (.bool false)
  | num (d : Decimal) : d.Sound → d.Yaml → Inline d.text (.num d.isInt d.value)
  | text (d : Decimal) : d.Sound → ¬ d.Yaml → ¬ d.Padded → Inline d.text (.str (String.ofList d.text))
  | word (s : List Char) : Word s → Inline s (.str (String.ofList s))
  | quoted (s : List Char) : '"' ∉ s → '\\' ∉ s → Inline ('"' :: s ++ ['"']) (.str (String.ofList s))
  | list (t : List Char) (vs : List (Val ℚ)) : Items t vs → Inline ('[' :: t) (.list vs)
/-- The items of a list and how they are written, up to the closing bracket. -/
inductive Items : List Char → List (Val ℚ) → Prop
  | nil (a : ℕ) : Items (blanks a ++ [']']) []
  | last (a b : ℕ) (t : List Char) (v : Val ℚ) : Inline t v → Items (blanks a ++ t ++ blanks b ++ [']']) [v]
  | cons (a b : ℕ) (t ts : List Char) (v : Val ℚ) (vs : List (Val ℚ)) : Inline t v → Items ts vs →
      Items (blanks a ++ t ++ blanks b ++ ',' :: ts) (v :: vs)
end

/-- A key: a word of at most 1024 characters. -/
def KeyWord (k : List Char) : Prop := Word k ∧ k.length ≤ 1024

mutual
/-- A value and the lines (indentation and text) on which it is written as a block with the indentation `i`. -/
inductive Block : ℕ → List (ℕ × List Char) → Val ℚ → Prop
  | inline (i : ℕ) (t : List Char) (v : Val ℚ) : Inline t v → Block i [(i, t)] v
  | list (i : ℕ) (ls : List (ℕ × List Char)) (vs : List (Val ℚ)) : vs ≠ [] → BlockItems i ls vs → Block i ls (.list vs)
  | dict (i : ℕ) (ls : List (ℕ × List Char)) (es : List (String × Val ℚ)) : es ≠ [] → BlockEntries i ls es → Block i ls (.dict es)
/-- the items of a list, each behind a hyphen -/
inductive BlockItems : ℕ → List (ℕ × List Char) → List (Val ℚ) → Prop
  | nil (i : ℕ) : BlockItems i [] []
  | null (i : ℕ) (ls : List (ℕ × List Char)) (vs : List (Val ℚ)) : BlockItems i ls vs → BlockItems i ((i, ['-']) :: ls) (.null :: vs)
  | item (i j : ℕ) (bl ls : List (ℕ × List Char)) (v : Val ℚ) (vs : List (Val ℚ)) : i < j → Block j bl v → BlockItems i ls vs →
      BlockItems i ((i, ['-']) :: (bl ++ ls)) (v :: vs)
/-- the entries of a mapping, with different keys -/
inductive BlockEntries : ℕ → List (ℕ × List Char) → List (String × Val ℚ) → Prop
  | nil (i : ℕ) : BlockEntries i [] []
  | null (i : ℕ) (k : List Char) (ls : List (ℕ × List Char)) (es : List (String × Val ℚ)) : KeyWord k → String.ofList k ∉ es.map (·.1) →
      BlockEntries i ls es → BlockEntries i ((i, k ++ [':']) :: ls) ((String.ofList k, .null) :: es)
  | inline (i a : ℕ) (k t : List Char) (v : Val ℚ) (ls : List (ℕ × List Char)) (es : List (String × Val ℚ)) : KeyWord k →
      String.ofList k ∉ es.map (·.1) → Inline t v → BlockEntries i ls es →
      BlockEntries i ((i, k ++ ':' :: ' ' :: blanks a ++ t) :: ls) ((String.ofList k, v) :: es)
  | block (i j : ℕ) (k : List Char) (bl ls : List (ℕ × List Char)) (v : Val ℚ) (es : List (String × Val ℚ)) : KeyWord k →
      String.ofList k ∉ es.map (·.1) → i < j → Block j bl v → BlockEntries i ls es →
      BlockEntries i ((i, k ++ [':']) :: (bl ++ ls)) ((String.ofList k, v) :: es)
end

/-- A comment at the end of a line, or nothing but blanks. -/
inductive Trailing : List Char → Prop
  | blanks (a : ℕ) : Trailing (blanks a)
  | comment (a : ℕ) (c : List Char) : Trailing (blanks (a + 1) ++ '#' :: c)

/-- A text behind hyphens on the same line: the hyphens and the text count as lines with the indentation of their columns. -/
inductive Hyphens : ℕ → List Char → List (ℕ × List Char) → Prop
  | text (i : ℕ) (t : List Char) : Hyphens i t [(i, t)]
  | hyphen (i a : ℕ) (t : List Char) (ls : List (ℕ × List Char)) : Hyphens (i + 2 + a) t ls →
      Hyphens i ('-' :: ' ' :: blanks a ++ t) ((i, ['-']) :: ls)

/-- A line of the file and the lines it stands for: blank lines and comments stand for nothing. -/
inductive YamlLine : List Char → List (ℕ × List Char) → Prop
  | blank (a : ℕ) : YamlLine (blanks a) []
  | comment (a : ℕ) (c : List Char) : YamlLine (blanks a ++ '#' :: c) []
  | text (i : ℕ) (t e : List Char) (ls : List (ℕ × List Char)) : Hyphens i t ls → Trailing e → YamlLine (blanks i ++ t ++ e) ls

/-- Lines of a file that hold the value `v`. -/
def Writes (file : List (List Char)) (v : Val ℚ) : Prop :=
  ∃ (i : ℕ) (lss : List (List (ℕ × List Char))), List.Forall₂ YamlLine file lss ∧ Block i lss.flatten v

end Geec

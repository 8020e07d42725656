import Mathlib.Data.List.Basic
/-
What the words of a command line mean (C121).  Nothing here refers to the model of the parser.
-/
namespace Geec

/-- a word that is not taken for an option: it does not begin with a hyphen, or it is one -/
def Operand (a : List Char) : Prop := a.head? ≠ some '-' ∨ a = ['-']

/-- A command line, the options in it with their values (a flag has an empty one), and the other words.  `flags` are the names of the flags and `valued` those of the options with
a value, which is the next word, whatever it is, or follows behind an equals sign.  The word `--` ends the options.  If `mixed`, the other words may stand between options;
otherwise the first of them ends the options. -/
inductive Words (flags valued : List (List Char)) (mixed : Bool) : List (List Char) → List (List Char × List Char) → List (List Char) → Prop
  | nil : Words flags valued mixed [] [] []
  | stop (l : List (List Char)) : Words flags valued mixed ("--".toList :: l) [] l
  | flag (n : List Char) (l : List (List Char)) (os : List (List Char × List Char)) (r : List (List Char)) :
      n ∈ flags → Words flags valued mixed l os r → Words flags valued mixed (n :: l) ((n, []) :: os) r
  | separate (n v : List Char) (l : List (List Char)) (os : List (List Char × List Char)) (r : List (List Char)) :
      n ∈ valued → Words flags valued mixed l os r → Words flags valued mixed (n :: v :: l) ((n, v) :: os) r
  | attached (n v : List Char) (l : List (List Char)) (os : List (List Char × List Char)) (r : List (List Char)) :
      n ∈ valued → Words flags valued mixed l os r → Words flags valued mixed ((n ++ '=' :: v) :: l) ((n, v) :: os) r
  | operand (a : List Char) (l : List (List Char)) (os : List (List Char × List Char)) (r : List (List Char)) :
      mixed = true → Operand a → Words flags valued mixed l os r → Words flags valued mixed (a :: l) os (a :: r)
  | command (a : List Char) (l : List (List Char)) : mixed = false → Operand a → Words flags valued mixed (a :: l) [] (a :: l)

/-- command lines of the application -/
def AppWords : List (List Char) → List (List Char × List Char) → List (List Char) → Prop :=
  Words ["--version".toList, "--log".toList, "--help".toList] [] false

/-- command lines of `run` -/
def RunWords : List (List Char) → List (List Char × List Char) → List (List Char) → Prop :=
  Words ["--gradient".toList, "--no-gradient".toList, "--help".toList] ["--config".toList] true

/-- command lines of `config` -/
def ConfigWords : List (List Char) → List (List Char × List Char) → List (List Char) → Prop :=
  Words ["--help".toList] ["--output".toList] true

/-- `--help` is among the options -/
def AsksHelp (os : List (List Char × List Char)) : Prop := ∃ v, ("--help".toList, v) ∈ os

/-- the last value given to the option `n`; empty if there is none -/
def LastValue (n : List Char) (os : List (List Char × List Char)) (v : List Char) : Prop :=
  (∃ before after, os = before ++ (n, v) :: after ∧ ∀ w, (n, w) ∉ after) ∨ (v = [] ∧ ∀ w, (n, w) ∉ os)

/-- the last of `--gradient` and `--no-gradient` decides; without any of them, no gradient -/
def WantsGradient (os : List (List Char × List Char)) : Prop :=
  ∃ before after v, os = before ++ ("--gradient".toList, v) :: after ∧ ∀ w, ("--no-gradient".toList, w) ∉ after

end Geec

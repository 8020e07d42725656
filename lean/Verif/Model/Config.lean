import Verif.Model.Arith
/-
Configuration values and the look-up rules of the confuse library (2.0.1), as used by
/repo/geec/config.py, crs.py, dataset.py, mass.py, observer.py.  The rules of confuse are modelled from its
documentation and source; this is part of the trusted base.
-/
namespace Geec
open Arith

/-- A YAML value.  Numbers remember whether they are Python `int`. -/
inductive Val (S : Type)
  | null
  | bool (b : Bool)
  | num (isInt : Bool) (x : S)
  | str (s : String)
  | list (items : List (Val S))
  | dict (items : List (String × Val S))

/-- One step of a look-up path. -/
inductive Key
  | name (s : String)
  | idx (n : Nat)

/-- Outcome of `collection[key]`. -/
inductive Sub (S : Type)
  | found (v : Val S)
  | missing
  | notSubscriptable

variable {S : Type} [Arith S]

/-- value of a key in a mapping -/
def assoc (k : String) : List (String × Val S) → Option (Val S)
  | [] => none
  | (k', v) :: rest => if k = k' then some v else assoc k rest

/-- `collection[key]`: `KeyError`/`IndexError` mean missing, `TypeError` means not subscriptable.
Models confuse `Subview.resolve`.  Simplification: indexing a string with an integer (a character in Python) is
treated as not subscriptable; the code never does it. -/
def Val.sub (v : Val S) (k : Key) : Sub S :=
  match v, k with
  | .dict items, .name s => match assoc s items with
    | some v => .found v
    | none => .missing
  | .dict _, .idx _ => .missing
  | .list items, .idx n => match items[n]? with
    | some v => .found v
    | none => .missing
  | _, _ => .notSubscriptable

/-- One generator step of `Subview.resolve`: the values of a sub-key in all sources, by decreasing priority; an error
ends the generator. -/
def resolveKey (k : Key) : List (Except PyErr (Val S)) → List (Except PyErr (Val S))
  | [] => []
  | .error e :: _ => [.error e]
  | .ok v :: rest => match v.sub k with
    | .found x => .ok x :: resolveKey k rest
    | .missing => resolveKey k rest
    | .notSubscriptable => [.error .configTypeError]

/-- A view on the configuration: its sources (highest priority first) seen through the keys taken so far. -/
structure View (S : Type) where
  items : List (Except PyErr (Val S))

/-- The root of a `LazyConfig` with the given sources.  Models /repo/geec/config.py:63-93, 96-112: defaults are lowest,
then the user's file, then the file given as argument. -/
def View.root (sources : List (Val S)) : View S := ⟨sources.map .ok⟩

/-- the sources set up by `geec.config.setup(user_cfg)`, /repo/geec/config.py:96-112 -/
def setupSources (argFile userFile : Option (Val S)) (defaults : Val S) : List (Val S) :=
  argFile.toList ++ userFile.toList ++ [defaults]

/-- `view[key]` -/
def View.sub (w : View S) (k : Key) : View S := ⟨resolveKey k w.items⟩

/-- `view["name"]` -/
def View.at (w : View S) (s : String) : View S := w.sub (.name s)

/-- `view.first()`: `NotFoundError` when no source has the value. -/
def View.first (w : View S) : Except PyErr (Val S) :=
  match w.items with
  | [] => .error .configNotFoundError
  | r :: _ => r

/-- Python truth value -/
def Val.truthy : Val S → Bool
  | .null => false
  | .bool b => b
  | .num _ x => !(x ==. zero)
  | .str s => s ≠ ""
  | .list l => !l.isEmpty
  | .dict l => !l.isEmpty

/-- `bool(view)` -/
def View.truthy (w : View S) : Except PyErr Bool := do return (← w.first).truthy

/-- `view.get(str)` -/
def View.getStr (w : View S) : Except PyErr String := do
  match ← w.first with
  | .str s => return s
  | _ => .error .configTypeError

/-- `view.get(float)` (template `Number`: int, float and bool are accepted); the flag tells whether the Python value
is an `int`. -/
def View.getNum (w : View S) : Except PyErr S := do
  match ← w.first with
  | .num _ x => return x
  | .bool b => return (if b then one else zero)
  | _ => .error .configTypeError

/-- `view.get(list)` -/
def View.getList (w : View S) : Except PyErr (List (Val S)) := do
  match ← w.first with
  | .list l => return l
  | _ => .error .configTypeError

/-- `view.get([str, None])` and `view.get([float, None])`: any present value is accepted. -/
def View.getAny (w : View S) : Except PyErr (Val S) := w.first

/-- `view.get(confuse.Optional(confuse.String("ellps")))` -/
def View.getOptStr (w : View S) (default : String) : Except PyErr String :=
  match w.first with
  | .error .configNotFoundError => .ok default
  | .error e => .error e
  | .ok .null => .ok default
  | .ok (.str s) => .ok s
  | .ok _ => .error .configTypeError

/-- Iteration `for x in view` over a list view: the sub-views by index.
Simplification: a view that is a mapping in every source is reported as `ConfigTypeError`. -/
def View.iter (w : View S) : Except PyErr (List (View S)) :=
  match w.first with
  | .error .configNotFoundError => .ok []
  | .error e => .error e
  | .ok (.list l) => .ok ((List.range l.length).map (fun i => w.sub (.idx i)))
  | .ok _ => .error .configTypeError

end Geec

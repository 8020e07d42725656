/-
Model of /repo/geec/timing.py.  The module is not imported by the rest of the package (the import at /repo/geec/cli.py:188 is commented out);
a program that imports it gets these messages in its log.
Times are in microseconds: `timedelta` rounds the floating-point seconds to them.
-/
namespace Geec

/-- `%02d` of a number below 100 -/
def twoDigits (n : Nat) : List Char := [Nat.digitChar (n / 10), Nat.digitChar (n % 10)]

/-- `%06d` of a number below 1000000 -/
def sixDigits (n : Nat) : List Char := twoDigits (n / 10000) ++ twoDigits (n / 100 % 100) ++ twoDigits (n % 100)

/-- `str(timedelta(seconds=elapsed))` for an elapsed time of `us` microseconds: hours are not padded, days are shown if there are any (they are negative if the
clock was set back), microseconds are shown if there are any.  Models /repo/geec/timing.py:21 and CPython's `timedelta.__str__`. -/
def elapsedText (us : Int) : List Char :=
  let days := us / 86400000000
  let rest := (us % 86400000000).toNat
  let secs := rest / 1000000
  let micros := rest % 1000000
  let hms := (Nat.repr (secs / 3600)).toList ++ ':' :: twoDigits (secs / 60 % 60) ++ ':' :: twoDigits (secs % 60)
  (if days = 0 then [] else (Int.repr days).toList ++ ' ' :: 'd' :: 'a' :: 'y' :: (if days.natAbs = 1 then [] else ['s']) ++ [',', ' ']) ++ hms ++
    (if micros = 0 then [] else '.' :: sixDigits micros)

/-- What is read from the clock by one call: the date and time as text, and the time since the epoch. -/
structure Reading where
  date : List Char
  now : Int

/-- `log(s, elapsed)`: the messages; an absent or empty `elapsed` is not shown.  Models /repo/geec/timing.py:24-30. -/
def timingLog (date s : List Char) (elapsed : Option (List Char)) : List (List Char) :=
  let line := List.replicate 40 '-'
  [line, date ++ " - ".toList ++ s] ++
  (match elapsed with
    | some e => if e.isEmpty then [] else ["Elapsed time: ".toList ++ e]
    | none => []) ++ [line]

/-- `midlog(s)`.  Models /repo/geec/timing.py:33-36. -/
def midlog (start : Int) (s : List Char) (r : Reading) : List (List Char) := timingLog r.date s (some (elapsedText (r.now - start)))

/-- `endlog()`.  Models /repo/geec/timing.py:39-42. -/
def endlog (start : Int) (r : Reading) : List (List Char) := timingLog r.date "End Program".toList (some (elapsedText (r.now - start)))

/-- A program that imports the module at the reading `r0`, calls `midlog` with the labels and readings of `calls`, and ends at `r1`.
Models /repo/geec/timing.py:46-48. -/
def timedProgram (r0 : Reading) (calls : List (List Char × Reading)) (r1 : Reading) : List (List Char) :=
  timingLog r0.date "Start Program".toList none ++ (calls.map fun c => midlog r0.now c.1 c.2).flatten ++ endlog r0.now r1

end Geec

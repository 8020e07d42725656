import Verif.Model.Dataset
import Verif.Model.RealArith
import Verif.Spec.Geo
import Mathlib.Tactic.Linarith
import Mathlib.Algebra.Order.Floor.Ring
import Mathlib.Data.List.Nodup
import Mathlib.Data.Real.Archimedean
/-
C40 – C44: reading the configuration.
-/
namespace Geec
open Arith
set_option linter.unusedSectionVars false
variable {S : Type} [Arith S]

/-! ### C42: precedence -/

/-- value of a parameter path in one configuration source -/
def Val.lookup (v : Val S) : List Key → Sub S
  | [] => .found v
  | k :: ks => match v.sub k with
    | .found x => x.lookup ks
    | .missing => .missing
    | .notSubscriptable => .notSubscriptable

/-- the first source that has something to say about the parameter decides -/
def decideBy (path : List Key) : List (Val S) → Except PyErr (Val S)
  | [] => .error .configNotFoundError
  | src :: rest => match src.lookup path with
    | .found v => .ok v
    | .notSubscriptable => .error .configTypeError
    | .missing => decideBy path rest

/-- the view of a parameter path -/
def View.keys (w : View S) (path : List Key) : View S := path.foldl View.sub w

/-- the same as `decideBy` for sources that may already be exhausted by an error -/
def decideBy' (path : List Key) : List (Except PyErr (Val S)) → Except PyErr (Val S)
  | [] => .error .configNotFoundError
  | .error e :: _ => .error e
  | .ok src :: rest => match src.lookup path with
    | .found v => .ok v
    | .notSubscriptable => .error .configTypeError
    | .missing => decideBy' path rest

theorem decideBy'_nil (items : List (Except PyErr (Val S))) : decideBy' [] items = (View.mk items).first := by
  rcases items with _ | ⟨e | v, _⟩ <;> rfl

theorem decideBy'_cons (k : Key) (path : List Key) (items : List (Except PyErr (Val S))) :
    decideBy' path (resolveKey k items) = decideBy' (k :: path) items := by
  induction items with
  | nil => rfl
  | cons a rest ih =>
    cases a with
    | error e => rfl
    | ok v =>
      simp only [resolveKey, decideBy', Val.lookup]
      cases h : v.sub k with
      | found x => simp only [decideBy', ih]
      | missing => simp only [ih]
      | notSubscriptable => rfl

theorem keys_first (path : List Key) (w : View S) : (w.keys path).first = decideBy' path w.items := by
  induction path generalizing w with
  | nil => rw [decideBy'_nil]; rfl
  | cons k path ih =>
    have : w.keys (k :: path) = (w.sub k).keys path := rfl
    rw [this, ih, View.sub, decideBy'_cons]

/-- **C42.** The value of every parameter is the one of the highest-priority source that has it. -/
theorem C42_precedence (sources : List (Val S)) (path : List Key) :
    ((View.root sources).keys path).first = decideBy path sources := by
  rw [keys_first, View.root]
  induction sources with
  | nil => rfl
  | cons s rest ih =>
    simp only [List.map_cons, decideBy', decideBy]
    cases s.lookup path <;> simp [ih]

/-- **C42.** With the argument file, the user's file and the defaults: the argument file decides if it has the parameter,
else the user's file, else the defaults. -/
theorem C42_setup (arg user defaults : Val S) (path : List Key) :
    (∀ v, arg.lookup path = .found v →
      ((View.root (setupSources (some arg) (some user) defaults)).keys path).first = .ok v) ∧
    (∀ v, arg.lookup path = .missing → user.lookup path = .found v →
      ((View.root (setupSources (some arg) (some user) defaults)).keys path).first = .ok v) ∧
    (∀ v, arg.lookup path = .missing → user.lookup path = .missing → defaults.lookup path = .found v →
      ((View.root (setupSources (some arg) (some user) defaults)).keys path).first = .ok v) := by
  simp only [C42_precedence, setupSources, Option.toList, List.cons_append, List.nil_append, decideBy]
  refine ⟨fun v h => by simp [h], fun v h1 h2 => by simp [h1, h2], fun v h1 h2 h3 => by simp [h1, h2, h3]⟩

/-- **C42.** A file that does not mention a parameter has no effect on it, wherever it stands. -/
theorem C42_no_mention (before after : List (Val S)) (src : Val S) (path : List Key) (h : src.lookup path = .missing) :
    ((View.root (before ++ src :: after)).keys path).first = ((View.root (before ++ after)).keys path).first := by
  simp only [C42_precedence]
  induction before with
  | nil => simp [decideBy, h]
  | cons b rest ih => simp only [List.cons_append, decideBy, ih]

/-- **C42.** A file below one that has the parameter never overrides it. -/
theorem C42_no_override (before after after' : List (Val S)) (src : Val S) (path : List Key) (v : Val S)
    (h : src.lookup path = .found v) :
    ((View.root (before ++ src :: after)).keys path).first = ((View.root (before ++ src :: after')).keys path).first := by
  simp only [C42_precedence]
  induction before with
  | nil => simp [decideBy, h]
  | cons b rest ih => simp only [List.cons_append, decideBy, ih]

/-- a nested parameter present in the argument file and in the defaults only -/
example : (Val.dict [("observers", .dict [("crs", .dict [("ref", .str "enu")])])] : Val ℝ).lookup
      [.name "observers", .name "crs", .name "ref"] = .found (.str "enu") ∧
    (Val.dict [("observers", .dict [("points", .null)])] : Val ℝ).lookup
      [.name "observers", .name "crs", .name "ref"] = .missing := by
  simp [Val.lookup, Val.sub, assoc]

/-! ### C40: the source of the coordinates -/

/-- The full statement of C40, where a parameter that is absent counts as not set. -/
def C40_statement (S : Type) [Arith S] : Prop :=
  ∀ (o : Outside S) (cfg : View S) (path : String), (cfg.at "points").first = .error .configNotFoundError →
    (cfg.at "file_path").first = .ok (.str path) → path ≠ "" → o.isFile path = true →
    readCoords o cfg = o.readCsv path

/-- **C40**, failure: a body or observer set without the key `points` is refused even if `file_path` is set. -/
theorem C40_absent_points (o : Outside S) (cfg : View S) (h : (cfg.at "points").first = .error .configNotFoundError) :
    readCoords o cfg = .error .configNotFoundError := by
  simp [readCoords, View.truthy, h, bind, Except.bind]

/-- **C40 is false** when a parameter may be absent. -/
theorem C40_false : ¬ C40_statement ℝ := by
  intro h
  have h1 : ((View.root [(Val.dict [("file_path", .str "a.csv")] : Val ℝ)]).at "points").first =
      .error .configNotFoundError := by simp [View.root, View.at, View.sub, resolveKey, Val.sub, assoc, View.first]
  have := h ⟨fun _ => true, fun _ => .ok ⟨[], false⟩, fun _ => 0⟩
    (View.root [Val.dict [("file_path", .str "a.csv")]]) "a.csv" h1
    (by simp [View.root, View.at, View.sub, resolveKey, Val.sub, assoc, View.first]) (by simp) rfl
  rw [C40_absent_points _ _ h1] at this
  cases this

/-- **C40, partial**: with the keys present (possibly null or empty), coordinates come from `points` if non-empty, else
from `file_path` if set, `FileNotFoundError` if there is no such file, else from `grid` if set, else `TypeError`
(missing: absent keys, for which the statement is false). -/
theorem C40_partial (o : Outside S) (cfg : View S) (vp vf vg : Val S)
    (hp : (cfg.at "points").first = .ok vp) (hf : (cfg.at "file_path").first = .ok vf)
    (hg : (cfg.at "grid").first = .ok vg) :
    (vp.truthy = true → readCoords o cfg = arrayOf vp) ∧
    (∀ path, vp.truthy = false → vf = .str path → path ≠ "" →
      readCoords o cfg = if o.isFile path then o.readCsv path else .error .fileNotFoundError) ∧
    (vp.truthy = false → vf.truthy = false → vg.truthy = true → readCoords o cfg = readGrid o (cfg.at "grid")) ∧
    (vp.truthy = false → vf.truthy = false → vg.truthy = false → readCoords o cfg = .error .typeError) := by
  refine ⟨fun h => ?_, fun path h1 h2 h3 => ?_, fun h1 h2 h3 => ?_, fun h1 h2 h3 => ?_⟩
  · simp [readCoords, View.truthy, hp, h, bind, Except.bind, pure, Except.pure]
  · subst h2
    have ht : (Val.str path : Val S).truthy = true := by simp [Val.truthy, h3]
    simp [readCoords, View.truthy, hp, h1, hf, ht, View.getStr, bind, Except.bind, pure, Except.pure]
  · simp [readCoords, View.truthy, hp, h1, hf, h2, hg, h3, bind, Except.bind, pure, Except.pure]
  · simp [readCoords, View.truthy, hp, h1, hf, h2, hg, h3, bind, Except.bind, pure, Except.pure]

/-- **C40.** A list of points, each of three numbers, is read as exactly these points, in order. -/
theorem C40_points (l : List (V3 S × Bool × Bool × Bool)) :
    arrayOf (.list (l.map fun p => .list [.num p.2.1 p.1.x, .num p.2.2.1 p.1.y, .num p.2.2.2 p.1.z])) =
      .ok ⟨l.map (·.1), l.all (fun p => p.2.1 && p.2.2.1 && p.2.2.2)⟩ := by
  have : ∀ l : List (V3 S × Bool × Bool × Bool),
      (l.map fun p => (Val.list [.num p.2.1 p.1.x, .num p.2.2.1 p.1.y, .num p.2.2.2 p.1.z] : Val S)).mapM pointOf =
      .ok (l.map fun p => (p.1, p.2.1 && p.2.2.1 && p.2.2.2)) := by
    intro l
    induction l with
    | nil => rfl
    | cons a l ih =>
      simp only [List.map_cons, List.mapM_cons, ih, pointOf, bind, Except.bind, pure, Except.pure]
  simp only [arrayOf, this, bind, Except.bind, pure, Except.pure, List.map_map, List.all_map, Function.comp_def]

example : ∃ (cfg : View ℝ), (cfg.at "points").first = .ok .null ∧ (cfg.at "file_path").first = .ok (.str "a.csv") ∧
    (cfg.at "grid").first = .ok .null :=
  ⟨View.root [.dict [("points", .null), ("file_path", .str "a.csv"), ("grid", .null)]], by
    simp [View.root, View.at, View.sub, resolveKey, Val.sub, assoc, View.first]⟩

/-! ### C41: grids -/

/-- lexicographic order of points, x most significant -/
def V3.lexLt (p q : V3 ℝ) : Prop := p.x < q.x ∨ p.x = q.x ∧ (p.y < q.y ∨ p.y = q.y ∧ p.z < q.z)

theorem axisValues_sorted {start step : ℝ} (hs : 0 < step) (n : Nat) :
    (axisValues start step n).Pairwise (· < ·) := by
  simp only [axisValues]
  rw [List.pairwise_map]
  refine List.Pairwise.imp ?_ List.pairwise_lt_range
  intro a b hab
  have : (a : ℝ) < b := by exact_mod_cast hab
  simp only [Arith.ofNat, Arith.mul, Arith.add]
  nlinarith

theorem mem_axisValues {start stop step : ℝ} (hs : 0 < step) (x : ℝ) :
    x ∈ axisValues start step ⌈(stop - start) / step⌉.toNat ↔ ∃ k : ℕ, x = start + k * step ∧ start + k * step < stop := by
  simp only [axisValues, List.mem_map, List.mem_range, Arith.ofNat, Arith.mul, Arith.add]
  have key : ∀ k : ℕ, k < ⌈(stop - start) / step⌉.toNat ↔ start + k * step < stop := by
    intro k
    rw [Int.lt_toNat, Int.lt_ceil, lt_div_iff₀ hs]
    simp only [Int.cast_natCast]
    constructor <;> intro h <;> linarith
  constructor
  · rintro ⟨k, hk, rfl⟩; exact ⟨k, by ring, (key k).mp hk⟩
  · rintro ⟨k, rfl, hk⟩; exact ⟨k, (key k).mpr hk, by ring⟩

theorem gridPoints_pairwise {xs ys zs : List ℝ} (hx : xs.Pairwise (· < ·)) (hy : ys.Pairwise (· < ·))
    (hz : zs.Pairwise (· < ·)) : (gridPoints xs ys zs).Pairwise V3.lexLt := by
  simp only [gridPoints]
  rw [List.pairwise_flatMap]
  constructor
  · intro x _
    rw [List.pairwise_flatMap]
    constructor
    · intro y _
      rw [List.pairwise_map]
      exact hz.imp (fun h => Or.inr ⟨rfl, Or.inr ⟨rfl, h⟩⟩)
    · refine hy.imp (fun {a b} h p hp q hq => ?_)
      obtain ⟨_, _, rfl⟩ := List.mem_map.mp hp
      obtain ⟨_, _, rfl⟩ := List.mem_map.mp hq
      exact Or.inr ⟨rfl, Or.inl h⟩
  · refine hx.imp (fun {a b} h p hp q hq => ?_)
    obtain ⟨_, _, hp⟩ := List.mem_flatMap.mp hp
    obtain ⟨_, _, hq⟩ := List.mem_flatMap.mp hq
    obtain ⟨_, _, rfl⟩ := List.mem_map.mp hp
    obtain ⟨_, _, rfl⟩ := List.mem_map.mp hq
    exact Or.inl h

theorem mem_gridPoints {xs ys zs : List ℝ} {p : V3 ℝ} :
    p ∈ gridPoints xs ys zs ↔ p.x ∈ xs ∧ p.y ∈ ys ∧ p.z ∈ zs := by
  simp only [gridPoints, List.mem_flatMap, List.mem_map]
  constructor
  · rintro ⟨x, hx, y, hy, z, hz, rfl⟩; exact ⟨hx, hy, hz⟩
  · rintro ⟨hx, hy, hz⟩; exact ⟨_, hx, _, hy, _, hz, rfl⟩

theorem length_gridPoints (xs ys zs : List ℝ) :
    (gridPoints xs ys zs).length = xs.length * (ys.length * zs.length) := by
  simp [gridPoints, List.length_flatMap]

theorem stepOk_of_count {S : Type} [Arith S] {ceil : S → Int} {a b s : S} {n : Nat} (h : axisCount ceil a b s = .ok n) : stepOk s = .ok () := by
  unfold axisCount at h
  unfold stepOk
  split at h
  · cases h
  · rename_i h1
    rw [if_neg h1]

theorem axisCount_real {o : Outside ℝ} (ho : o.ceil = Int.ceil) {a b s : ℝ} (hs : 0 < s) (hab : a ≤ b) :
    axisCount o.ceil a b s = .ok ⌈(b - a) / s⌉.toNat := by
  have h1 : (s ==. (zero : ℝ)) = false := by
    simp only [Arith.eq, Arith.zero, decide_eq_false_iff_not]; exact hs.ne'
  have h2 : ¬ ⌈(b - a) / s⌉ < 0 := by
    rw [not_lt]; exact Int.ceil_nonneg (div_nonneg (by linarith) hs.le)
  simp [axisCount, h1, ho, Arith.sub, Arith.div, h2]

/-- **C41.** With positive steps and start ≤ end on each axis (exact arithmetic, exact `ceil`), the grid is read as
exactly the points `start + k*step < end` on each axis, in lexicographic order with x slowest — hence each once —, and
their number is the product of the numbers of values on the axes. -/
theorem C41_grid (o : Outside ℝ) (ho : o.ceil = Int.ceil) (w : View ℝ) (xa xb xs ya yb ys za zb zs : ℝ)
    (i1 i2 i3 j1 j2 j3 k1 k2 k3 : Bool)
    (hx : (w.at "xstart_xend_xstep").first = .ok (.list [.num i1 xa, .num i2 xb, .num i3 xs]))
    (hy : (w.at "ystart_yend_ystep").first = .ok (.list [.num j1 ya, .num j2 yb, .num j3 ys]))
    (hz : (w.at "zstart_zend_zstep").first = .ok (.list [.num k1 za, .num k2 zb, .num k3 zs]))
    (hxs : 0 < xs) (hys : 0 < ys) (hzs : 0 < zs) (hxab : xa ≤ xb) (hyab : ya ≤ yb) (hzab : za ≤ zb) :
    ∃ c, readGrid o w = .ok c ∧
      (∀ p : V3 ℝ, p ∈ c.rows ↔ ∃ i j k : ℕ, p = ⟨xa + i * xs, ya + j * ys, za + k * zs⟩ ∧
        xa + i * xs < xb ∧ ya + j * ys < yb ∧ za + k * zs < zb) ∧
      c.rows.Pairwise V3.lexLt ∧ c.rows.Nodup ∧
      c.rows.length = ⌈(xb - xa) / xs⌉.toNat * (⌈(yb - ya) / ys⌉.toNat * ⌈(zb - za) / zs⌉.toNat) := by
  refine ⟨⟨gridPoints (axisValues xa xs ⌈(xb - xa) / xs⌉.toNat) (axisValues ya ys ⌈(yb - ya) / ys⌉.toNat)
    (axisValues za zs ⌈(zb - za) / zs⌉.toNat), (i1 && i2 && i3) && (j1 && j2 && j3) && (k1 && k2 && k3)⟩, ?_, ?_, ?_⟩
  · simp only [readGrid, axis3, View.getList, hx, hy, hz, bind, Except.bind, pure, Except.pure, axisNums,
      stepOk_of_count (axisCount_real ho hxs hxab), stepOk_of_count (axisCount_real ho hys hyab), stepOk_of_count (axisCount_real ho hzs hzab),
      axisCount_real ho hxs hxab, axisCount_real ho hys hyab, axisCount_real ho hzs hzab]
  · intro p
    simp only [mem_gridPoints, mem_axisValues hxs, mem_axisValues hys, mem_axisValues hzs]
    constructor
    · rintro ⟨⟨i, h1, h2⟩, ⟨j, h3, h4⟩, ⟨k, h5, h6⟩⟩
      exact ⟨i, j, k, by cases p; simp at h1 h3 h5; simp [h1, h3, h5], h2, h4, h6⟩
    · rintro ⟨i, j, k, rfl, h2, h4, h6⟩
      exact ⟨⟨i, rfl, h2⟩, ⟨j, rfl, h4⟩, ⟨k, rfl, h6⟩⟩
  · have hp := gridPoints_pairwise (axisValues_sorted (start := xa) hxs ⌈(xb - xa) / xs⌉.toNat)
      (axisValues_sorted (start := ya) hys ⌈(yb - ya) / ys⌉.toNat)
      (axisValues_sorted (start := za) hzs ⌈(zb - za) / zs⌉.toNat)
    refine ⟨hp, hp.imp (fun {a b} h => ?_), ?_⟩
    · rintro rfl
      rcases h with h | ⟨_, h | ⟨_, h⟩⟩ <;> exact lt_irrefl _ h
    · rw [length_gridPoints]; simp [axisValues]

/-- **C41.** A zero step raises `ZeroDivisionError`. -/
theorem C41_zero_step (o : Outside ℝ) (a b : ℝ) : axisCount o.ceil a b 0 = .error .zeroDivisionError := by
  simp [axisCount, Arith.eq, Arith.zero]

example : ∃ w : View ℝ, (w.at "xstart_xend_xstep").first = .ok (.list [.num true 0, .num true 10, .num true 5]) ∧
    (w.at "ystart_yend_ystep").first = .ok (.list [.num true 0, .num true 1, .num true 2]) ∧
    (w.at "zstart_zend_zstep").first = .ok (.list [.num true 0, .num true 3, .num false 1.5]) :=
  ⟨View.root [.dict [("xstart_xend_xstep", .list [.num true 0, .num true 10, .num true 5]),
    ("ystart_yend_ystep", .list [.num true 0, .num true 1, .num true 2]),
    ("zstart_zend_zstep", .list [.num true 0, .num true 3, .num false 1.5])]], by
    simp [View.root, View.at, View.sub, resolveKey, Val.sub, assoc, View.first]⟩

/-! ### C43: names of reference systems and vertical datums -/

/-- the names documented in the configuration template -/
def documentedRefs : List (String × CRSName) :=
  [("cart", .CART), ("ellps", .ELLPS), ("enu", .ENU), ("ecef", .ECEF)]
def documentedVdatums : List (String × VDatum) :=
  [("ellps", .ELLPS), ("egm84", .EGM84), ("egm96", .EGM96), ("egm2008", .EGM08)]

theorem toUpper_toLower (c : Char) : c.toLower.toUpper = c.toUpper := by
  have hA : 'A'.val.toNat = 65 := by decide
  have hZ : 'Z'.val.toNat = 90 := by decide
  have ha : 'a'.val.toNat = 97 := by decide
  have hz : 'z'.val.toNat = 122 := by decide
  have hsub : ('a'.val - 'A'.val).toNat = 32 := by decide
  have hsub' : ('A'.val - 'a'.val).toNat = 4294967264 := by decide
  simp only [Char.toLower, Char.toUpper, ge_iff_le, UInt32.le_iff_toNat_le, hA, hZ, ha, hz]
  by_cases h1 : 65 ≤ c.val.toNat ∧ c.val.toNat ≤ 90
  · have h2 : ¬ (97 ≤ c.val.toNat ∧ c.val.toNat ≤ 122) := by omega
    have h3 : (c.val + ('a'.val - 'A'.val)).toNat = c.val.toNat + 32 := by
      rw [UInt32.toNat_add, hsub]; omega
    rw [dif_neg h2]
    simp only [dif_pos h1]
    rw [dif_pos (by simp only [h3]; omega)]
    apply Char.ext
    apply UInt32.toNat_inj.mp
    simp only [UInt32.toNat_add, h3, hsub']
    omega
  · simp only [dif_neg h1]

theorem toUpper_of_toLower {s t : String} (h : s.toLower = t) : s.toUpper = t.toUpper := by
  subst h
  simp [String.toUpper, String.toLower, ← String.toList_inj, Function.comp_def, toUpper_toLower]

/-- **C43.** Reference systems: every documented name in any letter case is accepted with its meaning; every other
string is rejected; missing or null means `ellps`. -/
theorem C43_ref (w : View S) :
    (∀ s n, (w.at "ref").first = .ok (.str s) → (s.toLower, n) ∈ documentedRefs → readRef w = .ok n) ∧
    (∀ s, (w.at "ref").first = .ok (.str s) →
      (∀ n, (s.toUpper, n) ∉ [("CART", CRSName.CART), ("ELLPS", .ELLPS), ("ENU", .ENU), ("ECEF", .ECEF)]) →
      readRef w = .error .configValueError) ∧
    ((w.at "ref").first = .ok .null ∨ (w.at "ref").first = .error .configNotFoundError → readRef w = .ok .ELLPS) := by
  refine ⟨fun s n hs hn => ?_, fun s hs hn => ?_, fun h => ?_⟩
  · have : findMember s.toUpper crsMembers = some n := by
      simp only [documentedRefs, List.mem_cons, Prod.mk.injEq, List.not_mem_nil, or_false] at hn
      rcases hn with ⟨h, rfl⟩ | ⟨h, rfl⟩ | ⟨h, rfl⟩ | ⟨h, rfl⟩ <;> rw [toUpper_of_toLower h] <;> decide +kernel
    simp [readRef, View.getOptStr, hs, this, bind, Except.bind, pure, Except.pure]
  · have : findMember s.toUpper crsMembers = none := by
      simp only [List.mem_cons, Prod.mk.injEq, List.not_mem_nil, or_false, not_or, not_and] at hn
      have h1 : s.toUpper ≠ "CART" := fun h => (hn .CART).1 h rfl
      have h2 : s.toUpper ≠ "ELLPS" := fun h => (hn .ELLPS).2.1 h rfl
      have h3 : s.toUpper ≠ "ENU" := fun h => (hn .ENU).2.2.1 h rfl
      have h4 : s.toUpper ≠ "ECEF" := fun h => (hn .ECEF).2.2.2 h rfl
      simp [findMember, crsMembers, h1, h2, h3, h4]
    simp [readRef, View.getOptStr, hs, this, bind, Except.bind]
  · have h1 : findMember ("ellps").toUpper crsMembers = some CRSName.ELLPS := by decide +kernel
    rcases h with h | h <;>
      simp only [readRef, View.getOptStr, h, bind, Except.bind, h1, pure, Except.pure]

/-- The full statement of C43 for vertical datums. -/
def C43_statement (S : Type) [Arith S] : Prop :=
  ∀ (w : View S) (s : String) (v : VDatum), (w.at "vdatum").first = .ok (.str s) →
    (s.toLower, v) ∈ documentedVdatums → readVdatum w = .ok v

/-- **C43 is false** for vertical datums: the documented name `egm2008` is rejected, in any letter case. -/
theorem C43_egm2008_rejected (w : View S) (s : String) (hs : (w.at "vdatum").first = .ok (.str s))
    (h : s.toLower = "egm2008") : readVdatum w = .error .configValueError := by
  have : findMember s.toUpper vdatumMembers = none := by
    rw [toUpper_of_toLower h]; decide +kernel
  simp [readVdatum, View.getOptStr, hs, this, bind, Except.bind]

theorem C43_false : ¬ C43_statement ℝ := by
  intro h
  have hs : ((View.root [(Val.dict [("vdatum", .str "egm2008")] : Val ℝ)]).at "vdatum").first = .ok (.str "egm2008") := by
    simp [View.root, View.at, View.sub, resolveKey, Val.sub, assoc, View.first]
  have hl : ("egm2008" : String).toLower = "egm2008" := by decide +kernel
  have h1 := h _ "egm2008" .EGM08 hs (by rw [hl]; simp [documentedVdatums])
  rw [C43_egm2008_rejected _ _ hs hl] at h1
  cases h1

/-- **C43, partial**, vertical datums: the other documented names are accepted with their meaning in any letter case, so
is the undocumented `egm08`; every other string is rejected; missing or null means `ellps` (missing: `egm2008`, for which
the statement is false). -/
theorem C43_partial (w : View S) :
    (∀ s v, (w.at "vdatum").first = .ok (.str s) → (s.toLower, v) ∈ documentedVdatums → s.toLower ≠ "egm2008" →
      readVdatum w = .ok v) ∧
    (∀ s, (w.at "vdatum").first = .ok (.str s) → s.toLower = "egm08" → readVdatum w = .ok .EGM08) ∧
    (∀ s, (w.at "vdatum").first = .ok (.str s) → s.toUpper ≠ "ELLPS" → s.toUpper ≠ "EGM84" → s.toUpper ≠ "EGM96" →
      s.toUpper ≠ "EGM08" → readVdatum w = .error .configValueError) ∧
    ((w.at "vdatum").first = .ok .null ∨ (w.at "vdatum").first = .error .configNotFoundError →
      readVdatum w = .ok .ELLPS) := by
  refine ⟨fun s n hs hn hne => ?_, fun s hs h => ?_, fun s hs h1 h2 h3 h4 => ?_, fun h => ?_⟩
  · have : findMember s.toUpper vdatumMembers = some n := by
      simp only [documentedVdatums, List.mem_cons, Prod.mk.injEq, List.not_mem_nil, or_false] at hn
      rcases hn with ⟨h, rfl⟩ | ⟨h, rfl⟩ | ⟨h, rfl⟩ | ⟨h, rfl⟩
      · rw [toUpper_of_toLower h]; decide +kernel
      · rw [toUpper_of_toLower h]; decide +kernel
      · rw [toUpper_of_toLower h]; decide +kernel
      · exact absurd h hne
    simp [readVdatum, View.getOptStr, hs, this, bind, Except.bind, pure, Except.pure]
  · have : findMember s.toUpper vdatumMembers = some .EGM08 := by
      rw [toUpper_of_toLower h]; decide +kernel
    simp [readVdatum, View.getOptStr, hs, this, bind, Except.bind, pure, Except.pure]
  · simp [readVdatum, View.getOptStr, hs, findMember, vdatumMembers, h1, h2, h3, h4, bind, Except.bind]
  · have h1 : findMember ("ellps").toUpper vdatumMembers = some VDatum.ELLPS := by decide +kernel
    rcases h with h | h <;>
      simp only [readVdatum, View.getOptStr, h, bind, Except.bind, h1, pure, Except.pure]

example : ("EgM96" : String).toLower = "egm96" := by decide +kernel

/-! ### C44: choice of the ellipsoid -/

/-- the view of a `crs` section with the given values -/
structure CrsValues (w : View S) (name a b : Val S) : Prop where
  name : (w.at "name").first = .ok name
  a : (w.at "semimajor_axis").first = .ok a
  b : (w.at "semiminor_axis").first = .ok b

/-- the ellipsoid of a `crs` section -/
def readEllipsoid (g : Geodesy S) (w : View S) : Except PyErr (Ell S) := do
  let (name, a, b) ← readEllipsoidParameters g w
  mkEllipsoid g name a b

/-- **C44.** A known name decides, whatever the axes. -/
theorem C44_named (g : Geodesy S) (w : View S) (k : String) (a b : Val S) (hw : CrsValues w (.str k) a b)
    (hk : k ≠ "") (model : String) (a' b' : S) (hm : findModel k g.models = some (model, a', b'))
    (he : g.ellipsoidErr a' b' = none) : readEllipsoid g w = .ok ⟨k, model, a', b'⟩ := by
  simp [readEllipsoid, readEllipsoidParameters, View.getAny, hw.name, hw.a, hw.b, Val.truthy, hk, hm, mkEllipsoid,
    pmEllipsoid, he, bind, Except.bind, pure, Except.pure]

/-- **C44.** An unknown name is rejected. -/
theorem C44_unknown (g : Geodesy S) (w : View S) (k : String) (a b : Val S) (hw : CrsValues w (.str k) a b)
    (hk : k ≠ "") (hm : findModel k g.models = none) : readEllipsoid g w = .error .configValueError := by
  simp [readEllipsoid, readEllipsoidParameters, View.getAny, hw.name, hw.a, hw.b, Val.truthy, hk, hm,
    bind, Except.bind, pure, Except.pure]

/-- **C44.** Without a name, two non-zero axes define a custom ellipsoid. -/
theorem C44_axes (g : Geodesy S) (w : View S) (name : Val S) (i j : Bool) (a b : S)
    (hw : CrsValues w name (.num i a) (.num j b)) (hn : name = .null ∨ name = .str "")
    (ha : (a ==. zero) = false) (hb : (b ==. zero) = false) (he : g.ellipsoidErr a b = none) :
    readEllipsoid g w = .ok ⟨"", "", a, b⟩ := by
  rcases hn with rfl | rfl <;>
  simp [readEllipsoid, readEllipsoidParameters, View.getAny, hw.name, hw.a, hw.b, Val.truthy, ha, hb, mkEllipsoid,
    Val.asNum, pmEllipsoid, he, bind, Except.bind, pure, Except.pure]

/-- **C44.** Without a name and without two non-zero axes, the ellipsoid is WGS84. -/
theorem C44_default (g : Geodesy S) (w : View S) (name a b : Val S) (hw : CrsValues w name a b)
    (hn : name = .null ∨ name = .str "")
    (hab : a = .null ∨ b = .null ∨ (∃ i x, a = .num i x ∧ (x ==. zero) = true) ∨ ∃ i x, b = .num i x ∧ (x ==. zero) = true)
    (r : String × S × S) (hm : findModel "wgs84" g.models = some r) (he : g.ellipsoidErr r.2.1 r.2.2 = none) :
    readEllipsoid g w = .ok (wgs84 g) := by
  obtain ⟨model, a', b'⟩ := r
  have h0 : (a.truthy && b.truthy) = false := by
    rcases hab with rfl | rfl | ⟨i, x, rfl, hx⟩ | ⟨i, x, rfl, hx⟩ <;> simp [Val.truthy, *]
  simp only at he
  have h1 : (Val.null : Val S).truthy = false := rfl
  have h2 : (Val.str "" : Val S).truthy = false := rfl
  rcases hn with rfl | rfl <;>
  simp [readEllipsoid, readEllipsoidParameters, View.getAny, hw.name, hw.a, hw.b, h1, h2, mkEllipsoid, h0,
    pmEllipsoid, he, hm, wgs84, bind, Except.bind, pure, Except.pure, -Bool.and_eq_true]

/-- **C44.** The constructor itself: with no name or the empty name, two non-zero axes define a custom ellipsoid, and
anything less gives WGS84. -/
theorem C44_constructor (g : Geodesy S) (name : Option String) (a b : Val S) (hn : name = none ∨ name = some "") :
    (∀ i j x y, a = .num i x → b = .num j y → (x ==. zero) = false → (y ==. zero) = false → g.ellipsoidErr x y = none →
      mkEllipsoid g name a b = .ok ⟨"", "", x, y⟩) ∧
    (a = .null ∨ b = .null ∨ (∃ i x, a = .num i x ∧ (x ==. zero) = true) ∨ (∃ i x, b = .num i x ∧ (x ==. zero) = true) →
      ∀ r, findModel "wgs84" g.models = some r → g.ellipsoidErr r.2.1 r.2.2 = none →
      mkEllipsoid g name a b = .ok (wgs84 g)) := by
  constructor
  · rintro i j x y rfl rfl hx hy he
    rcases hn with rfl | rfl <;>
    simp [Val.truthy, hx, hy, mkEllipsoid, Val.asNum, pmEllipsoid, he, bind, Except.bind]
  · rintro hab ⟨model, a', b'⟩ hm he
    have h0 : (a.truthy && b.truthy) = false := by
      rcases hab with rfl | rfl | ⟨i, x, rfl, hx⟩ | ⟨i, x, rfl, hx⟩ <;> simp [Val.truthy, *]
    simp only at he
    rcases hn with rfl | rfl <;>
    simp [mkEllipsoid, h0, pmEllipsoid, he, hm, wgs84, -Bool.and_eq_true]

example : mkEllipsoid toyGeo (some "") (.num true (5 : ℝ)) .null = .ok (wgs84 toyGeo) :=
  (C44_constructor toyGeo (some "") _ _ (.inr rfl)).2 (.inr (.inl rfl)) _ (by simp [toyGeo, findModel]; rfl) rfl

/-- **C44.** The geographic system of a configuration uses exactly that ellipsoid. -/
theorem C44_used (g : Geodesy S) (w : View S) (v : VDatum) (e : Ell S) (hr : readRef w = .ok .ELLPS)
    (hv : readVdatum w = .ok v) (he : readEllipsoid g w = .ok e) :
    getCrs g w = .ok ⟨.ELLPS, some e, none, v⟩ := by
  simp only [readEllipsoid, bind, Except.bind] at he
  cases hp : readEllipsoidParameters g w with
  | error x => rw [hp] at he; cases he
  | ok p =>
    rw [hp] at he
    obtain ⟨n, a, b⟩ := p
    simp only at he
    simp [getCrs, hr, createEllipsoidCrs, hp, hv, he, mkCrs, bind, Except.bind]

example : ∃ w : View ℝ, CrsValues w (.str "airy") (.num true 5) .null :=
  ⟨View.root [.dict [("name", .str "airy"), ("semimajor_axis", .num true 5), ("semiminor_axis", .null)]], by
    constructor <;> simp [View.root, View.at, View.sub, resolveKey, Val.sub, assoc, View.first]⟩

end Geec

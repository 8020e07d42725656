import Verif.Lemmas.Yaml
import Verif.Props.Config
import Verif.Props.Shipped
/-
C118: a configuration file is read as the values written in it.  C119: which notations of numbers are read as numbers.
C120: the files shipped with the package hold the values of Model/Shipped.
-/
namespace Geec
open Arith
variable {S : Type}

/-! ### C118 -/

/-- lines of printable characters: no tab and no line break inside of a line -/
def PlainLines (file : List (List Char)) : Prop := ∀ l ∈ file, ∀ c ∈ l, Printable c

/-- **C118.** The text of a file is read as the value that is written in it. -/
theorem C118_value {file : List (List Char)} {v : Val ℚ} (h : Writes file v) (hl : PlainLines file) : yaml (unlines file) = some v :=
  writes_yaml h hl

/-- **C118.** The same lines do not hold two values. -/
theorem C118_unique {file : List (List Char)} {v w : Val ℚ} (h : Writes file v) (h' : Writes file w) (hl : PlainLines file) : v = w := by
  have := (C118_value h hl).symm.trans (C118_value h' hl)
  simpa using this

/-- **C118.** A mapping becomes a source of the configuration with its numbers as floats; a file without anything but comments is an empty source. -/
theorem C118_source (lit : ℚ → S) (file : List (List Char)) (hl : PlainLines file) :
    (∀ es, Writes file (.dict es) → configSource lit (unlines file) = some ((Val.dict es).read lit)) ∧
    ((∀ l ∈ file, YamlLine l []) → configSource lit (unlines file) = some (.dict [])) := by
  refine ⟨fun es h => by rw [configSource, C118_value h hl], fun h => ?_⟩
  have : file.flatMap yamlLine = [] := List.flatMap_eq_nil_iff.mpr fun l hx => (h l hx).read (by simp)
  rw [configSource, yaml_unlines hl, this]
  rfl

theorem assoc_read (lit : ℚ → S) (k : String) (es : List (String × Val ℚ)) : assoc k (readDict lit es) = (assoc k es).map (Val.read lit) := by
  induction es with
  | nil => rfl
  | cons e es ih =>
    obtain ⟨k', v⟩ := e
    simp only [readDict, assoc]
    split <;> simp [ih]

theorem readList_eq (lit : ℚ → S) (l : List (Val ℚ)) : readList lit l = l.map (Val.read lit) := by
  induction l with
  | nil => rfl
  | cons v l ih => simp [readList, ih]

/-- the outcome of a look-up with numbers as floats -/
def Sub.read (lit : ℚ → S) : Sub ℚ → Sub S
  | .found v => .found (v.read lit)
  | .missing => .missing
  | .notSubscriptable => .notSubscriptable

theorem sub_read (lit : ℚ → S) (v : Val ℚ) (k : Key) : (v.read lit).sub k = (v.sub k).read lit := by
  cases v with
  | dict es =>
    cases k with
    | name s =>
      simp only [Val.read, Val.sub, assoc_read]
      cases assoc s es <;> rfl
    | idx n => simp [Val.read, Val.sub, Sub.read]
  | list l =>
    cases k with
    | name s => simp [Val.read, Val.sub, Sub.read]
    | idx n =>
      simp only [Val.read, Val.sub, readList_eq, List.getElem?_map]
      cases l[n]? <;> rfl
  | null => simp [Val.read, Val.sub, Sub.read]
  | bool => simp [Val.read, Val.sub, Sub.read]
  | num => simp [Val.read, Val.sub, Sub.read]
  | str => simp [Val.read, Val.sub, Sub.read]

theorem lookup_read (lit : ℚ → S) (path : List Key) : ∀ v : Val ℚ, (v.read lit).lookup path = (v.lookup path).read lit := by
  induction path with
  | nil => intro v; rfl
  | cons k path ih =>
    intro v
    simp only [Val.lookup, sub_read]
    cases v.sub k <;> simp [Sub.read, ih]

/-- **C118.** What the file given as argument says about a parameter is what the program gets, whatever the user's file and the defaults say; and
what it does not mention is decided by those. -/
theorem C118_parameter [Arith S] (lit : ℚ → S) (file : List (List Char)) (hl : PlainLines file) (es : List (String × Val ℚ)) (h : Writes file (.dict es))
    (user : Option (Val S)) (dflt : Val S) (path : List Key) :
    ∃ src, configSource lit (unlines file) = some src ∧
      (∀ w, (Val.dict es).lookup path = .found w →
        ((View.root (setupSources (some src) user dflt)).keys path).first = .ok (w.read lit)) ∧
      ((Val.dict es).lookup path = .missing →
        ((View.root (setupSources (some src) user dflt)).keys path).first = ((View.root (setupSources none user dflt)).keys path).first) := by
  refine ⟨_, (C118_source lit file hl).1 es h, fun w hw => ?_, fun hm => ?_⟩
  · rw [C42_precedence]
    simp [setupSources, decideBy, lookup_read, hw, Sub.read]
  · simp [C42_precedence, setupSources, decideBy, lookup_read, hm, Sub.read]

/-! ### C119 -/

/-- **C119.** A number in one of the notations of YAML 1.1 is read as this number, and as an integer just if it has neither point nor exponent;
in any other notation it is read as a string. -/
theorem C119_exact (d : Decimal) (h : d.Sound) :
    (d.Yaml → inlineValue d.text = some (.num d.isInt d.value)) ∧
    (¬ d.Yaml → ¬ d.Padded → inlineValue d.text = some (.str (String.ofList d.text))) :=
  ⟨fun hy => (Inline.num d h hy).read, fun hy hp => (Inline.text d h hy hp).read⟩

/-- **C119.** Wherever a number is written in a file, the program gets it if it is in one of the notations of YAML 1.1, and a `ConfigTypeError`
if it is in another one. -/
theorem C119_parameter [Arith S] (lit : ℚ → S) (file : List (List Char)) (hl : PlainLines file) (es : List (String × Val ℚ)) (h : Writes file (.dict es))
    (user : Option (Val S)) (dflt : Val S) (path : List Key) (d : Decimal) :
    ∃ src, configSource lit (unlines file) = some src ∧
      ((Val.dict es).lookup path = .found (.num d.isInt d.value) →
        ((View.root (setupSources (some src) user dflt)).keys path).getNum = .ok (lit d.value)) ∧
      ((Val.dict es).lookup path = .found (.str (String.ofList d.text)) →
        ((View.root (setupSources (some src) user dflt)).keys path).getNum = .error .configTypeError) := by
  obtain ⟨src, h1, h2, -⟩ := C118_parameter lit file hl es h user dflt path
  refine ⟨src, h1, fun hw => ?_, fun hw => ?_⟩
  · have := h2 _ hw
    simp [View.getNum, this, Val.read, bind, Except.bind, pure, Except.pure]
  · have := h2 _ hw
    simp [View.getNum, this, Val.read, bind, Except.bind]

/-- `1e-11` -/
def noPoint : Decimal := ⟨none, ['1'], none, some ('e', some true, ['1', '1'])⟩

theorem noPoint_sound : noPoint.Sound where
  before := by simp [noPoint]
  after := by simp [noPoint]
  nonempty := by simp [noPoint]
  exp := by
    intro e s x h
    simp [noPoint] at h
    obtain ⟨rfl, rfl, rfl⟩ := h
    exact ⟨.inl rfl, by simp, by simp⟩

/-- **C119.** That every decimal notation is a number is false: `1e-11` is a string. -/
theorem C119_false : ¬ ∀ d : Decimal, d.Sound → ∃ i, inlineValue d.text = some (.num i d.value) := by
  intro h
  obtain ⟨i, hi⟩ := h noPoint noPoint_sound
  rw [(C119_exact noPoint noPoint_sound).2 (fun e => by have := (e.point rfl).1; simp [noPoint] at this) (fun e => by have := e.2; simp [noPoint] at this)] at hi
  simp at hi

/-! ### C120 -/

mutual
/-- equality of values, by computation -/
def Val.same : Val ℚ → Val ℚ → Bool
  | .null, .null => true
  | .bool a, .bool b => a == b
  | .num i x, .num j y => i == j && decide (x = y)
  | .str s, .str t => decide (s = t)
  | .list l, .list m => sameList l m
  | .dict l, .dict m => sameDict l m
  | _, _ => false
/-- equality of lists -/
def sameList : List (Val ℚ) → List (Val ℚ) → Bool
  | [], [] => true
  | a :: l, b :: m => a.same b && sameList l m
  | _, _ => false
/-- equality of entries -/
def sameDict : List (String × Val ℚ) → List (String × Val ℚ) → Bool
  | [], [] => true
  | (k, a) :: l, (k', b) :: m => decide (k = k') && a.same b && sameDict l m
  | _, _ => false
end

mutual
theorem same_eq : ∀ a b : Val ℚ, a.same b = true → a = b
  | .null, b, h => by cases b <;> simp_all [Val.same]
  | .bool a, b, h => by cases b <;> simp_all [Val.same]
  | .num i x, b, h => by cases b <;> simp_all [Val.same]
  | .str s, b, h => by cases b <;> simp_all [Val.same]
  | .list l, b, h => by
    cases b with
    | list m => rw [sameList_eq l m (by simpa [Val.same] using h)]
    | _ => simp [Val.same] at h
  | .dict l, b, h => by
    cases b with
    | dict m => rw [sameDict_eq l m (by simpa [Val.same] using h)]
    | _ => simp [Val.same] at h
theorem sameList_eq : ∀ l m : List (Val ℚ), sameList l m = true → l = m
  | [], m, h => by cases m <;> simp_all [sameList]
  | a :: l, m, h => by
    cases m with
    | nil => simp [sameList] at h
    | cons b m =>
      simp only [sameList, Bool.and_eq_true] at h
      rw [same_eq a b h.1, sameList_eq l m h.2]
theorem sameDict_eq : ∀ l m : List (String × Val ℚ), sameDict l m = true → l = m
  | [], m, h => by cases m <;> simp_all [sameDict]
  | (k, a) :: l, m, h => by
    cases m with
    | nil => simp [sameDict] at h
    | cons b m =>
      obtain ⟨k', b⟩ := b
      simp only [sameDict, Bool.and_eq_true, decide_eq_true_eq] at h
      rw [h.1.1, same_eq a b h.1.2, sameDict_eq l m h.2]
end

/-- the text of a file is read as a value, by computation line by line -/
def readsAs (lines : List String) (v : Val ℚ) : Bool :=
  lines.all (fun l => l.toList.all fun c => c ≠ '\n' && yamlChar c) &&
    match yamlValue ((lines.map String.toList).flatMap yamlLine) with
    | some w => w.same v
    | none => false

theorem readsAs_yaml {lines : List String} {v : Val ℚ} (h : readsAs lines v = true) : yaml (unlines (lines.map String.toList)) = some v := by
  rw [readsAs, Bool.and_eq_true, List.all_eq_true] at h
  obtain ⟨h1, h2⟩ := h
  rw [yaml_unlines]
  · rcases hy : yamlValue ((lines.map String.toList).flatMap yamlLine) with _ | w
    · simp [hy] at h2
    · rw [hy] at h2
      rw [same_eq w v h2]
  · intro l hl
    obtain ⟨s, hs, rfl⟩ := List.mem_map.mp hl
    have := h1 s hs
    rw [List.all_eq_true] at this
    intro c hc
    have := this c hc
    simp only [Bool.and_eq_true, yamlChar, decide_eq_true_eq, Bool.or_eq_true] at this
    obtain ⟨h3, (h4 | h4) | h4⟩ := this
    · exact absurd h4 h3
    · exact .inl h4
    · obtain ⟨⟨⟨⟨⟨h5, h6⟩, h7⟩, h8⟩, h9⟩, h10⟩ := h4
      exact .inr ⟨h5, by simp; exact ⟨h6, h7, h8, h9, h10⟩⟩

/-- The text of config_default.yaml is read as `shippedDefaults`. -/
theorem defaults_read : readsAs defaultsLines (shippedDefaults id) = true := by decide +kernel

/-- The text of config_template.yaml is read as `shippedTemplate`. -/
theorem template_read : readsAs templateLines (shippedTemplate id) = true := by decide +kernel

/-- The text of config_test.yaml is read as `shippedTest`. -/
theorem test_read : readsAs testLines (shippedTest id) = true := by decide +kernel

/-- **C120.** The three files shipped with the package are sources of the configuration with the values of Model/Shipped, in every arithmetic. -/
theorem C120_shipped (lit : ℚ → S) :
    configSource lit defaultsText = some (shippedDefaults lit) ∧ configSource lit templateText = some (shippedTemplate lit) ∧
      configSource lit testText = some (shippedTest lit) := by
  refine ⟨?_, ?_, ?_⟩
  · rw [configSource, defaultsText, readsAs_yaml defaults_read]; rfl
  · rw [configSource, templateText, readsAs_yaml template_read]; rfl
  · rw [configSource, testText, readsAs_yaml test_read]; rfl

/-- **C120.** The file that `geec config` writes is read as the template. -/
theorem C120_config (lit : ℚ → S) (pkg cwd dir : List (List Char)) (name : List Char) (output : Option (List (List Char))) (d : Disk)
    (ht : ConfigTarget cwd output (dir ++ [name])) (hc : d (pkg ++ ["config_template.yaml".toList]) = some (.text templateText))
    (hdir : d dir = some .dir) (hp : d (dir ++ [name]) ≠ some .dir) :
    ∃ d' text, configCmd none pkg cwd output d = (.ok (), d') ∧ readText (dir ++ [name]) d' = .ok text ∧
      configSource lit text = some (shippedTemplate lit) := by
  obtain ⟨d', h1, h2, -⟩ := C65_copy pkg cwd dir name templateText output d ht hc hdir hp
  exact ⟨d', templateText, h1, by simp [readText, h2], (C120_shipped lit).2.1⟩

/-! ### Cases -/

/-- a file with comments, a list in brackets, nested blocks, hyphens and two notations of numbers -/
def sampleFile : List (List Char) := [
  "# bodies".toList,
  "masses:".toList,
  "  - density: 2.5e+3 # heavy".toList,
  "    points: [[0.5, -1], []]".toList,
  "".toList,
  "    file_path: C:/a#1.csv".toList,
  "    gravity_constant: 1e-11".toList]

/-- the value of `sampleFile` -/
def sampleValue : List (String × Val ℚ) := [("masses", .list [.dict [
  ("density", .num false 2500),
  ("points", .list [.list [.num false (1/2), .num true (-1)], .list []]),
  ("file_path", .str "C:/a#1.csv"),
  ("gravity_constant", .str "1e-11")]])]

theorem sample_word {s : List Char} (h1 : ∃ c r, s = c :: r ∧ c.isAlpha = true) (h2 : s.all (fun c => 33 ≤ c.toNat && c.toNat ≤ 126 && c ∉ [',', '"', '\'', '[', ']', '{', '}']) = true) (h4 : s.getLast? ≠ some ':')
    (h3 : String.ofList s ∉ ["null", "Null", "NULL", "yes", "Yes", "YES", "no", "No", "NO", "true", "True", "TRUE", "false", "False", "FALSE",
    "on", "On", "ON", "off", "Off", "OFF"]) : Word s where
  first := by obtain ⟨c, r, h, hc⟩ := h1; exact ⟨c, r, h, .inl hc⟩
  chars c hc := by
    have := List.all_eq_true.mp h2 c hc
    simp only [Bool.and_eq_true, decide_eq_true_eq] at this
    exact ⟨this.1.1, this.1.2, this.2⟩
  last := h4
  plain := h3

theorem sample_number (d : Decimal) (h : d.Sound) (hy : d.Yaml) {t : List Char} {i : Bool} {q : ℚ} (ht : d.text = t) (hi : d.isInt = i) (hq : d.value = q) :
    Inline t (.num i q) := by subst ht hi hq; exact .num d h hy

theorem sample_writes : Writes sampleFile (.dict sampleValue) := by
  have w1 : Word "masses".toList := sample_word ⟨_, _, rfl, by decide⟩ (by decide) (by decide) (by decide +kernel)
  have w2 : Word "density".toList := sample_word ⟨_, _, rfl, by decide⟩ (by decide) (by decide) (by decide +kernel)
  have w3 : Word "points".toList := sample_word ⟨_, _, rfl, by decide⟩ (by decide) (by decide) (by decide +kernel)
  have w4 : Word "gravity_constant".toList := sample_word ⟨_, _, rfl, by decide⟩ (by decide) (by decide) (by decide +kernel)
  have w5 : Word "file_path".toList := sample_word ⟨_, _, rfl, by decide⟩ (by decide) (by decide) (by decide +kernel)
  have n5 : Inline "C:/a#1.csv".toList (.str "C:/a#1.csv") := .word _ (sample_word ⟨_, _, rfl, by decide⟩ (by decide) (by decide) (by decide +kernel))
  have d0 : digitOf '0' = 0 := rfl
  have d1 : digitOf '1' = 1 := rfl
  have d2 : digitOf '2' = 2 := rfl
  have d3 : digitOf '3' = 3 := rfl
  have d5 : digitOf '5' = 5 := rfl
  have n1 : Inline "2.5e+3".toList (.num false 2500) :=
    sample_number ⟨none, ['2'], some ['5'], some ('e', some false, ['3'])⟩
      ⟨by simp, by simp, by simp, by rintro e s x h; simp at h; obtain ⟨rfl, rfl, rfl⟩ := h; exact ⟨.inl rfl, by simp, by simp⟩⟩
      ⟨by simp, by simp, by rintro e s x h; simp at h; obtain ⟨rfl, rfl, rfl⟩ := h; simp⟩ rfl rfl
      (by norm_num [Decimal.value, signValue, digitsValue, d0, d2, d3, d5, Nat.ofDigits_cons]; all_goals nofun)
  have n2 : Inline "0.5".toList (.num false (1/2)) :=
    sample_number ⟨none, ['0'], some ['5'], none⟩ ⟨by simp, by simp, by simp, by simp⟩ ⟨by simp, by simp, by simp⟩ rfl rfl
      (by norm_num [Decimal.value, signValue, digitsValue, d0, d2, d3, d5, Nat.ofDigits_cons]; all_goals nofun)
  have n3 : Inline "-1".toList (.num true (-1)) :=
    sample_number ⟨some true, ['1'], none, none⟩ ⟨by simp, by simp, by simp, by simp⟩ ⟨by simp, by simp, by simp⟩ rfl rfl
      (by norm_num [Decimal.value, signValue, digitsValue, d1])
  have n4 : Inline "1e-11".toList (.str "1e-11") :=
    Inline.text noPoint noPoint_sound (fun e => by have := (e.point rfl).1; simp [noPoint] at this) (fun e => by have := e.2; simp [noPoint] at this)
  have i1 : Inline "[[0.5, -1], []]".toList (.list [.list [.num false (1/2), .num true (-1)], .list []]) :=
    .list _ _ (.cons 0 0 "[0.5, -1]".toList " []]".toList _ _ (.list _ _ (.cons 0 0 "0.5".toList " -1]".toList _ _ n2 (.last 1 0 "-1".toList _ n3)))
      (.last 1 0 "[]".toList _ (.list _ _ (.nil 0))))
  refine ⟨0, [[], [(0, "masses:".toList)], [(2, ['-']), (4, "density: 2.5e+3".toList)], [(4, "points: [[0.5, -1], []]".toList)], [],
    [(4, "file_path: C:/a#1.csv".toList)],
    [(4, "gravity_constant: 1e-11".toList)]], ?_, ?_⟩
  · refine .cons (.comment 0 " bodies".toList) (.cons (.text 0 "masses:".toList [] _ (.text 0 _) (.blanks 0)) (.cons
      (.text 2 "- density: 2.5e+3".toList " # heavy".toList _ (.hyphen 2 0 "density: 2.5e+3".toList _ (.text 4 _)) (.comment 0 " heavy".toList))
      (.cons (.text 4 "points: [[0.5, -1], []]".toList [] _ (.text 4 _) (.blanks 0)) (.cons (.blank 0)
      (.cons (.text 4 "file_path: C:/a#1.csv".toList [] _ (.text 4 _) (.blanks 0))
      (.cons (.text 4 "gravity_constant: 1e-11".toList [] _ (.text 4 _) (.blanks 0)) .nil))))))
  · refine .dict 0 _ _ (by simp [sampleValue]) (.block 0 2 "masses".toList
      [(2, ['-']), (4, "density: 2.5e+3".toList), (4, "points: [[0.5, -1], []]".toList), (4, "file_path: C:/a#1.csv".toList), (4, "gravity_constant: 1e-11".toList)] [] _ [] ⟨w1, by decide⟩ (by simp) (by omega) ?_ (.nil 0))
    refine .list 2 _ _ (by simp) (.item 2 4 [(4, "density: 2.5e+3".toList), (4, "points: [[0.5, -1], []]".toList), (4, "file_path: C:/a#1.csv".toList), (4, "gravity_constant: 1e-11".toList)] [] _ []
      (by omega) ?_ (.nil 2))
    exact .dict 4 _ _ (by simp) (.inline 4 0 "density".toList _ _ _ _ ⟨w2, by decide⟩ (by decide +kernel) n1
      (.inline 4 0 "points".toList _ _ _ _ ⟨w3, by decide⟩ (by decide +kernel) i1 (.inline 4 0 "file_path".toList _ _ _ _ ⟨w5, by decide⟩ (by decide +kernel) n5 (.inline 4 0 "gravity_constant".toList _ _ _ _ ⟨w4, by decide⟩ (by simp) n4 (.nil 4)))))

theorem sample_lines : PlainLines sampleFile := by
  intro l hl
  simp only [sampleFile, List.mem_cons, List.not_mem_nil, or_false] at hl
  rcases hl with rfl | rfl | rfl | rfl | rfl | rfl | rfl <;> unfold Printable <;> decide +kernel

/-- C118, C119: in this file the density is a number, and the gravitational constant stops the program -/
example : ∃ src, configSource (fun q => (q : ℝ)) (unlines sampleFile) = some src ∧
    ((View.root (setupSources (some src) none (.dict []))).keys [.name "masses", .idx 0, .name "density"]).first = .ok (.num false 2500) ∧
    ((View.root (setupSources (some src) none (.dict []))).keys [.name "masses", .idx 0, .name "gravity_constant"]).getNum = .error .configTypeError := by
  obtain ⟨src, h1, h2, -⟩ := C118_parameter (fun q => (q : ℝ)) sampleFile sample_lines sampleValue sample_writes none (.dict []) [.name "masses", .idx 0, .name "density"]
  obtain ⟨src', h1', -, h3⟩ := C119_parameter (fun q => (q : ℝ)) sampleFile sample_lines sampleValue sample_writes none (.dict [])
    [.name "masses", .idx 0, .name "gravity_constant"] noPoint
  rw [h1] at h1'
  obtain rfl : src = src' := by simpa using h1'
  refine ⟨src, h1, ?_, h3 rfl⟩
  have := h2 (.num false 2500) rfl
  simpa [Val.read] using this

/-- C120: a disk with the package's template in the directory `p` and an empty directory `w` -/
example : ∃ d' text, configCmd none [['p']] [['w']] none (fun q => if q = [['w']] then some .dir else
      if q = [['p'], "config_template.yaml".toList] then some (.text templateText) else none) = (.ok (), d') ∧
    readText [['w'], "config_template.yaml".toList] d' = .ok text ∧ configSource (fun q => (q : ℝ)) text = some (shippedTemplate (fun q => (q : ℝ))) :=
  C120_config _ [['p']] [['w']] [['w']] "config_template.yaml".toList none _ (.inl ⟨rfl, rfl⟩) (by simp) (by simp) (by simp)

end Geec

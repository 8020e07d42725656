import Verif.Model.Csv
/-
Reading the lines of a CSV text.
-/
namespace Geec

/-- a field without separators, quotes and ends of lines -/
def PlainField (f : List Char) : Prop := ∀ c ∈ f, c ≠ ',' ∧ c ≠ '"' ∧ c ≠ '\n' ∧ c ≠ '\r'

/-- blanks -/
def Blank (f : List Char) : Prop := ∀ c ∈ f, c = ' ' ∨ c = '\t'

theorem PlainField.cons {c : Char} {f : List Char} (h : PlainField (c :: f)) : (c ≠ ',' ∧ c ≠ '"' ∧ c ≠ '\n' ∧ c ≠ '\r') ∧ PlainField f :=
  ⟨h c List.mem_cons_self, fun x hx => h x (List.mem_cons_of_mem _ hx)⟩

abbrev tokens (t : CsvTok) (text : List Char) : CsvTok := text.foldl CsvTok.step t

theorem tokens_inField {f : List Char} (hf : PlainField f) : ∀ (x : List Char) (fs : List (List Char)) (ls : List (List (List Char))),
    tokens ⟨.inField, x, fs, ls⟩ f = ⟨.inField, x ++ f, fs, ls⟩ := by
  induction f with
  | nil => intro x fs ls; simp [tokens]
  | cons c f ih =>
    intro x fs ls
    obtain ⟨⟨h1, h2, h3, h4⟩, hf⟩ := hf.cons
    have e : CsvTok.step ⟨.inField, x, fs, ls⟩ c = ⟨.inField, x ++ [c], fs, ls⟩ := by
      simp [CsvTok.step, CsvTok.inFieldStep, h1, h3, h4, CsvTok.push]
    rw [tokens, List.foldl_cons, e]
    have := ih hf (x ++ [c]) fs ls
    rw [tokens] at this
    rw [this]
    simp

/-- the state in which a field may end -/
def fieldState (f : List Char) : CsvState := if f = [] then .startField else .inField

theorem tokens_startField {f : List Char} (hf : PlainField f) (fs : List (List Char)) (ls : List (List (List Char))) :
    tokens ⟨.startField, [], fs, ls⟩ f = ⟨fieldState f, f, fs, ls⟩ := by
  cases f with
  | nil => rfl
  | cons c f =>
    obtain ⟨⟨h1, h2, h3, h4⟩, hf⟩ := hf.cons
    have e : CsvTok.step ⟨.startField, [], fs, ls⟩ c = ⟨.inField, [c], fs, ls⟩ := by
      simp [CsvTok.step, CsvTok.startFieldStep, h1, h2, h3, h4, CsvTok.push]
    rw [tokens, List.foldl_cons, e]
    exact tokens_inField hf [c] fs ls

/-- a field as written: as it is, or between quotes -/
inductive FileField
  | plain (f : List Char)
  | quoted (f : List Char)
  deriving DecidableEq

/-- its text: between quotes, quotes are doubled -/
def FileField.text : FileField → List Char
  | .plain f => f
  | .quoted f => '"' :: ((f.flatMap fun c => if c = '"' then ['"', '"'] else [c]) ++ ['"'])

/-- what it says -/
def FileField.value : FileField → List Char
  | .plain f => f
  | .quoted f => f

/-- nothing is asked of what is between quotes -/
def FileField.Ok : FileField → Prop
  | .plain f => PlainField f
  | .quoted _ => True

def FileField.state : FileField → CsvState
  | .plain f => fieldState f
  | .quoted _ => .quoteInQuoted

theorem tokens_inQuoted (f : List Char) : ∀ (x : List Char) (fs : List (List Char)) (ls : List (List (List Char))),
    tokens ⟨.inQuoted, x, fs, ls⟩ (f.flatMap fun c => if c = '"' then ['"', '"'] else [c]) = ⟨.inQuoted, x ++ f, fs, ls⟩ := by
  induction f with
  | nil => intro x fs ls; simp [tokens]
  | cons c f ih =>
    intro x fs ls
    rw [List.flatMap_cons, tokens, List.foldl_append]
    have e : List.foldl CsvTok.step ⟨.inQuoted, x, fs, ls⟩ (if c = '"' then ['"', '"'] else [c]) = ⟨.inQuoted, x ++ [c], fs, ls⟩ := by
      by_cases hc : c = '"'
      · simp [hc, CsvTok.step, CsvTok.push]
      · simp [hc, CsvTok.step, CsvTok.push]
    rw [e]
    have := ih (x ++ [c]) fs ls
    rw [tokens] at this
    rw [this]
    simp

theorem tokens_quoted (f : List Char) (fs : List (List Char)) (ls : List (List (List Char))) :
    tokens ⟨.inQuoted, [], fs, ls⟩ ((f.flatMap fun c => if c = '"' then ['"', '"'] else [c]) ++ ['"']) = ⟨.quoteInQuoted, f, fs, ls⟩ := by
  rw [tokens, List.foldl_append]
  have := tokens_inQuoted f [] fs ls
  rw [tokens] at this
  rw [this]
  simp [CsvTok.step]

theorem tokens_field {f : FileField} (hf : f.Ok) (fs : List (List Char)) (ls : List (List (List Char))) :
    tokens ⟨.startField, [], fs, ls⟩ f.text = ⟨f.state, f.value, fs, ls⟩ := by
  cases f with
  | plain f => exact tokens_startField hf fs ls
  | quoted f => exact tokens_quoted f fs ls

theorem step_comma (f : FileField) (fs : List (List Char)) (ls : List (List (List Char))) :
    CsvTok.step ⟨f.state, f.value, fs, ls⟩ ',' = ⟨.startField, [], fs ++ [f.value], ls⟩ := by
  cases f with
  | plain f =>
    simp only [FileField.state, FileField.value, fieldState]
    split <;> simp [CsvTok.step, CsvTok.startFieldStep, CsvTok.inFieldStep, CsvTok.endField]
  | quoted f => simp [FileField.state, FileField.value, CsvTok.step, CsvTok.endField]

/-- the ends of lines: a line feed, a carriage return and a line feed, or a carriage return -/
inductive Eol
  | lf
  | crlf
  | cr
  deriving DecidableEq

def Eol.text : Eol → List Char
  | .lf => ['\n']
  | .crlf => ['\r', '\n']
  | .cr => ['\r']

/-- the lines read, from a state and the rest of the text -/
def readOn (t : CsvTok) (text : List Char) : Except PyErr (List (List (List Char))) := (tokens t text).finish

theorem readOn_append (t : CsvTok) (a b : List Char) : readOn t (a ++ b) = readOn (tokens t a) b := by
  unfold readOn tokens; rw [List.foldl_append]

/-- after a carriage return, a line feed is ignored, and so would be a blank line: nothing depends on it -/
theorem readOn_eat (fs : List (List Char)) (ls : List (List (List Char))) (text : List Char) :
    readOn ⟨.eatCrnl, [], fs, ls⟩ text = readOn ⟨.startRecord, [], [], ls ++ [fs]⟩ text := by
  cases text with
  | nil => rfl
  | cons c text =>
    unfold readOn tokens
    rw [List.foldl_cons, List.foldl_cons]
    congr 2
    by_cases hc : c = '\n' <;> simp [CsvTok.step, hc, CsvTok.endLine, CsvTok.startRecordStep]

theorem readOn_eatNop (ls : List (List (List Char))) (text : List Char) :
    readOn ⟨.eatCrnlNop, [], [], ls⟩ text = readOn ⟨.startRecord, [], [], ls⟩ text := by
  cases text with
  | nil => rfl
  | cons c text =>
    unfold readOn tokens
    rw [List.foldl_cons, List.foldl_cons]
    congr 2
    by_cases hc : c = '\n' <;> simp [CsvTok.step, hc, CsvTok.startRecordStep]

theorem readOn_eol (e : Eol) (f : FileField) (fs : List (List Char)) (ls : List (List (List Char))) (text : List Char) :
    readOn ⟨f.state, f.value, fs, ls⟩ (e.text ++ text) = readOn ⟨.startRecord, [], [], ls ++ [fs ++ [f.value]]⟩ text := by
  have hn : CsvTok.step ⟨f.state, f.value, fs, ls⟩ '\n' = ⟨.startRecord, [], [], ls ++ [fs ++ [f.value]]⟩ := by
    cases f with
    | plain f =>
      simp only [FileField.state, FileField.value, fieldState]
      split <;> simp [CsvTok.step, CsvTok.startFieldStep, CsvTok.inFieldStep, CsvTok.endField, CsvTok.endLine]
    | quoted f => simp [FileField.state, FileField.value, CsvTok.step, CsvTok.endField, CsvTok.endLine]
  have hr : CsvTok.step ⟨f.state, f.value, fs, ls⟩ '\r' = ⟨.eatCrnl, [], fs ++ [f.value], ls⟩ := by
    cases f with
    | plain f =>
      simp only [FileField.state, FileField.value, fieldState]
      split <;> simp [CsvTok.step, CsvTok.startFieldStep, CsvTok.inFieldStep, CsvTok.endField]
    | quoted f => simp [FileField.state, FileField.value, CsvTok.step, CsvTok.endField]
  rw [readOn_append]
  cases e with
  | lf => simp only [Eol.text, tokens, List.foldl_cons, List.foldl_nil, hn]
  | crlf =>
    simp only [Eol.text, tokens, List.foldl_cons, List.foldl_nil, hr]
    rfl
  | cr =>
    simp only [Eol.text, tokens, List.foldl_cons, List.foldl_nil, hr]
    exact readOn_eat _ _ _

/-- fields with commas between them -/
def joined : List (List Char) → List Char
  | [] => []
  | [f] => f
  | f :: fs => f ++ ',' :: joined fs

theorem tokens_joined {fs : List FileField} (hne : fs ≠ []) (hf : ∀ f ∈ fs, f.Ok) : ∀ (gs : List (List Char)) (ls : List (List (List Char))),
    ∃ f init, fs = init ++ [f] ∧ tokens ⟨.startField, [], gs, ls⟩ (joined (fs.map FileField.text)) = ⟨f.state, f.value, gs ++ init.map FileField.value, ls⟩ := by
  induction fs with
  | nil => exact absurd rfl hne
  | cons f fs ih =>
    intro gs ls
    cases fs with
    | nil => exact ⟨f, [], rfl, by rw [List.map_nil, List.append_nil]; exact tokens_field (hf f (by simp)) gs ls⟩
    | cons f' fs =>
      obtain ⟨f0, init, h1, h2⟩ := ih (by simp) (fun x hx => hf x (List.mem_cons_of_mem _ hx)) (gs ++ [f.value]) ls
      refine ⟨f0, f :: init, by rw [h1]; rfl, ?_⟩
      have e : joined ((f :: f' :: fs).map FileField.text) = f.text ++ ',' :: joined ((f' :: fs).map FileField.text) := rfl
      rw [e, tokens, List.foldl_append, List.foldl_cons]
      have := tokens_field (hf f (by simp)) gs ls
      rw [tokens] at this h2
      rw [this, step_comma, h2]
      simp

theorem tokens_blank_field {f : List Char} (hf : PlainField f) : ∀ (b : List Char) (ls : List (List (List Char))),
    tokens ⟨.whitespaceLine b, [], [], ls⟩ (f ++ [',']) = ⟨.startField, [], [b ++ f], ls⟩ := by
  induction f with
  | nil =>
    intro b ls
    simp [tokens, CsvTok.step, CsvTok.replay, CsvTok.inFieldStep, CsvTok.endField]
  | cons c f ih =>
    intro b ls
    obtain ⟨⟨h1, h2, h3, h4⟩, hf⟩ := hf.cons
    rw [tokens, List.cons_append, List.foldl_cons]
    by_cases hb : c = ' ' ∨ c = '\t'
    · have e : CsvTok.step ⟨.whitespaceLine b, [], [], ls⟩ c = ⟨.whitespaceLine (b ++ [c]), [], [], ls⟩ := by
        simp [CsvTok.step, h3, h4, hb]
      rw [e]
      have := ih hf (b ++ [c]) ls
      rw [tokens] at this
      rw [this]
      simp
    · have e : CsvTok.step ⟨.whitespaceLine b, [], [], ls⟩ c = ⟨.inField, b ++ [c], [], ls⟩ := by
        simp [CsvTok.step, h1, h3, h4, hb, CsvTok.replay, CsvTok.inFieldStep, CsvTok.push]
      rw [e, List.foldl_append]
      have := tokens_inField hf (b ++ [c]) [] ls
      rw [tokens] at this
      rw [this]
      simp [CsvTok.step, CsvTok.inFieldStep, CsvTok.endField]

/-- the first field of a line -/
theorem tokens_first_plain {f : List Char} (hf : PlainField f) (ls : List (List (List Char))) :
    tokens ⟨.startRecord, [], [], ls⟩ (f ++ [',']) = ⟨.startField, [], [f], ls⟩ := by
  cases f with
  | nil => simp [tokens, CsvTok.step, CsvTok.startRecordStep, CsvTok.startFieldStep, CsvTok.endField]
  | cons c f =>
    obtain ⟨⟨h1, h2, h3, h4⟩, hf⟩ := hf.cons
    rw [tokens, List.cons_append, List.foldl_cons]
    by_cases hb : c = ' ' ∨ c = '\t'
    · have e : CsvTok.step ⟨.startRecord, [], [], ls⟩ c = ⟨.whitespaceLine [c], [], [], ls⟩ := by
        simp [CsvTok.step, CsvTok.startRecordStep, h3, h4, hb]
      rw [e]
      exact tokens_blank_field hf [c] ls
    · have e : CsvTok.step ⟨.startRecord, [], [], ls⟩ c = ⟨.inField, [c], [], ls⟩ := by
        simp [CsvTok.step, CsvTok.startRecordStep, CsvTok.startFieldStep, h1, h2, h3, h4, hb, CsvTok.push]
      rw [e, List.foldl_append]
      have := tokens_inField hf [c] [] ls
      rw [tokens] at this
      rw [this]
      simp [CsvTok.step, CsvTok.inFieldStep, CsvTok.endField]

theorem tokens_first {f : FileField} (hf : f.Ok) (ls : List (List (List Char))) :
    tokens ⟨.startRecord, [], [], ls⟩ (f.text ++ [',']) = ⟨.startField, [], [f.value], ls⟩ := by
  cases f with
  | plain f => exact tokens_first_plain hf ls
  | quoted f =>
    have e : CsvTok.step ⟨.startRecord, [], [], ls⟩ '"' = ⟨.inQuoted, [], [], ls⟩ := by
      simp [CsvTok.step, CsvTok.startRecordStep, CsvTok.startFieldStep]
    rw [FileField.text, tokens, List.cons_append, List.foldl_cons, e, List.foldl_append]
    have := tokens_quoted f [] ls
    rw [tokens] at this
    rw [this]
    simp [CsvTok.step, CsvTok.endField, FileField.value]

/-- a line of at least two fields, up to its end -/
theorem tokens_row {fs : List FileField} (h2 : 2 ≤ fs.length) (hf : ∀ f ∈ fs, f.Ok) (ls : List (List (List Char))) :
    ∃ f init, fs = init ++ [f] ∧ tokens ⟨.startRecord, [], [], ls⟩ (joined (fs.map FileField.text)) = ⟨f.state, f.value, init.map FileField.value, ls⟩ := by
  match fs, h2 with
  | f :: f' :: fs, _ =>
    obtain ⟨f0, init, h1, h2⟩ := tokens_joined (fs := f' :: fs) (by simp) (fun x hx => hf x (List.mem_cons_of_mem _ hx)) [f.value] ls
    refine ⟨f0, f :: init, by rw [h1]; rfl, ?_⟩
    have e : joined ((f :: f' :: fs).map FileField.text) = (f.text ++ [',']) ++ joined ((f' :: fs).map FileField.text) := by
      show f.text ++ ',' :: joined ((f' :: fs).map FileField.text) = _
      simp
    rw [e, tokens, List.foldl_append]
    have := tokens_first (hf f (by simp)) ls
    rw [tokens] at this h2
    rw [this, h2]
    rfl

/-- a line of blanks, up to its end -/
theorem tokens_blank {b : List Char} (hb : Blank b) (ls : List (List (List Char))) :
    tokens ⟨.startRecord, [], [], ls⟩ b = ⟨if b = [] then .startRecord else .whitespaceLine b, [], [], ls⟩ := by
  cases b with
  | nil => rfl
  | cons c b =>
    have hc := hb c List.mem_cons_self
    have hc' : c ≠ '\n' ∧ c ≠ '\r' := by rcases hc with rfl | rfl <;> decide
    have e : CsvTok.step ⟨.startRecord, [], [], ls⟩ c = ⟨.whitespaceLine [c], [], [], ls⟩ := by
      simp [CsvTok.step, CsvTok.startRecordStep, hc, hc'.1, hc'.2]
    have key : ∀ (b : List Char), Blank b → ∀ x, tokens ⟨.whitespaceLine x, [], [], ls⟩ b = ⟨.whitespaceLine (x ++ b), [], [], ls⟩ := by
      intro b
      induction b with
      | nil => intro _ x; simp [tokens]
      | cons c b ih =>
        intro hb x
        have hc := hb c List.mem_cons_self
        have hc' : c ≠ '\n' ∧ c ≠ '\r' := by rcases hc with rfl | rfl <;> decide
        have e : CsvTok.step ⟨.whitespaceLine x, [], [], ls⟩ c = ⟨.whitespaceLine (x ++ [c]), [], [], ls⟩ := by
          simp [CsvTok.step, hc, hc'.1, hc'.2]
        rw [tokens, List.foldl_cons, e]
        have := ih (fun y hy => hb y (List.mem_cons_of_mem _ hy)) (x ++ [c])
        rw [tokens] at this
        rw [this]
        simp
    rw [tokens, List.foldl_cons, e, if_neg (by simp)]
    exact key b (fun y hy => hb y (List.mem_cons_of_mem _ hy)) [c]

theorem readOn_blank {b : List Char} (hb : Blank b) (e : Eol) (ls : List (List (List Char))) (text : List Char) :
    readOn ⟨.startRecord, [], [], ls⟩ (b ++ (e.text ++ text)) = readOn ⟨.startRecord, [], [], ls⟩ text := by
  rw [readOn_append, tokens_blank hb ls, readOn_append]
  cases e with
  | lf =>
    simp only [Eol.text, tokens, List.foldl_cons, List.foldl_nil]
    split <;> simp [CsvTok.step, CsvTok.startRecordStep]
  | crlf =>
    simp only [Eol.text, tokens, List.foldl_cons, List.foldl_nil]
    split <;> simp [CsvTok.step, CsvTok.startRecordStep]
  | cr =>
    rw [← readOn_eatNop]
    simp only [Eol.text, tokens, List.foldl_cons, List.foldl_nil]
    split <;> simp [CsvTok.step, CsvTok.startRecordStep]

/-- a line of a file, without its end: blanks, or fields -/
inductive FileLine
  | blank (b : List Char)
  | row (fs : List FileField)

def FileLine.text : FileLine → List Char
  | .blank b => b
  | .row fs => joined (fs.map FileField.text)

/-- the fields, if any -/
def FileLine.fields : FileLine → List (List (List Char))
  | .blank _ => []
  | .row fs => [fs.map FileField.value]

/-- blanks, or at least two fields, which are plain or between quotes -/
def FileLine.Ok : FileLine → Prop
  | .blank b => Blank b
  | .row fs => 2 ≤ fs.length ∧ ∀ f ∈ fs, f.Ok

theorem readOn_line {l : FileLine} (hl : l.Ok) (e : Eol) (ls : List (List (List Char))) (text : List Char) :
    readOn ⟨.startRecord, [], [], ls⟩ (l.text ++ (e.text ++ text)) = readOn ⟨.startRecord, [], [], ls ++ l.fields⟩ text := by
  cases l with
  | blank b => rw [FileLine.fields, List.append_nil]; exact readOn_blank hl e ls text
  | row fs =>
    obtain ⟨f, init, h1, h2⟩ := tokens_row hl.1 hl.2 ls
    rw [readOn_append, FileLine.text, h2, readOn_eol, FileLine.fields, h1]
    simp

/-- the text of a file: lines with their ends, and a last line without end (which may be empty) -/
def fileText (ls : List (FileLine × Eol)) (last : FileLine) : List Char := (ls.flatMap fun l => l.1.text ++ l.2.text) ++ last.text

theorem csvTokens_file {ls : List (FileLine × Eol)} {last : FileLine} (hls : ∀ l ∈ ls, l.1.Ok) (hlast : last.Ok) :
    csvTokens (fileText ls last) = .ok (ls.flatMap (fun l => l.1.fields) ++ last.fields) := by
  have key : ∀ (ls : List (FileLine × Eol)), (∀ l ∈ ls, l.1.Ok) → ∀ acc,
      readOn ⟨.startRecord, [], [], acc⟩ ((ls.flatMap fun l => l.1.text ++ l.2.text) ++ last.text) =
        readOn ⟨.startRecord, [], [], acc ++ ls.flatMap (fun l => l.1.fields)⟩ last.text := by
    intro ls
    induction ls with
    | nil => intro _ acc; simp
    | cons l ls ih =>
      intro h acc
      rw [List.flatMap_cons, List.append_assoc, List.append_assoc, readOn_line (h l (by simp)) l.2 acc, ih (fun x hx => h x (List.mem_cons_of_mem _ hx))]
      simp
  have h1 := key ls hls []
  show readOn _ (fileText ls last) = _
  unfold fileText
  rw [h1, List.nil_append]
  unfold readOn
  cases last with
  | blank b =>
    rw [FileLine.text, tokens_blank hlast]
    split <;> simp [CsvTok.finish, FileLine.fields]
  | row fs =>
    obtain ⟨f, init, h2, h3⟩ := tokens_row hlast.1 hlast.2 (ls.flatMap fun l => l.1.fields)
    rw [FileLine.text, h3]
    cases f with
    | plain f =>
      simp only [FileField.state, FileField.value, fieldState]
      split <;> simp [CsvTok.finish, FileLine.fields, h2, CsvTok.endField, CsvTok.endLine, FileField.value]
    | quoted f => simp [CsvTok.finish, FileLine.fields, h2, CsvTok.endField, CsvTok.endLine, FileField.value, FileField.state]

end Geec

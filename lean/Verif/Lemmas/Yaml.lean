import Verif.Model.ShippedText
import Verif.Spec.Yaml
import Mathlib.Tactic.Ring
import Mathlib.Tactic.NormNum
import Mathlib.Tactic.IntervalCases
/-
The model of the YAML parser reads what is written (Spec/Yaml).
-/
namespace Geec

/-! ### Digits -/

theorem foldl_digits (s : List Char) : ∀ n : ℕ, s.foldl (fun n c => 10 * n + (c.toNat - '0'.toNat)) n = n * 10 ^ s.length + digitsValue s := by
  induction s with
  | nil => intro n; simp [digitsValue]
  | cons c s ih =>
    intro n
    rw [List.foldl_cons, ih]
    have h : digitsValue (c :: s) = digitsValue s + 10 ^ s.length * digitOf c := by
      simp [digitsValue, Nat.ofDigits_append]
    rw [h, List.length_cons, pow_succ]
    have : c.toNat - '0'.toNat = digitOf c := rfl
    rw [this]
    ring

theorem digitsNat_eq (s : List Char) : digitsNat s = digitsValue s := by
  rw [digitsNat, foldl_digits]; simp

/-- digits and what follows them -/
theorem span_digits {a r : List Char} (ha : ∀ c ∈ a, c.isDigit = true) (hr : ∀ c, r.head? = some c → c.isDigit = false) :
    (a ++ r).takeWhile Char.isDigit = a ∧ (a ++ r).dropWhile Char.isDigit = r := by
  induction a with
  | nil =>
    cases r with
    | nil => simp
    | cons c r => have := hr c rfl; simp [this]
  | cons c a ih =>
    obtain ⟨h1, h2⟩ := ih fun c hc => ha c (by simp [hc])
    have h3 := ha c (by simp)
    simp only [List.cons_append, List.takeWhile_cons, List.dropWhile_cons, h3, if_true]
    exact ⟨by rw [h1], h2⟩

/-! ### Numbers -/

/-- what follows the sign -/
def Decimal.rest (d : Decimal) : List Char :=
  d.before ++ (match d.after with | none => [] | some a => '.' :: a) ++
    (match d.exp with | none => [] | some (e, s, x) => e :: signText s ++ x)

theorem Decimal.text_eq (d : Decimal) : d.text = signText d.sign ++ d.rest := by
  rcases d with ⟨s, b, _ | a, _ | ⟨e, t, x⟩⟩ <;> simp [Decimal.text, Decimal.rest]

/-- the exponent as text -/
def Decimal.expText (d : Decimal) : List Char := match d.exp with | none => [] | some (e, s, x) => e :: signText s ++ x

theorem exp_head {d : Decimal} (h : d.Sound) : ∀ c, d.expText.head? = some c → c.isDigit = false := by
  intro c hc
  unfold Decimal.expText at hc
  split at hc
  · simp at hc
  · next e s x he =>
    obtain ⟨h1, -, -⟩ := h.exp e s x he
    have : c = e := by simpa using hc.symm
    subst this
    rcases h1 with rfl | rfl <;> decide

theorem exponent_ok {d : Decimal} (h : d.Sound) (hs : ∀ e s x, d.exp = some (e, s, x) → s ≠ none) :
    exponent d.expText = some (match d.exp with
      | none => 1
      | some (_, s, x) => if s = some true then 1 / 10 ^ digitsValue x else 10 ^ digitsValue x) := by
  unfold Decimal.expText
  rcases he : d.exp with _ | ⟨e, s, x⟩
  · rfl
  · obtain ⟨h1, h2, h3⟩ := h.exp e s x he
    have h4 := hs e s x he
    have hall : x.all Char.isDigit = true := List.all_eq_true.mpr h3
    rcases s with _ | _ | _
    · exact absurd rfl h4
    · simp [signText, exponent, h1, h2, hall, tenTo, digitsNat_eq]
    · simp [signText, exponent, h1, h2, hall, tenTo, digitsNat_eq]

theorem exponent_none {d : Decimal} (h : d.Sound) {e x} (he : d.exp = some (e, none, x)) : exponent d.expText = none := by
  obtain ⟨h1, h2, h3⟩ := h.exp e none x he
  unfold Decimal.expText
  rw [he]
  rcases x with _ | ⟨y, x⟩
  · exact absurd rfl h2
  · have h5 := h3 y (by simp)
    have h6 : y ≠ '-' := by rintro rfl; revert h5; decide
    have h7 : y ≠ '+' := by rintro rfl; revert h5; decide
    simp [signText, exponent, h6, h7]

theorem unsignedInt_point {d : Decimal} {a : List Char} (ha : d.after = some a) : unsignedInt d.rest = none := by
  unfold unsignedInt
  rw [if_neg]
  rintro ⟨-, h, -⟩
  rw [List.all_eq_true] at h
  have := h '.' (by simp [Decimal.rest, ha])
  revert this; decide

theorem unsignedInt_exp {d : Decimal} (h : d.Sound) {p} (he : d.exp = some p) : unsignedInt d.rest = none := by
  obtain ⟨e, s, x⟩ := p
  unfold unsignedInt
  rw [if_neg]
  rintro ⟨-, h1, -⟩
  rw [List.all_eq_true] at h1
  have h2 := h1 e (by simp [Decimal.rest, he])
  have h3 := exp_head h e (by simp [Decimal.expText, he])
  rw [h2] at h3; cases h3

theorem unsignedFloat_point {d : Decimal} (h : d.Sound) {a : List Char} (ha : d.after = some a) (signed : Bool) :
    unsignedFloat signed d.rest = if d.before ≠ [] ∨ (signed = false ∧ a ≠ []) then
      (exponent d.expText).map (fixedPoint d.before a * ·) else none := by
  have hr : d.rest = d.before ++ '.' :: (a ++ d.expText) := by simp [Decimal.rest, ha, Decimal.expText]
  have h1 := span_digits (a := d.before) (r := '.' :: (a ++ d.expText)) h.before (by intro c hc; simp at hc; subst hc; decide)
  have hda : ∀ c ∈ a, c.isDigit = true := by have := h.after; rw [ha] at this; exact this
  have h2 := span_digits (a := a) (r := d.expText) hda (exp_head h)
  unfold unsignedFloat
  rw [hr, h1.1, h1.2]
  simp only [h2.1, h2.2]

theorem unsignedFloat_none {d : Decimal} (h : d.Sound) (ha : d.after = none) (signed : Bool) : unsignedFloat signed d.rest = none := by
  have hr : d.rest = d.before ++ d.expText := by simp [Decimal.rest, ha, Decimal.expText]
  have h1 := span_digits (a := d.before) (r := d.expText) h.before (exp_head h)
  unfold unsignedFloat
  rw [hr, h1.2]
  rcases he : d.exp with _ | ⟨e, s, x⟩
  · simp [Decimal.expText, he]
  · have : e ≠ '.' := by
      obtain ⟨h2, -, -⟩ := h.exp e s x he
      rcases h2 with rfl | rfl <;> decide
    simp only [Decimal.expText, he, List.cons_append]
    split
    · next heq => simp at heq; exact absurd heq.1 this
    · rfl

/-- the first character after the sign -/
theorem rest_head {d : Decimal} (h : d.Sound) : ∃ c r, d.rest = c :: r ∧ (c.isDigit = true ∨ (c = '.' ∧ d.before = [] ∧ ∃ y r', r = y :: r' ∧ y.isDigit = true)) := by
  rcases hb : d.before with _ | ⟨c, b⟩
  · have h1 := h.nonempty
    have h2 := h.after
    rw [hb] at h1
    rcases ha : d.after with _ | a
    · simp [ha] at h1
    · rw [ha] at h1 h2
      rcases a with _ | ⟨y, a⟩
      · simp at h1
      · exact ⟨'.', _, by simp [Decimal.rest, hb, ha]; rfl, .inr ⟨rfl, rfl, y, _, rfl, h2 y (by simp)⟩⟩
  · exact ⟨c, _, by simp [Decimal.rest, hb]; rfl, .inl (h.before c (by simp [hb]))⟩

theorem numberOr_text {d : Decimal} (h : d.Sound) :
    numberOr d.text = numberWith d.text d.sign.isSome (d.sign = some true) d.rest := by
  rw [Decimal.text_eq]
  rcases d.sign with _ | _ | _
  · obtain ⟨c, r, hr, hc⟩ := rest_head h
    have h1 : c ≠ '-' := by rintro rfl; revert hc; simp
    have h2 : c ≠ '+' := by rintro rfl; revert hc; simp
    simp only [signText, List.nil_append, hr]
    unfold numberOr
    split
    · next heq => simp at heq; exact absurd heq.1 h1
    · next heq => simp at heq; exact absurd heq.1 h2
    · rfl
  · rfl
  · rfl

theorem otherNumber_rest {d : Decimal} (h : d.Sound) (hp : ¬ d.Padded) : otherNumber d.rest = false := by
  have hchars : ∀ c ∈ d.rest, c ≠ '_' ∧ c ≠ ':' := by
    intro c hc
    have key : c.isDigit = true ∨ c ∈ ['.', 'e', 'E', '+', '-'] := by
      rw [Decimal.rest, List.mem_append, List.mem_append] at hc
      rcases hc with (hc | hc) | hc
      · exact .inl (h.before c hc)
      · rcases ha : d.after with _ | a
        · simp [ha] at hc
        · have h2 := h.after
          rw [ha] at hc h2
          rcases List.mem_cons.mp hc with rfl | hc
          · exact .inr (by simp)
          · exact .inl (h2 c hc)
      · rcases he : d.exp with _ | ⟨e, s, x⟩
        · simp [he] at hc
        · obtain ⟨h1, -, h3⟩ := h.exp e s x he
          rw [he] at hc
          rcases List.mem_cons.mp hc with rfl | hc
          · rcases h1 with rfl | rfl <;> simp
          · rcases List.mem_append.mp hc with hc | hc
            · rcases s with _ | _ | _ <;> simp [signText] at hc <;> subst hc <;> simp
            · exact .inl (h3 c hc)
    constructor
    · rintro rfl; revert key; decide
    · rintro rfl; revert key; decide
  unfold otherNumber
  have h1 : d.rest.any (fun c => c = '_' || c = ':') = false := by
    rw [List.any_eq_false]
    intro c hc
    simp [hchars c hc]
  have h2 : zeroStart d.rest = false := by
    unfold zeroStart
    split
    · next c r heq =>
      rcases hb : d.before with _ | ⟨y, b⟩
      · obtain ⟨c', r', hr, hc⟩ := rest_head h
        have h0 := h.nonempty
        rw [hb] at h0
        rcases ha : d.after with _ | a
        · simp [ha] at h0
        · simp [Decimal.rest, hb, ha] at heq
      · have hb1 : b = [] := by
          by_contra hne
          have hy : y = '0' := by simp [Decimal.rest, hb] at heq; exact heq.1
          exact hp ⟨by rw [hb, hy]; rfl, by
            rw [hb]; have := List.length_pos_iff.mpr hne; simp; omega⟩
        subst hb1
        rcases ha : d.after with _ | a
        · rcases he : d.exp with _ | ⟨e, s, x⟩
          · simp [Decimal.rest, hb, ha, he] at heq
          · simp [Decimal.rest, hb, ha, he] at heq
            obtain ⟨-, rfl, -⟩ := heq
            obtain ⟨h1, -, -⟩ := h.exp e s x he
            rcases h1 with rfl | rfl <;> decide
        · simp [Decimal.rest, hb, ha] at heq
          obtain ⟨-, rfl, -⟩ := heq
          decide
    · rfl
  have h3 : d.rest ∉ [".inf".toList, ".Inf".toList, ".INF".toList, ".nan".toList, ".NaN".toList, ".NAN".toList] := by
    obtain ⟨c, r, hr, hc⟩ := rest_head h
    rw [hr]
    intro hm
    have key : c = '.' ∧ ∃ y r', r = y :: r' ∧ (y ∈ ['i', 'I', 'n', 'N']) := by
      simp at hm
      rcases hm with ⟨rfl, rfl⟩ | ⟨rfl, rfl⟩ | ⟨rfl, rfl⟩ | ⟨rfl, rfl⟩ | ⟨rfl, rfl⟩ | ⟨rfl, rfl⟩ <;> exact ⟨rfl, _, _, rfl, by simp⟩
    obtain ⟨rfl, y, r', rfl, hy⟩ := key
    rcases hc with hc | ⟨-, -, y', r'', h4, h5⟩
    · revert hc; decide
    · injection h4 with h4 _
      subst h4
      simp at hy
      rcases hy with rfl | rfl | rfl | rfl <;> revert h5 <;> decide
  have h4 : (d.rest.dropWhile Char.isDigit).head? ≠ some '-' := by
    rcases ha : d.after with _ | a
    · have hr : d.rest = d.before ++ d.expText := by simp [Decimal.rest, ha, Decimal.expText]
      rw [hr, (span_digits h.before (exp_head h)).2]
      rcases he : d.exp with _ | ⟨e, s, x⟩
      · simp [Decimal.expText, he]
      · obtain ⟨h1, -, -⟩ := h.exp e s x he
        rcases h1 with rfl | rfl <;> simp [Decimal.expText, he]
    · have hr : d.rest = d.before ++ '.' :: (a ++ d.expText) := by simp [Decimal.rest, ha, Decimal.expText]
      rw [hr, (span_digits (r := '.' :: (a ++ d.expText)) h.before (by intro c hc; simp at hc; subst hc; decide)).2]
      simp
  rw [h1, h2, decide_eq_false h3, decide_eq_false h4]
  simp

theorem numberOr_ok {d : Decimal} (h : d.Sound) (hy : d.Yaml) : numberOr d.text = some (.num d.isInt d.value) := by
  rw [numberOr_text h]
  have hsgn : (if decide (d.sign = some true) = true then (-1 : ℚ) else 1) = signValue d.sign := by
    unfold signValue; simp
  unfold numberWith
  rcases ha : d.after with _ | a
  · obtain ⟨he, hz⟩ := hy.point ha
    have hr : d.rest = d.before := by simp [Decimal.rest, ha, he]
    have hne : d.before ≠ [] := by have := h.nonempty; rw [ha] at this; simpa using this
    have h1 : unsignedInt d.rest = some (digitsNat d.before : ℚ) := by
      unfold unsignedInt
      rw [hr, if_pos ⟨hne, List.all_eq_true.mpr h.before, hz⟩]
    simp only [h1, hsgn]
    simp [Decimal.isInt, ha, he, Decimal.value, digitsNat_eq]
  · have hc : d.before ≠ [] ∨ (d.sign.isSome = false ∧ a ≠ []) := by
      by_cases hb : d.before = []
      · refine .inr ⟨by simp [hy.before hb], ?_⟩
        have := h.nonempty
        rw [ha, hb] at this
        simpa using this
      · exact .inl hb
    have hf := unsignedFloat_point h ha d.sign.isSome
    rw [if_pos hc, exponent_ok h hy.signed, Option.map_some] at hf
    simp only [unsignedInt_point ha, hf, hsgn]
    simp only [Decimal.isInt, ha, Decimal.value, fixedPoint, digitsNat_eq, Option.getD_some]
    push_cast
    simp only [Option.isNone_some, Bool.false_and, mul_assoc]
    rcases d.exp with _ | ⟨_, _, _⟩ <;> rfl

theorem numberOr_str {d : Decimal} (h : d.Sound) (hy : ¬ d.Yaml) (hp : ¬ d.Padded) : numberOr d.text = some (.str (String.ofList d.text)) := by
  rw [numberOr_text h]
  unfold numberWith
  have hi : unsignedInt d.rest = none := by
    rcases ha : d.after with _ | a
    · rcases he : d.exp with _ | p
      · exfalso
        apply hy
        refine ⟨fun _ => ⟨he, ?_⟩, fun hb => ?_, fun e s x h1 => by rw [he] at h1; cases h1⟩
        · by_contra hc
          rw [not_or, not_not] at hc
          apply hp
          refine ⟨hc.1, ?_⟩
          rcases hb : d.before with _ | ⟨y, _ | ⟨z, b⟩⟩
          · rw [hb] at hc; simp at hc
          · rw [hb] at hc; simp at hc
          · simp
        · have := h.nonempty
          rw [ha, hb] at this
          simp at this
      · exact unsignedInt_exp h he
    · exact unsignedInt_point ha
  have hf : unsignedFloat d.sign.isSome d.rest = none := by
    rcases ha : d.after with _ | a
    · exact unsignedFloat_none h ha _
    · rw [unsignedFloat_point h ha]
      split_ifs with hc
      · by_cases hs : ∀ e s x, d.exp = some (e, s, x) → s ≠ none
        · exfalso
          apply hy
          refine ⟨fun h1 => (by rw [ha] at h1; cases h1), fun hb => ?_, hs⟩
          rcases hc with hc | hc
          · exact absurd hb hc
          · rcases hd : d.sign with _ | _
            · rfl
            · simp [hd] at hc
        · push Not at hs
          obtain ⟨e, s, x, h1, rfl⟩ := hs
          rw [exponent_none h h1]
          rfl
      · rfl
  rw [hi, hf]
  simp only [otherNumber_rest h hp]
  rfl

/-! ### Plain scalars -/

theorem digit_mem {c : Char} (h : c.isDigit = true) : c ∈ ['0', '1', '2', '3', '4', '5', '6', '7', '8', '9'] := by
  have h1 : 48 ≤ c.toNat ∧ c.toNat ≤ 57 := by
    simp only [Char.isDigit, Bool.and_eq_true, decide_eq_true_eq] at h
    exact ⟨h.1, h.2⟩
  have h2 : c = Char.ofNat c.toNat := (Char.ofNat_toNat c).symm
  obtain ⟨ha, hb⟩ := h1
  generalize c.toNat = n at *
  subst h2
  interval_cases n <;> decide

/-- characters of numbers -/
def NumChar (c : Char) : Prop := c.isDigit = true ∨ c ∈ ['.', 'e', 'E', '+', '-']

theorem text_chars {d : Decimal} (h : d.Sound) : ∀ c ∈ d.text, NumChar c := by
  intro c hc
  rw [Decimal.text_eq, List.mem_append] at hc
  rcases hc with hc | hc
  · rcases hs : d.sign with _ | _ | _ <;> rw [hs] at hc <;> simp [signText] at hc <;> subst hc <;> simp [NumChar]
  · rw [Decimal.rest, List.mem_append, List.mem_append] at hc
    rcases hc with (hc | hc) | hc
    · exact .inl (h.before c hc)
    · rcases ha : d.after with _ | a
      · simp [ha] at hc
      · have h2 := h.after
        rw [ha] at hc h2
        rcases List.mem_cons.mp hc with rfl | hc
        · exact .inr (by simp)
        · exact .inl (h2 c hc)
    · rcases he : d.exp with _ | ⟨e, s, x⟩
      · simp [he] at hc
      · obtain ⟨h1, -, h3⟩ := h.exp e s x he
        rw [he] at hc
        rcases List.mem_cons.mp hc with rfl | hc
        · rcases h1 with rfl | rfl <;> simp [NumChar]
        · rcases List.mem_append.mp hc with hc | hc
          · rcases s with _ | _ | _ <;> simp [signText] at hc <;> subst hc <;> simp [NumChar]
          · exact .inl (h3 c hc)

theorem text_head {d : Decimal} (h : d.Sound) : ∃ c r, d.text = c :: r ∧ (c.isDigit = true ∨ (c = '.' ∧ ∃ y r', r = y :: r' ∧ y.isDigit = true) ∨
    ((c = '-' ∨ c = '+') ∧ ∃ y r', r = y :: r' ∧ (y.isDigit = true ∨ y = '.'))) := by
  obtain ⟨c, r, hr, hc⟩ := rest_head h
  rw [Decimal.text_eq, hr]
  rcases d.sign with _ | _ | _
  · refine ⟨c, r, rfl, ?_⟩
    rcases hc with hc | ⟨rfl, -, hc⟩
    · exact .inl hc
    · exact .inr (.inl ⟨rfl, hc⟩)
  · exact ⟨'+', c :: r, rfl, .inr (.inr ⟨.inr rfl, c, r, rfl, hc.imp id And.left⟩)⟩
  · exact ⟨'-', c :: r, rfl, .inr (.inr ⟨.inl rfl, c, r, rfl, hc.imp id And.left⟩)⟩

theorem hasKeyColon_false {s : List Char} (h : ' ' ∉ s) (hl : s.getLast? ≠ some ':') : hasKeyColon s = false := by
  induction s with
  | nil => rfl
  | cons c s ih =>
    cases s with
    | nil =>
      have h1 : c ≠ ':' := fun e => hl (by simp [e])
      simp [hasKeyColon, h1]
    | cons d s =>
      have h1 : d ≠ ' ' := fun e => h (by simp [e])
      have h2 := ih (fun e => h (by simp [e])) (by rwa [List.getLast?_cons_cons] at hl)
      simp [hasKeyColon, h1, h2]

theorem plain_text {d : Decimal} (h : d.Sound) : plain d.text = numberOr d.text := by
  have hch := text_chars h
  obtain ⟨c, r, hr, hc⟩ := text_head h
  have hno : ∀ x ∈ d.text, x ≠ '"' ∧ x ≠ '\'' ∧ x ≠ '\t' ∧ x ≠ '\r' ∧ x ≠ ':' ∧ x ≠ ' ' := by
    intro x hx
    have := hch x hx
    refine ⟨?_, ?_, ?_, ?_, ?_, ?_⟩ <;> rintro rfl <;> revert this <;> unfold NumChar <;> decide
  have hcol : hasKeyColon d.text = false := hasKeyColon_false (fun hx => (hno _ hx).2.2.2.2.2 rfl) (fun e => (hno _ (List.mem_of_getLast? e)).2.2.2.2.1 rfl)
  have hany : d.text.any (fun c => c = '"' || c = '\'' || c = '\t' || c = '\r') = false := by
    rw [List.any_eq_false]; intro x hx; simp [hno x hx]
  have hfirst : c ∈ ['0', '1', '2', '3', '4', '5', '6', '7', '8', '9', '.', '-', '+'] := by
    rcases hc with hc | ⟨rfl, -⟩ | ⟨rfl | rfl, -⟩
    · have := digit_mem hc
      simp at this ⊢
      tauto
    · simp
    · simp
    · simp
  rw [hr] at hany hcol ⊢
  have hw : ∀ w ∈ nullWords ++ trueWords ++ falseWords, c :: r ≠ w := by
    intro w hw e
    subst e
    simp [nullWords, trueWords, falseWords] at hw hfirst
    rcases hfirst with rfl | rfl | rfl | rfl | rfl | rfl | rfl | rfl | rfl | rfl | rfl | rfl | rfl <;> simp at hw
  have h1 : c :: r ∉ nullWords := fun e => hw _ (by simp [e]) rfl
  have h2 : c :: r ∉ trueWords := fun e => hw _ (by simp [e]) rfl
  have h3 : c :: r ∉ falseWords := fun e => hw _ (by simp [e]) rfl
  have h4 : c ∉ noStart := by
    simp at hfirst
    rcases hfirst with rfl | rfl | rfl | rfl | rfl | rfl | rfl | rfl | rfl | rfl | rfl | rfl | rfl <;> decide
  have h5 : (c = '-' && (r.head? = none || r.head? = some ' ' || r.head? = some '-')) = false := by
    rcases hc with hc | ⟨rfl, -⟩ | ⟨rfl | rfl, y, r', rfl, hy⟩
    · have : c ≠ '-' := by rintro rfl; revert hc; decide
      simp [this]
    · simp
    · have a1 : y ≠ ' ' := by rintro rfl; revert hy; decide
      have a2 : y ≠ '-' := by rintro rfl; revert hy; decide
      simp [a1, a2]
    · simp
  have h6 : (c :: r).take 3 ≠ ['.', '.', '.'] := by
    rcases hc with hc | ⟨rfl, y, r', rfl, hy⟩ | ⟨rfl | rfl, -⟩
    · intro e
      have : c = '.' := by simp at e; exact e.1
      subst this; revert hc; decide
    · intro e
      have : y = '.' := by simp at e; exact e.1
      subst this; revert hy; decide
    · simp
    · simp
  have h7 : (c.isDigit || c = '-' || c = '+' || c = '.') = true := by
    rcases hc with hc | ⟨rfl, -⟩ | ⟨rfl | rfl, -⟩
    · simp [hc]
    · decide
    · decide
    · decide
  unfold plain
  simp only [if_neg h1, if_neg h2, if_neg h3, hany, hcol, h5, h6, h7]
  simp [h4]

/-- characters of plain scalars other than keys -/
def PlainChar (c : Char) : Prop := c ∉ [' ', ',', '[', ']', '{', '}', '"']

instance (c : Char) : Decidable (PlainChar c) := inferInstanceAs (Decidable (c ∉ _))

/-- a plain scalar: its text and its value -/
structure PlainText (t : List Char) (v : Val ℚ) : Prop where
  nonempty : t ≠ []
  chars : ∀ c ∈ t, PlainChar c
  first : t.head? ≠ some '#'
  last : t.getLast? ≠ some ':'
  dash : t ≠ ['-']
  value : plain t = some v

theorem numChar_plain {c : Char} (h : NumChar c) : PlainChar c := by
  intro hc
  simp at hc
  rcases hc with rfl | rfl | rfl | rfl | rfl | rfl | rfl <;> revert h <;> unfold NumChar <;> decide

theorem wordChar_plain {c : Char} (h : WordChar c) : PlainChar c := by
  intro hc
  simp at hc
  rcases hc with rfl | rfl | rfl | rfl | rfl | rfl | rfl <;> revert h <;> unfold WordChar <;> decide

theorem plainText_num {d : Decimal} (h : d.Sound) (hy : d.Yaml) : PlainText d.text (.num d.isInt d.value) where
  nonempty := by obtain ⟨c, r, hr, -⟩ := text_head h; simp [hr]
  chars c hc := numChar_plain (text_chars h c hc)
  first := fun e => by
    have := text_chars h '#' (List.mem_of_mem_head? e)
    revert this; unfold NumChar; decide
  last := fun e => by
    have := text_chars h ':' (List.mem_of_getLast? e)
    revert this; unfold NumChar; decide
  dash := by
    obtain ⟨c, r, hr, hc⟩ := text_head h
    rw [hr]
    rintro e
    rcases hc with hc | ⟨rfl, -⟩ | ⟨-, y, r', rfl, -⟩
    · have : c = '-' := by simp at e; exact e.1
      subst this; revert hc; decide
    · simp at e
    · simp at e
  value := by rw [plain_text h, numberOr_ok h hy]

theorem plainText_dash {d : Decimal} (h : d.Sound) : d.text ≠ ['-'] := by
  obtain ⟨c, r, hr, hc⟩ := text_head h
  rw [hr]
  rintro e
  rcases hc with hc | ⟨rfl, -⟩ | ⟨-, y, r', rfl, -⟩
  · have : c = '-' := by simp at e; exact e.1
    subst this; revert hc; decide
  · simp at e
  · simp at e

theorem plainText_text {d : Decimal} (h : d.Sound) (hy : ¬ d.Yaml) (hp : ¬ d.Padded) : PlainText d.text (.str (String.ofList d.text)) where
  nonempty := by obtain ⟨c, r, hr, -⟩ := text_head h; simp [hr]
  chars c hc := numChar_plain (text_chars h c hc)
  first := fun e => by
    have := text_chars h '#' (List.mem_of_mem_head? e)
    revert this; unfold NumChar; decide
  last := fun e => by
    have := text_chars h ':' (List.mem_of_getLast? e)
    revert this; unfold NumChar; decide
  dash := plainText_dash h
  value := by rw [plain_text h, numberOr_str h hy hp]

theorem plainText_word {s : List Char} (h : Word s) : PlainText s (.str (String.ofList s)) where
  nonempty := by obtain ⟨c, r, hr, -⟩ := h.first; simp [hr]
  chars c hc := wordChar_plain (h.chars c hc)
  first := by
    obtain ⟨c, r, hr, hc⟩ := h.first
    rw [hr]
    rintro e
    have : c = '#' := by simpa using e
    subst this; revert hc; decide
  last := h.last
  dash := by
    obtain ⟨c, r, hr, hc⟩ := h.first
    rw [hr]
    rintro e
    have : c = '-' := by simp at e; exact e.1
    subst this; revert hc; decide
  value := by
    obtain ⟨c, r, hr, hc⟩ := h.first
    have hch := h.chars
    have hpl := h.plain
    have hno : ∀ x ∈ s, x ≠ '"' ∧ x ≠ '\'' ∧ x ≠ '\t' ∧ x ≠ '\r' ∧ x ≠ ' ' := by
      intro x hx
      have := hch x hx
      refine ⟨?_, ?_, ?_, ?_, ?_⟩ <;> rintro rfl <;> revert this <;> unfold WordChar <;> decide
    have hcol : hasKeyColon s = false := hasKeyColon_false (fun hx => (hno _ hx).2.2.2.2 rfl) h.last
    have hany : s.any (fun c => c = '"' || c = '\'' || c = '\t' || c = '\r') = false := by
      rw [List.any_eq_false]; intro x hx; simp [hno x hx]
    have h1 : s ∉ nullWords := by
      intro e
      simp only [nullWords, List.mem_cons, List.not_mem_nil, or_false] at e
      rcases e with rfl | rfl | rfl | rfl
      · have : c = '~' := by simp at hr; exact hr.1.symm
        subst this; revert hc; decide
      all_goals exact hpl (by simp)
    have h2 : s ∉ trueWords := by
      intro e
      simp only [trueWords, List.mem_cons, List.not_mem_nil, or_false] at e
      rcases e with rfl | rfl | rfl | rfl | rfl | rfl | rfl | rfl | rfl <;> exact hpl (by simp)
    have h3 : s ∉ falseWords := by
      intro e
      simp only [falseWords, List.mem_cons, List.not_mem_nil, or_false] at e
      rcases e with rfl | rfl | rfl | rfl | rfl | rfl | rfl | rfl | rfl <;> exact hpl (by simp)
    have h4 : c ∉ noStart := by
      intro e
      simp [noStart] at e
      rcases e with rfl | rfl | rfl | rfl | rfl | rfl | rfl | rfl | rfl | rfl | rfl | rfl | rfl | rfl | rfl | rfl | rfl | rfl <;> revert hc <;> decide
    have h5 : c ≠ '-' := by rintro rfl; revert hc; decide
    have h6 : c ≠ '+' := by rintro rfl; revert hc; decide
    have h7 : c ≠ '.' := by rintro rfl; revert hc; decide
    have h8 : c.isDigit = false := by
      by_contra e
      have := digit_mem (by simpa using e)
      simp at this
      rcases this with rfl | rfl | rfl | rfl | rfl | rfl | rfl | rfl | rfl | rfl <;> revert hc <;> decide
    subst hr
    have h9 : (c :: r).take 3 ≠ ['.', '.', '.'] := by
      intro e; simp at e; exact h7 e.1
    unfold plain
    simp only [if_neg h1, if_neg h2, if_neg h3, hany, hcol]
    simp only [if_neg h9]
    simp [h4, h5, h6, h7, h8]

/-- the first character is no blank -/
def Begins (t : List Char) : Prop := ∃ c r, t = c :: r ∧ c ≠ ' '

/-- the last character is no blank -/
def Ends (t : List Char) : Prop := ∃ r c, t = r ++ [c] ∧ c ≠ ' '

theorem drop_blanks (a : ℕ) {t : List Char} (ht : Begins t) (r : List Char) : (blanks a ++ (t ++ r)).dropWhile (· = ' ') = t ++ r := by
  obtain ⟨c, t, rfl, hc⟩ := ht
  induction a with
  | zero => simp [blanks, hc]
  | succ a ih => simpa [blanks, List.replicate_succ] using ih

theorem drop_blanks_cons (a : ℕ) {c : Char} (hc : c ≠ ' ') (r : List Char) : (blanks a ++ c :: r).dropWhile (· = ' ') = c :: r :=
  drop_blanks a (t := [c]) ⟨c, [], rfl, hc⟩ r

theorem blanks_reverse (a : ℕ) : (blanks a).reverse = blanks a := by simp [blanks]

theorem trim_blanks (a : ℕ) {t : List Char} (ht : Ends t) : trimRight (t ++ blanks a) = t := by
  obtain ⟨t, c, rfl, hc⟩ := ht
  unfold trimRight
  rw [List.reverse_append, blanks_reverse, List.reverse_append]
  have := drop_blanks_cons a hc t.reverse
  simp only [List.reverse_cons, List.reverse_nil, List.nil_append, List.singleton_append] at this ⊢
  rw [this]
  simp

theorem plainText_begins {t : List Char} {v : Val ℚ} (h : PlainText t v) : Begins t := by
  obtain ⟨c, r, rfl⟩ := List.exists_cons_of_ne_nil h.nonempty
  refine ⟨c, r, rfl, ?_⟩
  have := h.chars c (by simp)
  rintro rfl; revert this; decide

theorem plainText_ends {t : List Char} {v : Val ℚ} (h : PlainText t v) : Ends t := by
  obtain ⟨r, c, rfl⟩ : ∃ r c, t = r ++ [c] := ⟨t.dropLast, t.getLast h.nonempty, (List.dropLast_concat_getLast h.nonempty).symm⟩
  refine ⟨r, c, rfl, ?_⟩
  have := h.chars c (by simp)
  rintro rfl; revert this; decide

theorem ofList_eq {s : List Char} {t : String} (h : String.ofList s = t) : s = t.toList := by rw [← h, String.toList_ofList]

theorem plainText_null {s : List Char} (h : String.ofList s ∈ ["~", "null", "Null", "NULL"]) : PlainText s .null := by
  simp only [List.mem_cons, List.not_mem_nil, or_false] at h
  rcases h with h | h | h | h <;> rw [ofList_eq h] <;> exact ⟨by simp, by decide, by decide, by decide, by decide, by simp [plain, nullWords]⟩

theorem plainText_true {s : List Char} (h : String.ofList s ∈ ["yes", "Yes", "YES", "true", "True", "TRUE", "on", "On", "ON"]) : PlainText s (.bool true) := by
  simp only [List.mem_cons, List.not_mem_nil, or_false] at h
  rcases h with h | h | h | h | h | h | h | h | h <;> rw [ofList_eq h] <;>
    exact ⟨by simp, by decide, by decide, by decide, by decide, by simp [plain, nullWords, trueWords]⟩

theorem plainText_false {s : List Char} (h : String.ofList s ∈ ["no", "No", "NO", "false", "False", "FALSE", "off", "Off", "OFF"]) :
    PlainText s (.bool false) := by
  simp only [List.mem_cons, List.not_mem_nil, or_false] at h
  rcases h with h | h | h | h | h | h | h | h | h <;> rw [ofList_eq h] <;>
    exact ⟨by simp, by decide, by decide, by decide, by decide, by simp [plain, nullWords, trueWords, falseWords]⟩

/-- What is written on one line is a plain scalar, a quoted one, or a list. -/
theorem Inline.kinds {t : List Char} {v : Val ℚ} (h : Inline t v) : PlainText t v ∨
    (∃ s, t = '"' :: s ++ ['"'] ∧ '"' ∉ s ∧ '\\' ∉ s ∧ v = .str (String.ofList s)) ∨ (∃ s vs, t = '[' :: s ∧ Items s vs ∧ v = .list vs) := by
  cases h with
  | null s h => exact .inl (plainText_null h)
  | true s h => exact .inl (plainText_true h)
  | false s h => exact .inl (plainText_false h)
  | num d h1 h2 => exact .inl (plainText_num h1 h2)
  | text d h1 h2 h3 => exact .inl (plainText_text h1 h2 h3)
  | word s h1 => exact .inl (plainText_word h1)
  | quoted s h1 h2 => exact .inr (.inl ⟨s, rfl, h1, h2, rfl⟩)
  | list s vs h1 => exact .inr (.inr ⟨s, vs, rfl, h1, rfl⟩)

theorem quoted_ok {s : List Char} (h1 : '"' ∉ s) (h2 : '\\' ∉ s) (r : List Char) : quoted (s ++ '"' :: r) = some (s, r) := by
  induction s with
  | nil => simp [quoted]
  | cons c s ih =>
    have a1 : c ≠ '"' := fun e => h1 (by simp [e])
    have a2 : c ≠ '\\' := fun e => h2 (by simp [e])
    simp [quoted, a1, a2, ih (fun e => h1 (by simp [e])) (fun e => h2 (by simp [e]))]

theorem span_flow {t : List Char} (ht : ∀ c ∈ t, flowEnd c = false) {c : Char} (hc : flowEnd c = true) (r : List Char) :
    (t ++ c :: r).takeWhile (fun c => !flowEnd c) = t ∧ (t ++ c :: r).dropWhile (fun c => !flowEnd c) = c :: r := by
  induction t with
  | nil => simp [hc]
  | cons x t ih =>
    have := ih fun c h => ht c (by simp [h])
    simp [ht x (by simp), this]

theorem flow_plain {t : List Char} {v : Val ℚ} (h : PlainText t v) (n : ℕ) {c : Char} (hc : c = ']' ∨ c = ',') (r : List Char) (b : ℕ) :
    flowValue (n + 1) (t ++ (blanks b ++ c :: r)) = some (v, c :: r) := by
  have hf : ∀ x ∈ t ++ blanks b, flowEnd x = false := by
    intro x hx
    rcases List.mem_append.mp hx with hx | hx
    · have := h.chars x hx
      simp [PlainChar] at this
      simp [flowEnd, this]
    · simp [blanks] at hx
      simp [hx.2, flowEnd]
  obtain ⟨h1, h2⟩ := span_flow hf (c := c) (by rcases hc with rfl | rfl <;> decide) r
  have h3 := h.value
  have h4 := trim_blanks b (plainText_ends h)
  have hch := h.chars
  obtain ⟨x, t, rfl⟩ := List.exists_cons_of_ne_nil h.nonempty
  have hx := hch x (by simp)
  simp [PlainChar] at hx
  rw [List.append_assoc] at h1 h2
  rw [List.cons_append] at h1 h2 ⊢
  unfold flowValue
  split
  · rename_i e; simp at e; exact absurd e.1 hx.2.2.1
  · rename_i e; simp at e; exact absurd e.1 hx.2.2.2.2.2.2
  · rw [h1, h2, h4, h3]; rfl

theorem inline_head {t : List Char} {v : Val ℚ} (h : Inline t v) : ∃ c r, t = c :: r ∧ c ≠ ' ' ∧ c ≠ ']' ∧ c ≠ '#' := by
  rcases h.kinds with h | ⟨s, rfl, -⟩ | ⟨s, vs, rfl, -⟩
  · obtain ⟨c, r, rfl⟩ := List.exists_cons_of_ne_nil h.nonempty
    have := h.chars c (by simp)
    simp [PlainChar] at this
    exact ⟨c, r, rfl, this.1, this.2.2.2.1, fun e => h.first (by simp [e])⟩
  · exact ⟨_, _, rfl, by decide, by decide, by decide⟩
  · exact ⟨_, _, rfl, by decide, by decide, by decide⟩

theorem Inline.begins {t : List Char} {v : Val ℚ} (h : Inline t v) : Begins t := by
  obtain ⟨c, r, hr, hc, -⟩ := inline_head h
  exact ⟨c, r, hr, hc⟩

theorem flowItems_step {n : ℕ} {s : List Char} {c : Char} {r : List Char} (hs : s = c :: r) (hc : c ≠ ']') :
    flowItems (n + 1) s = match flowValue n s with
      | none => none
      | some (v, r) =>
        match r.dropWhile (· = ' ') with
        | ']' :: r' => some ([v], r')
        | ',' :: r' => (flowItems n (r'.dropWhile (· = ' '))).map fun p => (v :: p.1, p.2)
        | _ => none := by
  subst hs
  conv_lhs => unfold flowItems
  split
  · rename_i e; simp at e; exact absurd e.1 hc
  · rfl

/-- what is shown of a value in brackets -/
def FlowOk (t : List Char) (v : Val ℚ) : Prop := ∀ n, 2 * t.length ≤ n → ∀ c r b, (c = ']' ∨ c = ',') →
  ∃ r0, flowValue n (t ++ (blanks b ++ c :: r)) = some (v, r0) ∧ r0.dropWhile (· = ' ') = c :: r

/-- what is shown of the items of a list in brackets -/
def ItemsOk (ts : List Char) (vs : List (Val ℚ)) : Prop := ∀ n, 2 * ts.length + 1 ≤ n → ∀ r,
  flowItems n ((ts ++ r).dropWhile (· = ' ')) = some (vs, r)

theorem flowOk_plain {t : List Char} {v : Val ℚ} (h : PlainText t v) : FlowOk t v := by
  intro n hn c r b hc
  obtain ⟨m, rfl⟩ : ∃ m, n = m + 1 := ⟨n - 1, by have := List.length_pos_iff.mpr h.nonempty; omega⟩
  refine ⟨c :: r, flow_plain h m hc r b, ?_⟩
  exact drop_blanks_cons 0 (by rcases hc with rfl | rfl <;> decide) r

theorem flowOk_quoted {s : List Char} (h1 : '"' ∉ s) (h2 : '\\' ∉ s) : FlowOk ('"' :: s ++ ['"']) (.str (String.ofList s)) := by
  intro n hn c r b hc
  obtain ⟨m, rfl⟩ : ∃ m, n = m + 1 := ⟨n - 1, by simp at hn; omega⟩
  refine ⟨blanks b ++ c :: r, ?_, drop_blanks_cons b (by rcases hc with rfl | rfl <;> decide) r⟩
  have := quoted_ok h1 h2 (blanks b ++ c :: r)
  simp [flowValue, this]

theorem flowOk_list {t : List Char} {vs : List (Val ℚ)} (h : ItemsOk t vs) : FlowOk ('[' :: t) (.list vs) := by
  intro n hn c r b hc
  obtain ⟨m, rfl⟩ : ∃ m, n = m + 1 := ⟨n - 1, by simp at hn; omega⟩
  refine ⟨blanks b ++ c :: r, ?_, drop_blanks_cons b (by rcases hc with rfl | rfl <;> decide) r⟩
  have := h m (by simp at hn; omega) (blanks b ++ c :: r)
  simp [flowValue, this]

theorem itemsOk_nil (a : ℕ) : ItemsOk (blanks a ++ [']']) [] := by
  intro n hn r
  obtain ⟨m, rfl⟩ : ∃ m, n = m + 1 := ⟨n - 1, by simp at hn; omega⟩
  rw [List.append_assoc, List.singleton_append, drop_blanks_cons a (by decide)]
  simp [flowItems]

theorem itemsOk_last (a b : ℕ) {t : List Char} {v : Val ℚ} (h : Inline t v) (ih : FlowOk t v) : ItemsOk (blanks a ++ t ++ blanks b ++ [']']) [v] := by
  intro n hn r
  obtain ⟨m, rfl⟩ : ∃ m, n = m + 1 := ⟨n - 1, by simp at hn; omega⟩
  have e : blanks a ++ t ++ blanks b ++ [']'] ++ r = blanks a ++ (t ++ (blanks b ++ ']' :: r)) := by simp
  rw [e, drop_blanks a h.begins]
  obtain ⟨c, t', hc, -, hc', -⟩ := inline_head h
  obtain ⟨r0, h1, h2⟩ := ih m (by simp at hn; omega) ']' r b (.inl rfl)
  rw [flowItems_step (c := c) (r := t' ++ (blanks b ++ ']' :: r)) (by rw [hc]; rfl) hc', h1]
  simp only [h2]

theorem itemsOk_cons (a b : ℕ) {t ts : List Char} {v : Val ℚ} {vs : List (Val ℚ)} (h : Inline t v) (ih : FlowOk t v) (ih2 : ItemsOk ts vs) :
    ItemsOk (blanks a ++ t ++ blanks b ++ ',' :: ts) (v :: vs) := by
  intro n hn r
  obtain ⟨m, rfl⟩ : ∃ m, n = m + 1 := ⟨n - 1, by simp at hn; omega⟩
  have e : blanks a ++ t ++ blanks b ++ ',' :: ts ++ r = blanks a ++ (t ++ (blanks b ++ ',' :: (ts ++ r))) := by simp
  rw [e, drop_blanks a h.begins]
  obtain ⟨c, t', hc, -, hc', -⟩ := inline_head h
  obtain ⟨r0, h1, h2⟩ := ih m (by simp at hn; omega) ',' (ts ++ r) b (.inr rfl)
  rw [flowItems_step (c := c) (r := t' ++ (blanks b ++ ',' :: (ts ++ r))) (by rw [hc]; rfl) hc', h1]
  simp only [h2]
  rw [ih2 m (by simp at hn; omega) r]
  rfl

theorem Items.ok {t : List Char} {vs : List (Val ℚ)} (h : Items t vs) : ItemsOk t vs := by
  refine Items.rec (motive_1 := fun t v _ => FlowOk t v) (motive_2 := fun t vs _ => ItemsOk t vs) ?_ ?_ ?_ ?_ ?_ ?_ ?_ ?_ ?_ ?_ ?_ h
  · exact fun s h => flowOk_plain (plainText_null h)
  · exact fun s h => flowOk_plain (plainText_true h)
  · exact fun s h => flowOk_plain (plainText_false h)
  · exact fun d h1 h2 => flowOk_plain (plainText_num h1 h2)
  · exact fun d h1 h2 h3 => flowOk_plain (plainText_text h1 h2 h3)
  · exact fun s h1 => flowOk_plain (plainText_word h1)
  · exact fun s h1 h2 => flowOk_quoted h1 h2
  · exact fun t vs _ ih => flowOk_list ih
  · exact fun a => itemsOk_nil a
  · exact fun a b t v h ih => itemsOk_last a b h ih
  · exact fun a b t ts v vs h _ ih ih2 => itemsOk_cons a b h ih ih2

/-- A value on one line is read as it is written. -/
theorem Inline.read {t : List Char} {v : Val ℚ} (h : Inline t v) : inlineValue t = some v := by
  rcases h.kinds with h | ⟨s, rfl, h1, h2, rfl⟩ | ⟨s, vs, rfl, h1, rfl⟩
  · obtain ⟨c, r, rfl⟩ := List.exists_cons_of_ne_nil h.nonempty
    have := h.chars c (by simp)
    simp [PlainChar] at this
    unfold inlineValue
    split
    · rename_i e; simp at e; exact absurd e.1 this.2.2.1
    · rename_i e; simp at e; exact absurd e.1 this.2.2.2.2.2.2
    · exact h.value
  · have := quoted_ok h1 h2 []
    simp [inlineValue, this]
  · have := h1.ok (2 * (s.length + 1) + 1) (by omega) []
    rw [List.append_nil] at this
    simp only [inlineValue, List.length_cons, flowValue]
    rw [this]
    rfl

/-! ### Comments and hyphens -/

/-- no part of the text is taken for a comment, and it is not left inside of quotes -/
def Uncut (t : List Char) : Prop := ∀ (b : Bool) (rest : List Char), ∃ b', cutComment false b (t ++ rest) = t ++ cutComment false b' rest

theorem uncut_nil : Uncut [] := fun b _ => ⟨b, rfl⟩

theorem Uncut.append {s t : List Char} (hs : Uncut s) (ht : Uncut t) : Uncut (s ++ t) := by
  intro b rest
  obtain ⟨b1, h1⟩ := hs b (t ++ rest)
  obtain ⟨b2, h2⟩ := ht b1 rest
  exact ⟨b2, by rw [List.append_assoc, h1, h2, List.append_assoc]⟩

theorem uncut_char {c : Char} (h1 : c ≠ '#') (h2 : c ≠ '"') : Uncut [c] := by
  intro b rest
  exact ⟨decide (c = ' '), by simp [cutComment, h1, h2]⟩

theorem Uncut.cons {c : Char} {t : List Char} (h1 : c ≠ '#') (h2 : c ≠ '"') (h : Uncut t) : Uncut (c :: t) :=
  (uncut_char h1 h2).append h

theorem uncut_chars {t : List Char} (h : ∀ c ∈ t, c ≠ '#' ∧ c ≠ '"') : Uncut t := by
  induction t with
  | nil => exact uncut_nil
  | cons c t ih => exact Uncut.cons (h c (by simp)).1 (h c (by simp)).2 (ih fun x hx => h x (by simp [hx]))

theorem uncut_blanks (a : ℕ) : Uncut (blanks a) := by
  refine uncut_chars fun c hc => ?_
  simp [blanks] at hc
  simp [hc.2]

theorem cut_word {t : List Char} (h : ∀ c ∈ t, c ≠ ' ' ∧ c ≠ '"') (rest : List Char) : cutComment false false (t ++ rest) = t ++ cutComment false false rest := by
  induction t with
  | nil => rfl
  | cons c t ih =>
    have h1 := h c (by simp)
    simp [cutComment, h1, ih fun x hx => h x (by simp [hx])]

theorem uncut_plain {t : List Char} {v : Val ℚ} (h : PlainText t v) : Uncut t := by
  have hch : ∀ c ∈ t, c ≠ ' ' ∧ c ≠ '"' := by
    intro c hc
    have := h.chars c hc
    simp [PlainChar] at this
    exact ⟨this.1, this.2.2.2.2.2.2⟩
  intro b rest
  have hf := h.first
  obtain ⟨c, t, rfl⟩ := List.exists_cons_of_ne_nil h.nonempty
  have h1 := hch c (by simp)
  have h2 : c ≠ '#' := fun e => hf (by simp [e])
  refine ⟨false, ?_⟩
  have := cut_word (fun x hx => hch x (by simp [hx]) : ∀ x ∈ t, x ≠ ' ' ∧ x ≠ '"') rest
  simp [cutComment, h1, h2, this]

theorem cut_quoted {s : List Char} (h : '"' ∉ s) (rest : List Char) : ∀ b, ∃ b', cutComment true b (s ++ '"' :: rest) = s ++ '"' :: cutComment false b' rest := by
  induction s with
  | nil => intro b; exact ⟨decide ('"' = ' '), by simp [cutComment]⟩
  | cons c s ih =>
    intro b
    have hc : c ≠ '"' := fun e => h (by simp [e])
    obtain ⟨b', hb⟩ := ih (fun e => h (by simp [e])) (decide (c = ' '))
    exact ⟨b', by simp [cutComment, hc, hb]⟩

theorem uncut_quoted {s : List Char} (h : '"' ∉ s) : Uncut ('"' :: s ++ ['"']) := by
  intro b rest
  obtain ⟨b', hb⟩ := cut_quoted h rest (decide ('"' = ' '))
  refine ⟨b', ?_⟩
  simp only [List.cons_append, List.append_assoc, List.nil_append]
  rw [cutComment]
  simpa using hb

theorem Items.clean {t : List Char} {vs : List (Val ℚ)} (h : Items t vs) : Uncut t := by
  refine Items.rec (motive_1 := fun t v _ => Uncut t) (motive_2 := fun t vs _ => Uncut t) ?_ ?_ ?_ ?_ ?_ ?_ ?_ ?_ ?_ ?_ ?_ h
  · exact fun s h => uncut_plain (plainText_null h)
  · exact fun s h => uncut_plain (plainText_true h)
  · exact fun s h => uncut_plain (plainText_false h)
  · exact fun d h1 h2 => uncut_plain (plainText_num h1 h2)
  · exact fun d h1 h2 h3 => uncut_plain (plainText_text h1 h2 h3)
  · exact fun s h1 => uncut_plain (plainText_word h1)
  · exact fun s h1 h2 => uncut_quoted h1
  · exact fun t vs _ ih => ih.cons (by decide) (by decide)
  · exact fun a => (uncut_blanks a).append (uncut_char (by decide) (by decide))
  · exact fun a b t v h ih => (((uncut_blanks a).append ih).append (uncut_blanks b)).append (uncut_char (by decide) (by decide))
  · exact fun a b t ts v vs h _ ih ih2 => (((uncut_blanks a).append ih).append (uncut_blanks b)).append (ih2.cons (by decide) (by decide))

theorem Inline.clean {t : List Char} {v : Val ℚ} (h : Inline t v) : Uncut t := by
  rcases h.kinds with h | ⟨s, rfl, h1, -, -⟩ | ⟨s, vs, rfl, h1, -⟩
  · exact uncut_plain h
  · exact uncut_quoted h1
  · exact h1.clean.cons (by decide) (by decide)

theorem Items.ends {t : List Char} {vs : List (Val ℚ)} (h : Items t vs) : Ends t := by
  refine Items.rec (motive_1 := fun t v _ => True) (motive_2 := fun t vs _ => Ends t) ?_ ?_ ?_ ?_ ?_ ?_ ?_ ?_ ?_ ?_ ?_ h
  · intros; trivial
  · intros; trivial
  · intros; trivial
  · intros; trivial
  · intros; trivial
  · intros; trivial
  · intros; trivial
  · intros; trivial
  · exact fun a => ⟨_, _, rfl, by decide⟩
  · exact fun a b t v h ih => ⟨_, _, rfl, by decide⟩
  · rintro a b t ts v vs h _ - ⟨r, c, rfl, hc⟩
    exact ⟨blanks a ++ t ++ blanks b ++ ',' :: r, c, by simp, hc⟩

theorem Inline.ends {t : List Char} {v : Val ℚ} (h : Inline t v) : Ends t := by
  rcases h.kinds with h | ⟨s, rfl, -⟩ | ⟨s, vs, rfl, h1, -⟩
  · exact plainText_ends h
  · exact ⟨'"' :: s, '"', rfl, by decide⟩
  · obtain ⟨r, c, rfl, hc⟩ := h1.ends
    exact ⟨'[' :: r, c, rfl, hc⟩

/-- the text of a line of a block -/
structure Content (t : List Char) : Prop where
  clean : Uncut t
  begins : Begins t
  ends : Ends t
  hyphen : ∀ r, t ≠ '-' :: ' ' :: r

theorem content_dash : Content ['-'] where
  clean := uncut_char (by decide) (by decide)
  begins := ⟨'-', [], rfl, by decide⟩
  ends := ⟨[], '-', rfl, by decide⟩
  hyphen r := by simp

theorem inline_hyphen {t : List Char} {v : Val ℚ} (h : Inline t v) (r : List Char) : t ≠ '-' :: ' ' :: r := by
  rintro rfl
  rcases h.kinds with h | ⟨s, e, -⟩ | ⟨s, vs, e, -⟩
  · have := h.chars ' ' (by simp)
    revert this; decide
  · simp at e
  · simp at e

theorem Inline.content {t : List Char} {v : Val ℚ} (h : Inline t v) : Content t := ⟨h.clean, h.begins, h.ends, inline_hyphen h⟩

theorem word_head {k : List Char} (h : Word k) : ∃ c r, k = c :: r ∧ c ≠ ' ' ∧ c ≠ '-' ∧ c ≠ '[' ∧ c ≠ '"' := by
  obtain ⟨c, r, rfl, hc⟩ := h.first
  refine ⟨c, r, rfl, ?_, ?_, ?_, ?_⟩ <;> rintro rfl <;> revert hc <;> decide

theorem content_key {k : List Char} (h : Word k) : Content (k ++ [':']) := by
  obtain ⟨c, r, rfl, h1, h2, -⟩ := word_head h
  exact ⟨(uncut_plain (plainText_word h)).append (uncut_char (by decide) (by decide)), ⟨c, r ++ [':'], rfl, h1⟩, ⟨_, _, rfl, by decide⟩,
    fun r e => by simp at e; exact h2 e.1⟩

theorem content_entry {k t : List Char} {v : Val ℚ} (h : Word k) (a : ℕ) (ht : Inline t v) : Content (k ++ ':' :: ' ' :: blanks a ++ t) := by
  have hc := (uncut_plain (plainText_word h))
  obtain ⟨c, r, rfl, h1, h2, -⟩ := word_head h
  obtain ⟨t', c', rfl, h3⟩ := ht.ends
  refine ⟨(hc.append (((uncut_blanks a).cons (by decide) (by decide)).cons (by decide) (by decide))).append ht.clean, ⟨c, _, rfl, h1⟩,
    ⟨c :: r ++ ':' :: ' ' :: blanks a ++ t', c', by simp, h3⟩, fun r e => by simp at e; exact h2 e.1⟩

theorem cut_trailing {e : List Char} (h : Trailing e) (b : Bool) : ∃ k, cutComment false b e = blanks k := by
  cases h with
  | blanks a =>
    obtain ⟨b', hb⟩ := uncut_blanks a b []
    rw [List.append_nil] at hb
    exact ⟨a, by rw [hb]; simp [cutComment]⟩
  | comment a c =>
    obtain ⟨b', hb⟩ := uncut_blanks a b (' ' :: '#' :: c)
    refine ⟨a + 1, ?_⟩
    have e : blanks (a + 1) = blanks a ++ [' '] := by simp [blanks, List.replicate_succ']
    rw [e, List.append_assoc, List.singleton_append, hb]
    simp [cutComment]

theorem Hyphens.ok {i : ℕ} {t : List Char} {ls : List (ℕ × List Char)} (h : Hyphens i t ls) (hc : ∀ l ∈ ls, Content l.2) :
    Uncut t ∧ Begins t ∧ Ends t ∧ ∀ n, t.length ≤ n → splitDashes n (i, t) = ls := by
  induction h with
  | text i t =>
    have h1 := hc (i, t) (by simp)
    refine ⟨h1.clean, h1.begins, h1.ends, fun n hn => ?_⟩
    cases n with
    | zero => rfl
    | succ n =>
      unfold splitDashes
      split
      · rename_i r; exact absurd rfl (h1.hyphen r)
      · rfl
  | hyphen i a t ls h ih =>
    obtain ⟨h1, h2, h3, h4⟩ := ih fun l hl => hc l (by simp [hl])
    refine ⟨?_, ⟨'-', _, rfl, by decide⟩, ?_, fun n hn => ?_⟩
    · exact (((uncut_blanks a).append h1).cons (by decide) (by decide)).cons (by decide) (by decide)
    · obtain ⟨r, c, rfl, hc⟩ := h3
      exact ⟨'-' :: ' ' :: blanks a ++ r, c, by simp, hc⟩
    · obtain ⟨m, rfl⟩ : ∃ m, n = m + 1 := ⟨n - 1, by simp at hn; omega⟩
      have e : (blanks a ++ t).dropWhile (· = ' ') = t := by simpa using drop_blanks a h2 []
      have e2 : (blanks a).length = a := by simp [blanks]
      simp only [List.cons_append, splitDashes, e, List.length_append, e2, Nat.add_sub_cancel]
      rw [h4 m (by simp at hn; omega)]

theorem YamlLine.read {s : List Char} {ls : List (ℕ × List Char)} (h : YamlLine s ls) (hc : ∀ l ∈ ls, Content l.2) : yamlLine s = ls := by
  cases h with
  | blank a =>
    have : (blanks a).dropWhile (· = ' ') = [] := by
      induction a with
      | zero => rfl
      | succ a ih => simp [blanks, List.replicate_succ]
    simp [yamlLine, this, cutComment, trimRight]
  | comment a c =>
    simp [yamlLine, drop_blanks_cons a (show '#' ≠ ' ' by decide) c, cutComment, trimRight]
  | text i t e ls h1 h2 =>
    obtain ⟨h3, h4, h5, h6⟩ := h1.ok hc
    have e1 : (blanks i ++ t ++ e).dropWhile (· = ' ') = t ++ e := by rw [List.append_assoc]; exact drop_blanks i h4 e
    obtain ⟨b', hb⟩ := h3 true e
    obtain ⟨k, hk⟩ := cut_trailing h2 b'
    have e2 : trimRight (cutComment false true (t ++ e)) = t := by rw [hb, hk]; exact trim_blanks k h5
    have e3 : t ≠ [] := by obtain ⟨c, r, rfl, -⟩ := h4; simp
    have e4 : (blanks i ++ t ++ e).length - (t ++ e).length = i := by simp [blanks]
    unfold yamlLine
    simp only [e1, e2, e4]
    rw [if_neg e3, h6 _ le_rfl]

/-! ### Blocks -/

theorem splitKey_none {s : List Char} (h : ' ' ∉ s) (hl : s.getLast? ≠ some ':') : splitKey s = none := by
  induction s with
  | nil => rfl
  | cons c s ih =>
    cases s with
    | nil =>
      have h1 : c ≠ ':' := fun e => hl (by simp [e])
      simp [splitKey, h1]
    | cons d s =>
      have h1 : d ≠ ' ' := fun e => h (by simp [e])
      have h2 := ih (fun e => h (by simp [e])) (by rwa [List.getLast?_cons_cons] at hl)
      rw [splitKey]
      · split
        · rw [h2]; rfl
        · rw [h2]; rfl
      · simp
      · intro r e; simp at e; exact h1 e.1

theorem splitKey_append {k : List Char} (h : ' ' ∉ k) (hl : k.getLast? ≠ some ':') {r : List Char} {x : List Char × List Char} (hx : splitKey r = some x) :
    splitKey (k ++ r) = some (k ++ x.1, x.2) := by
  induction k with
  | nil => simpa using hx
  | cons c k ih =>
    cases k with
    | nil =>
      have h1 : c ≠ ':' := fun e => hl (by simp [e])
      simp [splitKey, h1, hx]
    | cons d k =>
      have h1 : d ≠ ' ' := fun e => h (by simp [e])
      have h2 := ih (fun e => h (by simp [e])) (by rwa [List.getLast?_cons_cons] at hl)
      rw [List.cons_append, splitKey]
      · split
        · rw [h2]; rfl
        · rw [h2]; rfl
      · simp
      · intro r e; simp at e; exact h1 e.1

theorem plain_blank {t : List Char} {v : Val ℚ} (h : PlainText t v) : ' ' ∉ t := fun hx => by
  have := h.chars ' ' hx
  revert this; decide

theorem keyLine_of {k r s : List Char} (hk : KeyWord k) (hs : splitKey (k ++ s) = some (k, r)) : keyLine (k ++ s) = some (String.ofList k, r) := by
  obtain ⟨h, hlen⟩ := hk
  have hv := (plainText_word h).value
  obtain ⟨c, k, rfl, -, -, h1, h2⟩ := word_head h
  unfold keyLine
  split
  · rename_i e; simp at e; exact absurd e.1 h1
  · rename_i e; simp at e; exact absurd e.1 h2
  · rw [hs]; simp only [hv, if_neg (not_lt.mpr hlen)]

theorem keyLine_key {k : List Char} (h : KeyWord k) : keyLine (k ++ [':']) = some (String.ofList k, []) :=
  keyLine_of h (by simpa using splitKey_append (plain_blank (plainText_word h.1)) h.1.last (r := [':']) (x := ([], [])) (by simp [splitKey]))

theorem keyLine_entry {k t : List Char} (h : KeyWord k) (a : ℕ) (ht : Begins t) : keyLine (k ++ ':' :: ' ' :: blanks a ++ t) = some (String.ofList k, t) := by
  have e : (blanks a ++ t).dropWhile (· = ' ') = t := by simpa using drop_blanks a ht []
  rw [List.append_assoc]
  exact keyLine_of h (by simpa using splitKey_append (plain_blank (plainText_word h.1)) h.1.last (r := ':' :: ' ' :: (blanks a ++ t)) (x := ([], t)) (by simp [splitKey, e]))

theorem keyLine_inline {t : List Char} {v : Val ℚ} (h : Inline t v) : keyLine t = none := by
  rcases h.kinds with h | ⟨s, rfl, -⟩ | ⟨s, vs, rfl, -⟩
  · unfold keyLine
    split
    · rfl
    · rfl
    · rw [splitKey_none (plain_blank h) h.last]
  · rfl
  · rfl

theorem inline_dash {t : List Char} {v : Val ℚ} (h : Inline t v) : t ≠ ['-'] := by
  rcases h.kinds with h | ⟨s, rfl, -⟩ | ⟨s, vs, rfl, -⟩
  · exact h.dash
  · simp
  · simp

/-- the first line that follows is indented less than `i` -/
def Below (i : ℕ) (ls : List YLine) : Prop := ∀ l, ls.head? = some l → l.1 < i

/-- the first line is indented as `i` -/
def Starts (i : ℕ) (ls : List YLine) : Prop := ∀ l, ls.head? = some l → l.1 = i

theorem below_append {i j : ℕ} {ls rest : List YLine} (h1 : Starts i ls) (h2 : Below i rest) (h : i < j) : Below j (ls ++ rest) := by
  intro l hl
  cases ls with
  | nil => exact (h2 l hl).trans h
  | cons x ls => simp at hl; subst hl; rw [h1 x rfl]; exact h

/-- what is shown of blocks -/
def BlockOk (i : ℕ) (ls : List YLine) (v : Val ℚ) : Prop :=
  (∀ l ∈ ls, Content l.2) ∧ Starts i ls ∧ ls ≠ [] ∧
    ∀ n, 3 * ls.length + 2 ≤ n → ∀ rest, Below i rest → blockValue n i (ls ++ rest) = some (v, rest)

/-- what is shown of the items of a block -/
def SeqOk (i : ℕ) (ls : List YLine) (vs : List (Val ℚ)) : Prop :=
  (∀ l ∈ ls, Content l.2) ∧ Starts i ls ∧ (vs ≠ [] → ∃ ls', ls = (i, ['-']) :: ls') ∧
    ∀ n, 3 * ls.length + 1 ≤ n → ∀ rest, Below i rest → seqItems n i (ls ++ rest) = some (vs, rest)

/-- what is shown of the entries of a block -/
def MapOk (i : ℕ) (ls : List YLine) (es : List (String × Val ℚ)) : Prop :=
  (∀ l ∈ ls, Content l.2) ∧ Starts i ls ∧ (es ≠ [] → ∃ s x ls', ls = (i, s) :: ls' ∧ s ≠ ['-'] ∧ keyLine s = some x) ∧
    ∀ n, 3 * ls.length + 1 ≤ n → ∀ rest, Below i rest → mapItems n i (ls ++ rest) = some (es, rest)

theorem child_null {n i : ℕ} {ls rest : List YLine} (hn : 0 < n) (h1 : Starts i ls) (h2 : Below i rest) :
    child n i (ls ++ rest) = some (.null, ls ++ rest) := by
  obtain ⟨m, rfl⟩ : ∃ m, n = m + 1 := ⟨n - 1, by omega⟩
  have := below_append h1 h2 (Nat.lt_succ_self i)
  rcases h : ls ++ rest with _ | ⟨⟨j, s⟩, l⟩
  · simp [child]
  · rw [h] at this
    have h3 : j < i + 1 := this _ rfl
    simp [child, show ¬ i < j by omega]

theorem child_block {n i j : ℕ} {bl rest : List YLine} {v : Val ℚ} (hb : BlockOk j bl v) (hij : i < j) (hn : 3 * bl.length + 3 ≤ n) (h : Below j rest) :
    child n i (bl ++ rest) = some (v, rest) := by
  obtain ⟨m, rfl⟩ : ∃ m, n = m + 1 := ⟨n - 1, by omega⟩
  obtain ⟨-, h2, h3, h4⟩ := hb
  have h5 := h4 m (by omega) rest h
  obtain ⟨⟨j', s⟩, l, rfl⟩ := List.exists_cons_of_ne_nil h3
  have h6 : j' = j := h2 _ rfl
  subst h6
  rw [List.cons_append] at h5 ⊢
  simp only [child, if_pos hij, h5]

theorem starts_cons (i : ℕ) (s : List Char) (ls : List YLine) : Starts i ((i, s) :: ls) := by
  intro l hl; simp at hl; subst hl; rfl

theorem block_inline (i : ℕ) {t : List Char} {v : Val ℚ} (h : Inline t v) : BlockOk i [(i, t)] v := by
  refine ⟨by simpa using h.content, starts_cons _ _ _, by simp, fun n hn rest _ => ?_⟩
  obtain ⟨m, rfl⟩ : ∃ m, n = m + 1 := ⟨n - 1, by omega⟩
  simp [blockValue, inline_dash h, keyLine_inline h, h.read]

theorem block_list {i : ℕ} {ls : List YLine} {vs : List (Val ℚ)} (hv : vs ≠ []) (h : SeqOk i ls vs) : BlockOk i ls (.list vs) := by
  obtain ⟨h1, h2, h3, h4⟩ := h
  obtain ⟨ls, rfl⟩ := h3 hv
  refine ⟨h1, h2, by simp, fun n hn rest hr => ?_⟩
  obtain ⟨m, rfl⟩ : ∃ m, n = m + 1 := ⟨n - 1, by omega⟩
  have := h4 m (by omega) rest hr
  rw [List.cons_append] at this ⊢
  simp [blockValue, this]

theorem block_dict {i : ℕ} {ls : List YLine} {es : List (String × Val ℚ)} (hv : es ≠ []) (h : MapOk i ls es) : BlockOk i ls (.dict es) := by
  obtain ⟨h1, h2, h3, h4⟩ := h
  obtain ⟨s, x, ls, rfl, h5, h6⟩ := h3 hv
  refine ⟨h1, h2, by simp, fun n hn rest hr => ?_⟩
  obtain ⟨m, rfl⟩ : ∃ m, n = m + 1 := ⟨n - 1, by omega⟩
  have := h4 m (by omega) rest hr
  rw [List.cons_append] at this ⊢
  simp [blockValue, h5, h6, this]

theorem seq_nil (i : ℕ) : SeqOk i [] [] := by
  refine ⟨by simp, by intro l hl; simp at hl, by simp, fun n hn rest hr => ?_⟩
  obtain ⟨m, rfl⟩ : ∃ m, n = m + 1 := ⟨n - 1, by omega⟩
  rcases rest with _ | ⟨⟨j, s⟩, l⟩
  · simp [seqItems]
  · have : j < i := hr _ rfl
    simp [seqItems, this]

theorem map_nil (i : ℕ) : MapOk i [] [] := by
  refine ⟨by simp, by intro l hl; simp at hl, by simp, fun n hn rest hr => ?_⟩
  obtain ⟨m, rfl⟩ : ∃ m, n = m + 1 := ⟨n - 1, by omega⟩
  rcases rest with _ | ⟨⟨j, s⟩, l⟩
  · simp [mapItems]
  · have : j < i := hr _ rfl
    simp [mapItems, this]

theorem seq_null {i : ℕ} {ls : List YLine} {vs : List (Val ℚ)} (h : SeqOk i ls vs) : SeqOk i ((i, ['-']) :: ls) (.null :: vs) := by
  obtain ⟨h1, h2, -, h4⟩ := h
  refine ⟨?_, starts_cons _ _ _, fun _ => ⟨_, rfl⟩, fun n hn rest hr => ?_⟩
  · intro l hl
    rcases List.mem_cons.mp hl with rfl | hl
    · exact content_dash
    · exact h1 l hl
  · obtain ⟨m, rfl⟩ : ∃ m, n = m + 1 := ⟨n - 1, by omega⟩
    simp only [List.length_cons] at hn
    simp [seqItems, child_null (n := m) (by omega) h2 hr, h4 m (by omega) rest hr]

theorem seq_item {i j : ℕ} {bl ls : List YLine} {v : Val ℚ} {vs : List (Val ℚ)} (hij : i < j) (hb : BlockOk j bl v) (h : SeqOk i ls vs) :
    SeqOk i ((i, ['-']) :: (bl ++ ls)) (v :: vs) := by
  obtain ⟨h1, h2, -, h4⟩ := h
  refine ⟨?_, starts_cons _ _ _, fun _ => ⟨_, rfl⟩, fun n hn rest hr => ?_⟩
  · intro l hl
    rcases List.mem_cons.mp hl with rfl | hl
    · exact content_dash
    · rcases List.mem_append.mp hl with hl | hl
      · exact hb.1 l hl
      · exact h1 l hl
  · obtain ⟨m, rfl⟩ : ∃ m, n = m + 1 := ⟨n - 1, by omega⟩
    simp only [List.length_cons, List.length_append] at hn
    have := child_block (n := m) hb hij (by omega) (below_append h2 hr hij)
    simp [seqItems, this, h4 m (by omega) rest hr]

theorem any_key {k : String} {es : List (String × Val ℚ)} (h : k ∉ es.map (·.1)) : es.any (fun p => p.1 = k) = false := by
  rw [List.any_eq_false]
  intro p hp e
  exact h (List.mem_map.mpr ⟨p, hp, by simpa using e⟩)

theorem map_step {i : ℕ} {s r : List Char} {k : String} {v : Val ℚ} {l ls rest : List YLine} {es : List (String × Val ℚ)} {m : ℕ}
    (hk : keyLine s = some (k, r)) (hne : k ∉ es.map (·.1))
    (hv : (if r = [] then child m i l else (inlineValue r).map fun v => (v, l)) = some (v, ls ++ rest))
    (h4 : mapItems m i (ls ++ rest) = some (es, rest)) : mapItems (m + 1) i ((i, s) :: l) = some ((k, v) :: es, rest) := by
  simp only [mapItems, lt_irrefl, if_false, if_true, hk, hv, h4, any_key hne]
  simp

theorem map_null {i : ℕ} {k : List Char} {ls : List YLine} {es : List (String × Val ℚ)} (hk : KeyWord k) (hne : String.ofList k ∉ es.map (·.1))
    (h : MapOk i ls es) : MapOk i ((i, k ++ [':']) :: ls) ((String.ofList k, .null) :: es) := by
  obtain ⟨h1, h2, -, h4⟩ := h
  obtain ⟨c, r, hkr, -, hc, -⟩ := word_head hk.1
  refine ⟨?_, starts_cons _ _ _, fun _ => ⟨_, _, _, rfl, by simp [hkr], keyLine_key hk⟩, fun n hn rest hr => ?_⟩
  · intro l hl
    rcases List.mem_cons.mp hl with rfl | hl
    · exact content_key hk.1
    · exact h1 l hl
  · obtain ⟨m, rfl⟩ : ∃ m, n = m + 1 := ⟨n - 1, by omega⟩
    simp only [List.length_cons] at hn
    exact map_step (keyLine_key hk) hne (by simpa using child_null (n := m) (by omega) h2 hr) (h4 m (by omega) rest hr)

theorem map_inline {i a : ℕ} {k t : List Char} {v : Val ℚ} {ls : List YLine} {es : List (String × Val ℚ)} (hk : KeyWord k)
    (hne : String.ofList k ∉ es.map (·.1)) (ht : Inline t v) (h : MapOk i ls es) :
    MapOk i ((i, k ++ ':' :: ' ' :: blanks a ++ t) :: ls) ((String.ofList k, v) :: es) := by
  obtain ⟨h1, h2, -, h4⟩ := h
  obtain ⟨c, r, hkr, -, hc, -⟩ := word_head hk.1
  have ht0 : t ≠ [] := by obtain ⟨c, r, rfl, -⟩ := ht.begins; simp
  refine ⟨?_, starts_cons _ _ _, fun _ => ⟨_, _, _, rfl, by simp [hkr], keyLine_entry hk a ht.begins⟩, fun n hn rest hr => ?_⟩
  · intro l hl
    rcases List.mem_cons.mp hl with rfl | hl
    · exact content_entry hk.1 a ht
    · exact h1 l hl
  · obtain ⟨m, rfl⟩ : ∃ m, n = m + 1 := ⟨n - 1, by omega⟩
    simp only [List.length_cons] at hn
    exact map_step (keyLine_entry hk a ht.begins) hne (by simp [ht0, ht.read]) (h4 m (by omega) rest hr)

theorem map_block {i j : ℕ} {k : List Char} {bl ls : List YLine} {v : Val ℚ} {es : List (String × Val ℚ)} (hk : KeyWord k)
    (hne : String.ofList k ∉ es.map (·.1)) (hij : i < j) (hb : BlockOk j bl v) (h : MapOk i ls es) :
    MapOk i ((i, k ++ [':']) :: (bl ++ ls)) ((String.ofList k, v) :: es) := by
  obtain ⟨h1, h2, -, h4⟩ := h
  obtain ⟨c, r, hkr, -, hc, -⟩ := word_head hk.1
  refine ⟨?_, starts_cons _ _ _, fun _ => ⟨_, _, _, rfl, by simp [hkr], keyLine_key hk⟩, fun n hn rest hr => ?_⟩
  · intro l hl
    rcases List.mem_cons.mp hl with rfl | hl
    · exact content_key hk.1
    · rcases List.mem_append.mp hl with hl | hl
      · exact hb.1 l hl
      · exact h1 l hl
  · obtain ⟨m, rfl⟩ : ∃ m, n = m + 1 := ⟨n - 1, by omega⟩
    simp only [List.length_cons, List.length_append] at hn
    have := child_block (n := m) hb hij (by omega) (below_append h2 hr hij)
    exact map_step (keyLine_key hk) hne (by simpa using this) (h4 m (by omega) rest hr)

theorem Block.ok {i : ℕ} {ls : List (ℕ × List Char)} {v : Val ℚ} (h : Block i ls v) : BlockOk i ls v := by
  refine Block.rec (motive_1 := fun i ls v _ => BlockOk i ls v) (motive_2 := fun i ls vs _ => SeqOk i ls vs) (motive_3 := fun i ls es _ => MapOk i ls es)
    ?_ ?_ ?_ ?_ ?_ ?_ ?_ ?_ ?_ ?_ h
  · exact fun i t v h => block_inline i h
  · exact fun i ls vs hv _ ih => block_list hv ih
  · exact fun i ls es hv _ ih => block_dict hv ih
  · exact fun i => seq_nil i
  · exact fun i ls vs _ ih => seq_null ih
  · exact fun i j bl ls v vs hij _ _ ih ih2 => seq_item hij ih ih2
  · exact fun i => map_nil i
  · exact fun i k ls es hk hne _ ih => map_null hk hne ih
  · exact fun i a k t v ls es hk hne ht _ ih => map_inline hk hne ht ih
  · exact fun i j k bl ls v es hk hne hij _ _ ih ih2 => map_block hk hne hij ih ih2

/-! ### Files -/

theorem textLines_ne (s : List Char) : textLines s ≠ [] := by
  cases s with
  | nil => simp [textLines]
  | cons c s =>
    unfold textLines
    split
    · simp
    · split_ifs <;> simp

theorem textLines_line {l : List Char} (h : '\n' ∉ l) (s : List Char) : textLines (l ++ '\n' :: s) = l :: textLines s := by
  induction l with
  | nil =>
    obtain ⟨x, xs, hx⟩ := List.exists_cons_of_ne_nil (textLines_ne s)
    simp [textLines, hx]
  | cons c l ih =>
    have hc : c ≠ '\n' := fun e => h (by simp [e])
    rw [List.cons_append, textLines, ih fun e => h (by simp [e])]
    simp [hc]

theorem textLines_unlines {ls : List (List Char)} (h : ∀ l ∈ ls, '\n' ∉ l) : textLines (unlines ls) = ls ++ [[]] := by
  induction ls with
  | nil => rfl
  | cons l ls ih =>
    have e : unlines (l :: ls) = l ++ '\n' :: unlines ls := by simp [unlines]
    rw [e, textLines_line (h l (by simp)), ih fun x hx => h x (by simp [hx])]
    rfl

theorem yamlChar_of {c : Char} (h : Printable c) : yamlChar c = true := by
  rcases h with h | ⟨h1, h2⟩
  · simp [yamlChar, h]
  · simp at h2
    simp [yamlChar, h1, h2]

theorem unlines_chars {ls : List (List Char)} (h : ∀ l ∈ ls, ∀ c ∈ l, Printable c) : (unlines ls).all yamlChar = true := by
  rw [List.all_eq_true]
  intro c hc
  simp only [unlines, List.mem_flatMap, List.mem_append, List.mem_singleton] at hc
  obtain ⟨l, hl, hc | rfl⟩ := hc
  · exact yamlChar_of (h l hl c hc)
  · decide

theorem printable_newline {l : List Char} (h : ∀ c ∈ l, Printable c) : '\n' ∉ l := fun hc => by
  have := h _ hc
  revert this; unfold Printable; decide

/-- A file is read line by line. -/
theorem yaml_unlines {ls : List (List Char)} (h : ∀ l ∈ ls, ∀ c ∈ l, Printable c) : yaml (unlines ls) = yamlValue (ls.flatMap yamlLine) := by
  rw [yaml, unlines_chars h, if_pos rfl, textLines_unlines fun l hl => printable_newline (h l hl)]
  simp [yamlLine, cutComment, trimRight]

theorem flatMap_lines {file : List (List Char)} {lss : List (List (ℕ × List Char))} (h : List.Forall₂ YamlLine file lss)
    (hc : ∀ l ∈ lss.flatten, Content l.2) : file.flatMap yamlLine = lss.flatten := by
  induction h with
  | nil => rfl
  | cons h1 _ ih =>
    simp only [List.flatten_cons, List.mem_append] at hc
    rw [List.flatMap_cons, List.flatten_cons, h1.read fun l hl => hc l (.inl hl), ih fun l hl => hc l (.inr hl)]

theorem writes_yaml {file : List (List Char)} {v : Val ℚ} (h : Writes file v) (hl : ∀ l ∈ file, ∀ c ∈ l, Printable c) :
    yaml (unlines file) = some v := by
  obtain ⟨i, lss, h1, h2⟩ := h
  obtain ⟨h3, h4, h5, h6⟩ := h2.ok
  rw [yaml_unlines hl, flatMap_lines h1 h3]
  have h7 := h6 (4 * (lss.flatten.length + 1)) (by omega) [] (by intro l hl; simp at hl)
  rw [List.append_nil] at h7
  obtain ⟨⟨j, s⟩, l, h8⟩ := List.exists_cons_of_ne_nil h5
  have h9 : j = i := h4 (j, s) (by rw [h8]; rfl)
  subst h9
  rw [h8] at h7 ⊢
  simp only [yamlValue, h7]

end Geec

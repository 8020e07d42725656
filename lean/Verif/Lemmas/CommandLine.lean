import Verif.Model.CommandLine
import Verif.Spec.CommandLine
import Mathlib.Data.List.Induction
import Mathlib.Tactic.Common
/-
Lemmas for C121: the parser of the command line accepts exactly the lines described by `Words`.
-/
namespace Geec

theorem word_dashes : "--".toList = ['-', '-'] := by decide +kernel
theorem word_help : "--help".toList = ['-', '-', 'h', 'e', 'l', 'p'] := by decide +kernel
theorem word_version : "--version".toList = ['-', '-', 'v', 'e', 'r', 's', 'i', 'o', 'n'] := by decide +kernel
theorem word_log : "--log".toList = ['-', '-', 'l', 'o', 'g'] := by decide +kernel
theorem word_config : "--config".toList = ['-', '-', 'c', 'o', 'n', 'f', 'i', 'g'] := by decide +kernel
theorem word_output : "--output".toList = ['-', '-', 'o', 'u', 't', 'p', 'u', 't'] := by decide +kernel
theorem word_gradient : "--gradient".toList = ['-', '-', 'g', 'r', 'a', 'd', 'i', 'e', 'n', 't'] := by decide +kernel
theorem word_noGradient : "--no-gradient".toList = ['-', '-', 'n', 'o', '-', 'g', 'r', 'a', 'd', 'i', 'e', 'n', 't'] := by decide +kernel

theorem splitEq_plain : ∀ {n : Arg}, '=' ∉ n → splitEq n = (n, none)
  | [], _ => rfl
  | c :: n, h => by
    simp only [List.mem_cons, not_or] at h
    rw [splitEq, if_neg (Ne.symm h.1), splitEq_plain h.2]

theorem splitEq_value : ∀ {n : Arg} (v : Arg), '=' ∉ n → splitEq (n ++ '=' :: v) = (n, some v)
  | [], v, _ => by simp [splitEq]
  | c :: n, v, h => by
    simp only [List.mem_cons, not_or] at h
    rw [List.cons_append, splitEq, if_neg (Ne.symm h.1), splitEq_value v h.2]

theorem splitEq_join : ∀ (a : Arg), '=' ∉ (splitEq a).1 ∧ a = (splitEq a).1 ++ (match (splitEq a).2 with | none => [] | some v => '=' :: v)
  | [] => by simp [splitEq]
  | c :: a => by
    obtain ⟨h1, h2⟩ := splitEq_join a
    by_cases h : c = '='
    · simp [splitEq, h]
    · rw [splitEq, if_neg h]
      exact ⟨by simp [h1, Ne.symm h], by simpa using h2⟩

/-- the names of options: two hyphens and a letter; no equals sign -/
structure OptionNames (kind : Arg → Option OptKind) (flags valued : List Arg) : Prop where
  flag : ∀ n, kind n = some .flag ↔ n ∈ flags
  value : ∀ n, kind n = some .value ↔ n ∈ valued
  shape : ∀ n, n ∈ flags ∨ n ∈ valued → n.head? = some '-' ∧ 2 < n.length ∧ '=' ∉ n

theorem operand_iff (a : Arg) : Operand a ↔ isOption a = false := by
  unfold Operand isOption
  rcases a with _ | ⟨c, _ | ⟨c', a⟩⟩
  · simp
  · simp [em']
  · simp

theorem words_of_parse {kind : Arg → Option OptKind} {flags valued : List Arg} (h : OptionNames kind flags valued) (mixed : Bool) :
    ∀ (n : Nat) (l : List Arg), l.length ≤ n → ∀ os r, parseArgs kind mixed l = some (os, r) → Words flags valued mixed l os r := by
  intro n
  induction n with
  | zero =>
    intro l hl os r hp
    obtain rfl : l = [] := List.length_eq_zero_iff.mp (by omega)
    simp only [parseArgs, Option.some.injEq, Prod.mk.injEq] at hp
    obtain ⟨rfl, rfl⟩ := hp
    exact .nil
  | succ n ih =>
    intro l hl os r hp
    rcases l with _ | ⟨a, l⟩
    · simp only [parseArgs, Option.some.injEq, Prod.mk.injEq] at hp
      obtain ⟨rfl, rfl⟩ := hp
      exact .nil
    simp only [List.length_cons] at hl
    unfold parseArgs at hp
    by_cases h1 : a = "--".toList
    · rw [if_pos h1] at hp
      simp only [Option.some.injEq, Prod.mk.injEq] at hp
      obtain ⟨rfl, rfl⟩ := hp
      rw [h1]
      exact .stop l
    rw [if_neg h1] at hp
    by_cases h2 : isOption a = true
    · rw [if_pos h2] at hp
      obtain ⟨j1, j2⟩ := splitEq_join a
      generalize splitEq a = s at hp j1 j2
      obtain ⟨nm, v⟩ := s
      dsimp only at hp j1 j2
      rcases hk : kind nm with _ | k
      · rw [hk] at hp; cases hp
      · rw [hk] at hp
        rcases k with _ | _
        · rcases v with _ | v
          · dsimp only at hp
            rcases hq : parseArgs kind mixed l with _ | ⟨os', r'⟩
            · rw [hq] at hp; cases hp
            rw [hq] at hp
            simp only [Option.map_some, Option.some.injEq, Prod.mk.injEq] at hp
            obtain ⟨rfl, rfl⟩ := hp
            obtain rfl : a = nm := by simpa using j2
            exact .flag _ _ _ _ ((h.flag _).mp hk) (ih l (by omega) _ _ hq)
          · cases hp
        · rcases v with _ | v
          · obtain rfl : a = nm := by simpa using j2
            rcases l with _ | ⟨v, l⟩
            · cases hp
            · dsimp only at hp
              rcases hq : parseArgs kind mixed l with _ | ⟨os', r'⟩
              · rw [hq] at hp; cases hp
              rw [hq] at hp
              simp only [Option.map_some, Option.some.injEq, Prod.mk.injEq] at hp
              obtain ⟨rfl, rfl⟩ := hp
              simp only [List.length_cons] at hl
              exact .separate _ _ _ _ _ ((h.value _).mp hk) (ih l (by omega) _ _ hq)
          · dsimp only at hp
            rcases hq : parseArgs kind mixed l with _ | ⟨os', r'⟩
            · rw [hq] at hp; cases hp
            rw [hq] at hp
            simp only [Option.map_some, Option.some.injEq, Prod.mk.injEq] at hp
            obtain ⟨rfl, rfl⟩ := hp
            obtain rfl : a = nm ++ '=' :: v := by simpa using j2
            exact .attached _ _ _ _ _ ((h.value _).mp hk) (ih l (by omega) _ _ hq)
    · rw [if_neg h2] at hp
      have ho : Operand a := (operand_iff a).mpr (by simpa using h2)
      rcases mixed with _ | _
      · simp only [Bool.false_eq_true, if_false, Option.some.injEq, Prod.mk.injEq] at hp
        obtain ⟨rfl, rfl⟩ := hp
        exact .command _ _ rfl ho
      · simp only [if_true] at hp
        rcases hq : parseArgs kind true l with _ | ⟨os', r'⟩
        · rw [hq] at hp; cases hp
        rw [hq] at hp
        simp only [Option.map_some, Option.some.injEq, Prod.mk.injEq] at hp
        obtain ⟨rfl, rfl⟩ := hp
        exact .operand _ _ _ _ rfl ho (ih l (by omega) _ _ hq)

theorem Words.parse {kind : Arg → Option OptKind} {flags valued : List Arg} (h : OptionNames kind flags valued) {mixed : Bool} {l : List Arg}
    {os : List (Arg × Arg)} {r : List Arg} (hw : Words flags valued mixed l os r) : parseArgs kind mixed l = some (os, r) := by
  have opt : ∀ n, n ∈ flags ∨ n ∈ valued → ∀ t, n ++ t ≠ "--".toList ∧ isOption (n ++ t) = true := by
    intro n hn t
    obtain ⟨h1, h2, -⟩ := h.shape n hn
    rcases n with _ | ⟨c, n⟩
    · simp at h1
    · simp only [List.head?_cons, Option.some.injEq] at h1
      simp only [List.length_cons] at h2
      constructor
      · intro he
        have := congrArg List.length he
        rw [word_dashes] at this
        simp at this
        omega
      · simp [isOption, h1]
        omega
  have ope : ∀ a, Operand a → a ≠ "--".toList := by
    rintro a ha rfl
    rw [word_dashes] at ha
    rcases ha with ha | ha <;> simp at ha
  induction hw with
  | nil => rfl
  | stop l => rw [parseArgs.eq_def]; dsimp only; rw [if_pos rfl]
  | flag n l os r hn hw ih =>
    obtain ⟨k1, k2⟩ := opt n (.inl hn) []
    rw [List.append_nil] at k1 k2
    rw [parseArgs.eq_def]; dsimp only; rw [if_neg k1, if_pos k2, splitEq_plain (h.shape n (.inl hn)).2.2]
    simp [(h.flag n).mpr hn, ih]
  | separate n v l os r hn hw ih =>
    obtain ⟨k1, k2⟩ := opt n (.inr hn) []
    rw [List.append_nil] at k1 k2
    rw [parseArgs.eq_def]; dsimp only; rw [if_neg k1, if_pos k2, splitEq_plain (h.shape n (.inr hn)).2.2]
    simp [(h.value n).mpr hn, ih]
  | attached n v l os r hn hw ih =>
    obtain ⟨k1, k2⟩ := opt n (.inr hn) ('=' :: v)
    rw [parseArgs.eq_def]; dsimp only; rw [if_neg k1, if_pos k2, splitEq_value v (h.shape n (.inr hn)).2.2]
    simp [(h.value n).mpr hn, ih]
  | operand a l os r hm ha hw ih =>
    rw [parseArgs.eq_def]; dsimp only; rw [if_neg (ope a ha), if_neg (by rw [(operand_iff a).mp ha]; simp), if_pos hm, ih]
    rfl
  | command a l hm ha =>
    rw [parseArgs.eq_def]; dsimp only; rw [if_neg (ope a ha), if_neg (by rw [(operand_iff a).mp ha]; simp), hm]
    rfl

theorem parse_iff {kind : Arg → Option OptKind} {flags valued : List Arg} (h : OptionNames kind flags valued) (mixed : Bool) (l : List Arg)
    (os : List (Arg × Arg)) (r : List Arg) : parseArgs kind mixed l = some (os, r) ↔ Words flags valued mixed l os r :=
  ⟨fun hp => words_of_parse h mixed _ l (Nat.le_refl _) os r hp, fun hw => hw.parse h⟩

theorem appNames : OptionNames appOption ["--version".toList, "--log".toList, "--help".toList] [] where
  flag n := by simp only [appOption, List.mem_cons, List.not_mem_nil, or_false]; split <;> simp_all
  value n := by simp only [appOption, List.not_mem_nil, iff_false]; split <;> simp
  shape := by
    simp only [List.mem_cons, List.not_mem_nil, or_false, word_version, word_log, word_help]
    rintro n (rfl | rfl | rfl) <;> decide

theorem runNames : OptionNames runOption ["--gradient".toList, "--no-gradient".toList, "--help".toList] ["--config".toList] where
  flag n := by
    simp only [runOption, List.mem_cons, List.not_mem_nil, or_false]
    split
    · rename_i h; rw [h]; simp [word_config, word_gradient, word_noGradient, word_help]
    · split <;> simp_all
  value n := by
    simp only [runOption, List.mem_cons, List.not_mem_nil, or_false]
    split
    · rename_i h; simp [h]
    · split <;> simp_all
  shape := by
    simp only [List.mem_cons, List.not_mem_nil, or_false, word_gradient, word_noGradient, word_help, word_config]
    rintro n ((rfl | rfl | rfl) | rfl) <;> decide

theorem configNames : OptionNames configOption ["--help".toList] ["--output".toList] where
  flag n := by
    simp only [configOption, List.mem_cons, List.not_mem_nil, or_false]
    split
    · rename_i h; rw [h]; simp [word_output, word_help]
    · split <;> simp_all
  value n := by
    simp only [configOption, List.mem_cons, List.not_mem_nil, or_false]
    split
    · rename_i h; simp [h]
    · split <;> simp_all
  shape := by
    simp only [List.mem_cons, List.not_mem_nil, or_false, word_output, word_help]
    rintro n (rfl | rfl) <;> decide

theorem help_iff (os : List (Arg × Arg)) : os.any (·.1 = "--help".toList) = true ↔ AsksHelp os := by
  simp only [List.any_eq_true, decide_eq_true_eq, AsksHelp]
  constructor
  · rintro ⟨⟨n, v⟩, h, rfl⟩; exact ⟨v, h⟩
  · rintro ⟨v, h⟩; exact ⟨_, h, rfl⟩

theorem lastValue_iff (n : Arg) (os : List (Arg × Arg)) (v : Arg) :
    LastValue n os v ↔ os.foldl (fun w o => if o.1 = n then o.2 else w) [] = v := by
  induction os using List.reverseRecOn generalizing v with
  | nil =>
    constructor
    · rintro (⟨b, a, he, -⟩ | ⟨hv, -⟩)
      · exact absurd he.symm (by rw [List.append_eq_nil_iff]; rintro ⟨-, h⟩; cases h)
      · exact hv.symm
    · intro h
      exact .inr ⟨h.symm, fun w hw => by cases hw⟩
  | append_singleton os o ih =>
    obtain ⟨m, w⟩ := o
    rw [List.foldl_append, List.foldl_cons, List.foldl_nil]
    by_cases hm : m = n
    · subst hm
      rw [if_pos rfl]
      constructor
      · rintro (⟨b, a, he, hn⟩ | ⟨-, hn⟩)
        · rcases List.eq_nil_or_concat a with rfl | ⟨a, x, rfl⟩
          · have := List.append_inj' he rfl
            simpa using this.2
          · have he' : os ++ [(m, w)] = (b ++ (m, v) :: a) ++ [x] := by simpa using he
            have := List.append_inj' he' rfl
            have hx : x = (m, w) := by simpa using this.2.symm
            exact absurd (by simp [hx]) (hn w)
        · exact absurd (by simp) (hn w)
      · rintro rfl
        exact .inl ⟨os, [], rfl, by simp⟩
    · rw [if_neg hm, ← ih]
      constructor
      · rintro (⟨b, a, he, hn⟩ | ⟨hv, hn⟩)
        · rcases List.eq_nil_or_concat a with rfl | ⟨a, x, rfl⟩
          · have := List.append_inj' he rfl
            simp only [List.cons.injEq, Prod.mk.injEq, and_true] at this
            exact absurd this.2.1 hm
          · have he' : os ++ [(m, w)] = (b ++ (n, v) :: a) ++ [x] := by simpa using he
            have := List.append_inj' he' rfl
            exact .inl ⟨b, a, this.1, fun w' h' => hn w' (by simp [h'])⟩
        · exact .inr ⟨hv, fun w' h' => hn w' (by simp [h'])⟩
      · rintro (⟨b, a, rfl, hn⟩ | ⟨hv, hn⟩)
        · refine .inl ⟨b, a ++ [(m, w)], by simp, fun w' h' => ?_⟩
          simp only [List.mem_append, List.mem_singleton, Prod.mk.injEq] at h'
          rcases h' with h' | ⟨h', -⟩
          · exact hn w' h'
          · exact hm h'.symm
        · refine .inr ⟨hv, fun w' h' => ?_⟩
          simp only [List.mem_append, List.mem_singleton, Prod.mk.injEq] at h'
          rcases h' with h' | ⟨h', -⟩
          · exact hn w' h'
          · exact hm h'.symm

theorem gradient_iff (os : List (Arg × Arg)) : WantsGradient os ↔
    os.foldl (fun v o => if o.1 = "--gradient".toList then true else if o.1 = "--no-gradient".toList then false else v) false = true := by
  have hne : "--no-gradient".toList ≠ "--gradient".toList := by rw [word_gradient, word_noGradient]; decide
  unfold WantsGradient
  generalize "--no-gradient".toList = ng at *
  generalize "--gradient".toList = yg at *
  induction os using List.reverseRecOn with
  | nil =>
    constructor
    · rintro ⟨b, a, v, he, -⟩
      exact absurd he.symm (by rw [List.append_eq_nil_iff]; rintro ⟨-, h⟩; cases h)
    · intro h; cases h
  | append_singleton os o ih =>
    obtain ⟨m, w⟩ := o
    rw [List.foldl_append, List.foldl_cons, List.foldl_nil]
    have step : (∃ before after v, os ++ [(m, w)] = before ++ (yg, v) :: after ∧ ∀ w, (ng, w) ∉ after) ↔ m = yg ∨ ((∃ before after v, os = before ++ (yg, v) :: after ∧ ∀ w, (ng, w) ∉ after) ∧ m ≠ ng) := by
      constructor
      · rintro ⟨b, a, v, he, hn⟩
        rcases List.eq_nil_or_concat a with rfl | ⟨a, x, rfl⟩
        · have := List.append_inj' he rfl
          simp only [List.cons.injEq, Prod.mk.injEq, and_true] at this
          exact .inl this.2.1
        · have he' : os ++ [(m, w)] = (b ++ (yg, v) :: a) ++ [x] := by simpa using he
          have := List.append_inj' he' rfl
          have hx : x = (m, w) := by simpa using this.2.symm
          exact .inr ⟨⟨b, a, v, this.1, fun w' h' => hn w' (by simp [h'])⟩, fun h => hn w (by simp [hx, h])⟩
      · rintro (rfl | ⟨⟨b, a, v, rfl, hn⟩, hm⟩)
        · exact ⟨os, [], w, rfl, by simp⟩
        · refine ⟨b, a ++ [(m, w)], v, by simp, fun w' h' => ?_⟩
          simp only [List.mem_append, List.mem_singleton, Prod.mk.injEq] at h'
          rcases h' with h' | ⟨h', -⟩
          · exact hn w' h'
          · exact hm h'.symm
    refine step.trans ((or_congr Iff.rfl (and_congr ih Iff.rfl)).trans ?_)
    generalize List.foldl _ false os = v
    by_cases h1 : m = yg
    · simp [h1]
    · by_cases h2 : m = ng
      · simp [h2, hne]
      · simp only [h1, h2, if_false, false_or, ne_eq, not_false_eq_true, and_true]

end Geec

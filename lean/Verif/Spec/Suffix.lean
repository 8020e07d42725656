import Verif.Model.Shipped
import Mathlib.Tactic.Linarith
/-
What it means to replace the suffix of a file name, said without the functions of the model, and the proof that the model does that.
-/
namespace Geec

theorem stem_of_no_dot {a : List Char} (h : '.' ∉ a) : stem a = a := by
  have : lastIndex '.' a = none := by
    simp only [lastIndex, Option.map_eq_none_iff, List.findIdx?_eq_none_iff, List.mem_reverse]
    intro x hx
    simp only [decide_eq_false_iff_not]
    rintro rfl; exact h hx
  simp [stem, this]

/-- the name has no suffix in the sense of pathlib: its last dot, if any, is its first or its last character -/
def NoSuffix (a : List Char) : Prop := ∀ p s, a = p ++ '.' :: s → p = [] ∨ s = [] ∨ '.' ∈ s

theorem stem_of_no_suffix {a : List Char} (h : NoSuffix a) : stem a = a := by
  unfold stem
  rcases hl : lastIndex '.' a with _ | i
  · rfl
  · dsimp only
    by_cases hi : 0 < i ∧ i < a.length - 1
    · exfalso
      simp only [lastIndex, Option.map_eq_some_iff] at hl
      obtain ⟨j, hj, hji⟩ := hl
      rw [List.findIdx?_eq_some_iff_getElem] at hj
      obtain ⟨hjl, hj1, hj2⟩ := hj
      rw [List.length_reverse] at hjl
      have hlt : i < a.length := by omega
      have hdot : a[i] = '.' := by
        have := hj1
        simp only [List.getElem_reverse, decide_eq_true_eq] at this
        rw [← this]; congr 1; omega
      have hsplit : a = a.take i ++ '.' :: a.drop (i + 1) := by
        conv_lhs => rw [← List.take_append_drop i a, List.drop_eq_getElem_cons hlt, hdot]
      rcases h _ _ hsplit with h1 | h1 | h1
      · have := congrArg List.length h1; rw [List.length_take, List.length_nil] at this; omega
      · have := congrArg List.length h1; simp at this; omega
      · obtain ⟨k, hk, hk2⟩ := List.mem_iff_getElem.mp h1
        rw [List.length_drop] at hk
        rw [List.getElem_drop] at hk2
        have := hj2 (a.length - 1 - (i + 1 + k)) (by omega)
        simp only [List.getElem_reverse, decide_eq_true_eq] at this
        apply this
        rw [← hk2]; congr 1; omega
    · rw [if_neg hi]

theorem noSuffix_of_no_dot {a : List Char} (h : '.' ∉ a.tail) : NoSuffix a := by
  rintro (_ | ⟨c, p⟩) s rfl
  · exact .inl rfl
  · exact absurd (by simp) h

theorem stem_of_ext {base ext : List Char} (hb : base ≠ []) (he : ext ≠ []) (hd : '.' ∉ ext) :
    stem (base ++ '.' :: ext) = base := by
  have h1 : lastIndex '.' (base ++ '.' :: ext) = some base.length := by
    have h2 : (base ++ '.' :: ext).reverse.findIdx? (· = '.') = some ext.length := by
      rw [List.findIdx?_eq_some_iff_getElem]
      have hl : ext.length < (base ++ '.' :: ext).reverse.length := by simp
      refine ⟨hl, ?_, ?_⟩
      · simp [List.getElem_reverse]
      · intro j hj
        have hm : (base ++ '.' :: ext).reverse[j] ∈ ext := by
          simp only [List.reverse_append, List.reverse_cons, List.append_assoc, List.singleton_append]
          rw [List.getElem_append_left (by simpa using hj)]
          exact List.mem_reverse.mp (List.getElem_mem _)
        simp only [decide_eq_true_eq]
        intro h; exact hd (h ▸ hm)
    simp only [lastIndex, h2, Option.map_some, List.length_append, List.length_cons]
    congr 1; omega
  have hb' : 0 < base.length := List.length_pos_iff.mpr hb
  have he' : 0 < ext.length := List.length_pos_iff.mpr he
  simp only [stem, h1]
  rw [if_pos ⟨hb', by simp; omega⟩]
  simp

/-- `out` is the file name `name` with its suffix replaced by `ext`: a name without a suffix gets it appended; in another name it takes the place of the last dot and
what comes after it.  What the documentation of pathlib says of `with_suffix`, called at /repo/geec/api.py:45 and /repo/geec/cli.py:124. -/
def SuffixReplaced (ext name out : List Char) : Prop :=
  (NoSuffix name ∧ out = name ++ ext) ∨ ∃ base old, base ≠ [] ∧ old ≠ [] ∧ '.' ∉ old ∧ name = base ++ '.' :: old ∧ out = base ++ ext

/-- the same for the last component of a path -/
def PathSuffixReplaced (ext : List Char) (p q : List (List Char)) : Prop :=
  ∃ dir name out, p = dir ++ [name] ∧ SuffixReplaced ext name out ∧ q = dir ++ [out]

theorem suffix_cases (name : List Char) : NoSuffix name ∨ ∃ base old, base ≠ [] ∧ old ≠ [] ∧ '.' ∉ old ∧ name = base ++ '.' :: old := by
  by_cases h : NoSuffix name
  · exact .inl h
  · right
    unfold NoSuffix at h
    push Not at h
    obtain ⟨p, s, h1, h2, h3, h4⟩ := h
    exact ⟨p, s, h2, h3, h4, h1⟩

theorem suffixReplaced_iff {ext name out : List Char} : SuffixReplaced ext name out ↔ out = stem name ++ ext := by
  constructor
  · rintro (⟨h, rfl⟩ | ⟨base, old, h1, h2, h3, rfl, rfl⟩)
    · rw [stem_of_no_suffix h]
    · rw [stem_of_ext h1 h2 h3]
  · rintro rfl
    rcases suffix_cases name with h | ⟨base, old, h1, h2, h3, rfl⟩
    · exact .inl ⟨h, by rw [stem_of_no_suffix h]⟩
    · exact .inr ⟨base, old, h1, h2, h3, rfl, by rw [stem_of_ext h1 h2 h3]⟩

theorem pathSuffixReplaced_iff {ext : List Char} {p q : List (List Char)} : PathSuffixReplaced ext p q ↔ withSuffix ext p = .ok q := by
  constructor
  · rintro ⟨dir, name, out, rfl, h, rfl⟩
    rw [suffixReplaced_iff] at h
    simp [withSuffix, h]
  · intro h
    rcases List.eq_nil_or_concat p with rfl | ⟨dir, name, rfl⟩
    · simp [withSuffix] at h
    · simp only [withSuffix, List.concat_eq_append, List.getLast?_concat, List.dropLast_concat, Except.ok.injEq] at h
      exact ⟨dir, name, _, by simp, suffixReplaced_iff.mpr rfl, h.symm⟩

/-- `gravity.v1.txt` becomes `gravity.v1.csv`, `.hidden` becomes `.hidden.csv` -/
example : SuffixReplaced ".csv".toList "gravity.v1.txt".toList "gravity.v1.csv".toList ∧ SuffixReplaced ".csv".toList ".hidden".toList ".hidden.csv".toList :=
  ⟨.inr ⟨"gravity.v1".toList, "txt".toList, by decide, by decide, by decide, by decide, by decide⟩, .inl ⟨noSuffix_of_no_dot (by decide), by decide⟩⟩

end Geec

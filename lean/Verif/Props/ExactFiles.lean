import Verif.Props.CsvFiles
/-
C108, exactly: which files of points are accepted, and what they are read as; for which readings of numbers the claim of C108 is true.
-/
namespace Geec
open Arith

variable {S : Type}

theorem csvPoint_iff {lib : CsvLib S} {fs : List (List Char)} {q : V3 S × Bool} : csvPoint lib fs = .ok q ↔ PointFields lib fs q := by
  refine ⟨fun h => ?_, csvPoint_ok⟩
  unfold csvPoint at h
  split at h
  · rename_i x i y j z k hm
    have hl : fs.length = 3 := by simpa using congrArg List.length hm
    obtain ⟨a, b, c, rfl⟩ := List.length_eq_three.mp hl
    simp only [List.map_cons, List.map_nil, List.cons.injEq, and_true] at hm
    cases h
    exact ⟨a, b, c, i, j, k, rfl, hm.1, hm.2.1, hm.2.2, rfl⟩
  · cases h

/-- every line of such a file has two fields at least -/
theorem two_fields {ls : List (FileLine × Eol)} {last : FileLine} (hls : ∀ l ∈ ls, l.1.Ok) (hlast : last.Ok) {fs : List (List Char)}
    (h : fs ∈ ls.flatMap (fun l => l.1.fields) ++ last.fields) : 2 ≤ fs.length := by
  have key : ∀ l : FileLine, l.Ok → fs ∈ l.fields → 2 ≤ fs.length := by
    intro l hl hf
    cases l with
    | blank b => cases hf
    | row gs =>
      simp only [FileLine.fields, List.mem_singleton] at hf
      rw [hf, List.length_map]
      exact hl.1
  rcases List.mem_append.mp h with h | h
  · obtain ⟨l, hl, hf⟩ := List.mem_flatMap.mp h
    exact key _ (hls l hl) hf
  · exact key _ hlast h

/-- **C108**, exactly: a file is accepted if and only if its first line that is not blank consists of three numbers, and every other one of three
numbers or of two, with the empty text counting as a number; the missing coordinates are then what the empty text is as a number. -/
theorem C108_exact (lib : CsvLib S) {ls : List (FileLine × Eol)} {last : FileLine} (hls : ∀ l ∈ ls, l.1.Ok) (hlast : last.Ok) (c : Coords S) :
    readCsvText lib (fileText ls last) = .ok c ↔ ∃ (fs : List (List Char)) (rest : List (List (List Char))) (q : V3 S × Bool) (qs : List (V3 S × Bool)),
      ls.flatMap (fun l => l.1.fields) ++ last.fields = fs :: rest ∧ PointFields lib fs q ∧
      List.Forall₂ (fun gs q => PointFields lib gs q ∨ ∃ a b, gs = [a, b] ∧ PointFields lib [a, b, []] q) rest qs ∧
      c = ⟨(q :: qs).map (·.1), (q :: qs).all (·.2)⟩ := by
  constructor
  · intro h
    have h2 : ∀ gs ∈ ls.flatMap (fun l => l.1.fields) ++ last.fields, 2 ≤ gs.length := fun gs => two_fields hls hlast
    unfold readCsvText at h
    rw [csvTokens_file hls hlast] at h
    generalize ls.flatMap (fun l => l.1.fields) ++ last.fields = rows at h h2
    cases rows with
    | nil => cases h
    | cons fs rest =>
      have h : (csvSquare (fs :: rest) >>= fun ls => ls.mapM (csvPoint lib) >>= fun ps => pure (⟨ps.map (·.1), ps.all (·.2)⟩ : Coords S)) = .ok c := h
      rw [csvSquare] at h
      by_cases hle : (rest.all fun m => decide (m.length ≤ fs.length)) = true
      · rw [if_pos hle] at h
        have h : ((fs :: rest.map fun m => m ++ List.replicate (fs.length - m.length) []).mapM (csvPoint lib) >>=
          fun ps => pure (⟨ps.map (·.1), ps.all (·.2)⟩ : Coords S)) = .ok c := h
        cases hm : (fs :: rest.map fun m => m ++ List.replicate (fs.length - m.length) []).mapM (csvPoint lib) with
        | error e => rw [hm] at h; cases h
        | ok ps =>
          rw [hm] at h
          have hc : c = ⟨ps.map (·.1), ps.all (·.2)⟩ := by cases h; rfl
          have hf := mapM_ok.mp hm
          cases hf with
          | cons hq hr =>
            rename_i q qs
            have hq := csvPoint_iff.mp hq
            have hlen : fs.length = 3 := by obtain ⟨a, b, c, i, j, k, rfl, -⟩ := hq; rfl
            refine ⟨fs, rest, q, qs, rfl, hq, ?_, hc⟩
            rw [List.forall₂_map_left_iff] at hr
            rw [hlen] at hr
            have hle : ∀ gs ∈ rest, gs.length ≤ 3 := by simpa [hlen] using hle
            have hr' := List.forall₂_iff_get.mp hr
            refine List.forall₂_iff_get.mpr ⟨hr'.1, fun n h1 h3 => ?_⟩
            have hp := csvPoint_iff.mp (hr'.2 n h1 h3)
            have hg := List.get_mem rest ⟨n, h1⟩
            generalize rest.get ⟨n, h1⟩ = gs at hp hg
            match gs, h2 gs (List.mem_cons_of_mem _ hg), hle gs hg with
            | [a, b], _, _ => exact .inr ⟨a, b, rfl, hp⟩
            | [a, b, d], _, _ => exact .inl hp
      · rw [if_neg hle] at h
        cases h
  · rintro ⟨fs, rest, q, qs, hrows, hf, hr, rfl⟩
    exact C108_short lib hls hlast hrows hf hr

/-- **C108**, exactly, by the reading of numbers: every file with a line of other than three fields is refused if and only if the empty text is not a
number.  (For pandas it is: `NaN`.) -/
theorem C108_exact_numbers (lib : CsvLib S) {a : List Char} (ha : PlainField a) (hn : (lib.number a).isSome) :
    (∀ (ls : List (FileLine × Eol)) (last : FileLine), (∀ l ∈ ls, l.1.Ok) → last.Ok →
      (∃ fs ∈ ls.flatMap (fun l => l.1.fields) ++ last.fields, fs.length ≠ 3) → ∃ e, readCsvText lib (fileText ls last) = .error e) ↔
    lib.number [] = none := by
  obtain ⟨⟨x, i⟩, hx⟩ := Option.isSome_iff_exists.mp hn
  constructor
  · intro h
    by_contra h0
    obtain ⟨⟨z, k⟩, hz⟩ := Option.ne_none_iff_exists'.mp h0
    have hok : FileLine.Ok (.row [.plain a, .plain a, .plain a]) := ⟨by simp, by intro f hf; simp at hf; subst hf; exact ha⟩
    have hok' : FileLine.Ok (.row [.plain a, .plain a]) := ⟨by simp, by intro f hf; simp at hf; subst hf; exact ha⟩
    obtain ⟨e, he⟩ := h [(.row [.plain a, .plain a, .plain a], .lf)] (.row [.plain a, .plain a]) (by simpa using hok) hok'
      ⟨[a, a], by simp [FileLine.fields, FileField.value], by simp⟩
    have := C108_short lib (ls := [(.row [.plain a, .plain a, .plain a], .lf)]) (last := .row [.plain a, .plain a]) (by simpa using hok) hok'
      (fs := [a, a, a]) (rest := [[a, a]]) rfl (q := (⟨x, x, x⟩, i && i && i)) (qs := [(⟨x, x, z⟩, i && i && k)]) ⟨a, a, a, i, i, i, rfl, hx, hx, hx, rfl⟩
      (.cons (.inr ⟨a, a, rfl, a, a, [], i, i, k, rfl, hx, hx, hz, rfl⟩) .nil)
    rw [this] at he
    cases he
  · rintro h0 ls last hls hlast ⟨fs, hfs, hlen⟩
    cases hr : readCsvText lib (fileText ls last) with
    | error e => exact ⟨e, rfl⟩
    | ok c =>
      obtain ⟨fs0, rest, q, qs, hrows, hf, hrest, -⟩ := (C108_exact lib hls hlast c).mp hr
      have h3 : ∀ gs q, PointFields lib gs q → gs.length = 3 := by
        rintro gs q ⟨a, b, c, i, j, k, rfl, -⟩; rfl
      rw [hrows] at hfs
      rcases List.mem_cons.mp hfs with rfl | hm
      · exact absurd (h3 _ _ hf) hlen
      · obtain ⟨n, hn⟩ := List.getElem?_of_mem hm
        obtain ⟨q', -, h | ⟨a, b, rfl, a', b', c', i', j', k', he, -, -, hc, -⟩⟩ := forall₂_get hrest hn
        · exact absurd (h3 _ _ h) hlen
        · simp only [List.cons.injEq, and_true] at he
          rw [← he.2.2, h0] at hc
          cases hc

namespace Toy

/-- C108_exact_numbers applies to the reading of numbers of the examples, for which the empty text is a number (`NaN`) -/
example : ¬ ∀ (ls : List (FileLine × Eol)) (last : FileLine), (∀ l ∈ ls, l.1.Ok) → last.Ok →
    (∃ fs ∈ ls.flatMap (fun l => l.1.fields) ++ last.fields, fs.length ≠ 3) → ∃ e, readCsvText csvLib (fileText ls last) = .error e := by
  rw [C108_exact_numbers csvLib (a := "5".toList) (by decide) (by decide +kernel)]
  decide +kernel

/-- C108_exact applies: this file is accepted, and its second point has no third coordinate -/
example : ∃ fs rest q qs, shortFile.flatMap (fun l => l.1.fields) ++ (FileLine.blank []).fields = fs :: rest ∧ PointFields csvLib fs q ∧
    List.Forall₂ (fun gs q => PointFields csvLib gs q ∨ ∃ a b, gs = [a, b] ∧ PointFields csvLib [a, b, []] q) rest qs ∧
    (⟨[⟨some 3, some 5, some 7⟩, ⟨some 4, some 6, none⟩, ⟨some 4, some 6, some (19/2)⟩], false⟩ : Coords (Option Rat)) =
      ⟨(q :: qs).map (·.1), (q :: qs).all (·.2)⟩ :=
  (C108_exact csvLib (by decide +kernel) (by decide) _).mp (by rw [shortFile_text]; exact shortFile_read)

end Toy

end Geec

import Verif.Model.Timing
import Std.Data.String.ToInt
import Std.Data.String.ToNat
import Mathlib.Data.List.Basic
import Mathlib.Tactic.Ring
/-
C100: the messages of timing.py.
-/
namespace Geec

theorem digitChar_inj {a b : Nat} (ha : a < 10) (hb : b < 10) (h : Nat.digitChar a = Nat.digitChar b) : a = b := by
  have : ∀ a : Fin 10, ∀ b : Fin 10, Nat.digitChar a = Nat.digitChar b → a = b := by decide
  exact congrArg Fin.val (this ⟨a, ha⟩ ⟨b, hb⟩ h)

theorem twoDigits_inj {a b : Nat} (ha : a < 100) (hb : b < 100) (h : twoDigits a = twoDigits b) : a = b := by
  simp only [twoDigits, List.cons.injEq, and_true] at h
  have h1 := digitChar_inj (by omega) (by omega) h.1
  have h2 := digitChar_inj (by omega) (by omega) h.2
  omega

theorem sixDigits_inj {a b : Nat} (ha : a < 1000000) (hb : b < 1000000) (h : sixDigits a = sixDigits b) : a = b := by
  simp only [sixDigits] at h
  obtain ⟨h12, h3⟩ := List.append_inj h rfl
  obtain ⟨h1, h2⟩ := List.append_inj h12 rfl
  have := twoDigits_inj (by omega) (by omega) h1
  have := twoDigits_inj (by omega) (by omega) h2
  have := twoDigits_inj (by omega) (by omega) h3
  omega

theorem natRepr_isDigit {n : Nat} {c : Char} (h : c ∈ (Nat.repr n).toList) : c.isDigit = true := by
  rw [Nat.toList_repr] at h
  exact Nat.isDigit_of_mem_toDigits (by decide) (by decide) h

/-- a text that ends at the first occurrence of a character -/
theorem split_at_char {c : Char} {a b x y : List Char} (ha : c ∉ a) (hb : c ∉ b) (h : a ++ c :: x = b ++ c :: y) : a = b ∧ x = y := by
  induction a generalizing b with
  | nil =>
    cases b with
    | nil => simpa using h
    | cons d b => simp only [List.nil_append, List.cons_append, List.cons.injEq] at h; exact absurd (h.1 ▸ List.mem_cons_self ..) hb
  | cons d a ih =>
    cases b with
    | nil => simp only [List.nil_append, List.cons_append, List.cons.injEq] at h; exact absurd (h.1 ▸ List.mem_cons_self ..) ha
    | cons e b =>
      simp only [List.cons_append, List.cons.injEq] at h
      obtain ⟨rfl, h⟩ := h
      obtain ⟨rfl, rfl⟩ := ih (fun hm => ha (List.mem_cons_of_mem _ hm)) (fun hm => hb (List.mem_cons_of_mem _ hm)) h
      exact ⟨rfl, rfl⟩

theorem clock_inj {h1 h2 m1 m2 s1 s2 : Nat} {x y : List Char} (hm1 : m1 < 60) (hm2 : m2 < 60) (hs1 : s1 < 60) (hs2 : s2 < 60)
    (h : (Nat.repr h1).toList ++ ':' :: twoDigits m1 ++ ':' :: twoDigits s1 ++ x = (Nat.repr h2).toList ++ ':' :: twoDigits m2 ++ ':' :: twoDigits s2 ++ y) :
    h1 = h2 ∧ m1 = m2 ∧ s1 = s2 ∧ x = y := by
  have hd : ∀ n, ':' ∉ (Nat.repr n).toList := fun n hm => absurd (natRepr_isDigit hm) (by decide)
  simp only [List.append_assoc, List.cons_append] at h
  obtain ⟨e1, h⟩ := split_at_char (hd _) (hd _) h
  obtain ⟨e2, h⟩ := List.append_inj h rfl
  simp only [List.cons.injEq, true_and] at h
  obtain ⟨e3, h⟩ := List.append_inj h rfl
  exact ⟨Nat.repr_injective (String.toList_inj.mp e1), twoDigits_inj (by omega) (by omega) e2, twoDigits_inj (by omega) (by omega) e3, h⟩

theorem intRepr_no_space (n : Int) : ' ' ∉ (Int.repr n).toList := by
  intro h
  cases n with
  | ofNat n => exact absurd (natRepr_isDigit h) (by decide)
  | negSucc n =>
    simp only [Int.repr, String.toList_append, List.mem_append] at h
    rcases h with h | h
    · exact absurd h (by decide)
    · exact absurd (natRepr_isDigit h) (by decide)

theorem twoDigits_digit {n : Nat} (hn : n < 100) {c : Char} (h : c ∈ twoDigits n) : c.isDigit = true := by
  have hd : ∀ k, k < 10 → (Nat.digitChar k).isDigit = true := by decide
  simp only [twoDigits, List.mem_cons, List.not_mem_nil, or_false] at h
  rcases h with rfl | rfl
  · exact hd _ (by omega)
  · exact hd _ (by omega)

/-- **C100** The text of an elapsed time tells the elapsed time, to the microsecond. -/
theorem C100_elapsed {a b : Int} (h : elapsedText a = elapsedText b) : a = b := by
  have key : ∀ us : Int, ' ' ∉ (Nat.repr ((us % 86400000000).toNat / 1000000 / 3600)).toList ++ ':' :: twoDigits ((us % 86400000000).toNat / 1000000 / 60 % 60) ++
      ':' :: twoDigits ((us % 86400000000).toNat / 1000000 % 60) ++
      (if (us % 86400000000).toNat % 1000000 = 0 then [] else '.' :: sixDigits ((us % 86400000000).toNat % 1000000)) := by
    intro us hm
    have ht : ∀ n, n < 100 → ' ' ∉ twoDigits n := fun n hn hm => absurd (twoDigits_digit hn hm) (by decide)
    simp only [List.mem_append, List.mem_cons] at hm
    rcases hm with ((hm | hm | hm) | hm | hm) | hm
    · exact absurd (natRepr_isDigit hm) (by decide)
    · exact absurd hm (by decide)
    · exact ht _ (by omega) hm
    · exact absurd hm (by decide)
    · exact ht _ (by omega) hm
    · split at hm
      · cases hm
      · simp only [sixDigits, List.mem_append, List.mem_cons] at hm
        rcases hm with hm | (hm | hm) | hm
        · exact absurd hm (by decide)
        · exact ht _ (by omega) hm
        · exact ht _ (by omega) hm
        · exact ht _ (by omega) hm
  have tail : ∀ {a b : Int}, (Nat.repr ((a % 86400000000).toNat / 1000000 / 3600)).toList ++ ':' :: twoDigits ((a % 86400000000).toNat / 1000000 / 60 % 60) ++
      ':' :: twoDigits ((a % 86400000000).toNat / 1000000 % 60) ++
      (if (a % 86400000000).toNat % 1000000 = 0 then [] else '.' :: sixDigits ((a % 86400000000).toNat % 1000000)) =
      (Nat.repr ((b % 86400000000).toNat / 1000000 / 3600)).toList ++ ':' :: twoDigits ((b % 86400000000).toNat / 1000000 / 60 % 60) ++
      ':' :: twoDigits ((b % 86400000000).toNat / 1000000 % 60) ++
      (if (b % 86400000000).toNat % 1000000 = 0 then [] else '.' :: sixDigits ((b % 86400000000).toNat % 1000000)) →
      (a % 86400000000).toNat = (b % 86400000000).toNat := by
    intro a b h
    obtain ⟨h1, h2, h3, h4⟩ := clock_inj (by omega) (by omega) (by omega) (by omega) h
    have h5 : (a % 86400000000).toNat % 1000000 = (b % 86400000000).toNat % 1000000 := by
      split at h4 <;> split at h4
      · omega
      · cases h4
      · cases h4
      · exact sixDigits_inj (by omega) (by omega) (List.cons.inj h4).2
    omega
  simp only [elapsedText] at h
  by_cases ha : a / 86400000000 = 0
  · by_cases hb : b / 86400000000 = 0
    · rw [if_pos ha, if_pos hb] at h
      have := tail h
      omega
    · rw [if_pos ha, if_neg hb] at h
      exfalso
      simp only [List.nil_append] at h
      apply key a
      rw [h]
      simp
  · by_cases hb : b / 86400000000 = 0
    · rw [if_neg ha, if_pos hb] at h
      exfalso
      simp only [List.nil_append] at h
      apply key b
      rw [← h]
      simp
    · rw [if_neg ha, if_neg hb] at h
      simp only [List.append_assoc, List.cons_append] at h
      obtain ⟨e1, h⟩ := split_at_char (intRepr_no_space _) (intRepr_no_space _) h
      have e := Int.repr_injective (String.toList_inj.mp e1)
      rw [e] at h
      simp only [List.cons.injEq, true_and] at h
      have h := List.append_cancel_left h
      simp only [List.nil_append, List.cons.injEq, true_and] at h
      have := tail (a := a) (b := b) (by simpa only [List.append_assoc, List.cons_append] using h)
      omega

theorem elapsedText_ne (us : Int) : (elapsedText us).isEmpty = false := by
  simp [elapsedText]

/-- **C100** The log of a program: a block of three messages at the start, one block of four messages for every call of `midlog` and one at the end, each with the
date, the label and the time elapsed since the start. -/
theorem C100_program (r0 : Reading) (calls : List (List Char × Reading)) (r1 : Reading) :
    timedProgram r0 calls r1 =
      [List.replicate 40 '-', r0.date ++ " - Start Program".toList, List.replicate 40 '-'] ++
      ((calls ++ [("End Program".toList, r1)]).map fun c => [List.replicate 40 '-', c.2.date ++ " - ".toList ++ c.1,
        "Elapsed time: ".toList ++ elapsedText (c.2.now - r0.now), List.replicate 40 '-']).flatten := by
  have h : ∀ us, timingLog = timingLog ∧ (elapsedText us).isEmpty = false := fun us => ⟨rfl, elapsedText_ne us⟩
  simp only [timedProgram, midlog, endlog, timingLog, (h _).2, Bool.false_eq_true, if_false, List.map_append, List.flatten_append, List.map_cons, List.map_nil,
    List.flatten_cons, List.flatten_nil, List.append_nil, List.append_assoc, List.cons_append, List.nil_append]
  rfl

/-- **C100** Programs with the same log took the same times: start and end, and every call. -/
theorem C100_times (r0 r0' : Reading) (calls calls' : List (List Char × Reading)) (r1 r1' : Reading)
    (h : timedProgram r0 calls r1 = timedProgram r0' calls' r1') :
    calls.map (fun c => c.2.now - r0.now) = calls'.map (fun c => c.2.now - r0'.now) ∧ r1.now - r0.now = r1'.now - r0'.now := by
  rw [C100_program, C100_program] at h
  obtain ⟨-, h⟩ := List.append_inj h rfl
  have key : ∀ (l l' : List (List Char × Reading)), (l.map fun c => [List.replicate 40 '-', c.2.date ++ " - ".toList ++ c.1,
        "Elapsed time: ".toList ++ elapsedText (c.2.now - r0.now), List.replicate 40 '-']).flatten =
      (l'.map fun c => [List.replicate 40 '-', c.2.date ++ " - ".toList ++ c.1,
        "Elapsed time: ".toList ++ elapsedText (c.2.now - r0'.now), List.replicate 40 '-']).flatten →
      l.map (fun c => c.2.now - r0.now) = l'.map (fun c => c.2.now - r0'.now) := by
    intro l
    induction l with
    | nil => intro l' h; cases l' with
      | nil => rfl
      | cons c l' => simp at h
    | cons c l ih => intro l' h; cases l' with
      | nil => simp at h
      | cons c' l' =>
        simp only [List.map_cons, List.flatten_cons] at h ⊢
        obtain ⟨h1, h2⟩ := List.append_inj h rfl
        simp only [List.cons.injEq, and_true, true_and] at h1
        rw [ih l' h2, C100_elapsed (List.append_cancel_left h1.2)]
  have h := key _ _ h
  simp only [List.map_append, List.map_cons, List.map_nil] at h
  obtain ⟨h1, h2⟩ := List.append_inj' h rfl
  exact ⟨h1, (List.cons.inj h2).1⟩

/-- C100: texts of elapsed times -/
example : elapsedText 3661000000 = "1:01:01".toList ∧ elapsedText 90000500000 = "1 day, 1:00:00.500000".toList ∧
    elapsedText (-1000000) = "-1 day, 23:59:59".toList ∧ elapsedText 0 = "0:00:00".toList := by decide +kernel

/-- C100: a program with one call -/
example : timedProgram ⟨"2024-05-01 12:00:00".toList, 0⟩ [("step".toList, ⟨"2024-05-01 12:00:01".toList, 1000000⟩)] ⟨"2024-05-01 12:00:02".toList, 2000000⟩ =
    [List.replicate 40 '-', "2024-05-01 12:00:00 - Start Program".toList, List.replicate 40 '-',
     List.replicate 40 '-', "2024-05-01 12:00:01 - step".toList, "Elapsed time: 0:00:01".toList, List.replicate 40 '-',
     List.replicate 40 '-', "2024-05-01 12:00:02 - End Program".toList, "Elapsed time: 0:00:02".toList, List.replicate 40 '-'] := by decide +kernel

end Geec

import Verif.Model.Utils
import Verif.Model.RealArith
import Mathlib.Tactic.LinearCombination
/-
C46: cross_product.
-/
namespace Geec
open Arith
set_option linter.unusedSectionVars false

/-- a vector of length 3 as an argument of `cross_product` -/
def V3.arr {S : Type} (v : V3 S) : List S := [v.x, v.y, v.z]

theorem crossVec_arr {S : Type} [Arith S] (a b : V3 S) : crossVec a.arr b.arr = .ok (.vec (cross a b).arr) := rfl

/-- **C46.** On two 3-vectors (exact arithmetic) the result is *the* vector product: it is orthogonal to both arguments,
antisymmetric, satisfies Lagrange's identity and is right-handed. -/
theorem C46_vector_product (a b : V3 ℝ) : ∃ c : V3 ℝ,
    crossProduct (.r1 a.arr) (.r1 b.arr) = .ok (.vec c.arr) ∧
    a.x * c.x + a.y * c.y + a.z * c.z = 0 ∧ b.x * c.x + b.y * c.y + b.z * c.z = 0 ∧
    c.x ^ 2 + c.y ^ 2 + c.z ^ 2 + (a.x * b.x + a.y * b.y + a.z * b.z) ^ 2 =
      (a.x ^ 2 + a.y ^ 2 + a.z ^ 2) * (b.x ^ 2 + b.y ^ 2 + b.z ^ 2) ∧
    crossProduct (.r1 b.arr) (.r1 a.arr) = .ok (.vec [-c.x, -c.y, -c.z]) ∧
    0 ≤ a.x * (b.y * c.z - b.z * c.y) + a.y * (b.z * c.x - b.x * c.z) + a.z * (b.x * c.y - b.y * c.x) := by
  refine ⟨cross a b, crossVec_arr a b, ?_, ?_, ?_, ?_, ?_⟩ <;>
    simp only [cross, crossProduct, crossRow, crossVec, V3.arr, Arith.mul, Arith.sub]
  · ring
  · ring
  · ring
  · congr 3 <;> (try ring_nf) 
  · have : a.x * (b.y * (a.x * b.y - a.y * b.x) - b.z * (a.z * b.x - a.x * b.z)) +
        a.y * (b.z * (a.y * b.z - a.z * b.y) - b.x * (a.x * b.y - a.y * b.x)) +
        a.z * (b.x * (a.z * b.x - a.x * b.z) - b.y * (a.y * b.z - a.z * b.y)) =
        (a.y * b.z - a.z * b.y) ^ 2 + (a.z * b.x - a.x * b.z) ^ 2 + (a.x * b.y - a.y * b.x) ^ 2 := by ring
    rw [this]; positivity

/-- the elementary right-handed product -/
example : crossProduct (.r1 [(1 : ℝ), 0, 0]) (.r1 [0, 1, 0]) = .ok (.vec [0, 0, 1]) := by
  simp [crossProduct, crossRow, crossVec, Arith.mul, Arith.sub]

variable {S : Type} [Arith S]

theorem mapM_map_ok {α β γ : Type} (f : β → Except PyErr γ) (k : α → β) (r : α → γ) (l : List α)
    (h : ∀ a ∈ l, f (k a) = .ok (r a)) : (l.map k).mapM f = .ok (l.map r) := by
  induction l with
  | nil => rfl
  | cons a l ih =>
    simp only [List.map_cons, List.mapM_cons, h a (by simp), ih (fun x hx => h x (by simp [hx])), bind, Except.bind,
      pure, Except.pure]

/-- **C46.** A 2-D first or second argument (rows of length 3) is mapped over, row by row (any arithmetic). -/
theorem C46_rows (a b : V3 S) (as bs : List (V3 S)) :
    crossProduct (.r2 (as.map V3.arr)) (.r1 b.arr) = .ok (.stack (as.map fun a => .vec (cross a b).arr)) ∧
    crossProduct (.r1 a.arr) (.r2 (bs.map V3.arr)) = .ok (.stack (bs.map fun b => .vec (cross a b).arr)) ∧
    crossProduct (.r2 (as.map V3.arr)) (.r2 (bs.map V3.arr)) =
      .ok (.stack (as.map fun a => .stack (bs.map fun b => .vec (cross a b).arr))) := by
  have h : ∀ a : V3 S, crossRow a.arr (.r2 (bs.map V3.arr)) = .ok (.stack (bs.map fun b => .vec (cross a b).arr)) := by
    intro a
    simp only [crossRow, mapM_map_ok (crossVec a.arr) V3.arr (fun b => .vec (cross a b).arr) bs
      (fun b _ => crossVec_arr a b), bind, Except.bind, pure, Except.pure]
  refine ⟨?_, h a, ?_⟩
  · simp only [crossProduct, mapM_map_ok (fun v => crossRow v (.r1 b.arr)) V3.arr (fun a => .vec (cross a b).arr) as
      (fun a _ => crossVec_arr a b), bind, Except.bind, pure, Except.pure]
  · simp only [crossProduct, mapM_map_ok (fun v => crossRow v (.r2 (bs.map V3.arr))) V3.arr _ as (fun a _ => h a),
      bind, Except.bind, pure, Except.pure]

/-- **C46.** Vectors that are not both of length 3 raise `TypeError`. -/
theorem C46_shape (a b : List S) (h : a.length ≠ 3 ∨ b.length ≠ 3) :
    crossProduct (.r1 a) (.r1 b) = .error .typeError := by
  simp only [crossProduct, crossRow, crossVec]
  split
  · simp at h
  · rfl

/-- a row that raises makes the whole raise -/
theorem mapM_typeError {f : List S → Except PyErr (NdArr S)} {as : List (List S)} (hf : ∀ a, f a = .error .typeError ∨ ∃ r, f a = .ok r)
    (hex : ∃ a ∈ as, f a = .error .typeError) : as.mapM f = .error .typeError := by
  induction as with
  | nil => simp at hex
  | cons a as ih =>
    rw [List.mapM_cons]
    rcases hf a with ha | ⟨r, ha⟩
    · simp [ha, bind, Except.bind]
    · obtain ⟨x, hx, hx2⟩ := hex
      rcases List.mem_cons.mp hx with rfl | hx
      · rw [ha] at hx2; cases hx2
      · simp [ha, ih ⟨x, hx, hx2⟩, bind, Except.bind]

theorem crossVec_cases (u v : List S) : crossVec u v = .error .typeError ∨ ∃ r, crossVec u v = .ok r := by
  simp only [crossVec]
  split
  · exact Or.inr ⟨_, rfl⟩
  · exact Or.inl rfl

theorem crossVec_rows_cases (u : List S) (vs : List (List S)) :
    crossRow u (.r2 vs) = .error .typeError ∨ ∃ r, crossRow u (.r2 vs) = .ok r := by
  by_cases h : ∃ v ∈ vs, crossVec u v = .error .typeError
  · left
    simp only [crossRow, mapM_typeError (crossVec_cases u) h, bind, Except.bind]
  · right
    push Not at h
    have : ∀ vs : List (List S), (∀ v ∈ vs, crossVec u v ≠ .error .typeError) → ∃ r, vs.mapM (crossVec u) = .ok r := by
      intro vs
      induction vs with
      | nil => intro _; exact ⟨[], rfl⟩
      | cons v vs ih =>
        intro h
        obtain ⟨r, hr⟩ := ih fun v hv => h v (by simp [hv])
        obtain ⟨q, hq⟩ := (crossVec_cases u v).resolve_left (h v (by simp))
        exact ⟨q :: r, by rw [List.mapM_cons, hq, hr]; rfl⟩
    obtain ⟨r, hr⟩ := this vs h
    exact ⟨.stack r, by simp only [crossRow, hr, bind, Except.bind, pure, Except.pure]⟩

/-- **C46.** A 2-D argument with a row that is not of length 3 raises `TypeError` (rows before it do not matter). -/
theorem C46_shape_rows (as : List (List S)) (b : List S) (h : ∃ a ∈ as, a.length ≠ 3 ∨ b.length ≠ 3) :
    crossProduct (.r2 as) (.r1 b) = .error .typeError ∧ crossProduct (.r1 b) (.r2 as) = .error .typeError := by
  obtain ⟨a, ha, hl⟩ := h
  constructor
  · simp only [crossProduct, crossRow, mapM_typeError (f := fun v => crossVec v b) (fun v => crossVec_cases v b)
      ⟨a, ha, C46_shape a b hl⟩, bind, Except.bind]
  · simp only [crossProduct, crossRow, mapM_typeError (f := crossVec b) (crossVec_cases b)
      ⟨a, ha, C46_shape b a hl.symm⟩, bind, Except.bind]

/-- **C46.** Two 2-D arguments with a pair of rows that are not both of length 3 raise `TypeError`. -/
theorem C46_shape_table (as bs : List (List S)) (h : ∃ a ∈ as, ∃ b ∈ bs, a.length ≠ 3 ∨ b.length ≠ 3) :
    crossProduct (.r2 as) (.r2 bs) = .error .typeError := by
  obtain ⟨a, ha, b, hb, hl⟩ := h
  have h1 : crossRow a (.r2 bs) = .error .typeError := by
    simp only [crossRow, mapM_typeError (f := crossVec a) (crossVec_cases a) ⟨b, hb, C46_shape a b hl⟩, bind, Except.bind]
  simp only [crossProduct, mapM_typeError (f := fun v => crossRow v (.r2 bs)) (fun v => crossVec_rows_cases v bs) ⟨a, ha, h1⟩, bind, Except.bind]

/-- a 2 x 3 array and an array whose second row is too short -/
example : crossProduct (.r2 [[1, 2, 3], [4, 5, 6]]) (.r2 [[1, 0, 0], [1, 0]]) = (.error .typeError : Except PyErr (NdArr ℝ)) :=
  C46_shape_table _ _ ⟨_, List.mem_cons_self, [1, 0], by simp, .inr (by simp)⟩

end Geec

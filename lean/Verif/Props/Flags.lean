import Verif.Lemmas.Gradient
import Verif.Spec.Toy
/-
C03, C04, C05: the gradient flag, the tensor.
-/
namespace Geec
open Arith
variable {S : Type} [Arith S]

/-- **C03.** Whatever the body and the arithmetic: if a new object answers `(G, T)` with `gradient=True`, then with
`gradient=False` it answers too, with the same vector. -/
theorem C03_gradient_flag_same_G (p : Poly S) (obs : V3 S) (density Gc : S) {G : V3 S} {T : M3 S}
    (h : (Call.mk obs density Gc true).onNew p = .ok (G, T)) :
    ∃ T', (Call.mk obs density Gc false).onNew p = .ok (G, T') := by
  simp only [Call.onNew, Call.run, getGravity_fst] at h ⊢
  obtain ⟨y, h1, h2, _⟩ := gAct_polyFaces obs density Gc p.faces 0 V3.zeros M3.zeros M3.zeros _ _ gSim_fresh _ h
  refine ⟨y.2, ?_⟩
  simp only at h2
  rw [h1, ← h2]

/-- **C04.** With `gradient=False` every answer has the zero tensor, also on an object in any state, if
`0 + 0 = 0` (true of IEEE and of exact arithmetic). -/
theorem C04_no_gradient_zero_tensor (h0 : (zero : S) +. zero = zero) (p : Poly S) (obs : V3 S) (density Gc : S)
    (m : Mem S) {G : V3 S} {T : M3 S} (h : (getGravity p obs density Gc false m).1 = .ok (G, T)) :
    T = M3.zeros := by
  rw [getGravity_fst] at h
  refine post_polyFaces (Q := fun T => T = M3.zeros) ?_ ?_ p.faces 0 V3.zeros M3.zeros rfl m _ h
  · intros; rfl
  · intro a b ha hb
    subst ha; subst hb
    simp [M3.zeros, M3.add, V3.zeros, V3.add, h0]

theorem faceField_symm (un : V3 S) (dp1 w : S) (dw v : V3 S) (d : M3 S) (density Gc : S) (gr : Bool) :
    (faceField un dp1 w dw v d density Gc gr).2.Symm := by
  cases gr <;> rfl

theorem M3.Symm.add {a b : M3 S} (ha : a.Symm) (hb : b.Symm) : (a.add b).Symm := by
  rcases a with ⟨⟨a0, a1, a2⟩, ⟨a3, a4, a5⟩, ⟨a6, a7, a8⟩⟩
  rcases b with ⟨⟨b0, b1, b2⟩, ⟨b3, b4, b5⟩, ⟨b6, b7, b8⟩⟩
  simp only [M3.Symm, M3.transpose, M3.mk.injEq, V3.mk.injEq, true_and, and_true] at ha hb
  simp only [M3.Symm, M3.transpose, M3.add, V3.add, M3.mk.injEq, V3.mk.injEq, true_and, and_true]
  obtain ⟨⟨h1, h2⟩, ⟨h3, h4⟩, h5, h6⟩ := ha
  obtain ⟨⟨k1, k2⟩, ⟨k3, k4⟩, k5, k6⟩ := hb
  subst h1 h2 h4 k1 k2 k4
  simp

/-- **C05.** Whatever the arithmetic, the state of the object and the arguments, the returned tensor is symmetric:
`T[0][1] = T[1][0]`, `T[0][2] = T[2][0]`, `T[1][2] = T[2][1]`. -/
theorem C05_tensor_symmetric (p : Poly S) (obs : V3 S) (density Gc : S) (gr : Bool) (m : Mem S) {G : V3 S} {T : M3 S}
    (h : (getGravity p obs density Gc gr m).1 = .ok (G, T)) :
    T.r0.y = T.r1.x ∧ T.r0.z = T.r2.x ∧ T.r1.z = T.r2.y := by
  have : T.Symm := by
    rw [getGravity_fst] at h
    exact post_polyFaces (Q := M3.Symm) (fun _ _ _ _ _ _ => faceField_symm _ _ _ _ _ _ _ _ _)
      (fun _ _ => M3.Symm.add) p.faces 0 V3.zeros M3.zeros rfl m _ h
  have h1 := congrArg (fun t : M3 S => t.r0.y) this
  have h2 := congrArg (fun t : M3 S => t.r0.z) this
  have h3 := congrArg (fun t : M3 S => t.r1.z) this
  exact ⟨h1.symm, h2.symm, h3.symm⟩

section
attribute [local instance] toyArith
/-- the calls of C03, C04 and C05 do return -/
example : ((Call.mk (⟨3, 5, 7⟩ : V3 Rat) 2 1 true).onNew Toy.poly).isOk ∧
    ((Call.mk (⟨3, 5, 7⟩ : V3 Rat) 2 1 false).onNew Toy.poly).isOk := by decide +kernel
example : (zero : Rat) +. zero = zero := by decide +kernel
end

end Geec

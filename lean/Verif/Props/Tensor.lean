import Verif.Lemmas.TensorFace
import Verif.Props.Failure
import Verif.Props.Newton
import Mathlib.Order.Filter.Finite
/-
C19: the tensor is the gradient of the field.
-/
namespace Geec
open Arith MeasureTheory
noncomputable section

/-- additive quantities of the returned tensor are sums over the faces -/
theorem facesValue_tensor {p : Poly ℝ} {s : V3 ℝ} {ρ Gc : ℝ} {gr : Bool} {φ : M3 ℝ → ℝ} {ψ : Face ℝ → ℝ}
    (hφ : ∀ a b, φ (a.add b) = φ a + φ b) (fs : List (Face ℝ)) :
    ∀ i G T v, (∀ (k : Nat) f g, fs[k]? = some f → faceValue p s ρ Gc gr (i + k) f = .ok g → φ g.2 = ψ f) →
      facesValue p s ρ Gc gr i fs G T = .ok v → φ v.2 = φ T + (fs.map ψ).sum := by
  induction fs with
  | nil => intro i G T v _ h; cases h; simp
  | cons f fs ih =>
    intro i G T v h hv
    simp only [facesValue] at hv
    split at hv
    · cases hv
    · next g t hgt =>
      have := ih (i + 1) (G.add g) (T.add t) v (fun k f g hk hg => h (k + 1) f g hk (by rwa [show i + (k + 1) = i + 1 + k by omega])) hv
      have h0 := h 0 f (g, t) rfl (by rw [Nat.add_zero]; exact hgt)
      rw [this, hφ, h0, List.map_cons, List.sum_cons]
      ring

section
variable {h : Hull ℝ} {inHull : V3 ℝ → Bool} {p : Poly ℝ}

/-- what an edge contributes to the loop of its face -/
def edgeTerm (p : Poly ℝ) (s w : V3 ℝ) (i j : Nat) : ℝ :=
  match p.edgeAt i j with
  | some e => rdot w (V3.smul (lineJ (e.start.sub s) (e.fin.sub e.start)) (e.fin.sub e.start))
  | none => 0

theorem loop_terms (hh : h.IsHull) (hp : mkPoly h inHull = .ok p) (s w : V3 ℝ) (k : Fin p.faces.length) :
    rdot w (loopJ (p.faces[k]).pa (p.faces[k]).pb (p.faces[k]).pc s) = ∑ j : Fin 3, edgeTerm p s w k j := by
  have hf : p.faces[(k : Nat)]? = some p.faces[k] := List.getElem?_eq_getElem k.2
  obtain ⟨-, -, a, b, c, e0, e1, e2, hE, -, hpts', hh0, hh1, hh2⟩ := edges_of_hull hh hp hf
  have ea : (p.faces[k]).pa = h.pt a := by unfold Face.pa; rw [hpts']; rfl
  have eb : (p.faces[k]).pb = h.pt b := by unfold Face.pb; rw [hpts']; rfl
  have ec : (p.faces[k]).pc = h.pt c := by unfold Face.pc; rw [hpts']; rfl
  have t0 : p.edgeAt k 0 = some e0 := by unfold Poly.edgeAt; rw [hf]; simp only [Option.bind_some]; rw [hE]; rfl
  have t1 : p.edgeAt k 1 = some e1 := by unfold Poly.edgeAt; rw [hf]; simp only [Option.bind_some]; rw [hE]; rfl
  have t2 : p.edgeAt k 2 = some e2 := by unfold Poly.edgeAt; rw [hf]; simp only [Option.bind_some]; rw [hE]; rfl
  rw [Fin.sum_univ_three]
  unfold edgeTerm
  simp only [Fin.val_zero, Fin.val_one, Fin.val_two, t0, t1, t2, hh0, hh1, hh2]
  unfold loopJ
  rw [rdot_add, rdot_add, ea, eb, ec]

/-- **the line integrals of a closed surface cancel** -/
theorem loops_cancel (hh : h.IsHull) (hp : mkPoly h inHull = .ok p) (s w : V3 ℝ) :
    ∑ k : Fin p.faces.length, rdot w (loopJ (p.faces[k]).pa (p.faces[k]).pb (p.faces[k]).pc s) = 0 := by
  simp only [loop_terms hh hp]
  rw [← Fintype.sum_prod_type (fun x : Fin p.faces.length × Fin 3 => edgeTerm p s w x.1 x.2)]
  have ex : ∀ x : Fin p.faces.length × Fin 3, ∃ y : Fin p.faces.length × Fin 3, ∃ e e', p.edgeAt x.1 x.2 = some e ∧ p.edgeAt y.1 y.2 = some e' ∧
      e.twin = some ((y.1 : Nat), (y.2 : Nat)) ∧ e'.twin = some ((x.1 : Nat), (x.2 : Nat)) ∧ e'.start = e.fin ∧ e'.fin = e.start := by
    intro x
    have hf : p.faces[(x.1 : Nat)]? = some p.faces[x.1] := List.getElem?_eq_getElem x.1.2
    obtain ⟨-, -, -, -, -, e0, e1, e2, hE, -⟩ := edges_of_hull hh hp hf
    obtain ⟨e, he⟩ : ∃ e, (p.faces[x.1]).edges[(x.2 : Nat)]? = some e := by
      rw [hE]; exact ⟨_, List.getElem?_eq_getElem (by simp)⟩
    obtain ⟨i', j', f', e', ht, hf', he', ht', -, -, -, h1, h2, -⟩ := C25_twins hh hp hf he
    obtain ⟨-, -, -, -, -, e0', e1', e2', hE', -⟩ := edges_of_hull hh hp hf'
    have hi : i' < p.faces.length := (List.getElem?_eq_some_iff.mp hf').1
    have hj : j' < 3 := by
      have := (List.getElem?_eq_some_iff.mp he').1
      rw [hE'] at this; simpa using this
    refine ⟨(⟨i', hi⟩, ⟨j', hj⟩), e, e', ?_, ?_, ht, ht', h1, h2⟩
    · unfold Poly.edgeAt; rw [hf]; exact he
    · unfold Poly.edgeAt; rw [hf']; exact he'
  choose σ hσ using ex
  have hinv : Function.Involutive σ := by
    intro x
    obtain ⟨e, e', h1, h2, h3, h4, -⟩ := hσ x
    obtain ⟨d, d', k1, k2, k3, -⟩ := hσ (σ x)
    rw [h2] at k1
    cases k1
    rw [h4] at k3
    simp only [Option.some.injEq, Prod.mk.injEq] at k3
    exact Prod.ext (Fin.ext k3.1.symm) (Fin.ext k3.2.symm)
  have hs := Equiv.sum_comp hinv.toPerm (fun x : Fin p.faces.length × Fin 3 => edgeTerm p s w x.1 x.2)
  have hneg : ∀ x, edgeTerm p s w (σ x).1 (σ x).2 = -edgeTerm p s w x.1 x.2 := by
    intro x
    obtain ⟨e, e', h1, h2, -, -, h5, h6⟩ := hσ x
    unfold edgeTerm
    rw [h1, h2]
    simp only [h5, h6]
    have e1 : e.fin.sub s = (e.start.sub s).add (e.fin.sub e.start) := by refine V3.ext' ?_ ?_ ?_ <;> simp
    have e2 : e.start.sub e.fin = (e.fin.sub e.start).neg := by refine V3.ext' ?_ ?_ ?_ <;> simp
    rw [e1, e2, lineJ_reverse, rdot_smul, rdot_neg, rdot_smul]
    ring
  have hs' : ∑ x : Fin p.faces.length × Fin 3, edgeTerm p s w (σ x).1 (σ x).2 = ∑ x : Fin p.faces.length × Fin 3, edgeTerm p s w x.1 x.2 := hs
  simp only [hneg, Finset.sum_neg_distrib] at hs'
  linarith

/-- the station lies in the plane of no triangle of the surface -/
def Hull.OffPlanes (h : Hull ℝ) (s : V3 ℝ) : Prop :=
  ∀ t ∈ h.simplices, rdot (cross ((h.pt t.2.1).sub (h.pt t.1)) ((h.pt t.2.2).sub (h.pt t.1))) ((h.pt t.1).sub s) ≠ 0

theorem OffPlanes.face (hh : h.IsHull) (hp : mkPoly h inHull = .ok p) {s : V3 ℝ} (h0 : h.OffPlanes s) {k : Nat} {f : Face ℝ}
    (hf : p.faces[k]? = some f) : rdot f.un (f.pa.sub s) ≠ 0 := by
  obtain ⟨t, ht, -, hperm, hn, -, -⟩ := face_facts hh hp hf
  have h1 := h0 t (List.mem_of_getElem? ht)
  rw [← det_of_cross] at h1
  intro h2
  have hd := hn.det s
  rw [h2, mul_zero] at hd
  apply h1
  rcases perm3 hperm with ⟨e1, e2, e3⟩ | ⟨e1, e2, e3⟩ | ⟨e1, e2, e3⟩ | ⟨e1, e2, e3⟩ | ⟨e1, e2, e3⟩ | ⟨e1, e2, e3⟩ <;> rw [e1, e2, e3] at hd
  all_goals (simp [det3, rdot] at hd ⊢; linarith)

/-- `n × W = -V`: the part of the slope that is not symmetric -/
theorem faceSlope_skew {f : Face ℝ} (hn : IsNormal f.un f.pa f.pb f.pc) {s : V3 ℝ} (h0 : rdot f.un (f.pa.sub s) ≠ 0) (e d : V3 ℝ) :
    faceSlope f s e d - faceSlope f s d e = -rdot (cross e d) (loopJ f.pa f.pb f.pc s) := by
  have he := faceW_normal_form hn h0 e
  have hd := faceW_normal_form hn h0 d
  have hJ : rdot f.un (loopJ f.pa f.pb f.pc s) = 0 := by
    obtain ⟨o1, o2⟩ := hn.ortho3
    unfold loopJ
    rw [rdot_add, rdot_add, rdot_smul, rdot_smul, rdot_smul, hn.ortho1, o1, o2]; ring
  have hu := hn.unit
  unfold faceSlope
  rw [faceH_comm _ _ _ d e]
  change _ = _ + rdot (cross f.un (loopJ f.pa f.pb f.pc s)) e at he
  change _ = _ + rdot (cross f.un (loopJ f.pa f.pb f.pc s)) d at hd
  set J := loopJ f.pa f.pb f.pc s
  set n := f.un
  have key : rdot n e * rdot (cross n J) d - rdot n d * rdot (cross n J) e = -(rdot n n * rdot (cross e d) J) + rdot n J * rdot n (cross e d) := by
    simp [rdot]; ring
  rw [hu, hJ] at key
  linear_combination rdot n e * hd - rdot n d * he + key

theorem faceSlope_linear {f : Face ℝ} (hn : IsNormal f.un f.pa f.pb f.pc) {s : V3 ℝ} (h0 : rdot f.un (f.pa.sub s) ≠ 0) (e d : V3 ℝ) :
    faceSlope f s e d = faceSlope f s e ⟨1, 0, 0⟩ * d.x + faceSlope f s e ⟨0, 1, 0⟩ * d.y + faceSlope f s e ⟨0, 0, 1⟩ * d.z := by
  have hH := faceH_normal_form hn h0 e
  have hS : ∀ d, faceSlope f s e d = rdot f.un (f.pa.sub s) * (npSign (rdot f.un (f.pa.sub s)) * rdot (dOmega (f.pa.sub s) (f.pb.sub s) (f.pc.sub s)) d * rdot f.un e +
      rdot (cross f.un (loopG f.pa f.pb f.pc s d)) e) -
      rdot f.un d * (vlen (cross (f.pb.sub f.pa) (f.pc.sub f.pa)) * faceW (f.pa.sub s) (f.pb.sub s) (f.pc.sub s) e) := by
    intro d
    unfold faceSlope
    rw [← hH]; ring
  rw [hS, hS, hS, hS]
  generalize faceW (f.pa.sub s) (f.pb.sub s) (f.pc.sub s) e = W
  generalize npSign (rdot f.un (f.pa.sub s)) = sg
  generalize rdot f.un (f.pa.sub s) = H
  generalize dOmega (f.pa.sub s) (f.pb.sub s) (f.pc.sub s) = dw
  generalize vlen (cross (f.pb.sub f.pa) (f.pc.sub f.pa)) = A
  unfold loopG
  generalize edgeGrad (f.pa.sub s) (f.pb.sub f.pa) = g0
  generalize edgeGrad (f.pb.sub s) (f.pc.sub f.pb) = g1
  generalize edgeGrad (f.pc.sub s) (f.pa.sub f.pc) = g2
  generalize (f.pb.sub f.pa).sdiv (vlen (f.pb.sub f.pa)) = u0
  generalize (f.pc.sub f.pb).sdiv (vlen (f.pc.sub f.pb)) = u1
  generalize (f.pa.sub f.pc).sdiv (vlen (f.pa.sub f.pc)) = u2
  simp only [rdot, cross_x, cross_y, cross_z, add_x, add_y, add_z, smul_x, smul_y, smul_z, mul_one, mul_zero, add_zero, zero_add]
  ring

/-- regular positions off the planes form an open set -/
theorem offPlanes_near {s : V3 ℝ} (hs : h.Regular s) (h0 : h.OffPlanes s) (d : V3 ℝ) :
    ∀ᶠ x in nhds (0 : ℝ), h.Regular (s.add (V3.smul x d)) ∧ h.OffPlanes (s.add (V3.smul x d)) := by
  have hall : ∀ᶠ x in nhds (0 : ℝ), ∀ t ∈ {t | t ∈ h.simplices},
      (repsilon * vlen (cross ((h.pt t.2.1).sub (h.pt t.1)) ((h.pt t.2.2).sub (h.pt t.1))) <
        |rdot (cross ((h.pt t.2.1).sub (h.pt t.1)) ((h.pt t.2.2).sub (h.pt t.1))) ((h.pt t.1).sub (s.add (V3.smul x d)))| ∧
      ∀ i ∈ ({t.1, t.2.1, t.2.2} : Set Nat), ∀ j ∈ ({t.1, t.2.1, t.2.2} : Set Nat), i ≠ j → ClearOf (h.pt i) (h.pt j) (s.add (V3.smul x d))) := by
    rw [Filter.eventually_all_finite (List.finite_toSet h.simplices)]
    intro t ht
    rcases hs t ht with hz | ⟨h1, h2⟩
    · exact absurd hz (h0 t ht)
    · set N := cross ((h.pt t.2.1).sub (h.pt t.1)) ((h.pt t.2.2).sub (h.pt t.1))
      refine Filter.Eventually.and ?_ ?_
      · have hc : Continuous (fun x : ℝ => |rdot N ((h.pt t.1).sub (s.add (V3.smul x d)))|) := by
          simp only [height_path]; fun_prop
        exact (hc.tendsto 0).eventually (lt_mem_nhds (by rw [height_path]; simpa using h1))
      · rw [Filter.eventually_all_finite (Set.toFinite _)]
        intro i hi
        rw [Filter.eventually_all_finite (Set.toFinite _)]
        intro j hj
        by_cases hij : i = j
        · exact Filter.Eventually.of_forall fun x hne => absurd hij hne
        have hN : ∀ k ∈ ({t.1, t.2.1, t.2.2} : Set Nat), rdot N ((h.pt k).sub s) = rdot N ((h.pt t.1).sub s) := by
          rintro k (rfl | rfl | rfl) <;> simp [N, rdot] <;> ring
        have hNs : rdot N ((h.pt i).sub s) ≠ 0 := by rw [hN i hi]; exact h0 t ht
        have hNij : rdot N ((h.pt j).sub (h.pt i)) = 0 := by
          have a1 := hN i hi
          have a2 := hN j hj
          rw [rdot_sub] at a1 a2 ⊢
          linarith
        obtain ⟨c1, c2⟩ := clearOf_off (h2 i j hi hj hij) hNij hNs
        have k1 : Continuous (fun x : ℝ => vlen (cross ((h.pt i).sub (s.add (V3.smul x d))) ((h.pt j).sub (h.pt i)))) := by
          apply continuous_vlen <;> simp only [cross_x, cross_y, cross_z, sub_x, sub_y, sub_z, add_x, add_y, add_z, smul_x, smul_y, smul_z] <;> fun_prop
        have k2 : Continuous (fun x : ℝ => vlen ((h.pt i).sub (s.add (V3.smul x d))) +
            rdot ((h.pt i).sub (s.add (V3.smul x d))) ((h.pt j).sub (h.pt i)) / vlen ((h.pt j).sub (h.pt i))) := by
          apply Continuous.add
          · apply continuous_vlen <;> simp only [sub_x, sub_y, sub_z, add_x, add_y, add_z, smul_x, smul_y, smul_z] <;> fun_prop
          · apply Continuous.div_const
            simp only [rdot, sub_x, sub_y, sub_z, add_x, add_y, add_z, smul_x, smul_y, smul_z]; fun_prop
        have z : s.add (V3.smul 0 d) = s := by refine V3.ext' ?_ ?_ ?_ <;> simp
        filter_upwards [(k1.tendsto 0).eventually (lt_mem_nhds (a := 0) (by rw [z]; exact vlen_pos c1)),
          (k2.tendsto 0).eventually (lt_mem_nhds (a := repsilon) (by rw [z]; exact c2))] with x hx1 hx2 _
        refine .inl ⟨?_, hx2⟩
        intro hz
        rw [hz, vlen_zeros] at hx1
        exact lt_irrefl _ hx1
  filter_upwards [hall] with x hx
  refine ⟨fun t ht => .inr ⟨(hx t ht).1, fun i j hi hj hij => (hx t ht).2 i hi j hj hij⟩, fun t ht hz => ?_⟩
  have := (hx t ht).1
  rw [hz, abs_zero] at this
  have h0 : (0 : ℝ) < repsilon := by unfold repsilon; positivity
  have := mul_nonneg h0.le (vlen_nonneg (cross ((h.pt t.2.1).sub (h.pt t.1)) ((h.pt t.2.2).sub (h.pt t.1))))
  linarith

/-- the returned field -/
theorem returned_field (hh : h.IsHull) (hp : mkPoly h inHull = .ok p) {s : V3 ℝ} (hs : h.Regular s) {ρ Gc : ℝ} {gr : Bool} {v : V3 ℝ × M3 ℝ}
    (hv : Call.onNew p ⟨s, ρ, Gc, gr⟩ = .ok v) (e : V3 ℝ) :
    rdot v.1 e = 100000 * Gc * ρ * ∑ k : Fin p.faces.length, faceShare p.faces[k] s e := by
  rw [onNew_closed (wellTwinned_of_hull hh hp)] at hv
  rw [facesValue_share p.faces 0 V3.zeros M3.zeros v (fun k f g hk hg => faceValue_share hh hp hk hs ρ Gc gr (by rwa [Nat.zero_add] at hg) e) hv]
  rw [rdot_comm, rdot_zeros, zero_add]
  congr 1
  exact (Fin.sum_univ_fun_getElem p.faces (fun f => faceShare f s e)).symm

/-- the returned tensor -/
theorem returned_tensor (hh : h.IsHull) (hp : mkPoly h inHull = .ok p) {s : V3 ℝ} (hs : h.Regular s) (h0 : h.OffPlanes s) {ρ Gc : ℝ} {v : V3 ℝ × M3 ℝ}
    (hv : Call.onNew p ⟨s, ρ, Gc, true⟩ = .ok v) :
    v.2 = upper (fun e d => 1000000000 * Gc * ρ * ∑ k : Fin p.faces.length, faceSlope p.faces[k] s e d) := by
  rw [onNew_closed (wellTwinned_of_hull hh hp)] at hv
  have key : ∀ (φ : M3 ℝ → ℝ) (e d : V3 ℝ), (∀ a b, φ (a.add b) = φ a + φ b) → φ M3.zeros = 0 → (∀ B, φ (upper B) = B e d) →
      φ v.2 = 1000000000 * Gc * ρ * ∑ k : Fin p.faces.length, faceSlope p.faces[k] s e d := by
    intro φ e d h1 h2 h3
    have := facesValue_tensor (φ := φ) (ψ := fun f => 1000000000 * Gc * ρ * faceSlope f s e d) h1 p.faces 0 V3.zeros M3.zeros v (by
      intro k f g hk hg
      rw [Nat.zero_add] at hg
      rw [faceValue_tensor hh hp hk hs (OffPlanes.face hh hp h0 hk) ρ Gc hg, h3]) hv
    rw [this, h2, zero_add, Finset.mul_sum]
    exact (Fin.sum_univ_fun_getElem p.faces (fun f => 1000000000 * Gc * ρ * faceSlope f s e d)).symm
  refine M3.ext' (V3.ext' ?_ ?_ ?_) (V3.ext' ?_ ?_ ?_) (V3.ext' ?_ ?_ ?_)
  · exact key (fun m => m.r0.x) _ _ (fun _ _ => rfl) rfl (fun _ => rfl)
  · exact key (fun m => m.r0.y) _ _ (fun _ _ => rfl) rfl (fun _ => rfl)
  · exact key (fun m => m.r0.z) _ _ (fun _ _ => rfl) rfl (fun _ => rfl)
  · exact key (fun m => m.r1.x) _ _ (fun _ _ => rfl) rfl (fun _ => rfl)
  · exact key (fun m => m.r1.y) _ _ (fun _ _ => rfl) rfl (fun _ => rfl)
  · exact key (fun m => m.r1.z) _ _ (fun _ _ => rfl) rfl (fun _ => rfl)
  · exact key (fun m => m.r2.x) _ _ (fun _ _ => rfl) rfl (fun _ => rfl)
  · exact key (fun m => m.r2.y) _ _ (fun _ _ => rfl) rfl (fun _ => rfl)
  · exact key (fun m => m.r2.z) _ _ (fun _ _ => rfl) rfl (fun _ => rfl)

theorem slopes_symmetric (hh : h.IsHull) (hp : mkPoly h inHull = .ok p) {s : V3 ℝ} (h0 : h.OffPlanes s) (e d : V3 ℝ) :
    ∑ k : Fin p.faces.length, faceSlope p.faces[k] s e d = ∑ k : Fin p.faces.length, faceSlope p.faces[k] s d e := by
  rw [← sub_eq_zero, ← Finset.sum_sub_distrib]
  have : ∀ k : Fin p.faces.length, faceSlope p.faces[k] s e d - faceSlope p.faces[k] s d e =
      -rdot (cross e d) (loopJ (p.faces[k]).pa (p.faces[k]).pb (p.faces[k]).pc s) := by
    intro k
    have hf : p.faces[(k : Nat)]? = some p.faces[k] := List.getElem?_eq_getElem k.2
    obtain ⟨-, -, -, -, hn, -, -⟩ := face_facts hh hp hf
    exact faceSlope_skew hn (OffPlanes.face hh hp h0 hf) e d
  simp only [this, Finset.sum_neg_distrib, loops_cancel hh hp, neg_zero]

theorem shares_path (hh : h.IsHull) (hp : mkPoly h inHull = .ok p) {s : V3 ℝ} (h0 : h.OffPlanes s) (e d : V3 ℝ) :
    HasDerivAt (fun x => ∑ k : Fin p.faces.length, faceShare p.faces[k] (s.add (V3.smul x d)) e)
      (∑ k : Fin p.faces.length, faceSlope p.faces[k] s e d) 0 := by
  refine HasDerivAt.fun_sum (fun k _ => ?_)
  have hf : p.faces[(k : Nat)]? = some p.faces[k] := List.getElem?_eq_getElem k.2
  obtain ⟨-, -, -, -, hn, -, -⟩ := face_facts hh hp hf
  exact faceShare_path hn (OffPlanes.face hh hp h0 hf) e d

/-- around such a station queries return values -/
theorem C19_near (hh : h.IsHull) (hp : mkPoly h inHull = .ok p) {s : V3 ℝ} (hs : h.Regular s) (h0 : h.OffPlanes s) (d : V3 ℝ)
    (ρ Gc : ℝ) (gr : Bool) : ∀ᶠ x in nhds (0 : ℝ), ∃ v, Call.onNew p ⟨s.add (V3.smul x d), ρ, Gc, gr⟩ = .ok v := by
  filter_upwards [offPlanes_near hs h0 d] with x hx
  apply onNew_ok_of_clear hh hp
  intro i j e he
  obtain ⟨f, hf, hfe⟩ := Option.bind_eq_some_iff.mp he
  rcases regular_face hh hp hf hx.1 with hz | ⟨-, h2⟩
  · exact absurd hz (OffPlanes.face hh hp hx.2 hf)
  · exact h2 j e hfe

/-- **C19. The tensor is the gradient of the field.**  At a regular station in no face plane, whenever the station moves
along a direction `d`, `10⁴` times the returned components `G_x, G_y, G_z` have the derivatives `T_x·d, T_y·d, T_z·d`, where
`T_x, T_y, T_z` are the rows of the tensor returned with `gradient=True`.  With the unit vectors for `d` these are the nine
identities `T_ij = 10⁴ ∂G_i/∂s_j`. -/
theorem C19_gradient (hh : h.IsHull) (hp : mkPoly h inHull = .ok p) {s : V3 ℝ} (hs : h.Regular s) (h0 : h.OffPlanes s) {ρ Gc : ℝ}
    {G : V3 ℝ} {T : M3 ℝ} (hv : Call.onNew p ⟨s, ρ, Gc, true⟩ = .ok (G, T)) (d : V3 ℝ) {g : ℝ → V3 ℝ}
    (hg : ∀ᶠ x in nhds (0 : ℝ), ∃ gr T', Call.onNew p ⟨s.add (V3.smul x d), ρ, Gc, gr⟩ = .ok (g x, T')) :
    HasDerivAt (fun x => 10000 * (g x).x) (rdot T.r0 d) 0 ∧
    HasDerivAt (fun x => 10000 * (g x).y) (rdot T.r1 d) 0 ∧
    HasDerivAt (fun x => 10000 * (g x).z) (rdot T.r2 d) 0 := by
  have hT := returned_tensor hh hp hs h0 hv
  simp only at hT
  have hd : ∀ e : V3 ℝ, HasDerivAt (fun x => 10000 * rdot (g x) e) (1000000000 * Gc * ρ * ∑ k : Fin p.faces.length, faceSlope p.faces[k] s e d) 0 := by
    intro e
    refine (((shares_path hh hp h0 e d).const_mul (1000000000 * Gc * ρ)).congr_of_eventuallyEq ?_)
    filter_upwards [hg, offPlanes_near hs h0 d] with x hx hr
    obtain ⟨gr, T', hx⟩ := hx
    rw [returned_field hh hp hr.1 hx e]
    ring
  have lin : ∀ e, ∑ k : Fin p.faces.length, faceSlope p.faces[k] s e d =
      (∑ k : Fin p.faces.length, faceSlope p.faces[k] s e ⟨1, 0, 0⟩) * d.x + (∑ k : Fin p.faces.length, faceSlope p.faces[k] s e ⟨0, 1, 0⟩) * d.y +
      (∑ k : Fin p.faces.length, faceSlope p.faces[k] s e ⟨0, 0, 1⟩) * d.z := by
    intro e
    rw [Finset.sum_mul, Finset.sum_mul, Finset.sum_mul, ← Finset.sum_add_distrib, ← Finset.sum_add_distrib]
    refine Finset.sum_congr rfl fun k _ => ?_
    have hf : p.faces[(k : Nat)]? = some p.faces[k] := List.getElem?_eq_getElem k.2
    obtain ⟨-, -, -, -, hn, -, -⟩ := face_facts hh hp hf
    exact faceSlope_linear hn (OffPlanes.face hh hp h0 hf) e d
  have hx := hd ⟨1, 0, 0⟩
  have hy := hd ⟨0, 1, 0⟩
  have hz := hd ⟨0, 0, 1⟩
  simp only [rdot, mul_one, mul_zero, add_zero, zero_add] at hx hy hz
  rw [hT]
  refine ⟨hx.congr_deriv ?_, hy.congr_deriv ?_, hz.congr_deriv ?_⟩
  · rw [lin]; simp only [upper, rdot]; ring
  · rw [lin, slopes_symmetric hh hp h0 ⟨0, 1, 0⟩ ⟨1, 0, 0⟩]; simp only [upper, rdot]; ring
  · rw [lin, slopes_symmetric hh hp h0 ⟨0, 0, 1⟩ ⟨1, 0, 0⟩, slopes_symmetric hh hp h0 ⟨0, 0, 1⟩ ⟨0, 1, 0⟩]; simp only [upper, rdot]; ring

end
end
end Geec

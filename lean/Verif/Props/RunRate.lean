import Verif.Props.RunPrecision
/-
C98: the error of the table of `geec run` is at most proportional to the unit roundoff.
-/
namespace Geec
open Filter
noncomputable section

/-- **C98** `geec run` in floating point, with a rate.  A plain configuration (bodies in Cartesian or geocentric coordinates, Cartesian observation points, no
grid) gives the table `t` in exact arithmetic, and no comparison is a tie at any observation point.  Then there is a constant `K` such that with numbers rounded with
the unit roundoff `δ ≤ 1 / K` the run returns, with the same labels and coordinates in its table, and every Gx, Gy, Gz within `K δ` of that of `t`;
and every number of the table, if no observation point is on the line of an edge. -/
theorem C98_run (g : Geodesy ℝ) (o : Outside ℝ) (lib : HullLib ℝ) (hlib : lib.Honest) (cfg : View ℝ) (l : List (View ℝ)) (hcfg : PlainConfig cfg l)
    (gr : Bool) (t : Table ℝ) (h : runTable g o lib cfg gr = .ok t) (ms : List (Mass ℝ)) (hms : getMasses g o cfg = .ok ms) (ob : Observer ℝ)
    (hob : getObserver g o cfg = .ok ob) (hd : ∀ p ∈ ob.dataset.coords.rows, DecidedPoint lib ms p) :
    ∃ K, 0 < K ∧ ∀ (rnd : ℝ → ℝ) (δ : ℝ), 0 < δ → δ ≤ 1 / K → (∀ a, |a| ≤ K → |rnd a - a| ≤ δ * max 1 |a|) →
      ∃ t', @runTable ℝ (roundArith rnd) g o lib cfg gr = .ok t' ∧ t'.columns = t.columns ∧
      List.Forall₂ (fun row row0 => row.length = 12 ∧ row0.length = 12 ∧ row.take 3 = row0.take 3 ∧
        List.Forall₂ (fun a b => |a - b| ≤ K * δ) (row.take 6) (row0.take 6) ∧
        ((∀ p ∈ ob.dataset.coords.rows, OffLinesPoint lib ms p) → List.Forall₂ (fun a b => |a - b| ≤ K * δ) row row0)) t'.rows t.rows := by
  have hp := plain_reading hcfg g o
  let Q : ℝ → Setting → Prop := fun ε A => @getMasses ℝ A g o cfg = .ok (ms.map (·.changed A)) → @getObserver ℝ A g o cfg = .ok (ob.changed A) →
    lib.Follows A lib ms → ∃ t', @runTable ℝ A g o lib cfg gr = .ok t' ∧ t'.columns = t.columns ∧
    List.Forall₂ (RowNear A ε (∀ p ∈ ob.dataset.coords.rows, OffLinesPoint lib ms p)) t'.rows t.rows
  have mono : ∀ {a b : ℝ} {A}, a ≤ b → Q a A → Q b A := by
    intro a b A hab hQ k1 k2 k3
    obtain ⟨t', h1, h2, h3⟩ := hQ k1 k2 k3
    exact ⟨t', h1, h2, h3.imp fun _ _ hr => hr.mono hab⟩
  obtain ⟨C, hC⟩ := run_rate g o lib hlib cfg gr t h ms hms ob hob ((hp realArith).2.2.1 ms hms) ((hp realArith).2.2.2 ob hob) hd
    (∀ p ∈ ob.dataset.coords.rows, OffLinesPoint lib ms p) id
  obtain ⟨M, hM, k⟩ := one_constant (Q := Q) mono ⟨C, hC.mono fun q hq => hq g o lib cfg (run_shown h)⟩
  obtain ⟨K, hK, k'⟩ := one_roundoff (Q := fun ε A => Q ε (.plain A)) mono ⟨M, hM, fun A u h0 h1 hA => k (.plain A) u h0 h1 (plain_accurateOn h0.le hA)⟩
  refine ⟨K, hK, fun rnd δ h1 h2 h3 => ?_⟩
  obtain ⟨t', j1, j2, j3⟩ := k' rnd δ h1 h2 h3
    (by rw [show ms.map (·.changed (.plain (roundArith rnd))) = ms by simp only [Mass.changed_plain, List.map_id']]; exact (hp _).1.trans hms)
    (by rw [Observer.changed_plain]; exact (hp _).2.1.trans hob) (HullLib.follows_plain _ lib ms)
  exact ⟨t', j1, j2, j3.imp fun _ _ hr => ⟨hr.1, hr.2.1, hr.coordinates, hr.2.2.2.1, hr.2.2.2.2⟩⟩

/-- **C98** Newton's law: with bodies of equal density `ρ` and constant `Gc` and observation points in regular position, the run with the unit roundoff `δ ≤ 1 / K`
returns a table whose line of the i-th point holds its coordinates and, to within `K δ`, `1e5 Gc ρ` times the attraction of the solids spanned by
the configured points. -/
theorem C98_run_newton (g : Geodesy ℝ) (o : Outside ℝ) (lib : HullLib ℝ) (hlib : lib.Honest) (cfg : View ℝ) (l : List (View ℝ)) (hcfg : PlainConfig cfg l)
    (hshow : configShow cfg = .ok ()) (ms : List (Mass ℝ)) (hms : getMasses g o cfg = .ok ms) (hne : ms ≠ []) (ob : Observer ℝ)
    (hob : getObserver g o cfg = .ok ob) (hne' : ob.dataset.coords.rows ≠ []) (hhull : ∀ m ∈ ms, ∃ h, lib.convexHull m.dataset.coords.rows = .ok h)
    (ρ Gc : ℝ) (hρ : ∀ m ∈ ms, m.density = ρ ∧ m.gravityConstant = Gc)
    (hd : ∀ p ∈ ob.dataset.coords.rows, DecidedPoint lib ms p ∧ RegularPoint lib ms p) :
    ∃ K, 0 < K ∧ ∀ (rnd : ℝ → ℝ) (δ : ℝ), 0 < δ → δ ≤ 1 / K → (∀ a, |a| ≤ K → |rnd a - a| ≤ δ * max 1 |a|) →
      ∃ t, @runTable ℝ (roundArith rnd) g o lib cfg false = .ok t ∧ t.rows.length = ob.dataset.coords.rows.length ∧
      ∀ (i : Nat) (p : V3 ℝ), ob.dataset.coords.rows[i]? = some p → ∃ G : V3 ℝ, (t.rows[i]?).map (List.take 6) = some [p.x, p.y, p.z, G.x, G.y, G.z] ∧
        |G.x - 100000 * Gc * ρ * sumOver ms (fun B => (attraction B p).x)| ≤ K * δ ∧
        |G.y - 100000 * Gc * ρ * sumOver ms (fun B => (attraction B p).y)| ≤ K * δ ∧
        |G.z - 100000 * Gc * ρ * sumOver ms (fun B => (attraction B p).z)| ≤ K * δ := by
  have hp := plain_reading hcfg g o
  have hcm := (hp realArith).2.2.1 ms hms
  have hco := (hp realArith).2.2.2 ob hob
  obtain ⟨ps, hps⟩ := polys_exist hlib ms hhull
  have hr := of_plain hms hob hcm hco hps
  obtain ⟨t0, ht0⟩ := run_returns_of hr hshow hne hne' (gr := false) (by
    intro m hm H q hH hq p hp ρ Gc
    obtain ⟨G, T, hv⟩ := C22_total (hlib _ _ hH).2 hq ((hd p hp).1 m hm H hH).ne_corner ρ Gc
    exact ⟨_, hv⟩)
  have hlen : t0.rows.length = ob.dataset.coords.rows.length := by
    obtain ⟨r', _, _, hr', _, _, _, hrows⟩ := runTable_ok ht0
    obtain rfl := hr'.unique hr
    exact hrows.length_eq.symm
  obtain ⟨K, hK, k⟩ := C98_run g o lib hlib cfg l hcfg false t0 ht0 ms hms ob hob (fun p hp => (hd p hp).1)
  refine ⟨K, hK, fun rnd δ hδ hδK hr' => ?_⟩
  obtain ⟨t, h1, -, h3⟩ := k rnd δ hδ hδK hr'
  refine ⟨t, h1, h3.length_eq.trans hlen, fun i p hi => ?_⟩
  obtain ⟨row0, e0, -, e1⟩ := @C69_newton g o lib hlib cfg false t0 _ ht0 hr ρ Gc hρ i p hi (hd p (List.mem_of_getElem? hi)).2
  obtain ⟨row, e2, -, -, e3, e4, -⟩ := forall₂_get h3.flip e0
  have e5 : row0.take 3 = [p.x, p.y, p.z] := by
    have := congrArg (List.take 3) e1
    rw [List.take_take] at this
    simpa using this
  rw [e1] at e4
  rw [e2]
  rw [e5] at e3
  have e6 : (row.take 6).take 3 = [p.x, p.y, p.z] := by rw [List.take_take]; exact e3
  simp only [Option.map_some]
  generalize row.take 6 = r6 at e4 e6
  cases e4 with | cons _ e4 => cases e4 with | cons _ e4 => cases e4 with | cons _ e4 => cases e4 with | cons f1 e4 => cases e4 with | cons f2 e4 => cases e4 with | cons f3 e4 =>
  cases e4
  simp only [List.take, List.cons.injEq, and_true] at e6
  obtain ⟨rfl, rfl, rfl⟩ := e6
  exact ⟨⟨_, _, _⟩, rfl, f1, f2, f3⟩

/-- C98: the run of two bodies that tile a tetrahedron -/
example : ∃ K, 0 < K ∧ ∀ (rnd : ℝ → ℝ) (δ : ℝ), 0 < δ → δ ≤ 1 / K → (∀ a, |a| ≤ K → |rnd a - a| ≤ δ * max 1 |a|) →
    ∃ t row G, @runTable ℝ (roundArith rnd) toyGeo noFiles fourPoints (halves "cart" "cart" "ellps" 2 2) false = .ok t ∧
    t.rows[0]? = some row ∧ row[5]? = some G ∧
    |G - 100000 * 1 * 2 * sumOver (halvesMasses .CART 2 2) (fun B => (attraction B ⟨2, 3, 5⟩).z)| ≤ K * δ := by
  obtain ⟨K, hK, k⟩ := C98_run_newton toyGeo noFiles fourPoints fourPoints_honest _ _ (halves_plain 2 2) (halves_show _ _ _ _ _) _
    (halves_masses findMember_cart (.inl rfl) _ _ _ _) (by simp [halvesMasses]) _ (halves_observer (getCrs_plain findMember_cart (.inl rfl) "ellps") _ _ _)
    (List.cons_ne_nil _ _) (by
      intro m hm
      simp only [halvesMasses, List.mem_cons, List.not_mem_nil, or_false] at hm
      rcases hm with rfl | rfl
      · exact ⟨_, fourPoints_A⟩
      · exact ⟨_, fourPoints_B⟩) 2 1 (by
      intro m hm
      simp only [halvesMasses, List.mem_cons, List.not_mem_nil, or_false] at hm
      rcases hm with rfl | rfl <;> exact ⟨rfl, rfl⟩) (by
      intro p hp
      obtain rfl : p = ⟨2, 3, 5⟩ := List.mem_singleton.mp hp
      exact ⟨halves_at halfA_decided halfB_decided 2 2, halves_at halfA_regular halfB_regular 2 2⟩)
  refine ⟨K, hK, fun rnd δ h1 h2 h3 => ?_⟩
  obtain ⟨t, k1, -, k2⟩ := k rnd δ h1 h2 h3
  obtain ⟨G, e1, -, -, e2⟩ := k2 0 ⟨2, 3, 5⟩ rfl
  obtain ⟨row, e3, e4⟩ := Option.map_eq_some_iff.mp e1
  refine ⟨t, row, G.z, k1, e3, ?_, e2⟩
  have := congrArg (·[5]?) e4
  simpa using this

end
end Geec

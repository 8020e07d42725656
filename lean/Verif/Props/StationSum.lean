import Verif.Props.Station
/-
C06, number by number.
-/
namespace Geec
open Arith
variable {S : Type} [Arith S]

/-- entry `i` of a vector -/
def V3.entry (v : V3 S) : Fin 3 → S
  | 0 => v.x
  | 1 => v.y
  | 2 => v.z

/-- entry `i, j` of a matrix -/
def M3.entry (m : M3 S) : Fin 3 → Fin 3 → S
  | 0 => m.r0.entry
  | 1 => m.r1.entry
  | 2 => m.r2.entry

theorem V3.entry_add (a b : V3 S) (i : Fin 3) : (a.add b).entry i = Arith.add (a.entry i) (b.entry i) := by
  match i with
  | 0 => rfl
  | 1 => rfl
  | 2 => rfl

theorem M3.entry_add (a b : M3 S) (i j : Fin 3) : (a.add b).entry i j = Arith.add (a.entry i j) (b.entry i j) := by
  match i with
  | 0 => exact V3.entry_add _ _ j
  | 1 => exact V3.entry_add _ _ j
  | 2 => exact V3.entry_add _ _ j

theorem accumulate_entries (rs : List (V3 S × M3 S)) : ∀ s : Station S,
    (accumulate s rs).coord = s.coord ∧
    (∀ i, (accumulate s rs).G.entry i = (rs.map (·.1.entry i)).foldl add (s.G.entry i)) ∧
    (∀ i j, (accumulate s rs).T.entry i j = (rs.map (·.2.entry i j)).foldl add (s.T.entry i j)) := by
  induction rs with
  | nil => exact fun s => ⟨rfl, fun i => rfl, fun i j => rfl⟩
  | cons r rs ih =>
    intro s
    obtain ⟨h1, h2, h3⟩ := ih { s with G := s.G.add r.1, T := s.T.add r.2 }
    refine ⟨h1, fun i => ?_, fun i j => ?_⟩
    · exact (h2 i).trans (by rw [V3.entry_add]; rfl)
    · exact (h3 i j).trans (by rw [M3.entry_add]; rfl)

/-- **C06**, number by number, in any arithmetic: `compute_gravity` on a list of bodies returns, leaves the place of the station alone, and every one of the three numbers
of `G` and of the nine numbers of `T` becomes the one that was there plus those of the bodies' answers, added one after the other in list order. -/
theorem C06_components (density Gc : S) (gr : Bool) (ids : List Nat) (s : Station S) (w : World S)
    (hw : w.Ready) (rs : List (V3 S × M3 S))
    (hrs : ids.map (fun k => (Call.mk s.coord density Gc gr).onNew (w.poly k)) = rs.map .ok) :
    ∃ s' w', computeGravity (.list (ids.map .poly)) density Gc gr s w = (.ok (), s', w') ∧ s'.coord = s.coord ∧
      (∀ i, s'.G.entry i = (rs.map (·.1.entry i)).foldl add (s.G.entry i)) ∧
      (∀ i j, s'.T.entry i j = (rs.map (·.2.entry i j)).foldl add (s.T.entry i j)) := by
  obtain ⟨w', h1, -, -⟩ := C06_station_accumulates density Gc gr ids s w hw rs hrs
  obtain ⟨h2, h3, h4⟩ := accumulate_entries rs s
  exact ⟨_, w', h1, h2, h3, h4⟩

section
attribute [local instance] toyArith

/-- the case: the same body twice at a station that already holds numbers; the third number of `G` is `5 + g + g`, the number of `T` at 1, 2 is `8 + t + t` -/
example : ∃ (r : V3 Rat × M3 Rat) (s' : Station Rat) (w' : World Rat),
    (Call.mk (⟨3, 5, 7⟩ : V3 Rat) 2 1 true).onNew Toy.poly = .ok r ∧
    computeGravity (.list [.poly 0, .poly 0]) 2 1 true (⟨⟨3, 5, 7⟩, ⟨1, 2, 5⟩, ⟨⟨1, 2, 3⟩, ⟨4, 6, 8⟩, ⟨7, 7, 7⟩⟩⟩ : Station Rat)
      (World.new fun _ => Toy.poly) = (.ok (), s', w') ∧
    s'.G.z = 5 + r.1.z + r.1.z ∧ s'.T.r1.z = 8 + r.2.r1.z + r.2.r1.z := by
  have hp : mkPoly Toy.hull (fun _ => true) = .ok Toy.poly := by
    have : (mkPoly Toy.hull (fun _ => true)).isOk = true := by decide +kernel
    unfold Toy.poly
    cases h : mkPoly Toy.hull (fun _ => true) with
    | error e => rw [h] at this; cases this
    | ok p => rfl
  have h0 : ((Call.mk (⟨3, 5, 7⟩ : V3 Rat) 2 1 true).onNew Toy.poly).isOk := by decide +kernel
  rcases h : (Call.mk (⟨3, 5, 7⟩ : V3 Rat) 2 1 true).onNew Toy.poly with e | r
  · rw [h] at h0; cases h0
  · obtain ⟨s', w', h1, -, h2, h3⟩ := C06_components (2 : Rat) 1 true [0, 0]
      (⟨⟨3, 5, 7⟩, ⟨1, 2, 5⟩, ⟨⟨1, 2, 3⟩, ⟨4, 6, 8⟩, ⟨7, 7, 7⟩⟩⟩ : Station Rat) (World.new fun _ => Toy.poly)
      (World.new_ready _ fun _ => ⟨_, _, hp⟩) [r, r] (by simp [World.new, h])
    exact ⟨r, s', w', rfl, h1, h2 2, h3 1 2⟩
end

end Geec

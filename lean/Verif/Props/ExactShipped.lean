import Verif.Props.Shipped
/-
For the properties on the shipped files that are false of the code in general (C66, C67): exactly when they hold.
-/
namespace Geec
open Arith
noncomputable section

variable {S : Type} [Arith S] (lit : Rat → S) (g : Geodesy S) (o : Outside S)

/-- the vertical datum of the observers is looked for in the other files -/
theorem template_vdatum (user : Option (Val S)) (dflt : Val S) :
    readVdatum (((View.root (setupSources (some (shippedTemplate lit)) user dflt)).at "observers").at "crs") =
      readVdatum (((View.root (setupSources none user dflt)).at "observers").at "crs") := by
  have h : ((((View.root (setupSources (some (shippedTemplate lit)) user dflt)).at "observers").at "crs").at "vdatum").first =
      ((((View.root (setupSources none user dflt)).at "observers").at "crs").at "vdatum").first :=
    C42_no_mention [] (setupSources none user dflt) (shippedTemplate lit) [.name "observers", .name "crs", .name "vdatum"] rfl
  simp only [readVdatum, View.getOptStr, h]

/-- **C66**, exactly: with the template as configuration file the observers are the grid of the template, in geographic coordinates on
WGS84, with the vertical datum of the other files; so they are the observers of the template alone if and only if these files say ellps,
or nothing. -/
theorem C66_exact (user : Option (Val S)) (dflt : Val S) (model : String) (a b : S)
    (hm : findModel "wgs84" g.models = some (model, a, b)) (he : g.ellipsoidErr a b = none) (c : Coords S)
    (hc : readGrid o ⟨[.ok (shippedGrid lit)]⟩ = .ok c) :
    (∀ v, getObserver g o (View.root (setupSources (some (shippedTemplate lit)) user dflt)) =
        .ok (mkObserver ⟨c, ⟨.ELLPS, some ⟨"wgs84", model, a, b⟩, none, v⟩⟩) ↔
      readVdatum (((View.root (setupSources none user dflt)).at "observers").at "crs") = .ok v) ∧
    (∀ e, getObserver g o (View.root (setupSources (some (shippedTemplate lit)) user dflt)) = .error e ↔
      readVdatum (((View.root (setupSources none user dflt)).at "observers").at "crs") = .error e) := by
  rw [← template_vdatum lit user dflt]
  rcases hv : readVdatum (((View.root (setupSources (some (shippedTemplate lit)) user dflt)).at "observers").at "crs") with e | v
  · have h1 : getObserver g o (View.root (setupSources (some (shippedTemplate lit)) user dflt)) = .error e := by
      generalize hW : View.root (setupSources (some (shippedTemplate lit)) user dflt) = W at hv ⊢
      have h1 : readCoords o (W.at "observers") = readGrid o ⟨[.ok (shippedGrid lit)]⟩ := by rw [← hW]; rfl
      have hr : readRef ((W.at "observers").at "crs") = .ok .ELLPS := by
        have : findMember "ellps".toUpper crsMembers = some .ELLPS := by decide +kernel
        have h2 : (((W.at "observers").at "crs").at "ref").getOptStr "ellps" = .ok "ellps" := by rw [← hW]; rfl
        simp only [readRef, h2, bind_of_ok, this]; rfl
      have hn : readEllipsoidParameters g ((W.at "observers").at "crs") = .ok (none, .null, .null) := by rw [← hW]; rfl
      have hc' : getCrs g ((W.at "observers").at "crs") = .error e := by
        simp only [getCrs, hr, bind_of_ok, createEllipsoidCrs, hn, hv]
        simp [bind, Except.bind]
      simp only [getObserver, getDataset, h1, hc', hc]
      rfl
    simp [h1]
  · have h1 := template_observers lit g o user dflt model a b hm he v hv
    rw [hc] at h1
    have h2 : getObserver g o (View.root (setupSources (some (shippedTemplate lit)) user dflt)) =
      .ok (mkObserver ⟨c, ⟨.ELLPS, some ⟨"wgs84", model, a, b⟩, none, v⟩⟩) := h1
    rw [h2]
    simp [mkObserver]

/-- **C66**, for the run: with the template as configuration file the table that `geec run` computes does not depend on the user's file
and the defaults, as soon as the vertical datum that they give for the observers, if any, is one that is known: it is not used. -/
theorem C66_run (hg : ∀ e, g.ellEq e e = true) (lib : HullLib S) (gr : Bool) (user user' : Option (Val S)) (dflt dflt' : Val S)
    (model : String) (a b : S) (hm : findModel "wgs84" g.models = some (model, a, b)) (he : g.ellipsoidErr a b = none)
    (v v' : VDatum) (hv : readVdatum (((View.root (setupSources none user dflt)).at "observers").at "crs") = .ok v)
    (hv' : readVdatum (((View.root (setupSources none user' dflt')).at "observers").at "crs") = .ok v') :
    runTable g o lib (View.root (setupSources (some (shippedTemplate lit)) user dflt)) gr =
      runTable g o lib (View.root (setupSources (some (shippedTemplate lit)) user' dflt')) gr := by
  have h1 := template_observers lit g o user dflt model a b hm he v ((template_vdatum lit user dflt).trans hv)
  have h1' := template_observers lit g o user' dflt' model a b hm he v' ((template_vdatum lit user' dflt').trans hv')
  have hw : (⟨"wgs84", model, a, b⟩ : Ell S) = wgs84 g := by simp [wgs84, hm]
  simp only [runTable, C66_show, C66_masses lit g o _ _ model a b hm he, h1, h1']
  rcases readGrid o ⟨[.ok (shippedGrid lit)]⟩ with e | c
  · rfl
  · have key : ∀ v : VDatum, outcome (Dataset.toWgs84 g ⟨c, ⟨.ELLPS, some ⟨"wgs84", model, a, b⟩, none, v⟩⟩) =
        .ok ⟨c, ⟨.ELLPS, some ⟨"wgs84", model, a, b⟩, none, v⟩⟩ := by
      intro v
      simp [Dataset.toWgs84, Dataset.apply, ellpsToWgs84, isWgs84, hw, hg, outcome]
    simp only [bind_of_ok, mkObserver, key, pure, Except.pure]

/-- the user's file that refuted C66 does not change the table -/
example (lib : HullLib ℝ) (o : Outside ℝ) (gr : Bool) :
    runTable toyGeo o lib (View.root (setupSources (some (shippedTemplate (fun q => (q : ℝ)))) (some vdatumFile) (shippedDefaults (fun q => (q : ℝ))))) gr =
      runTable toyGeo o lib (View.root (setupSources (some (shippedTemplate (fun q => (q : ℝ)))) none (.dict []))) gr := by
  have h1 : findMember "egm96".toUpper vdatumMembers = some .EGM96 := by decide +kernel
  have h2 : findMember "ellps".toUpper vdatumMembers = some .ELLPS := by decide +kernel
  refine C66_run (fun q => (q : ℝ)) toyGeo o toyGeo_lawful.eq_refl lib gr _ _ _ _ "WGS-84" 7 6 rfl rfl .EGM96 .ELLPS ?_ ?_
  · have : ((((View.root (setupSources none (some (vdatumFile : Val ℝ)) (shippedDefaults (fun q => (q : ℝ))))).at "observers").at "crs").at "vdatum").first = .ok (.str "egm96") := rfl
    simp only [readVdatum, View.getOptStr, this, bind_of_ok, h1]; rfl
  · have : ((((View.root (setupSources none none (.dict [] : Val ℝ))).at "observers").at "crs").at "vdatum").first = .error .configNotFoundError := rfl
    simp only [readVdatum, View.getOptStr, this, bind_of_ok, h2]; rfl

/-- **C67**, exactly: a mass body that leaves out its vertical datum gets the documented default if and only if it is not the first one. -/
theorem C67_exact (arg : Val S) (i : Nat) (h : arg.lookup [.name "masses", .idx i, .name "crs", .name "vdatum"] = .missing) :
    readVdatum (((overDefaults lit arg).mass i).at "crs") = .ok .ELLPS ↔ i ≠ 0 := by
  rcases i with _ | i
  · simp [C67_first_body lit arg h]
  · have hd : findMember "ellps".toUpper vdatumMembers = some .ELLPS := by decide +kernel
    have h1 : ((((overDefaults lit arg).mass (i + 1)).at "crs").at "vdatum").first = .error .configNotFoundError := by
      refine (overDefaults_keys lit arg [.name "masses", .idx (i + 1), .name "crs", .name "vdatum"]).trans ?_
      simp only [decideBy, h]; rfl
    refine iff_of_true ?_ (Nat.succ_ne_zero i)
    simp only [readVdatum, View.getOptStr, h1, bind_of_ok, hd]; rfl

/-- the first and the second body of a file that leaves it out -/
example : readVdatum (((overDefaults (fun q => (q : ℝ)) (.dict [])).mass 0).at "crs") ≠ .ok .ELLPS ∧
    readVdatum (((overDefaults (fun q => (q : ℝ)) (.dict [])).mass 1).at "crs") = .ok .ELLPS :=
  ⟨fun h => (C67_exact _ (.dict []) 0 rfl).mp h rfl, (C67_exact _ (.dict []) 1 rfl).mpr (by simp)⟩

end
end Geec

import Verif.Lemmas.Corners
/-
A triangulated hull of some of the points is one of all of them, with the indices changed.
-/
namespace Geec
noncomputable section

/-- the indices of a simplex changed -/
def mapS (f : Nat → Nat) (s : Nat × Nat × Nat) : Nat × Nat × Nat := (f s.1, f s.2.1, f s.2.2)

theorem corner_mapS {f : Nat → Nat} {s : Nat × Nat × Nat} {x : Nat} : Corner (mapS f s) x ↔ ∃ i, Corner s i ∧ f i = x := by
  unfold Corner mapS
  constructor
  · rintro (h | h | h)
    · exact ⟨_, .inl rfl, h.symm⟩
    · exact ⟨_, .inr (.inl rfl), h.symm⟩
    · exact ⟨_, .inr (.inr rfl), h.symm⟩
  · rintro ⟨i, rfl | rfl | rfl, h⟩
    · exact .inl h.symm
    · exact .inr (.inl h.symm)
    · exact .inr (.inr h.symm)

/-- the hull with points `pts` and changed indices -/
def reindex (h : Hull ℝ) (pts : List (V3 ℝ)) (f : Nat → Nat) : Hull ℝ := ⟨pts, h.vertices.map f, h.simplices.map (mapS f), h.neighbors⟩

theorem reindex_isHull {h : Hull ℝ} (hh : h.IsHull) {pts : List (V3 ℝ)} (hb : (only pts).body = h.body) {f : Nat → Nat}
    (hf : ∀ i, i < h.points.length → f i < pts.length ∧ at3 pts (f i) = h.pt i) (hinj : ∀ i j, i < h.points.length → j < h.points.length → f i = f j → i = j) :
    (reindex h pts f).IsHull := by
  have hbody : (reindex h pts f).body = h.body := hb
  have hpt : ∀ i, i < h.points.length → (reindex h pts f).pt (f i) = h.pt i := fun i hi => (hf i hi).2
  have hcl := hh.cornerIndex
  have ht : ∀ s ∈ h.simplices, (reindex h pts f).tri (mapS f s) = h.tri s := by
    intro s hs
    unfold Hull.tri mapS
    simp only
    rw [hpt _ (hcl s hs _ (.inl rfl)), hpt _ (hcl s hs _ (.inr (.inl rfl))), hpt _ (hcl s hs _ (.inr (.inr rfl)))]
  have hot : ∀ s ∈ h.simplices, (reindex h pts f).otri (mapS f s) = h.otri s := by
    intro s hs
    unfold Hull.otri mapS
    simp only
    rw [hpt _ (hcl s hs _ (.inl rfl)), hpt _ (hcl s hs _ (.inr (.inl rfl))), hpt _ (hcl s hs _ (.inr (.inr rfl)))]
  have hget : ∀ {k : Nat} {s'}, (reindex h pts f).simplices[k]? = some s' → ∃ s, h.simplices[k]? = some s ∧ mapS f s = s' := by
    intro k s' hk
    simp only [reindex, List.getElem?_map, Option.map_eq_some_iff] at hk
    exact hk
  have hget' : ∀ {k : Nat} {s}, h.simplices[k]? = some s → (reindex h pts f).simplices[k]? = some (mapS f s) := by
    intro k s hk
    simp only [reindex, List.getElem?_map, hk, Option.map_some]
  -- a corner of the image has one preimage
  have hback : ∀ {s t : Nat × Nat × Nat} {a : Nat}, s ∈ h.simplices → t ∈ h.simplices → Corner s a → Corner (mapS f t) (f a) → Corner t a := by
    intro s t a hs ht' ha hb
    obtain ⟨i, hi, e⟩ := corner_mapS.mp hb
    rw [← hinj i a (hcl t ht' i hi) (hcl s hs a ha) e]
    exact hi
  refine ⟨by rw [hbody]; exact hh.solid, ?_, ?_, ?_, ?_, ?_, ?_, ?_, ?_, ?_⟩
  · intro i hi
    obtain ⟨j, hj, rfl⟩ := List.mem_map.mp hi
    exact (hf j (hh.vertexIndex j hj)).1
  · rw [hbody]
    refine hh.vertexHull.trans (convexHull_mono ?_)
    rintro _ ⟨i, hi, rfl⟩
    exact ⟨f i, List.mem_map_of_mem hi, by rw [hpt i (hh.vertexIndex i hi)]⟩
  · intro s hs i hi
    obtain ⟨t, ht', rfl⟩ := List.mem_map.mp hs
    obtain ⟨j, hj, rfl⟩ := corner_mapS.mp hi
    exact (hf j (hcl t ht' j hj)).1
  · intro s hs
    obtain ⟨t, ht', rfl⟩ := List.mem_map.mp hs
    unfold mapS
    simp only
    rw [hpt _ (hcl t ht' _ (.inl rfl)), hpt _ (hcl t ht' _ (.inr (.inl rfl))), hpt _ (hcl t ht' _ (.inr (.inr rfl)))]
    exact hh.proper t ht'
  · rw [hbody, hh.cover]
    ext q
    constructor
    · rintro ⟨s, hs, hq⟩
      exact ⟨mapS f s, List.mem_map_of_mem hs, by rw [ht s hs]; exact hq⟩
    · rintro ⟨_, hs', hq⟩
      obtain ⟨s, hs, rfl⟩ := List.mem_map.mp hs'
      exact ⟨s, hs, by rw [← ht s hs]; exact hq⟩
  · intro k k' s s' hs hs' hne
    obtain ⟨t, h1, rfl⟩ := hget hs
    obtain ⟨t', h1', rfl⟩ := hget hs'
    rw [hot t (List.mem_of_getElem? h1), hot t' (List.mem_of_getElem? h1')]
    exact hh.disjoint k k' t t' h1 h1' hne
  · simp only [reindex, List.length_map]
    exact hh.rows
  · intro k s nb hs hnb n
    obtain ⟨t, h1, rfl⟩ := hget hs
    rw [hh.neighbor k t nb h1 hnb n]
    have mt := List.mem_of_getElem? h1
    refine and_congr Iff.rfl ⟨?_, ?_⟩
    · rintro ⟨r, hr, a, b, hab, s1, s2, s3, s4⟩
      exact ⟨mapS f r, hget' hr, f a, f b, fun e => hab (hinj a b (hcl t mt a s1) (hcl t mt b s2) e), corner_mapS.mpr ⟨a, s1, rfl⟩, corner_mapS.mpr ⟨b, s2, rfl⟩,
        corner_mapS.mpr ⟨a, s3, rfl⟩, corner_mapS.mpr ⟨b, s4, rfl⟩⟩
    · rintro ⟨r', hr', a', b', hab, s1, s2, s3, s4⟩
      obtain ⟨r, hr, rfl⟩ := hget hr'
      obtain ⟨a, ha, rfl⟩ := corner_mapS.mp s1
      obtain ⟨b, hb, rfl⟩ := corner_mapS.mp s2
      have mr := List.mem_of_getElem? hr
      exact ⟨r, hr, a, b, fun e => hab (by rw [e]), ha, hb, hback mt mr ha s3, hback mt mr hb s4⟩
  · intro k s hs a' b' hab ha' hb'
    obtain ⟨t, h1, rfl⟩ := hget hs
    have mt := List.mem_of_getElem? h1
    obtain ⟨a, ha, rfl⟩ := corner_mapS.mp ha'
    obtain ⟨b, hb, rfl⟩ := corner_mapS.mp hb'
    obtain ⟨n, ⟨hn, r, hr, r1, r2⟩, hu⟩ := hh.side k t h1 a b (fun e => hab (by rw [e])) ha hb
    refine ⟨n, ⟨hn, mapS f r, hget' hr, corner_mapS.mpr ⟨a, r1, rfl⟩, corner_mapS.mpr ⟨b, r2, rfl⟩⟩, ?_⟩
    rintro m ⟨hm, x', hx', x1, x2⟩
    obtain ⟨x, hx, rfl⟩ := hget hx'
    have mx := List.mem_of_getElem? hx
    exact hu m ⟨hm, x, hx, hback mt mx ha x1, hback mt mx hb x2⟩

end
end Geec

import Verif.Spec.Territory
import Verif.Proofs.Pipeline
import Verif.Proofs.Classify

/-!
# Which labels the points get

Helper lemmas for the properties in `Props/Territory.lean`.
-/

set_option linter.unusedSectionVars false

namespace Fm2prof.TerritoryProof

open Fm2prof Spec

variable {K : Type} [Field K] [LinearOrder K] [IsStrictOrderedRing K]

/-- The regions in which faces are found. -/
def regionsOf (d : MapData K) (regions : Option RegionLabels) : List Text := pdUnique ((placedFaces d regions).map (·.region))

theorem inRegion_all (css : List (Station Text K)) (r : Text) (h : ∀ c ∈ css, c.region = r) : inRegion css r = css := by
  unfold inRegion
  rw [List.filter_eq_self]
  intro c hc
  simpa using h c hc

theorem stationsOf_none (css : List (Loc K)) : stationsOf css (css.map fun _ => []) = placed css none := by
  unfold stationsOf placed
  induction css with
  | nil => rfl
  | cons a as ih => simp only [List.map_cons, List.zip_cons_cons]; rw [ih]

theorem gridPoints_none (x y : List K) : gridPoints x y (x.map fun _ => []) = (x.zip y).map fun p => (⟨p, []⟩ : GridPoint Text K) := by
  unfold gridPoints
  induction x generalizing y with
  | nil => rfl
  | cons a as ih =>
    cases y with
    | nil => rfl
    | cons b bs => simp only [List.map_cons, List.zip_cons_cons]; rw [ih]

/-- The labels of a classification that did not fail. -/
theorem assignCss_labels (nn : NearestPicker K) (d : MapData K) (css : List (Loc K)) (regions : Option RegionLabels) (fs es : List Text)
    (h : assignCss nn d css regions = .ok (fs, es)) :
    ∃ trunc : Text → Text, (trunc = id ∨ (regions ≠ none ∧ trunc = List.take 99)) ∧
      fs = (placedFaces d regions).map (fun p => faceLabel nn (placed css regions) (regionsOf d regions) p p.region) ∧
      es = (placedEdges d regions).map fun p => edgeLabel nn trunc (placed css regions) (regionsOf d regions) p [] := by
  cases regions with
  | none =>
    refine ⟨id, .inl rfl, ?_⟩
    unfold assignCss at h
    rw [stationsOf_none, gridPoints_none, gridPoints_none] at h
    have h : classifyWithoutRegions nn (placed css none) (placedFaces d none) (placedEdges d none) = .ok (fs, es) := h
    unfold classifyWithoutRegions at h
    by_cases hc : placed css none = []
    · have : predict nn (placed css none) (placedFaces d none) = .error .valueError := by unfold predict; rw [if_pos (.inl hc)]
      rw [this] at h; cases h
    by_cases hf : placedFaces d none = []
    · have : predict nn (placed css none) (placedFaces d none) = .error .valueError := by unfold predict; rw [if_pos (.inr hf)]
      rw [this] at h; cases h
    rw [predict_eq nn _ _ hc hf []] at h
    by_cases he : placedEdges d none = []
    · have : predict nn (placed css none) (placedEdges d none) = .error .valueError := by unfold predict; rw [if_pos (.inr he)]
      simp only at h
      rw [this] at h; cases h
    simp only at h
    rw [predict_eq nn _ _ hc he []] at h
    obtain ⟨h1, h2⟩ := Prod.mk.inj (Except.ok.inj h)
    have hall : inRegion (placed css none) [] = placed css none := by
      apply inRegion_all
      intro c hcm
      obtain ⟨l, _, rfl⟩ := List.mem_map.1 hcm
      rfl
    have hrs : ([] : Text) ∈ regionsOf d none := by
      unfold regionsOf
      rw [mem_pdUnique]
      obtain ⟨p, hp⟩ := List.exists_mem_of_ne_nil _ hf
      refine List.mem_map.2 ⟨p, hp, ?_⟩
      obtain ⟨q, _, rfl⟩ := List.mem_map.1 hp
      rfl
    refine ⟨?_, ?_⟩
    · rw [← h1]
      apply List.map_congr_left
      intro p hp
      obtain ⟨q, _, rfl⟩ := List.mem_map.1 hp
      unfold faceLabel
      simp only
      rw [hall, if_pos ⟨hrs, hc⟩]
    · rw [← h2]
      apply List.map_congr_left
      intro p hp
      obtain ⟨q, _, rfl⟩ := List.mem_map.1 hp
      unfold edgeLabel
      simp only
      rw [hall, if_pos ⟨hrs, hc⟩]
      rfl
  | some r =>
    refine ⟨List.take 99, .inr ⟨by simp, rfl⟩, ?_⟩
    have h : classifyWithRegions nn (List.take 99) [] (placed css (some r)) (placedFaces d (some r)) (placedEdges d (some r)) = .ok (fs, es) := h
    unfold classifyWithRegions at h
    by_cases hok : ∀ q ∈ pdUnique ((placedFaces d (some r)).map (·.region)), inRegion (placed css (some r)) q = [] ∨
        ((placedFaces d (some r)).filter (fun p => p.region = q) ≠ [] ∧ (placedEdges d (some r)).filter (fun p => p.region = q) ≠ [])
    · rw [classifyRegions_eq nn (List.take 99) _ _ _ _ (nodup_pdUnique _) _ _ (by simp) (by simp) hok] at h
      obtain ⟨h1, h2⟩ := Prod.mk.inj (Except.ok.inj h)
      refine ⟨?_, ?_⟩
      · rw [← h1, List.zipWith_map_right, List.zipWith_self]; rfl
      · rw [← h2, List.zipWith_map_right, List.zipWith_self]; rfl
    · push Not at hok
      obtain ⟨q, hq, h1, h2⟩ := hok
      rw [classifyRegions_error nn (List.take 99) _ _ _ _ _ _ (by simp) (by simp) q hq h1] at h
      · cases h
      · by_cases h' : (placedFaces d (some r)).filter (fun p => p.region = q) = []
        · exact .inl h'
        · exact .inr (h2 h')

theorem mem_inRegion {css : List (Station Text K)} {r : Text} {c : Station Text K} : c ∈ inRegion css r ↔ c ∈ css ∧ c.region = r := by
  unfold inRegion
  rw [List.mem_filter]
  simp

theorem take_short {t : Text} (trunc : Text → Text) (regions : Option RegionLabels)
    (ht : trunc = id ∨ (regions ≠ none ∧ trunc = List.take 99)) (h : regions ≠ none → t.length ≤ 99) : trunc t = t := by
  rcases ht with rfl | ⟨hr, rfl⟩
  · rfl
  · exact List.take_of_length_le (h hr)

/-- The label of a point in a region with the cross-section. -/
theorem label_belongs (nn : NearestPicker K) {css : List (Station Text K)} {c : Station Text K} {regions : Option RegionLabels}
    (hc : Named css c regions) {p : GridPoint Text K} (hp : Belongs css c p) (o : Text) :
    inRegion css p.region ≠ [] ∧ labelD nn (inRegion css p.region) o p.pos = c.id := by
  have hmem : c ∈ inRegion css p.region := mem_inRegion.2 ⟨hc.mem, hp.1.symm⟩
  have hne : inRegion css p.region ≠ [] := List.ne_nil_of_mem hmem
  refine ⟨hne, ?_⟩
  obtain ⟨d, hd, hid, hmin⟩ := labelD_nearest nn _ hne o p.pos
  by_cases hdc : d = c
  · rw [← hid, hdc]
  · have h1 := hp.2 d (mem_inRegion.1 hd).1 ((mem_inRegion.1 hd).2.trans hp.1) hdc
    exact absurd (hmin c hmem) (not_le.2 h1)

/-- The label of a point that does not belong to the cross-section. -/
theorem label_apart (nn : NearestPicker K) {css : List (Station Text K)} {c : Station Text K} {regions : Option RegionLabels}
    (hc : Named css c regions) {p : GridPoint Text K} (hp : Apart css c p) (o : Text) (hne : inRegion css p.region ≠ []) :
    labelD nn (inRegion css p.region) o p.pos ≠ c.id := by
  intro h
  obtain ⟨d, hd, hid, hmin⟩ := labelD_nearest nn _ hne o p.pos
  rw [h] at hid
  obtain rfl := hc.only d (mem_inRegion.1 hd).1 hid
  rcases hp with hp | ⟨e, he, her, hlt⟩
  · exact hp (mem_inRegion.1 hd).2.symm
  · exact absurd (hmin e (mem_inRegion.2 ⟨he, her.trans (mem_inRegion.1 hd).2⟩)) (not_le.2 hlt)

theorem labelD_mem (nn : NearestPicker K) {css : List (Station Text K)} (r : Text) (o : Text) (p : Pt K) (hne : inRegion css r ≠ []) :
    ∃ d ∈ css, d.id = labelD nn (inRegion css r) o p := by
  obtain ⟨d, hd, hid, _⟩ := labelD_nearest nn _ hne o p
  exact ⟨d, (mem_inRegion.1 hd).1, hid⟩

/-- Two lists of cross-sections give a point to the same cross-section, or both to another one. -/
def Agree (css css' : List (Station Text K)) (c : Station Text K) (p : GridPoint Text K) : Prop :=
  (p.region = c.region ∧ inRegion css' c.region = inRegion css c.region) ∨ p.region ≠ c.region ∨
    (Belongs css c p ∧ Belongs css' c p) ∨ (Apart css c p ∧ Apart css' c p)

theorem face_agree (nn : NearestPicker K) {css css' : List (Station Text K)} {c : Station Text K} {regions regions' : Option RegionLabels}
    (hc : Named css c regions) (hc' : Named css' c regions') (rs : List Text) {p : GridPoint Text K} (h : Agree css css' c p)
    (hname : p.region ≠ c.id) :
    faceLabel nn css rs p p.region = c.id ↔ faceLabel nn css' rs p p.region = c.id := by
  have hapart : ∀ {l : List (Station Text K)} {g : Option RegionLabels}, Named l c g → Apart l c p →
      ¬ faceLabel nn l rs p p.region = c.id := by
    intro l g hl ha
    unfold faceLabel
    split
    · rename_i h1
      exact label_apart nn hl ha _ h1.2
    · exact hname
  rcases h with ⟨h1, h2⟩ | h1 | ⟨h1, h2⟩ | ⟨h1, h2⟩
  · unfold faceLabel
    rw [h1, h2]
  · exact ⟨fun e => absurd e (hapart hc (.inl h1)), fun e => absurd e (hapart hc' (.inl h1))⟩
  · obtain ⟨h3, h4⟩ := label_belongs nn hc h1 p.region
    obtain ⟨h5, h6⟩ := label_belongs nn hc' h2 p.region
    unfold faceLabel
    by_cases hr : p.region ∈ rs
    · rw [if_pos ⟨hr, h3⟩, if_pos ⟨hr, h5⟩, h4, h6]
    · rw [if_neg (fun e => hr e.1), if_neg (fun e => hr e.1)]
  · exact ⟨fun e => absurd e (hapart hc h1), fun e => absurd e (hapart hc' h2)⟩

theorem edge_agree (nn : NearestPicker K) {css css' : List (Station Text K)} {c : Station Text K} {regions regions' : Option RegionLabels}
    (hc : Named css c regions) (hc' : Named css' c regions') (hreg : regions = none ↔ regions' = none) (rs : List Text)
    (trunc trunc' : Text → Text) (ht : trunc = id ∨ (regions ≠ none ∧ trunc = List.take 99))
    (ht' : trunc' = id ∨ (regions' ≠ none ∧ trunc' = List.take 99)) {p : GridPoint Text K} (h : Agree css css' c p)
    (hid : c.id ≠ []) :
    edgeLabel nn trunc css rs p [] = c.id ↔ edgeLabel nn trunc' css' rs p [] = c.id := by
  have key : ∀ {l : List (Station Text K)} {g : Option RegionLabels} {tr : Text → Text}, Named l c g →
      (tr = id ∨ (g ≠ none ∧ tr = List.take 99)) →
      (edgeLabel nn tr l rs p [] = c.id ↔
        (p.region ∈ rs ∧ inRegion l p.region ≠ []) ∧ labelD nn (inRegion l p.region) p.region p.pos = c.id) := by
    intro l g tr hl htr
    unfold edgeLabel
    split
    · rename_i h1
      obtain ⟨d, hd, hdid⟩ := labelD_mem nn p.region p.region p.pos h1.2
      rw [← hdid, take_short tr g htr (fun hg => hl.short hg d hd)]
      exact ⟨fun e => ⟨h1, e⟩, fun e => e.2⟩
    · rename_i h1
      exact ⟨fun e => absurd e.symm hid, fun e => absurd e.1 h1⟩
  rw [key hc ht, key hc' ht']
  rcases h with ⟨h1, h2⟩ | h1 | ⟨h1, h2⟩ | ⟨h1, h2⟩
  · rw [h1, h2]
  · exact ⟨fun e => absurd e.2 (label_apart nn hc (.inl h1) _ e.1.2), fun e => absurd e.2 (label_apart nn hc' (.inl h1) _ e.1.2)⟩
  · obtain ⟨h3, h4⟩ := label_belongs nn hc h1 p.region
    obtain ⟨h5, h6⟩ := label_belongs nn hc' h2 p.region
    exact ⟨fun e => ⟨⟨e.1.1, h5⟩, h6⟩, fun e => ⟨⟨e.1.1, h3⟩, h4⟩⟩
  · exact ⟨fun e => absurd e.2 (label_apart nn hc h1 _ e.1.2), fun e => absurd e.2 (label_apart nn hc' h2 _ e.1.2)⟩

theorem rowsOf_map_congr {α : Type} (pts : List α) (f g : α → Text) (id : Text) (h : ∀ p ∈ pts, f p = id ↔ g p = id) :
    rowsOf (pts.map f) id = rowsOf (pts.map g) id := by
  unfold rowsOf
  rw [List.length_map, List.length_map]
  apply List.filter_congr
  intro i hi
  have hlt : i < pts.length := List.mem_range.1 hi
  have := h pts[i] (List.getElem_mem hlt)
  rw [List.getElem?_map, List.getElem?_map, List.getElem?_eq_getElem hlt]
  simp only [Option.map_some, Option.some.injEq]
  exact decide_eq_decide.2 this

variable [FloorRing K]

/-- The cross-section has the same data. -/
theorem same_data (nn : NearestPicker K) (i : Inputs K) (css css' : List (Loc K)) (regions : Option RegionLabels) (labels : List Text)
    (hcss : i.css = .ok css) (hreg : i.regions = regions.map .ok) (m m' : Model2d K) (hm : setModelData nn i = .ok m)
    (hm' : setModelData nn (Inputs.withCss css' labels i) = .ok m') (c : Station Text K) (hid : c.id ≠ [])
    (hc : Named (placed css regions) c regions) (hc' : Named (placed css' (withRegions labels regions)) c (withRegions labels regions))
    (hname : ∀ d, i.map = .ok d → ∀ p ∈ placedFaces d regions, p.region ≠ c.id)
    (h : ∀ d, i.map = .ok d → ∀ p ∈ placedFaces d regions ++ placedEdges d regions,
      Agree (placed css regions) (placed css' (withRegions labels regions)) c p) :
    SameData m m' c.id ∧ m.stations = css ∧ m'.stations = css' := by
  obtain ⟨d, css1, regions1, sections, fs, es, fsect, esect, hd, h1, h2, h3, h4, h5, h6, h7, h8, h9⟩ := setModelData_ok nn i m hm
  obtain ⟨d', css2, regions2, sections', fs', es', fsect', esect', hd', h1', h2', h3', h4', h5', h6', h7', h8', h9'⟩ :=
    setModelData_ok nn _ m' hm'
  have hd'' : i.map = .ok d' := hd'
  rw [hd] at hd''
  obtain rfl := Except.ok.inj hd''
  rw [hcss] at h1
  obtain rfl := Except.ok.inj h1
  obtain rfl := Except.ok.inj h1'
  have hr1 : regions1 = regions := by
    rw [hreg] at h2
    cases regions with
    | none => exact (Except.ok.inj h2).symm
    | some r => exact (Except.ok.inj h2).symm
  have hr2 : regions2 = withRegions labels regions := by
    have h2' : readOptional (i.regions.map fun r => r.map fun r => { r with css := labels }) = .ok regions2 := h2'
    rw [hreg] at h2'
    cases regions with
    | none => exact (Except.ok.inj h2').symm
    | some r => exact (Except.ok.inj h2').symm
  subst hr1 hr2
  have hs : sections' = sections := by
    have h3' : readOptional i.sections = .ok sections' := h3'
    rw [h3] at h3'
    exact (Except.ok.inj h3').symm
  subst hs
  rw [h5] at h5'
  obtain ⟨e1, e23⟩ := Prod.mk.inj (Except.ok.inj h5')
  obtain ⟨e2, e3⟩ := Prod.mk.inj e23
  obtain ⟨trunc, ht, hfs, hes⟩ := assignCss_labels nn d css regions1 fs es h4
  obtain ⟨trunc', ht', hfs', hes'⟩ := assignCss_labels nn d css' (withRegions labels regions1) fs' es' h4'
  have hf : placedFaces d (withRegions labels regions1) = placedFaces d regions1 := by cases regions1 <;> rfl
  have he : placedEdges d (withRegions labels regions1) = placedEdges d regions1 := by cases regions1 <;> rfl
  have hrs : regionsOf d (withRegions labels regions1) = regionsOf d regions1 := by unfold regionsOf; rw [hf]
  have hnone : regions1 = none ↔ withRegions labels regions1 = none := by cases regions1 <;> simp [withRegions]
  rw [hf, hrs] at hfs'
  rw [he, hrs] at hes'
  have hrow : rowsOf fs c.id = rowsOf fs' c.id := by
    rw [hfs, hfs']
    exact rowsOf_map_congr _ _ _ _ fun p hp => face_agree nn hc hc' _ (h d hd p (List.mem_append.2 (.inl hp))) (hname d hd p hp)
  have hrowe : rowsOf es c.id = rowsOf es' c.id := by
    rw [hes, hes']
    exact rowsOf_map_congr _ _ _ _ fun p hp =>
      edge_agree nn hc hc' hnone _ trunc trunc' ht ht' (h d hd p (List.mem_append.2 (.inr hp))) hid
  refine ⟨⟨?_, ?_, ?_, e3⟩, h9, h9'⟩
  · rw [h6, h6']
    simp only
    rw [hrow, e1]
    rfl
  · rw [h7, h7']
    simp only
    rw [hrowe, e2]
    rfl
  · rw [h8, h8']

end Fm2prof.TerritoryProof

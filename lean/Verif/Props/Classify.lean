import Mathlib.Algebra.Order.Field.Rat
import Mathlib.Data.Rat.Floor
import Verif.Proofs.Classify

/-!
# Properties of the assignment of 2D points: C27, C28, C29, C30, C37, C38
-/

set_option linter.unusedSectionVars false

namespace Fm2prof.Props

open Fm2prof Spec

variable {K : Type} [Field K] [LinearOrder K] [IsStrictOrderedRing K]
variable {ι : Type} [DecidableEq ι]

/-! ## A search for the examples -/

/-- Index of the first nearest location. -/
def firstNearestIndex (l : List (Pt K)) (p : Pt K) : Nat := (argminFirst (l.map fun c => sqDist c p)).getD 0

/-- A search that picks the first nearest location: the assumptions on the search can be met. -/
def firstNearest : NearestPicker K where
  pick := firstNearestIndex
  pick_lt l p h := by
    obtain ⟨k, v, h1, h2, _⟩ := argminFirst_spec (l.map fun c => sqDist c p) (by simpa using h)
    unfold firstNearestIndex
    rw [h1]
    have := (List.getElem?_eq_some_iff.1 h2).1
    rwa [List.length_map] at this
  pick_nearest l p q c hq hc := by
    have hne : l ≠ [] := List.ne_nil_of_mem hc
    obtain ⟨k, v, h1, h2, h3, _⟩ := argminFirst_spec (l.map fun c => sqDist c p) (by simpa using hne)
    unfold firstNearestIndex at hq
    rw [h1, Option.getD_some] at hq
    rw [List.getElem?_map, hq, Option.map_some] at h2
    rw [Option.some.inj h2]
    exact h3 _ (List.mem_map.2 ⟨c, hc, rfl⟩)

/-! ## C27: nearest cross-section -/

/-- C27. Without regions every face and every edge gets one label, and that is the id of a nearest cross-section. -/
theorem C27_nearest (nn : NearestPicker K) (css : List (Station ι K)) (faces edges : List (GridPoint ι K))
    (fs es : List ι) (h : classifyWithoutRegions nn css faces edges = .ok (fs, es)) :
    (fs.length = faces.length ∧
      ∀ (i : Nat) p l, faces[i]? = some p → fs[i]? = some l → NearestId css p.pos l) ∧
    (es.length = edges.length ∧
      ∀ (i : Nat) p l, edges[i]? = some p → es[i]? = some l → NearestId css p.pos l) := by
  have key : ∀ (pts : List (GridPoint ι K)) ls, predict nn css pts = .ok ls → ls.length = pts.length ∧
      ∀ (i : Nat) p l, pts[i]? = some p → ls[i]? = some l → NearestId css p.pos l := by
    intro pts ls hp
    by_cases hc : css = []
    · unfold predict at hp; rw [if_pos (.inl hc)] at hp; cases hp
    by_cases hpt : pts = []
    · unfold predict at hp; rw [if_pos (.inr hpt)] at hp; cases hp
    obtain ⟨p₀, hp₀⟩ := List.exists_mem_of_ne_nil _ hc
    rw [predict_eq nn css pts hc hpt p₀.id] at hp
    obtain rfl := Except.ok.inj hp
    refine ⟨List.length_map _, fun i p l h1 h2 => ?_⟩
    rw [List.getElem?_map, h1, Option.map_some] at h2
    obtain rfl := Option.some.inj h2
    exact labelD_nearest nn css hc _ _
  unfold classifyWithoutRegions at h
  split at h
  · cases h
  · rename_i f hf
    split at h
    · cases h
    · rename_i g hg
      obtain ⟨rfl, rfl⟩ := Prod.mk.inj (Except.ok.inj h)
      exact ⟨key faces _ hf, key edges _ hg⟩

/-- C27. It succeeds exactly when there is a cross-section, a face and an edge. -/
theorem C27_defined_iff (nn : NearestPicker K) (css : List (Station ι K)) (faces edges : List (GridPoint ι K)) :
    (∃ r, classifyWithoutRegions nn css faces edges = .ok r) ↔ css ≠ [] ∧ faces ≠ [] ∧ edges ≠ [] := by
  constructor
  · rintro ⟨r, h⟩
    unfold classifyWithoutRegions at h
    by_cases hc : css = []
    · have : ∀ pts : List (GridPoint ι K), predict nn css pts = .error .valueError := fun pts => by
        unfold predict; rw [if_pos (.inl hc)]
      rw [this] at h; cases h
    · by_cases hf : faces = []
      · have : predict nn css faces = .error .valueError := by unfold predict; rw [if_pos (.inr hf)]
        rw [this] at h; cases h
      · by_cases he : edges = []
        · have : predict nn css edges = .error .valueError := by unfold predict; rw [if_pos (.inr he)]
          obtain ⟨p₀, hp₀⟩ := List.exists_mem_of_ne_nil _ hc
          rw [predict_eq nn css faces hc hf p₀.id, this] at h; cases h
        · exact ⟨hc, hf, he⟩
  · rintro ⟨hc, hf, he⟩
    obtain ⟨p₀, hp₀⟩ := List.exists_mem_of_ne_nil _ hc
    unfold classifyWithoutRegions
    rw [predict_eq nn css faces hc hf p₀.id, predict_eq nn css edges hc he p₀.id]
    exact ⟨_, rfl⟩

/-- Two cross-sections, ids 1 and 2, in regions 10 and 20. -/
def twoStations : List (Station Nat ℚ) := [⟨1, (0, 0), 10⟩, ⟨2, (10, 0), 20⟩]

/-- Faces and edges of a small grid. -/
def smallFaces : List (GridPoint Nat ℚ) := [⟨(1, 1), 10⟩, ⟨(9, 1), 10⟩, ⟨(8, 0), 20⟩, ⟨(20, 3), 30⟩]

/-- Edges of the same grid. -/
def smallEdges : List (GridPoint Nat ℚ) := [⟨(2, 1), 10⟩, ⟨(7, 0), 20⟩, ⟨(20, 2), 30⟩]

/-- The labels of the small grid. -/
example : (match classifyWithoutRegions firstNearest twoStations smallFaces smallEdges with
    | .ok r => decide (r = ([1, 2, 2, 2], [1, 2, 2]))
    | .error _ => false) = true := by
  decide +kernel

/-! ## C28: regions -/

/-- C28. With regions, a face in a region that contains a cross-section gets the id of a nearest cross-section of that
same region. -/
theorem C28_faces_in_regions (nn : NearestPicker K) (trunc : ι → ι) (blank : ι) (css : List (Station ι K))
    (faces edges : List (GridPoint ι K)) (fs es : List ι)
    (h : classifyWithRegions nn trunc blank css faces edges = .ok (fs, es)) (i : Nat) (p : GridPoint ι K) (l : ι)
    (hp : faces[i]? = some p) (hl : fs[i]? = some l) (hc : inRegion css p.region ≠ []) :
    NearestId (inRegion css p.region) p.pos l := by
  unfold classifyWithRegions at h
  by_cases hok : ∀ r ∈ pdUnique (faces.map (·.region)), inRegion css r = [] ∨
      (faces.filter (fun p => p.region = r) ≠ [] ∧ edges.filter (fun p => p.region = r) ≠ [])
  · rw [classifyRegions_eq nn trunc css faces edges _ (nodup_pdUnique _) _ _ (by simp) (by simp) hok] at h
    obtain ⟨rfl, rfl⟩ := Prod.mk.inj (Except.ok.inj h)
    rw [List.getElem?_zipWith, hp, List.getElem?_map, hp] at hl
    simp only [Option.map_some] at hl
    obtain rfl := Option.some.inj hl
    unfold faceLabel
    rw [if_pos ⟨(mem_pdUnique _ _).2 (List.mem_map.2 ⟨p, List.mem_of_getElem? hp, rfl⟩), hc⟩]
    exact labelD_nearest nn _ hc _ _
  · push Not at hok
    obtain ⟨r, hr, h1, h2⟩ := hok
    rw [classifyRegions_error nn trunc css faces edges _ _ _ (by simp) (by simp) r hr h1] at h
    · cases h
    · by_cases h' : faces.filter (fun p => p.region = r) = []
      · exact .inl h'
      · exact .inr (h2 h')

/-- C28. Edges likewise, when a face lies in the same region. Ids of more than 99 characters are cut off in the labels
of edges (`trunc`). Missing from the full property: regions without a face (`C28_edges_violated`). -/
theorem C28_edges_in_regions_partial (nn : NearestPicker K) (trunc : ι → ι) (blank : ι) (css : List (Station ι K))
    (faces edges : List (GridPoint ι K)) (fs es : List ι)
    (h : classifyWithRegions nn trunc blank css faces edges = .ok (fs, es)) (i : Nat) (p : GridPoint ι K) (l : ι)
    (hp : edges[i]? = some p) (hl : es[i]? = some l) (hc : inRegion css p.region ≠ [])
    (hface : ∃ q ∈ faces, q.region = p.region) :
    ∃ l', l = trunc l' ∧ NearestId (inRegion css p.region) p.pos l' := by
  unfold classifyWithRegions at h
  by_cases hok : ∀ r ∈ pdUnique (faces.map (·.region)), inRegion css r = [] ∨
      (faces.filter (fun p => p.region = r) ≠ [] ∧ edges.filter (fun p => p.region = r) ≠ [])
  · rw [classifyRegions_eq nn trunc css faces edges _ (nodup_pdUnique _) _ _ (by simp) (by simp) hok] at h
    obtain ⟨rfl, rfl⟩ := Prod.mk.inj (Except.ok.inj h)
    rw [List.getElem?_zipWith, hp, List.getElem?_map, hp] at hl
    simp only [Option.map_some] at hl
    obtain rfl := Option.some.inj hl
    unfold edgeLabel
    obtain ⟨q, hq, hqr⟩ := hface
    rw [if_pos ⟨(mem_pdUnique _ _).2 (List.mem_map.2 ⟨q, hq, hqr⟩), hc⟩]
    exact ⟨_, rfl, labelD_nearest nn _ hc _ _⟩
  · push Not at hok
    obtain ⟨r, hr, h1, h2⟩ := hok
    rw [classifyRegions_error nn trunc css faces edges _ _ _ (by simp) (by simp) r hr h1] at h
    · cases h
    · by_cases h' : faces.filter (fun p => p.region = r) = []
      · exact .inl h'
      · exact .inr (h2 h')

/-- C28. A face in a region without cross-section keeps the name of its region as label and an edge there keeps the
empty name, so they belong to no cross-section unless its id is that name. -/
theorem C28_regions_without_cross_section_partial (nn : NearestPicker K) (trunc : ι → ι) (blank : ι)
    (css : List (Station ι K)) (faces edges : List (GridPoint ι K)) (fs es : List ι)
    (h : classifyWithRegions nn trunc blank css faces edges = .ok (fs, es)) :
    fs.length = faces.length ∧ es.length = edges.length ∧
    (∀ (i : Nat) p l, faces[i]? = some p → fs[i]? = some l → inRegion css p.region = [] → l = p.region) ∧
    (∀ (i : Nat) p l, edges[i]? = some p → es[i]? = some l → inRegion css p.region = [] → l = blank) := by
  unfold classifyWithRegions at h
  by_cases hok : ∀ r ∈ pdUnique (faces.map (·.region)), inRegion css r = [] ∨
      (faces.filter (fun p => p.region = r) ≠ [] ∧ edges.filter (fun p => p.region = r) ≠ [])
  · rw [classifyRegions_eq nn trunc css faces edges _ (nodup_pdUnique _) _ _ (by simp) (by simp) hok] at h
    obtain ⟨rfl, rfl⟩ := Prod.mk.inj (Except.ok.inj h)
    refine ⟨by simp, by simp, ?_, ?_⟩
    · intro i p l hp hl hc
      rw [List.getElem?_zipWith, hp, List.getElem?_map, hp] at hl
      simp only [Option.map_some] at hl
      obtain rfl := Option.some.inj hl
      unfold faceLabel
      rw [if_neg (by simp [hc])]
    · intro i p l hp hl hc
      rw [List.getElem?_zipWith, hp, List.getElem?_map, hp] at hl
      simp only [Option.map_some] at hl
      obtain rfl := Option.some.inj hl
      unfold edgeLabel
      rw [if_neg (by simp [hc])]
  · push Not at hok
    obtain ⟨r, hr, h1, h2⟩ := hok
    rw [classifyRegions_error nn trunc css faces edges _ _ _ (by simp) (by simp) r hr h1] at h
    · cases h
    · by_cases h' : faces.filter (fun p => p.region = r) = []
      · exact .inl h'
      · exact .inr (h2 h')

/-- C28. Classifying with regions fails exactly when some region has a cross-section and a face but no edge. -/
theorem C28_fails_iff (nn : NearestPicker K) (trunc : ι → ι) (blank : ι) (css : List (Station ι K))
    (faces edges : List (GridPoint ι K)) :
    (∃ e, classifyWithRegions nn trunc blank css faces edges = .error e) ↔
      ∃ r, (∃ c ∈ css, c.region = r) ∧ (∃ p ∈ faces, p.region = r) ∧ ∀ p ∈ edges, p.region ≠ r := by
  unfold classifyWithRegions
  by_cases hok : ∀ r ∈ pdUnique (faces.map (·.region)), inRegion css r = [] ∨
      (faces.filter (fun p => p.region = r) ≠ [] ∧ edges.filter (fun p => p.region = r) ≠ [])
  · rw [classifyRegions_eq nn trunc css faces edges _ (nodup_pdUnique _) _ _ (by simp) (by simp) hok]
    constructor
    · rintro ⟨e, he⟩; cases he
    · rintro ⟨r, ⟨c, hc, hcr⟩, ⟨p, hp, hpr⟩, hno⟩
      rcases hok r ((mem_pdUnique _ _).2 (List.mem_map.2 ⟨p, hp, hpr⟩)) with h | ⟨_, h⟩
      · have : c ∈ inRegion css r := List.mem_filter.2 ⟨hc, by simpa using hcr⟩
        rw [h] at this; cases this
      · obtain ⟨q, hq⟩ := List.exists_mem_of_ne_nil _ h
        obtain ⟨hq1, hq2⟩ := List.mem_filter.1 hq
        exact absurd (by simpa using hq2) (hno q hq1)
  · push Not at hok
    obtain ⟨r, hr, h1, h2⟩ := hok
    have hbad : faces.filter (fun p => p.region = r) = [] ∨ edges.filter (fun p => p.region = r) = [] := by
      by_cases h' : faces.filter (fun p => p.region = r) = []
      · exact .inl h'
      · exact .inr (h2 h')
    rw [classifyRegions_error nn trunc css faces edges _ _ _ (by simp) (by simp) r hr h1 hbad]
    refine ⟨fun _ => ?_, fun _ => ⟨_, rfl⟩⟩
    obtain ⟨p, hp, hpr⟩ := List.mem_map.1 ((mem_pdUnique _ _).1 hr)
    obtain ⟨c, hc⟩ := List.exists_mem_of_ne_nil _ h1
    obtain ⟨hc1, hc2⟩ := List.mem_filter.1 hc
    refine ⟨r, ⟨c, hc1, by simpa using hc2⟩, ⟨p, hp, hpr⟩, fun q hq hqr => ?_⟩
    have hpf : p ∈ faces.filter (fun p => p.region = r) := List.mem_filter.2 ⟨hp, by simpa using hpr⟩
    have hqf : q ∈ edges.filter (fun p => p.region = r) := List.mem_filter.2 ⟨hq, by simpa using hqr⟩
    rcases hbad with h | h
    · rw [h] at hpf; cases hpf
    · rw [h] at hqf; cases hqf

/-- The second face is near cross-section 2 but in the region of cross-section 1; the last one is in a region without
cross-section. -/
example : (match classifyWithRegions firstNearest id 0 twoStations smallFaces smallEdges with
    | .ok r => decide (r = ([1, 1, 2, 30], [1, 2, 0]))
    | .error _ => false) = true := by
  decide +kernel

/-- C28 is violated by a region that has no cross-section but is named like one of another region: its face is
assigned to that cross-section. -/
theorem C28_region_named_like_id_violated :
    ∃ (css : List (Station Nat ℚ)) (faces edges : List (GridPoint Nat ℚ)) (fs es : List Nat),
      classifyWithRegions firstNearest id 0 css faces edges = .ok (fs, es) ∧
        ∃ (i : Nat) (p : GridPoint Nat ℚ) (c : Station Nat ℚ), faces[i]? = some p ∧ fs[i]? = some c.id ∧ c ∈ css ∧
          inRegion css p.region = [] ∧ c.region ≠ p.region := by
  refine ⟨twoStations, [⟨(1, 1), 10⟩, ⟨(30, 30), 1⟩], [⟨(2, 1), 10⟩], [1, 1], [1], ?_, 1, ⟨(30, 30), 1⟩,
    ⟨1, (0, 0), 10⟩, rfl, rfl, by simp [twoStations], by simp [inRegion, twoStations], by simp⟩
  have : pdUnique ([10, 1] : List Nat) = [10, 1] := by decide +kernel
  unfold classifyWithRegions
  rw [List.map_cons, List.map_cons, List.map_nil, this,
    classifyRegions_eq firstNearest id twoStations _ _ _ (by simp) _ _ rfl rfl (by
      intro r hr
      simp only [List.mem_cons, List.not_mem_nil, or_false] at hr
      rcases hr with rfl | rfl
      · right; simp
      · left; simp [inRegion, twoStations])]
  congr 2 <;> decide +kernel

/-- C28 is violated for edges of a region that has a cross-section but no face: they are assigned to none. -/
theorem C28_edges_violated :
    ∃ (css : List (Station Nat ℚ)) (faces edges : List (GridPoint Nat ℚ)) (fs es : List Nat),
      classifyWithRegions firstNearest id 0 css faces edges = .ok (fs, es) ∧
        ∃ (i : Nat) (p : GridPoint Nat ℚ), edges[i]? = some p ∧ inRegion css p.region ≠ [] ∧
          ∀ c ∈ css, es[i]? ≠ some c.id := by
  refine ⟨twoStations, [⟨(1, 1), 10⟩], [⟨(2, 1), 10⟩, ⟨(9, 0), 20⟩], [1], [1, 0], ?_, 1, ⟨(9, 0), 20⟩, rfl,
    by simp [inRegion, twoStations], ?_⟩
  · have : pdUnique ([10] : List Nat) = [10] := by decide +kernel
    unfold classifyWithRegions
    rw [List.map_cons, List.map_nil, this,
      classifyRegions_eq firstNearest id twoStations _ _ _ (by simp) _ _ rfl rfl (by
        intro r hr
        simp only [List.mem_cons, List.not_mem_nil, or_false] at hr
        subst hr
        right; simp)]
    congr 2 <;> decide +kernel
  · intro c hc
    simp only [twoStations, List.mem_cons, List.not_mem_nil, or_false] at hc
    rcases hc with rfl | rfl <;> simp

/-! ## C38: selection -/

/-- C38. The data selected for a cross-section are, for every face column, the values of the faces labelled with its
id, in grid order and the same faces in every column, and likewise for the edges. Water levels are missing exactly
where the depth is zero and otherwise as given; the velocity is the root of the summed squares. -/
theorem C38_selection (sqrt : K → K) (f : FaceData ι K) (e : EdgeData ι K) (name : ι)
    (hx : f.x.length = f.sclass.length) (hy : f.y.length = f.sclass.length) (ha : f.area.length = f.sclass.length)
    (hb : f.bedlevel.length = f.sclass.length) (hr : f.region.length = f.sclass.length)
    (hi : f.islake.length = f.sclass.length) (hs : f.sect.length = f.sclass.length)
    (hd : f.waterdepth.length = f.sclass.length) (hw : f.waterlevel.length = f.sclass.length)
    (hvx : f.velocityX.length = f.sclass.length) (hvy : f.velocityY.length = f.sclass.length)
    (hex : e.x.length = e.sclass.length) (hey : e.y.length = e.sclass.length) (hes : e.sect.length = e.sclass.length)
    (hec : e.chezy.length = e.sclass.length) (hef : ∀ ef, e.edgeFaces = some ef → ef.length = e.sclass.length) :
    let s := getSelection sqrt f e name
    let faces := rowsOf f.sclass name
    let edges := rowsOf e.sclass name
    s.x = atRows faces f.x ∧ s.y = atRows faces f.y ∧ s.area = atRows faces f.area ∧
    s.bedlevel = atRows faces f.bedlevel ∧ s.region = atRows faces f.region ∧ s.islake = atRows faces f.islake ∧
    s.sect = atRows faces f.sect ∧ s.waterdepth = atRows faces f.waterdepth ∧
    s.waterlevel = List.zipWith (List.zipWith fun d z => if d = some 0 then none else z)
      (atRows faces f.waterdepth) (atRows faces f.waterlevel) ∧
    s.velocity = List.zipWith (List.zipWith fun vx vy => vx.bind fun a => vy.map fun b => sqrt (a ^ 2 + b ^ 2))
      (atRows faces f.velocityX) (atRows faces f.velocityY) ∧
    s.edgeX = atRows edges e.x ∧ s.edgeY = atRows edges e.y ∧ s.edgeSection = atRows edges e.sect ∧
    s.chezy = atRows edges e.chezy ∧ s.edgeFaces = e.edgeFaces.map (atRows edges) := by
  have hspeed : (speed sqrt : Option K → Option K → Option K) =
      fun vx vy => vx.bind fun a => vy.map fun b => sqrt (a ^ 2 + b ^ 2) := by
    funext vx vy
    cases vx <;> cases vy <;> rfl
  have hdry : (dryToNan : Option K → Option K → Option K) = fun d z => if d = some 0 then none else z := rfl
  refine ⟨maskSelect_rows _ _ _ hx, maskSelect_rows _ _ _ hy, maskSelect_rows _ _ _ ha, maskSelect_rows _ _ _ hb,
    maskSelect_rows _ _ _ hr, maskSelect_rows _ _ _ hi, maskSelect_rows _ _ _ hs, maskSelect_rows _ _ _ hd, ?_, ?_,
    maskSelect_rows _ _ _ hex, maskSelect_rows _ _ _ hey, maskSelect_rows _ _ _ hes, maskSelect_rows _ _ _ hec, ?_⟩
  · simp only [getSelection]
    rw [maskSelect_rows _ _ _ hd, maskSelect_rows _ _ _ hw, hdry]
  · simp only [getSelection]
    rw [maskSelect_rows _ _ _ hvx, maskSelect_rows _ _ _ hvy, hspeed]
  · simp only [getSelection]
    cases he : e.edgeFaces with
    | none => rfl
    | some ef => rw [Option.map_some, Option.map_some, maskSelect_rows _ _ _ (hef ef he)]

/-- Three faces, two of them of cross-section 7, and one edge. -/
def threeFaces : FaceData Nat ℚ :=
  ⟨[0, 1, 2], [0, 0, 0], [10, 20, 30], [-1, -2, -3], [0, 0, 0], [false, false, false], [1, 1, 2], [7, 8, 7],
    [[some 1, some 0], [some 1, some 1], [some 0, none]], [[some 5, some 5], [some 5, some 5], [some 6, some 6]],
    [[some 3, some 0], [some 0, some 0], [none, some 1]], [[some 4, some 0], [some 0, some 0], [some 1, some 1]]⟩

/-- Its edge. -/
def oneEdge : EdgeData Nat ℚ := ⟨[1], [0], [1], [7], none, [[some 40, some 45]]⟩

/-- All columns have a value per face, and the selection has the first and third face. -/
example : (getSelection id threeFaces oneEdge 7).area = [10, 30] ∧
    (getSelection id threeFaces oneEdge 7).waterlevel = [[some 5, none], [none, some 6]] ∧
    (getSelection id threeFaces oneEdge 7).velocity = [[some 25, some 0], [none, some 2]] ∧
    threeFaces.waterlevel.length = threeFaces.sclass.length ∧ oneEdge.chezy.length = oneEdge.sclass.length := by
  decide +kernel

/-! ## C29: partition -/

/-- C29. A face is selected for at most one cross-section: the rows selected for different ids are disjoint. -/
theorem C29_disjoint (labels : List ι) (a b : ι) (hab : a ≠ b) (i : Nat) :
    ¬ (i ∈ rowsOf labels a ∧ i ∈ rowsOf labels b) := by
  rintro ⟨h1, h2⟩
  have h1 := (List.mem_filter.1 h1).2
  have h2 := (List.mem_filter.1 h2).2
  simp only [decide_eq_true_eq] at h1 h2
  rw [h1] at h2
  exact hab (Option.some.inj h2)

/-- C29. Without regions every face is selected for a cross-section of the list, by exactly one id. -/
theorem C29_every_face_once (nn : NearestPicker K) (css : List (Station ι K)) (faces edges : List (GridPoint ι K))
    (fs es : List ι) (h : classifyWithoutRegions nn css faces edges = .ok (fs, es)) (i : Nat) (hi : i < faces.length) :
    ∃ c ∈ css, ∀ id, i ∈ rowsOf fs id ↔ id = c.id := by
  obtain ⟨⟨h1, h2⟩, _⟩ := C27_nearest nn css faces edges fs es h
  obtain ⟨c, hc, hid, _⟩ := h2 i faces[i] (fs[i]'(by omega)) (List.getElem?_eq_getElem hi)
    (List.getElem?_eq_getElem (by omega))
  refine ⟨c, hc, fun id => ?_⟩
  unfold rowsOf
  rw [List.mem_filter, List.mem_range]
  simp only [decide_eq_true_eq]
  rw [List.getElem?_eq_getElem (by omega : i < fs.length), hid]
  constructor
  · rintro ⟨_, h⟩
    exact (Option.some.inj h).symm
  · rintro rfl
    exact ⟨by omega, rfl⟩

private theorem sum_single (ids : List ι) (hn : ids.Nodup) (l : ι) (hl : l ∈ ids) (a : K) :
    (ids.map fun id => if l = id then a else 0).sum = a := by
  induction ids with
  | nil => cases hl
  | cons i is ih =>
    rw [List.nodup_cons] at hn
    rw [List.map_cons, List.sum_cons]
    by_cases hi : l = i
    · rw [if_pos hi]
      have : ∀ id ∈ is, (fun id => if l = id then a else 0) id = (fun _ => (0 : K)) id := by
        intro id hid
        have : l ≠ id := by rintro rfl; exact hn.1 (hi ▸ hid)
        simp [this]
      rw [List.map_congr_left this]
      simp
    · rw [if_neg hi, zero_add]
      exact ih hn.2 ((List.mem_cons.1 hl).resolve_left hi)

/-- C29. So, with distinct ids, the areas of the control volumes add up to the area of the grid. -/
theorem C29_areas_add_up (sqrt : K → K) (nn : NearestPicker K) (css : List (Station ι K))
    (faces edges : List (GridPoint ι K)) (f : FaceData ι K) (e : EdgeData ι K)
    (h : classifyWithoutRegions nn css faces edges = .ok (f.sclass, e.sclass)) (hn : (css.map (·.id)).Nodup)
    (ha : f.area.length = f.sclass.length) :
    ((css.map (·.id)).map fun id => (getSelection sqrt f e id).area.sum).sum = f.area.sum := by
  obtain ⟨⟨h1, h2⟩, _⟩ := C27_nearest nn css faces edges _ _ h
  have hmem : ∀ l ∈ f.sclass, l ∈ css.map (·.id) := by
    intro l hl
    obtain ⟨i, hi⟩ := List.getElem?_of_mem hl
    have hlt := (List.getElem?_eq_some_iff.1 hi).1
    obtain ⟨c, hc, hid, _⟩ := h2 i faces[i] l (List.getElem?_eq_getElem (by omega)) hi
    exact List.mem_map.2 ⟨c, hc, hid⟩
  have harea : ∀ id, (getSelection sqrt f e id).area = maskSelect (f.sclass.map fun c => decide (c = id)) f.area :=
    fun _ => rfl
  simp only [harea]
  generalize css.map (·.id) = ids at hn hmem ⊢
  generalize f.sclass = labels at ha hmem
  generalize f.area = areas at ha
  clear h h1 h2 harea
  induction labels generalizing areas with
  | nil =>
    cases areas with
    | cons => cases ha
    | nil =>
      have : ∀ id ∈ ids, (fun id => (maskSelect (([] : List ι).map fun c => decide (c = id)) ([] : List K)).sum) id
          = (fun _ => (0 : K)) id := fun id _ => rfl
      rw [List.map_congr_left this]
      simp
  | cons l labels ih =>
    cases areas with
    | nil => cases ha
    | cons a areas =>
      have ih := ih (fun l' hl' => hmem l' (List.mem_cons_of_mem _ hl')) areas (by simpa using ha)
      rw [List.sum_cons, ← ih]
      have hstep : ∀ id ∈ ids, (fun id => (maskSelect ((l :: labels).map fun c => decide (c = id)) (a :: areas)).sum) id
          = (fun id => (if l = id then a else 0) +
            (maskSelect (labels.map fun c => decide (c = id)) areas).sum) id := by
        intro id _
        simp only [List.map_cons]
        rw [maskSelect_cons]
        by_cases hl : l = id <;> simp [hl]
      rw [List.map_congr_left hstep]
      have hl := hmem l (by simp)
      clear hstep ih ha hmem
      have hsplit : ∀ is : List ι, (is.map fun id => (if l = id then a else 0) +
            (maskSelect (labels.map fun c => decide (c = id)) areas).sum).sum =
          (is.map fun id => if l = id then a else 0).sum +
            (is.map fun id => (maskSelect (labels.map fun c => decide (c = id)) areas).sum).sum := by
        intro is
        induction is with
        | nil => simp
        | cons i is ih => simp only [List.map_cons, List.sum_cons, ih]; ring
      rw [hsplit]
      congr 1
      exact sum_single ids hn l hl a

/-- The ids of the two cross-sections are distinct and the three faces have areas for the selections. -/
example : (twoStations.map (·.id)).Nodup ∧
    (getSelection id { threeFaces with sclass := [1, 2, 2] } oneEdge 1).area.sum +
      (getSelection id { threeFaces with sclass := [1, 2, 2] } oneEdge 2).area.sum = threeFaces.area.sum := by
  decide +kernel

/-! ## C30: automatic section split -/

/-- C30. All points are labelled main channel when the roughness values span at most one unit. -/
theorem C30_no_variance [FloorRing K] (values : List K) (lo hi : K) (hlo : values.min? = some lo)
    (hhi : values.max? = some hi) (h : hi - lo ≤ 1) : classifySections values = .ok (values.map fun _ => 1) := by
  unfold classifySections
  rw [hlo, hhi]
  simp only
  rw [if_pos ((splitCandidates_length_lt_two lo hi).2 h)]

/-- C30. Otherwise there is one split value, a whole number of units above the lowest roughness and below the highest,
such that a point is main channel exactly when its roughness is above it and flood plain otherwise. Both classes are
non-empty. No other candidate has a smaller larger variance, and all earlier candidates have a larger one. -/
theorem C30_split [FloorRing K] (values : List K) (lo hi : K) (hlo : values.min? = some lo)
    (hhi : values.max? = some hi) (h : 1 < hi - lo) :
    ∃ (k : Nat) (split : K), split = lo + (k : K) ∧ split < hi ∧
      classifySections values = .ok (values.map fun v => if split < v then 1 else 2) ∧
      (∃ v ∈ values, split < v) ∧ (∃ v ∈ values, v ≤ split) ∧
      (∀ j : Nat, lo + (j : K) < hi → worstVariance values split ≤ worstVariance values (lo + (j : K))) ∧
      (∀ j : Nat, j < k → worstVariance values split < worstVariance values (lo + (j : K))) := by
  have hv : ∀ s, splitVariance values s = worstVariance values s := by
    intro s
    unfold splitVariance worstVariance
    rw [npVar_eq, npVar_eq]
  unfold classifySections
  rw [hlo, hhi]
  simp only
  have hlen : ¬ (splitCandidates lo hi).length < 2 := by
    rw [splitCandidates_length_lt_two]; exact not_le.2 h
  rw [if_neg hlen]
  have hne : (splitCandidates lo hi).map (splitVariance values) ≠ [] := by
    intro he
    have := congrArg List.length he
    rw [List.length_map, List.length_nil] at this
    omega
  obtain ⟨k, v, h1, h2, h3, h4⟩ := argminFirst_spec _ hne
  rw [h1]
  simp only
  rw [List.getElem?_map] at h2
  obtain ⟨split, hs, rfl⟩ := Option.map_eq_some_iff.1 h2
  rw [hs]
  obtain ⟨e1, e2⟩ := (splitCandidates_getElem? lo hi k split).1 hs
  refine ⟨k, split, e1, e2, rfl, ⟨hi, (List.max?_eq_some_iff.1 hhi).1, e2⟩, ⟨lo, (List.min?_eq_some_iff.1 hlo).1, ?_⟩,
    ?_, ?_⟩
  · rw [e1]
    have : (0 : K) ≤ (k : K) := Nat.cast_nonneg k
    linarith
  · intro j hj
    rw [← hv, ← hv]
    refine h3 _ (List.mem_map.2 ⟨lo + (j : K), ?_, rfl⟩)
    exact List.mem_of_getElem? ((splitCandidates_getElem? lo hi j _).2 ⟨rfl, hj⟩)
  · intro j hj
    rw [← hv, ← hv]
    refine h4 j _ hj ?_
    have hjlt : lo + (j : K) < hi := by
      have : (j : K) < (k : K) := by exact_mod_cast hj
      rw [e1] at e2
      linarith
    rw [List.getElem?_map, (splitCandidates_getElem? lo hi j _).2 ⟨rfl, hjlt⟩]
    rfl

/-- C30. A split value separates: every main channel value is above every flood plain value. -/
theorem C30_classes_ordered (values : List K) (split v w : K) (hv : v ∈ values.filter (split < ·))
    (hw : w ∈ values.filter (· ≤ split)) : w < v := by
  have h1 := (List.mem_filter.1 hv).2
  have h2 := (List.mem_filter.1 hw).2
  simp only [decide_eq_true_eq] at h1 h2
  exact h2.trans_lt h1

/-- C30. Without any point there is an error. -/
theorem C30_defined_iff [FloorRing K] (values : List K) : (∃ l, classifySections values = .ok l) ↔ values ≠ [] := by
  constructor
  · rintro ⟨l, h⟩ rfl
    cases h
  · intro hne
    cases hmin : values.min? with
    | none => exact absurd (List.min?_eq_none_iff.1 hmin) hne
    | some lo =>
      cases hmax : values.max? with
      | none => exact absurd (List.max?_eq_none_iff.1 hmax) hne
      | some hi =>
        rcases le_or_gt (hi - lo) 1 with h | h
        · exact ⟨_, C30_no_variance values lo hi hmin hmax h⟩
        · obtain ⟨_, _, _, _, h', _⟩ := C30_split values lo hi hmin hmax h
          exact ⟨_, h'⟩

/-- Two groups of roughness values are told apart. -/
example : (match classifySections ([45, 30, 46, 31, 44] : List ℚ) with
    | .ok l => decide (l = [1, 2, 1, 2, 1])
    | .error _ => false) = true ∧ ([45, 30, 46, 31, 44] : List ℚ).min? = some 30 ∧
    ([45, 30, 46, 31, 44] : List ℚ).max? = some 46 := by
  decide +kernel

/-- Values within one unit are all main channel. -/
example : (match classifySections ([45, 45 + 1 / 2, 46] : List ℚ) with
    | .ok l => decide (l = [1, 1, 1])
    | .error _ => false) = true := by
  decide +kernel

/-! ## C37: transposition -/

/-- C37. When all columns have the same length, the list has one entry per location, and entry `i` holds for every
column its name and its `i`-th value, in the order of the columns. -/
theorem C37_transposition {κ α : Type} (columns : List (κ × List α)) (n : Nat) (hne : columns ≠ [])
    (hn : ∀ c ∈ columns, c.2.length = n) :
    (orderedCssList columns).length = n ∧
      ∀ (i : Nat), i < n → ∃ entry, (orderedCssList columns)[i]? = some entry ∧ entry.length = columns.length ∧
        ∀ (j : Nat) name column, columns[j]? = some (name, column) →
          ∃ v, column[i]? = some v ∧ entry[j]? = some (name, v) := by
  have key : orderedCssList columns = (List.range n).map fun (i : Nat) =>
      (columns.map (·.1)).zip ((columns.map (·.2)).filterMap fun v => v[i]?) := by
    cases columns with
    | nil => exact absurd rfl hne
    | cons c cs =>
      obtain ⟨name, first⟩ := c
      have hfirst : first.length = n := hn (name, first) (by simp)
      unfold orderedCssList
      simp only [hfirst]
  refine ⟨by rw [key, List.length_map, List.length_range], fun i hi => ?_⟩
  rw [key, List.getElem?_map, List.getElem?_range hi, Option.map_some]
  refine ⟨_, rfl, ?_⟩
  have hvals : ∀ cs : List (κ × List α), (∀ c ∈ cs, c.2.length = n) →
      ((cs.map (·.2)).filterMap fun v => v[i]?).length = cs.length ∧ ∀ (j : Nat) name column,
        cs[j]? = some (name, column) → ∃ v, column[i]? = some v ∧
          ((cs.map (·.2)).filterMap fun v => v[i]?)[j]? = some v := by
    intro cs
    induction cs with
    | nil => intro _; exact ⟨rfl, fun j name column h => by cases h⟩
    | cons c cs ih =>
      intro hcs
      obtain ⟨ih1, ih2⟩ := ih fun c' hc' => hcs c' (List.mem_cons_of_mem _ hc')
      have hlt : i < c.2.length := by rw [hcs c (by simp)]; exact hi
      have e : (((c :: cs).map (·.2)).filterMap fun v => v[i]?) =
          c.2[i] :: ((cs.map (·.2)).filterMap fun v => v[i]?) := by
        rw [List.map_cons, List.filterMap_cons, List.getElem?_eq_getElem hlt]
      rw [e]
      refine ⟨by rw [List.length_cons, List.length_cons, ih1], ?_⟩
      intro j name column hj
      cases j with
      | zero =>
        rw [List.getElem?_cons_zero] at hj
        have hc := Option.some.inj hj
        subst hc
        exact ⟨_, List.getElem?_eq_getElem hlt, rfl⟩
      | succ j =>
        obtain ⟨v, hv1, hv2⟩ := ih2 j name column (by simpa using hj)
        exact ⟨v, hv1, by simpa using hv2⟩
  obtain ⟨h1, h2⟩ := hvals columns hn
  refine ⟨by rw [List.length_zip, List.length_map, h1, Nat.min_self], ?_⟩
  intro j name column hj
  obtain ⟨v, hv1, hv2⟩ := h2 j name column hj
  refine ⟨v, hv1, ?_⟩
  rw [List.getElem?_zip_eq_some]
  refine ⟨?_, hv2⟩
  rw [List.getElem?_map, hj, Option.map_some]

/-- Two columns of two values. -/
example : orderedCssList [("id", [10, 20]), ("length", [3, 4])] =
    [[("id", 10), ("length", 3)], [("id", 20), ("length", 4)]] := by decide +kernel

/-- Outside the property: with a column too short, later values move to the wrong names. -/
example : orderedCssList [("id", [10, 20]), ("length", [3]), ("chainage", [5, 6])] =
    [[("id", 10), ("length", 3), ("chainage", 5)], [("id", 20), ("length", 6)]] := by decide +kernel

end Fm2prof.Props

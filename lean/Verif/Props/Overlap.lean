import Verif.Props.Project
import Verif.Props.Coverage
import Verif.Props.Pipeline

/-!
# Properties of overlapping regions

C200: a location and the faces around it are in the same region.
-/

set_option linter.unusedSectionVars false

namespace Fm2prof.Props

open Fm2prof Spec ProjectProof

variable {K : Type} [Field K] [LinearOrder K] [IsStrictOrderedRing K] [FloorRing K]

/-- **C200, partial.** In a run with regions, no cache file and locations of different names, a face that belongs to a location has the
region of that location: the last polygon around the first node of the face has the same region as the first polygon around the location.
Missing: that polygons around both suffice, see `C200_overlap_violated`; and names that are also those of regions, see C191. -/
theorem C200_same_region_partial (x : Tools K) (g : Geometries K) (c : Settings K) (m : MapFile K) (d : ProjectFiles K) (m2 : Model2d K)
    (h : setModelData x.nn (projectInputs x.ft g c m d).1 = .ok m2) (hi : Consistent (projectInputs x.ft g c m d).1)
    (hs : c.regionPath ≠ []) (hc : ¬ Cached d "region" c.mapPath m) (ps : List (Polygon K))
    (hps : readPolygons d c.regionPath = .ok ps) (hnd : (m2.stations.map (·.id)).Nodup) (l : Loc K) (hl : l ∈ m2.stations)
    (i n : Nat) (p : Pt K) (hn : m.faceNodes[i]? = some n) (hp : m.nodes[n - 1]? = some p)
    (hface : i ∈ rowsOf m2.faces.sclass l.id)
    (hname : polygonLabel g.inside "region" (String.ofList c.defaultRegion) ps p ≠ some (String.ofList l.id)) :
    polygonLabel g.inside "region" (String.ofList c.defaultRegion) ps p =
      locationLabel g.within "region" (String.ofList c.defaultRegion) ps (l.x, l.y) := by
  have h2 := loaded2d x.nn _ hi m2 h
  obtain ⟨ps', hps', ⟨-, hlab⟩, hnear⟩ := C143_regions x g c m d m2 h hs hc
  rw [hps] at hps'
  obtain rfl := Except.ok.inj hps'
  obtain ⟨p', label, hp', hpl, hreg⟩ := hlab i n hn
  rw [hp] at hp'
  obtain rfl := Option.some.inj hp'
  unfold rowsOf at hface
  obtain ⟨hlt, hid⟩ := List.mem_filter.1 hface
  have hlt := List.mem_range.1 hlt
  have hid := of_decide_eq_true hid
  have hx := List.getElem?_eq_getElem (l := m2.faces.x) (i := i) (by rw [h2.x]; exact hlt)
  have hy := List.getElem?_eq_getElem (l := m2.faces.y) (i := i) (by rw [h2.y]; exact hlt)
  have e : String.ofList label.toList = label := String.ofList_toList
  by_cases hex : ∃ l ∈ m2.stations, locationLabel g.within "region" (String.ofList c.defaultRegion) ps (l.x, l.y) =
      some (String.ofList label.toList)
  · obtain ⟨l0, hl0, hl0id, hl0lab, -⟩ := hnear i _ _ _ _ hx hy hreg hid hex
    have : l0 = l := List.inj_on_of_nodup_map hnd hl0 hl hl0id
    subst this
    rw [hpl, hl0lab, e]
  · have := C143_empty_regions x g c m d m2 h ps hs hps i _ _ _ _ hx hy hreg hid fun l hl hlab => hex ⟨l, hl, hlab⟩
    exact absurd (by rw [hpl, this, e]) hname

/-- **C200 is violated where regions overlap**, whichever of them comes first: when a location and the first node of a face are in the
same polygons, and the first and the last of these are of different regions, the face does not belong to the location, however near it is. -/
theorem C200_overlap_violated (x : Tools K) (g : Geometries K) (c : Settings K) (m : MapFile K) (d : ProjectFiles K) (m2 : Model2d K)
    (h : setModelData x.nn (projectInputs x.ft g c m d).1 = .ok m2) (hi : Consistent (projectInputs x.ft g c m d).1)
    (hs : c.regionPath ≠ []) (hc : ¬ Cached d "region" c.mapPath m) (ps : List (Polygon K))
    (hps : readPolygons d c.regionPath = .ok ps) (hnd : (m2.stations.map (·.id)).Nodup) (l : Loc K) (hl : l ∈ m2.stations)
    (i n : Nat) (p : Pt K) (hn : m.faceNodes[i]? = some n) (hp : m.nodes[n - 1]? = some p)
    (first last : Polygon K) (others : List (Polygon K)) (hboth : containing g.inside ps p = first :: others ++ [last])
    (hboth' : containing (fun r q => g.within q r) ps (l.x, l.y) = first :: others ++ [last])
    (hne : first.properties.get "region" ≠ last.properties.get "region")
    (hname : last.properties.get "region" ≠ some (String.ofList l.id)) :
    i ∉ rowsOf m2.faces.sclass l.id := by
  intro hface
  have e1 : polygonLabel g.inside "region" (String.ofList c.defaultRegion) ps p = last.properties.get "region" := by
    unfold polygonLabel
    rw [hboth, List.getLast?_append]
    rfl
  have e2 : locationLabel g.within "region" (String.ofList c.defaultRegion) ps (l.x, l.y) = first.properties.get "region" := by
    unfold locationLabel
    rw [hboth']
    rfl
  have := C200_same_region_partial x g c m d m2 h hi hs hc ps hps hnd l hl i n p hn hp hface (by rw [e1]; exact hname)
  rw [e1, e2] at this
  exact hne this.symm

/-- The polygons around a point, before, at and after one of them. -/
private theorem around (inside : Ring K → Pt K → Bool) (before after : List (Polygon K)) (q : Polygon K) (p : Pt K) :
    containing inside (before ++ q :: after) p =
      containing inside before p ++ (if inside q.coordinates p = true then [q] else []) ++ containing inside after p := by
  unfold containing
  rw [List.filter_append, List.filter_cons, List.append_assoc]
  split <;> rfl

private theorem containing_nil (inside : Ring K → Pt K → Bool) (ps : List (Polygon K)) (p : Pt K)
    (h : ∀ q ∈ ps, inside q.coordinates p = false) : containing inside ps p = [] :=
  List.filter_eq_nil_iff.2 fun q hq => by rw [h q hq]; exact Bool.false_ne_true

/-- **C200 is violated by a region within another one that comes after it.** A polygon has a region of its own, and all nodes of the grid
in it are also in polygons that come after it. Then a location in it, and in none of the polygons before it, has no faces at all, so
that there is no cross-section for it. -/
theorem C200_inner_first_violated (x : Tools K) (g : Geometries K) (c : Settings K) (m : MapFile K) (d : ProjectFiles K) (m2 : Model2d K)
    (h : setModelData x.nn (projectInputs x.ft g c m d).1 = .ok m2) (hi : Consistent (projectInputs x.ft g c m d).1)
    (hs : c.regionPath ≠ []) (hc : ¬ Cached d "region" c.mapPath m) (before after : List (Polygon K)) (inner : Polygon K)
    (hps : readPolygons d c.regionPath = .ok (before ++ inner :: after)) (hnd : (m2.stations.map (·.id)).Nodup)
    (hfit : m.faceNodes.length = m2.faces.sclass.length)
    (hown : ∀ q ∈ before ++ after, q.properties.get "region" ≠ inner.properties.get "region")
    (hdef : inner.properties.get "region" ≠ some (String.ofList c.defaultRegion))
    (hcover : ∀ p ∈ m.nodes, g.inside inner.coordinates p = true → ∃ q ∈ after, g.inside q.coordinates p = true)
    (l : Loc K) (hl : l ∈ m2.stations) (hin : g.within (l.x, l.y) inner.coordinates = true)
    (hnot : ∀ q ∈ before, g.within (l.x, l.y) q.coordinates = false)
    (hname : ∀ q ∈ before ++ inner :: after, q.properties.get "region" ≠ some (String.ofList l.id))
    (hname' : c.defaultRegion ≠ l.id) :
    rowsOf m2.faces.sclass l.id = [] ∧ ¬ Usable m2 l := by
  have hnil : rowsOf m2.faces.sclass l.id = [] := by
    refine List.eq_nil_iff_forall_not_mem.2 fun i hface => ?_
    have hlt : i < m2.faces.sclass.length := List.mem_range.1 (List.mem_filter.1 hface).1
    have hn := List.getElem?_eq_getElem (l := m.faceNodes) (i := i) (by rw [hfit]; exact hlt)
    obtain ⟨ps', hps', ⟨-, hlab⟩, -⟩ := C143_regions x g c m d m2 h hs hc
    obtain ⟨p, label, hp, -, -⟩ := hlab i _ hn
    have e2 : locationLabel g.within "region" (String.ofList c.defaultRegion) (before ++ inner :: after) (l.x, l.y) =
        inner.properties.get "region" := by
      unfold locationLabel
      rw [around, containing_nil _ before _ hnot, if_pos hin]
      rfl
    -- the label of the face is another one
    have hlast : polygonLabel g.inside "region" (String.ofList c.defaultRegion) (before ++ inner :: after) p =
        some (String.ofList c.defaultRegion) ∨ ∃ q ∈ before ++ after,
          polygonLabel g.inside "region" (String.ofList c.defaultRegion) (before ++ inner :: after) p = q.properties.get "region" := by
      unfold polygonLabel
      cases hl : (containing g.inside (before ++ inner :: after) p).getLast? with
      | none => exact .inl rfl
      | some q =>
        refine .inr ⟨q, ?_, rfl⟩
        rw [around] at hl
        cases ha : containing g.inside after p with
        | nil =>
          have hout : g.inside inner.coordinates p = false := by
            cases hq : g.inside inner.coordinates p with
            | false => rfl
            | true =>
              obtain ⟨q, hq1, hq2⟩ := hcover p (List.mem_of_getElem? hp) hq
              have : q ∈ containing g.inside after p := List.mem_filter.2 ⟨hq1, hq2⟩
              rw [ha] at this
              cases this
          rw [ha, hout, if_neg Bool.false_ne_true, List.append_nil, List.append_nil] at hl
          exact List.mem_append_left _ (List.mem_filter.1 (List.mem_of_getLast? hl)).1
        | cons a as =>
          have hl' : (containing g.inside after p).getLast? = some q := by
            rw [List.getLast?_append, ha] at hl
            rw [ha]
            cases hz : (a :: as).getLast? with
            | none => cases (List.getLast?_eq_none_iff.1 hz)
            | some z => rw [hz] at hl; exact hl
          exact List.mem_append_right _ (List.mem_filter.1 (List.mem_of_getLast? hl')).1
    have hmem : ∀ q ∈ before ++ after, q ∈ before ++ inner :: after := fun q hq =>
      (List.mem_append.1 hq).elim (List.mem_append_left _) fun hq => List.mem_append_right _ (List.mem_cons_of_mem _ hq)
    have := C200_same_region_partial x g c m d m2 h hi hs hc _ hps hnd l hl i _ p hn hp hface (by
      rcases hlast with e | ⟨q, hq, e⟩ <;> rw [e]
      · intro e
        have := congrArg String.toList (Option.some.inj e)
        rw [String.toList_ofList, String.toList_ofList] at this
        exact hname' this
      · exact hname q (hmem q hq))
    rw [e2] at this
    rcases hlast with e | ⟨q, hq, e⟩ <;> rw [e] at this
    · exact hdef this.symm
    · exact hown q hq this
  refine ⟨hnil, fun hu => ?_⟩
  have := hu.2
  rw [hnil] at this
  exact absurd this (by decide)

/-- **C200 is violated by a region within another one that comes before it.** A polygon has a region of its own, and all locations in it
are also in polygons that come before it. Then a face whose first node is in it, and in none of the polygons after it, belongs to no
location, unless that is called like the region. -/
theorem C200_inner_last_violated (x : Tools K) (g : Geometries K) (c : Settings K) (m : MapFile K) (d : ProjectFiles K) (m2 : Model2d K)
    (h : setModelData x.nn (projectInputs x.ft g c m d).1 = .ok m2) (hi : Consistent (projectInputs x.ft g c m d).1)
    (hs : c.regionPath ≠ []) (hc : ¬ Cached d "region" c.mapPath m) (before after : List (Polygon K)) (inner : Polygon K)
    (hps : readPolygons d c.regionPath = .ok (before ++ inner :: after)) (hnd : (m2.stations.map (·.id)).Nodup)
    (hown : ∀ q ∈ before ++ after, q.properties.get "region" ≠ inner.properties.get "region")
    (hdef : inner.properties.get "region" ≠ some (String.ofList c.defaultRegion))
    (hcover : ∀ l ∈ m2.stations, g.within (l.x, l.y) inner.coordinates = true → ∃ q ∈ before, g.within (l.x, l.y) q.coordinates = true)
    (i n : Nat) (p : Pt K) (hn : m.faceNodes[i]? = some n) (hp : m.nodes[n - 1]? = some p) (hin : g.inside inner.coordinates p = true)
    (hnot : ∀ q ∈ after, g.inside q.coordinates p = false) (l : Loc K) (hl : l ∈ m2.stations)
    (hname : inner.properties.get "region" ≠ some (String.ofList l.id)) :
    i ∉ rowsOf m2.faces.sclass l.id := by
  intro hface
  have e1 : polygonLabel g.inside "region" (String.ofList c.defaultRegion) (before ++ inner :: after) p = inner.properties.get "region" := by
    unfold polygonLabel
    rw [around, containing_nil _ after _ hnot, if_pos hin, List.append_nil, List.getLast?_append]
    rfl
  have := C200_same_region_partial x g c m d m2 h hi hs hc _ hps hnd l hl i n p hn hp hface (by rw [e1]; exact hname)
  rw [e1] at this
  unfold locationLabel at this
  cases hh : (containing (fun r q => g.within q r) (before ++ inner :: after) (l.x, l.y)).head? with
  | none => rw [hh] at this; exact hdef this
  | some q =>
    rw [hh] at this
    rw [around] at hh
    have hq : q ∈ before ++ after := by
      cases hb : containing (fun r q => g.within q r) before (l.x, l.y) with
      | cons b bs =>
        rw [hb] at hh
        obtain rfl := Option.some.inj hh
        exact List.mem_append_left _ (List.mem_filter.1 (hb ▸ List.mem_cons_self : b ∈ containing (fun r q => g.within q r) before (l.x, l.y))).1
      | nil =>
        have hout : g.within (l.x, l.y) inner.coordinates = false := by
          cases hq : g.within (l.x, l.y) inner.coordinates with
          | false => rfl
          | true =>
            obtain ⟨q, hq1, hq2⟩ := hcover l hl hq
            have : q ∈ containing (fun r q => g.within q r) before (l.x, l.y) := List.mem_filter.2 ⟨hq1, hq2⟩
            rw [hb] at this
            cases this
        rw [hb, hout, if_neg Bool.false_ne_true, List.nil_append, List.nil_append] at hh
        exact List.mem_append_right _ (List.mem_filter.1 (List.mem_of_head? hh)).1
    exact hown q hq this.symm

/-! ## A region within another one -/

/-- A region around the first location. -/
def innerRegion : Polygon ℚ := ⟨[(4, 0), (6, 1)], [("name", "inner"), ("region", "polder")]⟩

/-- A region around all. -/
def outerRegion : Polygon ℚ := ⟨[(0, 0), (99, 99)], [("name", "all"), ("region", "west")]⟩

/-- The sample project with these regions, in a given order. -/
def nestedProject (innerFirst : Bool) : ProjectFiles ℚ :=
  { sampleProject with
    polygons := fun path =>
      if path = "regions.json".toList then
        let inner : Feature ℚ := ⟨[("Name", "inner"), ("Region", "polder")], .polygon [[(4, 0), (6, 1)]]⟩
        let outer : Feature ℚ := ⟨[("Name", "all"), ("Region", "west")], .polygon [[(0, 0), (99, 99)]]⟩
        some (.features (if innerFirst then [inner, outer] else [outer, inner]))
      else samplePolygons path }

private theorem read_eq (r : Except PyErr (List (Polygon ℚ))) (qs : List (Polygon ℚ))
    (h : r.toOption.map (fun ps => ps.map fun q => (q.coordinates, q.properties)) = some (qs.map fun q => (q.coordinates, q.properties))) :
    r = .ok qs := by
  cases r with
  | error e => cases h
  | ok ps =>
    have h := Option.some.inj h
    have : Function.Injective fun q : Polygon ℚ => (q.coordinates, q.properties) := by
      rintro ⟨a, b⟩ ⟨a', b'⟩ e
      obtain ⟨rfl, rfl⟩ := Prod.mk.inj e
      rfl
    rw [List.map_injective_iff.2 this h]

/-- What a run of it loads. -/
noncomputable def nestedLoaded (innerFirst : Bool) : Model2d ℚ :=
  match setModelData sampleTools.nn (projectInputs sampleTools.ft sampleGeometries sampleSettings sampleMapFile (nestedProject innerFirst)).1 with
  | .ok m => m
  | .error _ => sampleLoaded sampleInputs

private theorem nested_loads (innerFirst : Bool) (h : (setModelData sampleTools.nn
      (projectInputs sampleTools.ft sampleGeometries sampleSettings sampleMapFile (nestedProject innerFirst)).1).toOption.isSome = true) :
    setModelData sampleTools.nn (projectInputs sampleTools.ft sampleGeometries sampleSettings sampleMapFile (nestedProject innerFirst)).1 =
      .ok (nestedLoaded innerFirst) := by
  unfold nestedLoaded
  cases hs : setModelData sampleTools.nn
      (projectInputs sampleTools.ft sampleGeometries sampleSettings sampleMapFile (nestedProject innerFirst)).1 with
  | error e => rw [hs] at h; cases h
  | ok m => rfl

private theorem nested_consistent (innerFirst : Bool) :
    Consistent (projectInputs sampleTools.ft sampleGeometries sampleSettings sampleMapFile (nestedProject innerFirst)).1 := by
  refine C143_consistent _ _ _ _ _ (fun a ha => ?_) ?_ ?_
  · obtain rfl := Except.ok.inj ha
    exact ⟨sampleInputs_consistent.map _ rfl, rfl, rfl⟩
  · rintro ⟨_, _, _, h, _⟩
    cases h
  · rintro ⟨_, _, _, h, _⟩
    cases h

/-- With the inner region first, the location in it has no faces. -/
example :
    setModelData sampleTools.nn (projectInputs sampleTools.ft sampleGeometries sampleSettings sampleMapFile (nestedProject true)).1 =
      .ok (nestedLoaded true) ∧
    Consistent (projectInputs sampleTools.ft sampleGeometries sampleSettings sampleMapFile (nestedProject true)).1 ∧
    sampleSettings.regionPath ≠ [] ∧ ¬ Cached (nestedProject true) "region" sampleSettings.mapPath sampleMapFile ∧
    readPolygons (nestedProject true) sampleSettings.regionPath = .ok ([] ++ innerRegion :: [outerRegion]) ∧
    ((nestedLoaded true).stations.map (·.id)).Nodup ∧ sampleMapFile.faceNodes.length = (nestedLoaded true).faces.sclass.length ∧
    (∀ q ∈ ([] : List (Polygon ℚ)) ++ [outerRegion], q.properties.get "region" ≠ innerRegion.properties.get "region") ∧
    innerRegion.properties.get "region" ≠ some (String.ofList sampleSettings.defaultRegion) ∧
    (∀ p ∈ sampleMapFile.nodes, sampleGeometries.inside innerRegion.coordinates p = true →
      ∃ q ∈ [outerRegion], sampleGeometries.inside q.coordinates p = true) ∧
    ∃ l ∈ (nestedLoaded true).stations, sampleGeometries.within (l.x, l.y) innerRegion.coordinates = true ∧
      (∀ q ∈ [] ++ innerRegion :: [outerRegion], q.properties.get "region" ≠ some (String.ofList l.id)) ∧
      sampleSettings.defaultRegion ≠ l.id ∧
      (rowsOf (nestedLoaded true).faces.sclass l.id, rowsOf (nestedLoaded true).faces.sclass "rhine_900".toList) =
        ([], List.range 13) ∧
      containing sampleGeometries.inside [innerRegion, outerRegion] (5, 0) = innerRegion :: [] ++ [outerRegion] ∧
      containing (fun r q => sampleGeometries.within q r) [innerRegion, outerRegion] (l.x, l.y) = innerRegion :: [] ++ [outerRegion] ∧
      sampleMapFile.faceNodes[5]? = some 6 ∧ sampleMapFile.nodes[6 - 1]? = some (5, 0) := by
  refine ⟨nested_loads true (by decide +kernel), nested_consistent true, by decide, ?_, read_eq _ _ (by decide +kernel), by decide +kernel, by decide +kernel,
    by decide +kernel, by decide +kernel, fun p _ hp => ⟨outerRegion, List.mem_cons_self, ?_⟩,
    ⟨"rhine_100".toList, 5, 0, 10, "rhine".toList, 100⟩, by decide +kernel, by decide +kernel, by decide +kernel, by decide +kernel,
    by decide +kernel, rfl, rfl, rfl, rfl⟩
  · rintro ⟨_, _, _, h, _⟩
    cases h
  · have hp : (4 : ℚ) ≤ p.1 ∧ p.1 ≤ 6 ∧ 0 ≤ p.2 ∧ p.2 ≤ 1 := of_decide_eq_true hp
    exact decide_eq_true ⟨by linarith [hp.1], by linarith [hp.2.1], hp.2.2.1, by linarith [hp.2.2.2]⟩

/-- With the inner region last, the faces in it belong to no location. -/
example :
    setModelData sampleTools.nn (projectInputs sampleTools.ft sampleGeometries sampleSettings sampleMapFile (nestedProject false)).1 =
      .ok (nestedLoaded false) ∧
    Consistent (projectInputs sampleTools.ft sampleGeometries sampleSettings sampleMapFile (nestedProject false)).1 ∧
    ¬ Cached (nestedProject false) "region" sampleSettings.mapPath sampleMapFile ∧
    readPolygons (nestedProject false) sampleSettings.regionPath = .ok ([outerRegion] ++ innerRegion :: []) ∧
    ((nestedLoaded false).stations.map (·.id)).Nodup ∧
    (∀ l ∈ (nestedLoaded false).stations, sampleGeometries.within (l.x, l.y) innerRegion.coordinates = true →
      ∃ q ∈ [outerRegion], sampleGeometries.within (l.x, l.y) q.coordinates = true) ∧
    sampleMapFile.faceNodes[5]? = some 6 ∧ sampleMapFile.nodes[6 - 1]? = some (5, 0) ∧
    sampleGeometries.inside innerRegion.coordinates (5, 0) = true ∧
    (∀ l ∈ (nestedLoaded false).stations, innerRegion.properties.get "region" ≠ some (String.ofList l.id)) ∧
    ((nestedLoaded false).stations.map fun l => rowsOf (nestedLoaded false).faces.sclass l.id) =
      [[0, 1, 2, 3, 7, 8, 9, 10, 11, 12], []] ∧
    (∃ l ∈ (nestedLoaded false).stations, 0 ∈ rowsOf (nestedLoaded false).faces.sclass l.id ∧
      polygonLabel sampleGeometries.inside "region" (String.ofList sampleSettings.defaultRegion) [outerRegion, innerRegion] (0, 0) ≠
        some (String.ofList l.id)) := by
  refine ⟨nested_loads false (by decide +kernel), nested_consistent false, ?_, read_eq _ _ (by decide +kernel), by decide +kernel, by decide +kernel, rfl, rfl,
    by decide +kernel, by decide +kernel, by decide +kernel, ⟨"rhine_100".toList, 5, 0, 10, "rhine".toList, 100⟩, by decide +kernel,
    by decide +kernel, by decide +kernel⟩
  rintro ⟨_, _, _, h, _⟩
  cases h

end Fm2prof.Props

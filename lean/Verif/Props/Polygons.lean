import Mathlib.Algebra.Order.Field.Rat
import Verif.Spec.Polygons

/-!
# Properties of polygon files: C31, C32, C33, C34
-/

set_option linter.unusedSectionVars false

namespace Fm2prof.Props

open Fm2prof Spec

variable {K : Type}

/-! ## C31: classification of points -/

private theorem setAll_getElem? {α : Type} (labels : List α) (idx : List Nat) (v : α) (k : Nat) :
    (setAll labels idx v)[k]? = if k ∈ idx ∧ k < labels.length then some v else labels[k]? := by
  unfold setAll
  induction idx generalizing labels with
  | nil => simp
  | cons j idx ih =>
    rw [List.foldl_cons, ih, List.length_set, List.getElem?_set]
    by_cases hk : k < labels.length
    · by_cases hj : j = k
      · subst hj; simp [hk]
      · have : ¬ k = j := fun h => hj h.symm
        simp [hj, this, hk]
    · by_cases hj : j = k
      · subst hj
        simp [hk]
      · simp [hk, hj]

private theorem setAll_length {α : Type} (labels : List α) (idx : List Nat) (v : α) :
    (setAll labels idx v).length = labels.length := by
  unfold setAll
  induction idx generalizing labels with
  | nil => rfl
  | cons j idx ih => rw [List.foldl_cons, ih, List.length_set]

private theorem nodeLabels_step (inside : Ring K → Pt K → Bool) (property : String) (ps : List (Polygon K))
    (nodes : List (Pt K)) (labels : List (Option String)) (hl : labels.length = nodes.length) (i : Nat) (p : Pt K)
    (hp : nodes[i]? = some p) :
    (ps.foldl (fun labels q => setAll labels (nodesInside inside q.coordinates nodes) (q.properties.get property))
      labels)[i]? = some (match (containing inside ps p).getLast? with
        | some q => q.properties.get property
        | none => (labels[i]?).getD none) := by
  have hlt : i < nodes.length := (List.getElem?_eq_some_iff.1 hp).1
  induction ps generalizing labels with
  | nil =>
    simp only [List.foldl_nil, containing, List.filter_nil, List.getLast?_nil]
    rw [List.getElem?_eq_getElem (hl ▸ hlt)]
    rfl
  | cons q qs ih =>
    rw [List.foldl_cons, ih _ (by rw [setAll_length]; exact hl)]
    congr 1
    unfold containing at *
    rw [List.filter_cons]
    have hmem : i ∈ nodesInside inside q.coordinates nodes ↔ inside q.coordinates p = true := by
      unfold nodesInside
      rw [List.mem_filter, List.mem_range, hp]
      simp [hlt]
    cases hlast : (List.filter (fun q => inside q.coordinates p) qs).getLast? with
    | some r =>
      by_cases hq : inside q.coordinates p = true
      · rw [if_pos hq, List.getLast?_cons, hlast]; rfl
      · rw [if_neg hq, hlast]
    | none =>
      by_cases hq : inside q.coordinates p = true
      · rw [if_pos hq, List.getLast?_cons, hlast]
        simp only [Option.getD_none]
        rw [setAll_getElem?, if_pos ⟨hmem.2 hq, hl ▸ hlt⟩]
        rfl
      · rw [if_neg hq, hlast]
        simp only
        rw [setAll_getElem?, if_neg (fun h => hq (hmem.1 h.1))]

/-- C31. Every node of the grid gets one label: the default when no polygon contains it, otherwise the property of a
polygon that contains it, the last in the file; so that of the only one when exactly one does. -/
theorem C31_nodes (inside : Ring K → Pt K → Bool) (property default : String) (ps : List (Polygon K))
    (nodes : List (Pt K)) :
    (nodeLabels inside property default ps nodes).length = nodes.length ∧
      ∀ (i : Nat) p, nodes[i]? = some p →
        (containing inside ps p = [] → (nodeLabels inside property default ps nodes)[i]? = some (some default)) ∧
        (∀ q, (containing inside ps p).getLast? = some q →
          (nodeLabels inside property default ps nodes)[i]? = some (q.properties.get property)) ∧
        (∀ q, containing inside ps p = [q] →
          (nodeLabels inside property default ps nodes)[i]? = some (q.properties.get property)) := by
  have hlen : ∀ (labels : List (Option String)),
      (ps.foldl (fun labels q => setAll labels (nodesInside inside q.coordinates nodes) (q.properties.get property))
        labels).length = labels.length := by
    induction ps with
    | nil => intro labels; rfl
    | cons q qs ih => intro labels; rw [List.foldl_cons, ih, setAll_length]
  refine ⟨by unfold nodeLabels; rw [hlen, List.length_map], fun i p hp => ?_⟩
  have key := nodeLabels_step inside property ps nodes (nodes.map fun _ => some default) (by simp) i p hp
  unfold nodeLabels
  rw [key]
  refine ⟨fun h => ?_, fun q h => ?_, fun q h => ?_⟩
  · rw [h]
    simp only [List.getLast?_nil, List.getElem?_map, hp, Option.map_some, Option.getD_some]
  · rw [h]
  · rw [h]; rfl

/-- C31. A face or an edge gets the label of its first node. -/
theorem C31_grid_points (inside : Ring K → Pt K → Bool) (property default : String) (ps : List (Polygon K))
    (nodes : List (Pt K)) (firstNodes : List Nat) (ls : List (Option String))
    (h : gridPointLabels inside property default ps nodes firstNodes = .ok ls) :
    ls.length = firstNodes.length ∧ ∀ (i : Nat) n, firstNodes[i]? = some n →
      ls[i]? = (nodeLabels inside property default ps nodes)[n - 1]? ∧ n - 1 < nodes.length := by
  unfold gridPointLabels at h
  have hlen := (C31_nodes inside property default ps nodes).1
  generalize nodeLabels inside property default ps nodes = labels at h hlen
  induction firstNodes generalizing ls with
  | nil =>
    obtain rfl := Except.ok.inj h
    exact ⟨rfl, fun i n hn => by cases hn⟩
  | cons n ns ih =>
    rw [labelsByFirstNode] at h
    split at h
    · cases h
    · rename_i l hl
      split at h
      · cases h
      · rename_i ls' hls
        obtain rfl := Except.ok.inj h
        obtain ⟨h1, h2⟩ := ih ls' hls
        refine ⟨by simp [h1], fun i m hm => ?_⟩
        cases i with
        | zero =>
          obtain rfl := Option.some.inj hm
          refine ⟨by rw [hl]; rfl, ?_⟩
          rw [← hlen]
          exact (List.getElem?_eq_some_iff.1 hl).1
        | succ i => exact h2 i m (by simpa using hm)

/-- C31. It succeeds when all first nodes exist. -/
theorem C31_grid_points_defined (inside : Ring K → Pt K → Bool) (property default : String) (ps : List (Polygon K))
    (nodes : List (Pt K)) (firstNodes : List Nat) (h : ∀ n ∈ firstNodes, n - 1 < nodes.length) :
    ∃ ls, gridPointLabels inside property default ps nodes firstNodes = .ok ls := by
  unfold gridPointLabels
  have hlen := (C31_nodes inside property default ps nodes).1
  generalize nodeLabels inside property default ps nodes = labels at hlen
  induction firstNodes with
  | nil => exact ⟨[], rfl⟩
  | cons n ns ih =>
    obtain ⟨ls, hls⟩ := ih fun m hm => h m (List.mem_cons_of_mem _ hm)
    have hn := h n (by simp)
    rw [labelsByFirstNode, List.getElem?_eq_getElem (by omega : n - 1 < labels.length), hls]
    exact ⟨_, rfl⟩

/-- C31. A cross-section gets the default when no polygon contains its location, otherwise the property of the first
polygon that does; so that of the only one when exactly one does. -/
theorem C31_cross_sections (within : Pt K → Ring K → Bool) (property default : String) (ps : List (Polygon K))
    (p : Pt K) :
    (containing (fun r p => within p r) ps p = [] → pointLabel within property default ps p = some default) ∧
    (∀ q qs, containing (fun r p => within p r) ps p = q :: qs →
      pointLabel within property default ps p = q.properties.get property) := by
  unfold pointLabel containing
  induction ps with
  | nil => exact ⟨fun _ => rfl, fun q qs h => by cases h⟩
  | cons r rs ih =>
    by_cases hr : within p r.coordinates = true
    · rw [List.filter_cons, if_pos hr, List.find?_cons, hr]
      refine ⟨fun h => (by cases h), fun q qs h => ?_⟩
      rw [(List.cons.inj h).1]
    · have hr' : within p r.coordinates = false := by simpa using hr
      rw [List.filter_cons, if_neg hr, List.find?_cons, hr']
      exact ih

/-- C31. So, where the two libraries agree and polygons do not overlap, a node of the grid and a cross-section at the
same place get the same label. -/
theorem C31_consistent (inside : Ring K → Pt K → Bool) (within : Pt K → Ring K → Bool) (property default : String)
    (ps : List (Polygon K)) (nodes : List (Pt K)) (i : Nat) (p : Pt K) (hp : nodes[i]? = some p)
    (hagree : ∀ q ∈ ps, inside q.coordinates p = within p q.coordinates)
    (hone : (containing inside ps p).length ≤ 1) :
    (nodeLabels inside property default ps nodes)[i]? = some (pointLabel within property default ps p) := by
  have hc : containing (fun r p => within p r) ps p = containing inside ps p :=
    List.filter_congr fun q hq => (hagree q hq).symm
  obtain ⟨_, h⟩ := C31_nodes inside property default ps nodes
  obtain ⟨h1, _, h3⟩ := h i p hp
  obtain ⟨h4, h5⟩ := C31_cross_sections within property default ps p
  rw [hc] at h4 h5
  cases hcon : containing inside ps p with
  | nil => rw [h1 hcon, h4 hcon]
  | cons q qs =>
    have : qs = [] := by
      rw [hcon, List.length_cons] at hone
      exact List.eq_nil_of_length_eq_zero (by omega)
    subst this
    rw [h3 q hcon, h5 q [] hcon]

/-- Containment in a rectangle given by two corners. -/
def inRectangle (r : Ring ℚ) (p : Pt ℚ) : Bool :=
  match r with
  | [a, b] => decide (a.1 ≤ p.1 ∧ p.1 ≤ b.1 ∧ a.2 ≤ p.2 ∧ p.2 ≤ b.2)
  | _ => false

/-- Two overlapping regions. -/
def twoRegions : List (Polygon ℚ) :=
  [⟨[(0, 0), (2, 2)], [("name", "a"), ("region", "left")]⟩, ⟨[(1, 0), (4, 2)], [("name", "b"), ("region", "right")]⟩]

/-- Nodes in none, in one and in both of them. -/
example : nodeLabels inRectangle "region" "none" twoRegions [(9, 9), (0, 1), (3, 1), (3 / 2, 1)] =
    [some "none", some "left", some "right", some "right"] ∧
    containing inRectangle twoRegions (0, 1) = [⟨[(0, 0), (2, 2)], [("name", "a"), ("region", "left")]⟩] ∧
    containing inRectangle twoRegions (9, 9) = [] := by
  refine ⟨by decide +kernel, rfl, rfl⟩

/-- Where polygons overlap, a node of the grid gets the last and a cross-section the first. -/
example : nodeLabels inRectangle "region" "none" twoRegions [(3 / 2, 1)] = [some "right"] ∧
    pointLabel (fun p r => inRectangle r p) "region" "none" twoRegions (3 / 2, 1) = some "left" := by
  decide +kernel

/-- Faces with their first nodes. -/
example : (match gridPointLabels inRectangle "region" "none" twoRegions [(9, 9), (0, 1), (3, 1)] [2, 2, 3] with
    | .ok ls => decide (ls = [some "left", some "left", some "right"])
    | .error _ => false) = true := by
  decide +kernel

/-! ## Dictionaries -/

private theorem dict_insert_get (d : Dict) (k v k' : String) :
    (d.insert k v).get k' = if k' = k then some v else d.get k' := by
  unfold Dict.insert
  split
  · rename_i h
    unfold Dict.get at h ⊢
    rw [List.find?_map]
    by_cases hk : k' = k
    · subst hk
      rw [if_pos rfl]
      have hp : ((fun p : String × String => decide (p.1 = k')) ∘ fun p => if p.1 = k' then (k', v) else p) =
          fun p => decide (p.1 = k') := by
        funext p
        simp only [Function.comp]
        split
        · simp [*]
        · rfl
      rw [hp]
      cases hf : d.find? fun p => decide (p.1 = k') with
      | none => rw [hf] at h; cases h
      | some p =>
        have := List.find?_some hf
        simp only [decide_eq_true_eq] at this
        simp [this]
    · rw [if_neg hk]
      have hp : ((fun p : String × String => decide (p.1 = k')) ∘ fun p => if p.1 = k then (k, v) else p) =
          fun p => decide (p.1 = k') := by
        funext p
        simp only [Function.comp]
        split
        · rename_i hpk
          have h1 : ¬ k = k' := fun h => hk h.symm
          have h2 : ¬ p.1 = k' := fun h => hk (h.symm.trans hpk)
          simp [h1, h2]
        · rfl
      rw [hp]
      cases hf : d.find? fun p => decide (p.1 = k') with
      | none => rfl
      | some p =>
        have := List.find?_some hf
        simp only [decide_eq_true_eq] at this
        have h2 : ¬ p.1 = k := fun h => hk (this.symm.trans h)
        simp [h2]
  · rename_i h
    unfold Dict.get at h ⊢
    rw [List.find?_append]
    by_cases hk : k' = k
    · subst hk
      rw [if_pos rfl]
      cases hf : d.find? fun p => decide (p.1 = k') with
      | some p => rw [hf] at h; exact absurd rfl h
      | none => simp
    · rw [if_neg hk]
      have h1 : ¬ k = k' := fun h => hk h.symm
      cases hf : d.find? fun p => decide (p.1 = k') with
      | some p => rfl
      | none => simp [h1]

private theorem lowerKeys_get (d : Dict) (k : String) : (lowerKeys d).get k = propertyOf d k := by
  unfold lowerKeys propertyOf
  have : ∀ (d acc : Dict), (d.foldl (fun acc p => Dict.insert acc p.1.toLower p.2) acc).get k =
      ((d.reverse.find? fun p => p.1.toLower = k).map (·.2)).or (acc.get k) := by
    intro d
    induction d with
    | nil => intro acc; rfl
    | cons p ps ih =>
      intro acc
      rw [List.foldl_cons, ih, List.reverse_cons, List.find?_append, dict_insert_get]
      cases hf : ps.reverse.find? fun p => decide (p.1.toLower = k) with
      | some q => simp
      | none =>
        by_cases hk : k = p.1.toLower
        · simp [hk]
        · have h1 : ¬ p.1.toLower = k := fun h => hk h.symm
          simp [hk, h1]
  rw [this]
  cases (d.reverse.find? fun p => p.1.toLower = k).map (·.2) <;> rfl

/-! ## C33: reading polygon files -/

private theorem polygonsFromFeatures_spec (fs : List (Feature K)) (ps : List (Polygon K))
    (h : polygonsFromFeatures fs = .ok ps) :
    ps.length = fs.length ∧ ∀ (i : Nat) f p, fs[i]? = some f → ps[i]? = some p →
      p.properties = lowerKeys f.properties ∧ featureRing f.geometry = .ok p.coordinates ∧
        ((lowerKeys f.properties).get "name").isSome := by
  induction fs generalizing ps with
  | nil =>
    obtain rfl := Except.ok.inj h
    exact ⟨rfl, fun i f p hf => by cases hf⟩
  | cons f fs ih =>
    rw [polygonsFromFeatures] at h
    split at h
    · cases h
    · rename_i p hp
      split at h
      · cases h
      · rename_i ps' hps
        obtain rfl := Except.ok.inj h
        obtain ⟨h1, h2⟩ := ih ps' hps
        refine ⟨by simp [h1], fun i g q hg hq => ?_⟩
        cases i with
        | zero =>
          obtain rfl := Option.some.inj hg
          obtain rfl := Option.some.inj hq
          unfold polygonFromFeature at hp
          split at hp
          · cases hp
          · rename_i hn
            split at hp
            · cases hp
            · rename_i ring hr
              obtain rfl := Except.ok.inj hp
              refine ⟨rfl, hr, ?_⟩
              cases hx : (lowerKeys f.properties).get "name" with
              | none => rw [hx] at hn; exact absurd rfl hn
              | some n => rfl
        | succ i => exact h2 i g q (by simpa using hg) (by simpa using hq)

private theorem polygonsFromFeatures_ok (fs : List (Feature K)) (h : ∀ f ∈ fs,
    (propertyOf f.properties "name").isSome ∧ ∃ ring, featureRing f.geometry = .ok ring) :
    ∃ ps, polygonsFromFeatures fs = .ok ps := by
  induction fs with
  | nil => exact ⟨[], rfl⟩
  | cons f fs ih =>
    obtain ⟨ps, hps⟩ := ih fun g hg => h g (List.mem_cons_of_mem _ hg)
    obtain ⟨h1, ring, h2⟩ := h f (by simp)
    rw [polygonsFromFeatures]
    unfold polygonFromFeature
    rw [lowerKeys_get]
    rw [if_neg (by cases hx : propertyOf f.properties "name" with
      | none => rw [hx] at h1; cases h1
      | some n => simp), h2, hps]
    exact ⟨_, rfl⟩

private theorem length_dedup_eq_iff {α : Type} [DecidableEq α] (l : List α) : l.length = l.dedup.length ↔ l.Nodup := by
  constructor
  · intro h
    have := (List.dedup_sublist l).eq_of_length h.symm
    rw [← this]
    exact List.nodup_dedup l
  · intro h
    rw [List.Nodup.dedup h]

private theorem setPolygons_ok_iff (ps qs : List (Polygon K)) :
    setPolygons ps = .ok qs ↔ qs = ps ∧ (∀ n ∈ polygonNames ps, n ≠ none ∧ n ≠ some "") ∧ (polygonNames ps).Nodup := by
  unfold setPolygons
  by_cases hall : (polygonNames ps).all (fun n => n ≠ none && n ≠ some "") = true
  · rw [if_pos hall]
    have hall' : ∀ n ∈ polygonNames ps, n ≠ none ∧ n ≠ some "" := by
      intro n hn
      have := List.all_eq_true.1 hall n hn
      simpa using this
    by_cases hd : (polygonNames ps).length ≠ (polygonNames ps).dedup.length
    · rw [if_pos hd]
      constructor
      · intro h; cases h
      · rintro ⟨_, _, h⟩
        exact absurd ((length_dedup_eq_iff _).2 h) hd
    · rw [if_neg hd]
      have hn := (length_dedup_eq_iff _).1 (not_not.1 hd)
      constructor
      · intro h; exact ⟨(Except.ok.inj h).symm, hall', hn⟩
      · rintro ⟨rfl, _⟩; rfl
  · rw [if_neg hall]
    constructor
    · intro h; cases h
    · rintro ⟨_, h, _⟩
      exact absurd (List.all_eq_true.2 fun n hn => by simpa using h n hn) hall

/-- C33. A polygon file that is read gives one polygon per feature, in order, each with the name of its feature, and
with its ring when the geometry is a single polygon without holes; the names are not empty and all different. -/
theorem C33_complete (features : List (Feature K)) (ps : List (Polygon K)) (h : polygonsFromFile features = .ok ps) :
    ps.length = features.length ∧
      (∀ (i : Nat) f p, features[i]? = some f → ps[i]? = some p →
        (∀ key, p.properties.get key = propertyOf f.properties key) ∧
        ∀ ring, SinglePolygon f.geometry ring → p.coordinates = ring) ∧
      (∀ p ∈ ps, ∃ name, p.properties.get "name" = some name ∧ name ≠ "") ∧
      (ps.map fun p => p.properties.get "name").Nodup := by
  unfold polygonsFromFile at h
  split at h
  · cases h
  · split at h
    · cases h
    · rename_i ps' hps
      obtain ⟨rfl, h1, h2⟩ := (setPolygons_ok_iff ps' ps).1 h
      obtain ⟨h3, h4⟩ := polygonsFromFeatures_spec features ps hps
      refine ⟨h3, fun i f p hf hp => ?_, fun p hp => ?_, h2⟩
      · obtain ⟨e1, e2, _⟩ := h4 i f p hf hp
        refine ⟨fun key => by rw [e1, lowerKeys_get], fun ring hr => ?_⟩
        rcases hr with hr | hr
        · rw [hr] at e2; exact (Except.ok.inj e2).symm
        · rw [hr] at e2; exact (Except.ok.inj e2).symm
      · have := h1 _ (List.mem_map.2 ⟨p, hp, rfl⟩)
        cases hn : p.properties.get "name" with
        | none => rw [hn] at this; exact absurd rfl this.1
        | some n => rw [hn] at this; exact ⟨n, rfl, fun h => this.2 (by rw [h])⟩

/-- C33. A file is accepted when it has features, every feature is a single polygon without holes and the names are
present, not empty and all different. Of multi-part geometries only some are rejected
(`C33_multi_part_violated`): those with several polygons whose first one has holes. -/
theorem C33_accepted_iff_partial (features : List (Feature K))
    (hgeo : ∀ f ∈ features, (∀ polys, f.geometry ≠ .multiPolygon polys) ∨ ∃ ring, SinglePolygon f.geometry ring) :
    (∃ ps, polygonsFromFile features = .ok ps) ↔
      features ≠ [] ∧ (∀ f ∈ features, ∃ name ring, propertyOf f.properties "name" = some name ∧ name ≠ "" ∧
        SinglePolygon f.geometry ring) ∧ (features.map fun f => propertyOf f.properties "name").Nodup := by
  constructor
  · rintro ⟨ps, h⟩
    have hne : features ≠ [] := by
      rintro rfl
      cases h
    obtain ⟨h1, h2, h3, h4⟩ := C33_complete features ps h
    have hps : polygonsFromFeatures features = .ok ps := by
      unfold polygonsFromFile at h
      rw [if_neg hne] at h
      split at h
      · cases h
      · rename_i ps' hps
        obtain ⟨rfl, _⟩ := (setPolygons_ok_iff ps' ps).1 h
        exact hps
    obtain ⟨_, h5⟩ := polygonsFromFeatures_spec features ps hps
    refine ⟨hne, fun f hf => ?_, ?_⟩
    · obtain ⟨i, hi⟩ := List.getElem?_of_mem hf
      have hlt := (List.getElem?_eq_some_iff.1 hi).1
      have hpi : ps[i]? = some (ps[i]'(by omega)) := List.getElem?_eq_getElem _
      obtain ⟨name, hn1, hn2⟩ := h3 _ (List.mem_of_getElem? hpi)
      obtain ⟨e1, e2, _⟩ := h5 i f _ hi hpi
      refine ⟨name, (ps[i]'(by omega)).coordinates, ?_, hn2, ?_⟩
      · rw [← hn1, (h2 i f _ hi hpi).1]
      · rcases hgeo f hf with hg | ⟨ring, hg⟩
        · cases hgeom : f.geometry with
          | other => rw [hgeom] at e2; cases e2
          | multiPolygon polys => exact absurd hgeom (hg polys)
          | polygon rings =>
            rw [hgeom] at e2
            left
            unfold featureRing at e2
            match rings, e2 with
            | [r], e2 => rw [(Except.ok.inj e2).symm]
        · have := (h2 i f _ hi hpi).2 ring hg
          rw [this]; exact hg
    · have : (features.map fun f => propertyOf f.properties "name") = ps.map fun p => p.properties.get "name" := by
        apply List.ext_getElem?
        intro i
        rw [List.getElem?_map, List.getElem?_map]
        cases hf : features[i]? with
        | none =>
          have : ps[i]? = none := by
            rw [List.getElem?_eq_none_iff] at hf ⊢; omega
          rw [this]; rfl
        | some f =>
          have hlt := (List.getElem?_eq_some_iff.1 hf).1
          have hpi : ps[i]? = some (ps[i]'(by omega)) := List.getElem?_eq_getElem _
          rw [hpi, Option.map_some, Option.map_some, (h2 i f _ hf hpi).1]
      rw [this]; exact h4
  · rintro ⟨hne, h1, h2⟩
    obtain ⟨ps, hps⟩ := polygonsFromFeatures_ok features fun f hf => by
      obtain ⟨name, ring, hn, _, hr⟩ := h1 f hf
      refine ⟨by rw [hn]; rfl, ring, ?_⟩
      rcases hr with hr | hr <;> rw [hr] <;> rfl
    obtain ⟨h3, h4⟩ := polygonsFromFeatures_spec features ps hps
    have hnames : polygonNames ps = features.map fun f => propertyOf f.properties "name" := by
      unfold polygonNames
      apply List.ext_getElem?
      intro i
      rw [List.getElem?_map, List.getElem?_map]
      cases hf : features[i]? with
      | none =>
        have : ps[i]? = none := by
          rw [List.getElem?_eq_none_iff] at hf ⊢; omega
        rw [this]; rfl
      | some f =>
        have hlt := (List.getElem?_eq_some_iff.1 hf).1
        have hpi : ps[i]? = some (ps[i]'(by omega)) := List.getElem?_eq_getElem _
        rw [hpi, Option.map_some, Option.map_some, (h4 i f _ hf hpi).1, lowerKeys_get]
    refine ⟨ps, ?_⟩
    unfold polygonsFromFile
    rw [if_neg hne, hps]
    refine (setPolygons_ok_iff ps ps).2 ⟨rfl, fun n hn => ?_, by rw [hnames]; exact h2⟩
    rw [hnames] at hn
    obtain ⟨f, hf, rfl⟩ := List.mem_map.1 hn
    obtain ⟨name, _, e, e', _⟩ := h1 f hf
    rw [e]
    exact ⟨by simp, by simpa using e'⟩

/-- The names of the polygons are those of the features. -/
theorem polygonNames_features (features : List (Feature K)) (ps : List (Polygon K)) (h : polygonsFromFeatures features = .ok ps) :
    polygonNames ps = features.map fun f => propertyOf f.properties "name" := by
  obtain ⟨h3, h4⟩ := polygonsFromFeatures_spec features ps h
  unfold polygonNames
  apply List.ext_getElem?
  intro i
  rw [List.getElem?_map, List.getElem?_map]
  cases hf : features[i]? with
  | none =>
    have : ps[i]? = none := by
      rw [List.getElem?_eq_none_iff] at hf ⊢; omega
    rw [this]; rfl
  | some f =>
    have hlt := (List.getElem?_eq_some_iff.1 hf).1
    have hpi : ps[i]? = some (ps[i]'(by omega)) := List.getElem?_eq_getElem _
    rw [hpi, Option.map_some, Option.map_some, (h4 i f _ hf hpi).1, lowerKeys_get]

/-- Two features of the same name: not a `PolygonError` but a `ValueError`. -/
theorem duplicate_names (features : List (Feature K)) (h1 : ∀ f ∈ features, ∃ name ring,
      propertyOf f.properties "name" = some name ∧ name ≠ "" ∧ SinglePolygon f.geometry ring)
    (h2 : ¬ (features.map fun f => propertyOf f.properties "name").Nodup) : polygonsFromFile features = .error .valueError := by
  have hne : features ≠ [] := by rintro rfl; exact h2 List.nodup_nil
  obtain ⟨ps, hps⟩ := polygonsFromFeatures_ok features fun f hf => by
    obtain ⟨name, ring, hn, _, hr⟩ := h1 f hf
    refine ⟨by rw [hn]; rfl, ring, ?_⟩
    rcases hr with hr | hr <;> rw [hr] <;> rfl
  have hnames := polygonNames_features features ps hps
  unfold polygonsFromFile
  rw [if_neg hne, hps]
  simp only
  cases hs : setPolygons ps with
  | ok qs =>
    obtain ⟨_, _, hd⟩ := (setPolygons_ok_iff ps qs).1 hs
    exact absurd (hnames ▸ hd) h2
  | error e =>
    unfold setPolygons at hs
    split at hs
    · split at hs
      · exact hs.symm
      · cases hs
    · exact hs.symm

/-- C33 is violated: a feature with several polygons, or with holes, is accepted, and only the outer ring of its
first polygon is kept. -/
theorem C33_multi_part_violated (props : Dict) (name : String) (hn : propertyOf props "name" = some name)
    (hne : name ≠ "") (outer : Ring K) (holes : List (Ring K)) (others : List (List (Ring K)))
    (h : others = [] ∨ holes = []) :
    polygonsFromFile [⟨props, .multiPolygon ((outer :: holes) :: others)⟩] = .ok [⟨outer, lowerKeys props⟩] := by
  have hname : (lowerKeys props).get "name" = some name := by rw [lowerKeys_get, hn]
  have hring : featureRing (.multiPolygon ((outer :: holes) :: others)) = .ok outer := by
    unfold featureRing
    simp only
    rw [if_neg]
    rintro ⟨h1, h2⟩
    rcases h with h | h
    · exact h1 h
    · rw [h] at h2; exact h2 rfl
  unfold polygonsFromFile
  rw [if_neg (by simp), polygonsFromFeatures]
  unfold polygonFromFeature
  simp only [hname, hring, Option.isNone_some, polygonsFromFeatures]
  rw [if_neg (by simp)]
  exact (setPolygons_ok_iff _ _).2 ⟨rfl, by simp [polygonNames, hname, hne], by simp [polygonNames]⟩

/-- Two features. -/
def twoFeatures : List (Feature ℚ) :=
  [⟨[("Name", "river"), ("Section", "main")], .polygon [[(0, 0), (1, 1)]]⟩,
    ⟨[("name", "bank"), ("section", "2")], .multiPolygon [[[(1, 1), (2, 2)]]]⟩]

/-- They are read. -/
example : (match polygonsFromFile twoFeatures with
    | .ok ps => decide (ps.map (fun p => (p.coordinates, p.properties)) =
        [([(0, 0), (1, 1)], [("name", "river"), ("section", "main")]),
          ([(1, 1), (2, 2)], [("name", "bank"), ("section", "2")])])
    | .error _ => false) = true := by
  decide +kernel

/-- The hypothesis on the geometries is met. -/
example : ∀ f ∈ twoFeatures, (∀ polys, f.geometry ≠ .multiPolygon polys) ∨ ∃ ring, SinglePolygon f.geometry ring := by
  intro f hf
  simp only [twoFeatures, List.mem_cons, List.not_mem_nil, or_false] at hf
  rcases hf with rfl | rfl
  · right; exact ⟨_, .inl rfl⟩
  · right; exact ⟨_, .inr rfl⟩

/-! ## C32: section polygons -/

private theorem validateSection_spec (p p' : Polygon K) (h : validateSection p = .ok p') :
    ∃ s, p.properties.get "section" = some s ∧ s.toLower ∈ validSectionKeys ∧ p'.coordinates = p.coordinates ∧
      p'.properties.get "section" = some ((mapSectionKeys s.toLower).getD s) ∧
      ∀ key, key ≠ "section" → p'.properties.get key = p.properties.get key := by
  unfold validateSection at h
  split at h
  · cases h
  · rename_i s hs
    split at h
    · rename_i hv
      refine ⟨s, hs, hv, ?_⟩
      split at h
      · rename_i name hname
        obtain rfl := Except.ok.inj h
        refine ⟨rfl, ?_, fun key hk => ?_⟩
        · simp only
          rw [dict_insert_get, if_pos rfl, hname]; rfl
        · simp only
          rw [dict_insert_get, if_neg hk]
      · rename_i hname
        obtain rfl := Except.ok.inj h
        refine ⟨rfl, by rw [hs, hname]; rfl, fun _ _ => rfl⟩
    · cases h

/-- C32. A list of polygons is accepted exactly when each has a section which, written in lower case, is main,
floodplain1, floodplain2, 1, 2 or 3. -/
theorem C32_accepted_iff (ps : List (Polygon K)) :
    (∃ ps', validateSections ps = .ok ps') ↔ ∀ p ∈ ps, ∃ s, p.properties.get "section" = some s ∧
      s.toLower ∈ ["main", "floodplain1", "floodplain2", "1", "2", "3"] := by
  induction ps with
  | nil => exact ⟨fun _ p hp => (by cases hp), fun _ => ⟨[], rfl⟩⟩
  | cons p ps ih =>
    rw [validateSections]
    constructor
    · rintro ⟨ps', h⟩ q hq
      split at h
      · cases h
      · rename_i p' hp
        split at h
        · cases h
        · rename_i ps'' hps
          rcases List.mem_cons.1 hq with rfl | hq
          · obtain ⟨s, h1, h2, _⟩ := validateSection_spec q p' hp
            exact ⟨s, h1, h2⟩
          · exact ih.1 ⟨ps'', hps⟩ q hq
    · intro h
      obtain ⟨ps', hps⟩ := ih.2 fun q hq => h q (List.mem_cons_of_mem _ hq)
      obtain ⟨s, h1, h2⟩ := h p (by simp)
      unfold validateSection
      rw [h1]
      simp only
      rw [if_pos (show s.toLower ∈ validSectionKeys from h2)]
      cases mapSectionKeys s.toLower with
      | none => simp only [hps]; exact ⟨_, rfl⟩
      | some n => simp only [hps]; exact ⟨_, rfl⟩

/-- C32. Loading a section file is loading the polygons and then this check; the accepted polygons keep their number,
order, coordinates, names and other properties. -/
theorem C32_only_sections_change (features : List (Feature K)) (ps' : List (Polygon K))
    (h : sectionPolygonsFromFile features = .ok ps') :
    ∃ ps, polygonsFromFile features = .ok ps ∧ ps'.length = ps.length ∧
      ∀ (i : Nat) p p', ps[i]? = some p → ps'[i]? = some p' →
        p'.coordinates = p.coordinates ∧ (∀ key, key ≠ "section" → p'.properties.get key = p.properties.get key) ∧
        ∃ s, p.properties.get "section" = some s ∧
          p'.properties.get "section" = some (if s.toLower ∈ knownSections then s else numberedSection s.toLower) := by
  unfold sectionPolygonsFromFile at h
  split at h
  · cases h
  · rename_i ps hps
    refine ⟨ps, hps, ?_⟩
    clear hps
    induction ps generalizing ps' with
    | nil =>
      obtain rfl := Except.ok.inj h
      exact ⟨rfl, fun i p p' hp => by cases hp⟩
    | cons q qs ih =>
      rw [validateSections] at h
      split at h
      · cases h
      · rename_i q' hq
        split at h
        · cases h
        · rename_i qs' hqs
          obtain rfl := Except.ok.inj h
          obtain ⟨h1, h2⟩ := ih qs' hqs
          refine ⟨by simp [h1], fun i p p' hp hp' => ?_⟩
          cases i with
          | zero =>
            obtain rfl := Option.some.inj hp
            obtain rfl := Option.some.inj hp'
            obtain ⟨s, e1, e2, e3, e4, e5⟩ := validateSection_spec _ _ hq
            refine ⟨e3, e5, s, e1, ?_⟩
            rw [e4]
            congr 1
            unfold validSectionKeys at e2
            unfold knownSections
            generalize s.toLower = low at e2
            simp only [List.mem_cons, List.not_mem_nil, or_false] at e2
            rcases e2 with rfl | rfl | rfl | rfl | rfl | rfl
            · rw [if_pos (by simp)]; rfl
            · rw [if_pos (by simp)]; rfl
            · rw [if_pos (by simp)]; rfl
            · rw [if_neg (by decide)]; rfl
            · rw [if_neg (by decide)]; rfl
            · rw [if_neg (by decide)]; rfl
          | succ i => exact h2 i p p' (by simpa using hp) (by simpa using hp')

/-- C32 for files written in lower case: the sections of an accepted file are the three names that the exporters know.
Missing from the full property: sections written with capitals (`C32_capitals_violated`). -/
theorem C32_known_names_partial (features : List (Feature K)) (ps' : List (Polygon K))
    (h : sectionPolygonsFromFile features = .ok ps')
    (hlow : ∀ f ∈ features, ∀ s, propertyOf f.properties "section" = some s → s.toLower = s) :
    ∀ p ∈ ps', ∃ s ∈ knownSections, p.properties.get "section" = some s := by
  obtain ⟨ps, h1, h2, h3⟩ := C32_only_sections_change features ps' h
  obtain ⟨h4, h5, _, _⟩ := C33_complete features ps h1
  intro p hp
  obtain ⟨i, hi⟩ := List.getElem?_of_mem hp
  have hlt := (List.getElem?_eq_some_iff.1 hi).1
  have hq : ps[i]? = some (ps[i]'(by omega)) := List.getElem?_eq_getElem _
  have hf : features[i]? = some (features[i]'(by omega)) := List.getElem?_eq_getElem _
  obtain ⟨_, _, s, e1, e2⟩ := h3 i _ p hq hi
  have hs : s.toLower = s := hlow _ (List.mem_of_getElem? hf) s (by rw [← (h5 i _ _ hf hq).1, e1])
  have hacc : s.toLower ∈ ["main", "floodplain1", "floodplain2", "1", "2", "3"] := by
    have : ∃ ps', validateSections ps = .ok ps' := by
      unfold sectionPolygonsFromFile at h
      rw [h1] at h
      exact ⟨ps', h⟩
    obtain ⟨s', e3, e4⟩ := (C32_accepted_iff ps).1 this _ (List.mem_of_getElem? hq)
    rw [e1] at e3
    rw [Option.some.inj e3]
    exact e4
  refine ⟨_, ?_, e2⟩
  rw [hs] at hacc ⊢
  simp only [List.mem_cons, List.not_mem_nil, or_false] at hacc
  rcases hacc with rfl | rfl | rfl | rfl | rfl | rfl <;> decide

/-- C32 is violated: a section written with a capital is accepted and keeps it, and is then none of the names that
the exporters know. -/
theorem C32_capitals_violated :
    ∃ (f : Feature ℚ) (p : Polygon ℚ), sectionPolygonsFromFile [f] = .ok [p] ∧
      p.properties.get "section" = some "Main" ∧ "Main" ∉ knownSections := by
  refine ⟨⟨[("name", "a"), ("section", "Main")], .polygon [[(0, 0), (1, 1)]]⟩,
    ⟨[(0, 0), (1, 1)], [("name", "a"), ("section", "Main")]⟩, ?_, by decide +kernel, by decide +kernel⟩
  have h1 : lowerKeys [("name", "a"), ("section", "Main")] = [("name", "a"), ("section", "Main")] := by decide +kernel
  have h2 : Dict.get [("name", "a"), ("section", "Main")] "name" = some "a" := by decide +kernel
  have h3 : Dict.get [("name", "a"), ("section", "Main")] "section" = some "Main" := by decide +kernel
  have h4 : "Main".toLower = "main" := by decide +kernel
  simp [sectionPolygonsFromFile, polygonsFromFile, polygonsFromFeatures, polygonFromFeature, featureRing, setPolygons,
    polygonNames, validateSections, validateSection, validSectionKeys, mapSectionKeys, h1, h2, h3, h4]

/-- C32. A warning is logged for every ordered pair of different polygons that intersect, with their names, and for no
others. -/
theorem C32_overlaps_reported (intersects : Ring K → Ring K → Bool) (ps : List (Polygon K))
    (w : Option String × Option String) :
    w ∈ overlapWarnings intersects ps ↔ ∃ (i j : Nat) (p q : Polygon K), i ≠ j ∧ ps[i]? = some p ∧ ps[j]? = some q ∧
      intersects p.coordinates q.coordinates = true ∧ w = (p.properties.get "name", q.properties.get "name") := by
  unfold overlapWarnings
  simp only [List.mem_flatMap, List.mem_filterMap]
  constructor
  · rintro ⟨a, ha, b, hb, h⟩
    split at h
    · cases h
    · rename_i hab
      split at h
      · rename_i hi
        have ha' := List.mem_zipIdx ha
        have hb' := List.mem_zipIdx hb
        refine ⟨a.2, b.2, a.1, b.1, hab, ?_, ?_, hi, (Option.some.inj h).symm⟩
        · obtain ⟨_, h1, h2⟩ := ha'
          rw [List.getElem?_eq_some_iff]
          exact ⟨by omega, by simpa using h2.symm⟩
        · obtain ⟨_, h1, h2⟩ := hb'
          rw [List.getElem?_eq_some_iff]
          exact ⟨by omega, by simpa using h2.symm⟩
      · cases h
  · rintro ⟨i, j, p, q, hij, hp, hq, hi, rfl⟩
    refine ⟨(p, i), ?_, (q, j), ?_, ?_⟩
    · rw [List.mem_zipIdx_iff_getElem?]; exact hp
    · rw [List.mem_zipIdx_iff_getElem?]; exact hq
    · rw [if_neg hij, if_pos hi]

/-- The two features are valid sections, the number is replaced by its name, and their overlap would be reported. -/
example : (match sectionPolygonsFromFile twoFeatures with
    | .ok ps => decide (ps.map (fun p => p.properties.get "section") = [some "main", some "floodplain1"])
    | .error _ => false) = true ∧
    overlapWarnings (fun _ _ => true) twoRegions = [(some "a", some "b"), (some "b", some "a")] ∧
    ∀ f ∈ twoFeatures, ∀ s, propertyOf f.properties "section" = some s → s.toLower = s := by
  refine ⟨by decide +kernel, by decide +kernel, ?_⟩
  intro f hf s hs
  simp only [twoFeatures, List.mem_cons, List.not_mem_nil, or_false] at hf
  rcases hf with rfl | rfl
  · have : propertyOf ([("Name", "river"), ("Section", "main")] : Dict) "section" = some "main" := by decide +kernel
    rw [this] at hs
    rw [← Option.some.inj hs]; decide +kernel
  · have : propertyOf ([("name", "bank"), ("section", "2")] : Dict) "section" = some "2" := by decide +kernel
    rw [this] at hs
    rw [← Option.some.inj hs]; decide +kernel

/-! ## C34: the cache -/

section Cache

variable {Key Map M Poly R : Type} [DecidableEq Key] [DecidableEq M]

private theorem cachedHistory_from (classify : Key → Map → Poly → R) (past runs : List (CacheRun Key Map M Poly))
    (files : Key → Option (CacheFile M R))
    (hfiles : ∀ k c, files k = some c → ∃ r ∈ past, r.key = k ∧ r.stamp = c.stamp ∧
      c.result = classify r.key r.map r.polys) (i : Nat) (run : CacheRun Key Map M Poly) (res : R)
    (hrun : runs[i]? = some run) (hres : (cachedHistory classify files runs)[i]? = some res) :
    ∃ r ∈ past ++ runs.take (i + 1), r.key = run.key ∧ r.stamp = run.stamp ∧
      res = classify r.key r.map r.polys := by
  induction runs generalizing past files i with
  | nil => cases hrun
  | cons r₀ runs ih =>
    rw [cachedHistory] at hres
    cases i with
    | zero =>
      obtain rfl := Option.some.inj hrun
      obtain rfl := Option.some.inj hres
      unfold cachedLabels
      simp only
      cases hf : files r₀.key with
      | none => exact ⟨r₀, by simp, rfl, rfl, rfl⟩
      | some c =>
        simp only
        split
        · exact ⟨r₀, by simp, rfl, rfl, rfl⟩
        · split
          · rename_i hst
            obtain ⟨r, hr, h1, h2, h3⟩ := hfiles _ c hf
            exact ⟨r, by simp [hr], h1, h2.trans hst.symm, h3⟩
          · exact ⟨r₀, by simp, rfl, rfl, rfl⟩
    | succ i =>
      have := ih (past ++ [r₀]) (cachedLabels classify files r₀).2 ?_ i (by simpa using hrun) (by simpa using hres)
      · obtain ⟨r, hr, h⟩ := this
        refine ⟨r, ?_, h⟩
        rw [List.take_succ_cons]
        simpa using hr
      · intro k c hk
        unfold cachedLabels at hk
        simp only at hk
        have hw : ∀ k c, (if k = r₀.key then some (⟨r₀.stamp, classify r₀.key r₀.map r₀.polys⟩ : CacheFile M R)
            else files k) = some c → ∃ r ∈ past ++ [r₀], r.key = k ∧ r.stamp = c.stamp ∧
              c.result = classify r.key r.map r.polys := by
          intro k c h
          split at h
          · rename_i hk
            obtain rfl := Option.some.inj h
            exact ⟨r₀, by simp, hk.symm, rfl, rfl⟩
          · obtain ⟨r, hr, h'⟩ := hfiles k c h
            exact ⟨r, by simp [hr], h'⟩
        have ho : ∀ k c, files k = some c → ∃ r ∈ past ++ [r₀], r.key = k ∧ r.stamp = c.stamp ∧
              c.result = classify r.key r.map r.polys := by
          intro k c h
          obtain ⟨r, hr, h'⟩ := hfiles k c h
          exact ⟨r, by simp [hr], h'⟩
        split at hk
        · exact hw k c hk
        · split at hk
          · exact hw k c hk
          · split at hk
            · exact ho k c hk
            · exact hw k c hk

private theorem cachedHistory_length (classify : Key → Map → Poly → R) (runs : List (CacheRun Key Map M Poly))
    (files : Key → Option (CacheFile M R)) : (cachedHistory classify files runs).length = runs.length := by
  induction runs generalizing files with
  | nil => rfl
  | cons r rs ih => rw [cachedHistory, List.length_cons, ih, List.length_cons]

/-- C34. In every history that starts without cache files, each run returns the classification of this or an earlier
run with the same cache file and the same modification time and size of the map file. -/
theorem C34_from_same_stamp (classify : Key → Map → Poly → R) (runs : List (CacheRun Key Map M Poly)) (i : Nat)
    (run : CacheRun Key Map M Poly) (hrun : runs[i]? = some run) :
    ∃ r ∈ runs.take (i + 1), r.key = run.key ∧ r.stamp = run.stamp ∧
      (cachedHistory classify (fun _ => none) runs)[i]? = some (classify r.key r.map r.polys) := by
  have hlt := (List.getElem?_eq_some_iff.1 hrun).1
  have hres : (cachedHistory classify (fun _ => none) runs)[i]? = some ((cachedHistory classify (fun _ => none)
      runs)[i]'(by rw [cachedHistory_length]; exact hlt)) := List.getElem?_eq_getElem _
  obtain ⟨r, hr, h1, h2, h3⟩ := cachedHistory_from classify [] runs (fun _ => none) (fun k c h => by cases h) i run _
    hrun hres
  refine ⟨r, by simpa using hr, h1, h2, ?_⟩
  rw [hres, h3]

/-- C34 when runs with the same cache file and the same modification time and size use the same map and polygons:
every run returns what would be computed from its inputs. Missing from the full property: changes of polygons or
default label (`C34_changed_polygons_violated`). -/
theorem C34_transparent_partial (classify : Key → Map → Poly → R) (runs : List (CacheRun Key Map M Poly))
    (hsame : ∀ r ∈ runs, ∀ r' ∈ runs, r.key = r'.key → r.stamp = r'.stamp → r.map = r'.map ∧ r.polys = r'.polys) :
    cachedHistory classify (fun _ => none) runs = runs.map fun r => classify r.key r.map r.polys := by
  apply List.ext_getElem?
  intro i
  rw [List.getElem?_map]
  cases hrun : runs[i]? with
  | none =>
    rw [Option.map_none, List.getElem?_eq_none_iff, cachedHistory_length]
    exact List.getElem?_eq_none_iff.1 hrun
  | some run =>
    obtain ⟨r, hr, h1, h2, h3⟩ := C34_from_same_stamp classify runs i run hrun
    obtain ⟨h4, h5⟩ := hsame r (List.mem_of_mem_take hr) run (List.mem_of_getElem? hrun) h1 h2
    rw [h3, h1, h4, h5]; rfl

/-- C34. A run that ignores the cache returns what is computed from its inputs, whatever the cache files, and leaves
it in the cache. -/
theorem C34_forced (classify : Key → Map → Poly → R) (files : Key → Option (CacheFile M R))
    (run : CacheRun Key Map M Poly) (h : run.force = true) :
    (cachedLabels classify files run).1 = classify run.key run.map run.polys ∧
      (cachedLabels classify files run).2 run.key = some ⟨run.stamp, classify run.key run.map run.polys⟩ ∧
      ∀ k, k ≠ run.key → (cachedLabels classify files run).2 k = files k := by
  unfold cachedLabels
  simp only
  cases hf : files run.key with
  | none => exact ⟨rfl, by simp, fun k hk => by simp [hk]⟩
  | some c =>
    simp only [h, if_true]
    refine ⟨by simp, by simp, fun k hk => by simp [hk]⟩

end Cache

/-- C34 is violated: after the polygons are changed and the map file is not, the old classification is returned. -/
theorem C34_changed_polygons_violated :
    ∃ (classify : Unit → String → String → String) (runs : List (CacheRun Unit String Nat String)),
      (∀ r ∈ runs, r.force = false) ∧
      cachedHistory classify (fun _ => none) runs ≠ runs.map fun r => classify r.key r.map r.polys := by
  refine ⟨fun _ m p => m ++ p, [⟨(), "map", 1, "old", false⟩, ⟨(), "map", 1, "new", false⟩], by simp, ?_⟩
  decide +kernel

/-- A history in which the map file changes with its modification time meets the hypothesis of the partial theorem. -/
example : cachedHistory (fun (_ : Unit) (m p : String) => m ++ p) (fun _ => none)
      [⟨(), "map", 1, "poly", false⟩, ⟨(), "map", 1, "poly", false⟩, ⟨(), "map2", 2, "poly", false⟩] =
    ["mappoly", "mappoly", "map2poly"] ∧
    ∀ r ∈ ([⟨(), "map", 1, "poly", false⟩, ⟨(), "map", 1, "poly", false⟩, ⟨(), "map2", 2, "poly", false⟩] :
      List (CacheRun Unit String Nat String)), ∀ r' ∈ ([⟨(), "map", 1, "poly", false⟩, ⟨(), "map", 1, "poly", false⟩,
        ⟨(), "map2", 2, "poly", false⟩] : List (CacheRun Unit String Nat String)),
      r.key = r'.key → r.stamp = r'.stamp → r.map = r'.map ∧ r.polys = r'.polys := by
  refine ⟨by decide +kernel, ?_⟩
  intro r hr r' hr' _ hst
  simp only [List.mem_cons, List.not_mem_nil, or_false] at hr hr'
  rcases hr with rfl | rfl | rfl <;> rcases hr' with rfl | rfl | rfl <;> simp_all

end Fm2prof.Props

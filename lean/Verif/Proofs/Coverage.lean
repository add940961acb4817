import Verif.Spec.Coverage
import Verif.Proofs.Project

/-!
# Polygons that cover the same points
-/

set_option linter.unusedSectionVars false

namespace Fm2prof.CoverageProof

open Fm2prof Spec Props ProjectProof

variable {K : Type} [Field K] [LinearOrder K] [IsStrictOrderedRing K] [FloorRing K]

/-! ## The label of a point -/

theorem mem_containing {inside : Ring K → Pt K → Bool} {ps : List (Polygon K)} {p : Pt K} {q : Polygon K} :
    q ∈ containing inside ps p ↔ q ∈ ps ∧ inside q.coordinates p = true := by
  unfold containing
  rw [List.mem_filter]

theorem containing_nil {inside : Ring K → Pt K → Bool} {property : String} {ps : List (Polygon K)} {p : Pt K} :
    containing inside ps p = [] ↔ ∀ l, ¬ Covers inside property ps p l := by
  constructor
  · rintro h l ⟨q, hq, hi, -⟩
    have := mem_containing.2 ⟨hq, hi⟩
    rw [h] at this
    cases this
  · intro h
    rw [List.eq_nil_iff_forall_not_mem]
    intro q hq
    obtain ⟨h1, h2⟩ := mem_containing.1 hq
    exact h _ ⟨q, h1, h2, rfl⟩

/-- A label of a point found through any of the polygons that contain it is the same. -/
theorem label_cover {inside : Ring K → Pt K → Bool} {property : String} {ps ps' : List (Polygon K)} {pts : List (Pt K)}
    (h1 : OneLabel inside property ps pts) (h2 : SameCover inside property ps ps' pts) {p : Pt K} (hp : p ∈ pts)
    (pick : List (Polygon K) → Option (Polygon K)) (hnil : ∀ l, pick l = none ↔ l = []) (hmem : ∀ l q, pick l = some q → q ∈ l)
    (default : Option String) :
    (match pick (containing inside ps' p) with | none => default | some q => q.properties.get property) =
      match pick (containing inside ps p) with | none => default | some q => q.properties.get property := by
  cases hs : pick (containing inside ps p) with
  | none =>
    have hn := (containing_nil (property := property)).1 ((hnil _).1 hs)
    have : pick (containing inside ps' p) = none :=
      (hnil _).2 (containing_nil.2 fun l hl => hn l ((h2 p hp l).1 hl))
    rw [this]
  | some q =>
    obtain ⟨q1, q2⟩ := mem_containing.1 (hmem _ _ hs)
    have hc : Covers inside property ps p (q.properties.get property) := ⟨q, q1, q2, rfl⟩
    cases hs' : pick (containing inside ps' p) with
    | none => exact absurd ((h2 p hp _).2 hc) (containing_nil.1 ((hnil _).1 hs') _)
    | some r =>
      obtain ⟨r1, r2⟩ := mem_containing.1 (hmem _ _ hs')
      exact h1 p hp _ _ ((h2 p hp _).1 ⟨r, r1, r2, rfl⟩) hc

theorem polygonLabel_cover {inside : Ring K → Pt K → Bool} {property : String} {ps ps' : List (Polygon K)} {pts : List (Pt K)}
    (h1 : OneLabel inside property ps pts) (h2 : SameCover inside property ps ps' pts) {p : Pt K} (hp : p ∈ pts) (default : String) :
    polygonLabel inside property default ps' p = polygonLabel inside property default ps p :=
  label_cover h1 h2 hp List.getLast? (fun _ => List.getLast?_eq_none_iff) (fun _ _ h => List.mem_of_getLast? h) (some default)

theorem pointLabel_eq (within : Pt K → Ring K → Bool) (property default : String) (ps : List (Polygon K)) (p : Pt K) :
    pointLabel within property default ps p = locationLabel within property default ps p := by
  obtain ⟨h1, h2⟩ := C31_cross_sections within property default ps p
  unfold locationLabel
  cases hc : containing (fun r p => within p r) ps p with
  | nil => exact h1 hc
  | cons q qs => exact h2 q qs hc

theorem pointLabel_cover {within : Pt K → Ring K → Bool} {property : String} {ps ps' : List (Polygon K)} {pts : List (Pt K)}
    (h1 : OneLabel (fun r q => within q r) property ps pts) (h2 : SameCover (fun r q => within q r) property ps ps' pts)
    {p : Pt K} (hp : p ∈ pts) (default : String) :
    pointLabel within property default ps' p = pointLabel within property default ps p := by
  rw [pointLabel_eq, pointLabel_eq]
  exact label_cover h1 h2 hp List.head? (fun _ => List.head?_eq_none_iff) (fun _ _ h => List.mem_of_head? h) (some default)

theorem nodeLabels_cover {inside : Ring K → Pt K → Bool} {property : String} {ps ps' : List (Polygon K)} {nodes : List (Pt K)}
    (h1 : OneLabel inside property ps nodes) (h2 : SameCover inside property ps ps' nodes) (default : String) :
    nodeLabels inside property default ps' nodes = nodeLabels inside property default ps nodes := by
  apply List.ext_getElem?
  intro i
  cases hp : nodes[i]? with
  | none =>
    have hl := List.getElem?_eq_none_iff.1 hp
    rw [List.getElem?_eq_none (by rw [(C31_nodes inside property default ps' nodes).1]; exact hl),
      List.getElem?_eq_none (by rw [(C31_nodes inside property default ps nodes).1]; exact hl)]
  | some p =>
    rw [node_label _ _ _ _ _ _ _ hp, node_label _ _ _ _ _ _ _ hp, polygonLabel_cover h1 h2 (List.mem_of_getElem? hp)]

theorem gridLabelsAt_cover {g : Geometries K} {property : String} {ps ps' : List (Polygon K)} {m : MapFile K}
    (h1 : OneLabel g.inside property ps m.nodes) (h2 : SameCover g.inside property ps ps' m.nodes) (isText : Bool) (default : String)
    (path : Text) (caches : Caches) :
    gridLabelsAt isText g property default ps' path m caches = gridLabelsAt isText g property default ps path m caches := by
  have hf : freshLabels g property default ps' m = freshLabels g property default ps m := by
    unfold freshLabels gridPointLabels
    rw [nodeLabels_cover h1 h2]
  unfold gridLabelsAt gridLabels
  rw [hf]

theorem regionLabels_cover {g : Geometries K} {ps ps' : List (Polygon K)} {css : List (Loc K)}
    (h1 : OneLabel (fun r q => g.within q r) "region" ps (css.map fun l => (l.x, l.y)))
    (h2 : SameCover (fun r q => g.within q r) "region" ps ps' (css.map fun l => (l.x, l.y))) (default : String) (labels : Labels) :
    regionLabels g default ps' css labels = regionLabels g default ps css labels := by
  have hl : locationLabels g default ps' css = locationLabels g default ps css := by
    unfold locationLabels
    congr 1
    refine List.map_congr_left fun l hl => ?_
    exact pointLabel_cover h1 h2 (List.mem_map.2 ⟨l, hl, rfl⟩) default
  unfold regionLabels
  rw [hl]

/-! ## What a run reads -/

/-- Regions and sections that cover the same points. -/
theorem projectInputs_cover (ft : FloatText K) (g : Geometries K) (c : Settings K) (m : MapFile K) (d : ProjectFiles K)
    (polygons : Text → Option (PolygonFile K))
    (hr : c.regionPath ≠ [] → ∃ rs rs', readPolygons d c.regionPath = .ok rs ∧
      readPolygons { d with polygons := polygons } c.regionPath = .ok rs' ∧
      OneLabel g.inside "region" rs m.nodes ∧ SameCover g.inside "region" rs rs' m.nodes ∧
      ∀ css, (cssFile ft ',' (d.texts c.cssPath)).map locationsOf = .ok css →
        OneLabel (fun r q => g.within q r) "region" rs (css.map fun l => (l.x, l.y)) ∧
        SameCover (fun r q => g.within q r) "region" rs rs' (css.map fun l => (l.x, l.y)))
    (hs : c.sectionPath ≠ [] → ∃ ss ss', readSections d c.sectionPath = .ok ss ∧
      readSections { d with polygons := polygons } c.sectionPath = .ok ss' ∧
      OneLabel g.inside "section" ss m.nodes ∧ SameCover g.inside "section" ss ss' m.nodes) :
    projectInputs ft g c m { d with polygons := polygons } = projectInputs ft g c m d := by
  unfold projectInputs
  simp only
  cases hdata : m.data with
  | error e => rfl
  | ok a =>
    cases hcss : (cssFile ft ',' (d.texts c.cssPath)).map locationsOf with
    | error e => rfl
    | ok css =>
      unfold optionalRegions optionalSections
      by_cases hrp : c.regionPath = []
      · rw [if_pos hrp, if_pos hrp]
        by_cases hsp : c.sectionPath = []
        · rw [if_pos hsp, if_pos hsp]
        · obtain ⟨ss, ss', r1, r2, r3, r4⟩ := hs hsp
          rw [if_neg hsp, if_neg hsp, r1, r2]
          simp only [Except.map]
          rw [gridLabelsAt_cover r3 r4]
      · obtain ⟨rs, rs', q1, q2, q3, q4, q5⟩ := hr hrp
        obtain ⟨q6, q7⟩ := q5 css hcss
        rw [if_neg hrp, if_neg hrp, q1, q2]
        simp only [Except.map]
        have hreg := regionLabels_cover q6 q7 (String.ofList c.defaultRegion)
        by_cases hsp : c.sectionPath = []
        · rw [if_pos hsp, if_pos hsp]
          simp only
          rw [gridLabelsAt_cover q3 q4]
          simp only [hreg]
        · obtain ⟨ss, ss', r1, r2, r3, r4⟩ := hs hsp
          rw [if_neg hsp, if_neg hsp, r1, r2]
          simp only
          rw [gridLabelsAt_cover q3 q4]
          simp only [hreg, gridLabelsAt_cover r3 r4]

/-! ## Reading the same features in another order -/

/-- A loop that stops at the first exception. -/
theorem loop_perm {α β : Type} (f : α → Except PyErr β) (loop : List α → Except PyErr (List β)) (h0 : loop [] = .ok [])
    (h1 : ∀ a as, loop (a :: as) = (f a).bind fun b => (loop as).map (b :: ·))
    {l l' : List α} (hp : l.Perm l') (bs : List β) (h : loop l = .ok bs) : ∃ bs', loop l' = .ok bs' ∧ bs.Perm bs' := by
  have key : ∀ l bs, loop l = .ok bs ↔ List.map f l = bs.map .ok := by
    intro l
    induction l with
    | nil =>
      intro bs
      rw [h0]
      cases bs with
      | nil => exact ⟨fun _ => rfl, fun _ => rfl⟩
      | cons b bs => exact ⟨fun h => (by cases h), fun h => (by cases h)⟩
    | cons a as ih =>
      intro bs
      rw [h1]
      cases hf : f a with
      | error e =>
        refine ⟨fun h => (by cases h), fun h => ?_⟩
        cases bs with
        | nil => cases h
        | cons b bs => rw [List.map_cons, hf] at h; cases h
      | ok b =>
        simp only [Except.bind]
        cases hl : loop as with
        | error e =>
          refine ⟨fun h => (by cases h), fun h => ?_⟩
          cases bs with
          | nil => cases h
          | cons b' bs =>
            rw [List.map_cons, List.map_cons] at h
            have := (ih bs).2 (List.cons.inj h).2
            rw [hl] at this; cases this
        | ok bs' =>
          have := (ih bs').1 hl
          rw [List.map_cons, hf, this]
          constructor
          · intro h
            rw [← Except.ok.inj h]
            rfl
          · intro h
            cases bs with
            | nil => cases h
            | cons b' bs =>
              obtain ⟨e1, e2⟩ := List.cons.inj h
              have hinj : Function.Injective (Except.ok : β → Except PyErr β) := fun _ _ h => Except.ok.inj h
              rw [Except.ok.inj e1, List.map_injective_iff.2 hinj e2]
              rfl
  have hm := (key l bs).1 h
  have hperm : (List.map f l').Perm (bs.map .ok) := by rw [← hm]; exact (hp.map f).symm
  have hall : ∀ xs : List (Except PyErr β), (∀ x ∈ xs, ∃ b, x = .ok b) → ∃ cs : List β, xs = cs.map .ok := by
    intro xs
    induction xs with
    | nil => exact fun _ => ⟨[], rfl⟩
    | cons x xs ih =>
      intro h
      obtain ⟨b, hb⟩ := h x List.mem_cons_self
      obtain ⟨cs, hcs⟩ := ih fun y hy => h y (List.mem_cons_of_mem _ hy)
      exact ⟨b :: cs, by rw [hb, hcs]; rfl⟩
  obtain ⟨bs', hbs'⟩ := hall (List.map f l') (by
    intro x hx
    obtain ⟨b, _, hb⟩ := List.mem_map.1 (hperm.mem_iff.1 hx)
    exact ⟨b, hb.symm⟩)
  refine ⟨bs', (key l' bs').2 hbs', ?_⟩
  rw [hbs'] at hperm
  have h2 := hperm.filterMap Except.toOption
  have e : ∀ cs : List β, (cs.map (Except.ok (ε := PyErr))).filterMap Except.toOption = cs := by
    intro cs
    induction cs with
    | nil => rfl
    | cons c cs ih => rw [List.map_cons, List.filterMap_cons]; exact congrArg _ ih
  rw [e, e] at h2
  exact h2.symm

theorem polygonsFromFeatures_cons (a : Feature K) (as : List (Feature K)) :
    polygonsFromFeatures (a :: as) = (polygonFromFeature a).bind fun b => (polygonsFromFeatures as).map (b :: ·) := by
  rw [polygonsFromFeatures]
  cases polygonFromFeature a with
  | error e => rfl
  | ok b => cases polygonsFromFeatures as <;> rfl

theorem validateSections_cons (a : Polygon K) (as : List (Polygon K)) :
    validateSections (a :: as) = (validateSection a).bind fun b => (validateSections as).map (b :: ·) := by
  rw [validateSections]
  cases validateSection a with
  | error e => rfl
  | ok b => cases validateSections as <;> rfl

theorem setPolygons_perm {ps ps' : List (Polygon K)} (hp : ps.Perm ps') (qs : List (Polygon K)) (h : setPolygons ps = .ok qs) :
    qs = ps ∧ setPolygons ps' = .ok ps' := by
  have hn : (polygonNames ps).Perm (polygonNames ps') := hp.map _
  unfold setPolygons at h ⊢
  split at h
  · rename_i h1
    split at h
    · cases h
    · rename_i h2
      refine ⟨(Except.ok.inj h).symm, ?_⟩
      rw [if_pos, if_neg]
      · rw [← hn.length_eq, ← hn.dedup.length_eq]
        exact h2
      · rw [List.all_eq_true] at h1 ⊢
        exact fun x hx => h1 x (hn.mem_iff.2 hx)
  · cases h

theorem readPolygons_perm (d : ProjectFiles K) (polygons : Text → Option (PolygonFile K)) (path : Text)
    (hf : SameFeatures (d.polygons path) (polygons path)) (ps : List (Polygon K)) (h : readPolygons d path = .ok ps) :
    ∃ ps', readPolygons { d with polygons := polygons } path = .ok ps' ∧ ps.Perm ps' := by
  unfold readPolygons at h ⊢
  cases he : validateExtension path with
  | error e => rw [he] at h; cases h
  | ok _ =>
    rw [he] at h
    simp only at h ⊢
    cases hd : d.polygons path with
    | none => rw [hd] at h; cases h
    | some f =>
      rw [hd] at h hf
      cases f with
      | damaged => cases h
      | features l =>
        cases hq : polygons path with
        | none => rw [hq] at hf; exact hf.elim
        | some f' =>
          rw [hq] at hf
          cases f' with
          | damaged => exact hf.elim
          | features l' =>
            have hp : l.Perm l' := hf
            simp only at h ⊢
            unfold polygonsFromFile at h ⊢
            split at h
            · cases h
            · rename_i hne
              rw [if_neg (fun e => hne (by rw [e] at hp; exact hp.eq_nil))]
              cases hl : polygonsFromFeatures l with
              | error e => rw [hl] at h; cases h
              | ok qs =>
                rw [hl] at h
                obtain ⟨qs', h1, h2⟩ := loop_perm polygonFromFeature polygonsFromFeatures rfl polygonsFromFeatures_cons hp qs hl
                obtain ⟨rfl, h4⟩ := setPolygons_perm h2 ps h
                rw [h1]
                exact ⟨qs', h4, h2⟩

theorem readSections_perm (d : ProjectFiles K) (polygons : Text → Option (PolygonFile K)) (path : Text)
    (hf : SameFeatures (d.polygons path) (polygons path)) (ps : List (Polygon K)) (h : readSections d path = .ok ps) :
    ∃ ps', readSections { d with polygons := polygons } path = .ok ps' ∧ ps.Perm ps' := by
  unfold readSections at h ⊢
  cases hr : readPolygons d path with
  | error e => rw [hr] at h; cases h
  | ok qs =>
    rw [hr] at h
    obtain ⟨qs', h1, h2⟩ := readPolygons_perm d polygons path hf qs hr
    rw [h1]
    exact loop_perm validateSection validateSections rfl validateSections_cons h2 ps h

theorem sameCover_perm (inside : Ring K → Pt K → Bool) (property : String) {ps ps' : List (Polygon K)} (hp : ps.Perm ps')
    (pts : List (Pt K)) : SameCover inside property ps ps' pts := by
  intro p _ l
  constructor
  · rintro ⟨q, hq, h⟩
    exact ⟨q, hp.mem_iff.2 hq, h⟩
  · rintro ⟨q, hq, h⟩
    exact ⟨q, hp.mem_iff.1 hq, h⟩

theorem sameFeatures_symm (a b : Option (PolygonFile K)) (h : SameFeatures a b) : SameFeatures b a := by
  rcases a with _ | (_ | l) <;> rcases b with _ | (_ | l') <;> first | exact h | exact List.Perm.symm h

end Fm2prof.CoverageProof

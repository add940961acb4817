import Verif.Proofs.Reorder
import Verif.Proofs.RunSim
import Verif.Proofs.Pipeline
import Verif.Proofs.Classify
import Verif.Spec.InvarianceRun

/-!
# Whole runs on the same river described in another way: proofs
-/

set_option linter.unusedSectionVars false

namespace Fm2prof

open Spec

variable {K : Type} [Field K] [LinearOrder K] [IsStrictOrderedRing K]

/-! ## What is written does not depend on the points of the cross-sections -/

/-- A cross-section without its points. -/
def erasePoints (c : Finished K) : Finished K := { c with points := ⟨[], [], [], [], [], [], [], [], [], []⟩ }

theorem erase_of_core {a : Except PyErr (Finished K)} {b : Except PyErr (Finished K)}
    (h : a.map (fun f => (f.out, f.css)) = b.map (fun f => (f.out, f.css))) : a.map erasePoints = b.map erasePoints := by
  cases a <;> cases b
  · exact congrArg Except.error (Except.error.inj h)
  · cases h
  · cases h
  · have := Except.ok.inj h
    rw [Prod.mk.injEq] at this
    exact congrArg Except.ok (by unfold erasePoints; rw [this.1, this.2])

variable [FloorRing K]

theorem volumesText_erase (ft : FloatText K) (cs : List (Finished K)) : volumesText ft (cs.map erasePoints) = volumesText ft cs := by
  have hl : ∀ (l : List (Finished K × Nat)), linesUntil (volumesLine ft) (l.map fun p => (erasePoints p.1, p.2))
      = linesUntil (volumesLine ft) l := by
    intro l
    induction l with
    | nil => rfl
    | cons a as ih => rw [List.map_cons, linesUntil, linesUntil, ih]; rfl
  have hf : (cs.map erasePoints).flatMap (fun c => (List.range c.css.raw.z.length).map fun i => (c, i))
      = (cs.flatMap fun c => (List.range c.css.raw.z.length).map fun i => (c, i)).map fun p => (erasePoints p.1, p.2) := by
    rw [List.map_flatMap, List.flatMap_map]
    simp only [List.map_map]
    rfl
  unfold volumesText
  rw [hf, hl]

theorem outs_erase (cs : List (Finished K)) : (cs.map erasePoints).map (·.out) = cs.map (·.out) := by
  rw [List.map_map]; rfl

theorem writeOutput_erase (x : Tools K) (w : WriteFaults) (d : Bool) (cs : List (Finished K)) (s : Store) :
    writeOutput w (exporterOf x) d (cs.map erasePoints) s = writeOutput w (exporterOf x) d cs s := by
  have h1 : dimrBlock (exporterOf x) (cs.map erasePoints) = dimrBlock (exporterOf x) cs := by
    unfold dimrBlock exporterOf roughnessStep
    simp only [outs_erase, List.flatMap_map]
    rfl
  have h2 : sobekBlock' (exporterOf x) (cs.map erasePoints) = sobekBlock' (exporterOf x) cs := by
    unfold sobekBlock' exporterOf
    simp only [outs_erase]
  have h3 : otherBlock (exporterOf x) (cs.map erasePoints) = otherBlock (exporterOf x) cs := by
    unfold otherBlock exporterOf
    simp only [outs_erase, volumesText_erase]
  unfold writeOutput
  rw [h1, h2, h3, List.isEmpty_map]

theorem harmoniseCss_erase (cs : List (Finished K)) : harmoniseCss (cs.map erasePoints) = (harmoniseCss cs).map erasePoints := by
  unfold harmoniseCss
  rw [List.map_map, List.map_zipWith, List.zipWith_map_left]
  rfl

/-! ## The labels of points in another order -/

theorem zipWith_self_map {α β γ : Type} (f : α → β → γ) (g : α → β) (l : List α) :
    List.zipWith f l (l.map g) = l.map fun a => f a (g a) := by
  induction l with
  | nil => rfl
  | cons a as ih => rw [List.map_cons, List.zipWith_cons_cons, ih, List.map_cons]

section
variable {ι : Type} [DecidableEq ι]

theorem classifyWithoutRegions_perm (nn : NearestPicker K) (css : List (Station ι K)) (d : ι)
    {faces faces' edges edges' : List (GridPoint ι K)} (hf : faces.Perm faces') (he : edges.Perm edges') :
    (∃ e, classifyWithoutRegions nn css faces edges = .error e ∧ classifyWithoutRegions nn css faces' edges' = .error e) ∨
    ∃ gf ge, classifyWithoutRegions nn css faces edges = .ok (faces.map gf, edges.map ge) ∧
      classifyWithoutRegions nn css faces' edges' = .ok (faces'.map gf, edges'.map ge) := by
  have hbad : ∀ pts : List (GridPoint ι K), (css = [] ∨ pts = []) → predict nn css pts = .error .valueError := by
    intro pts h; unfold predict; rw [if_pos h]
  have hnil : ∀ {a b : List (GridPoint ι K)}, a.Perm b → a = [] → b = [] := by
    intro a b h e; subst e; exact List.nil_perm.1 h
  unfold classifyWithoutRegions
  by_cases h1 : css = [] ∨ faces = []
  · left
    rw [hbad faces h1, hbad faces' (h1.imp id (hnil hf))]
    exact ⟨_, rfl, rfl⟩
  · have h1' : ¬ (css = [] ∨ faces' = []) := fun h => h1 (h.imp id (hnil hf.symm))
    push Not at h1 h1'
    rw [predict_eq nn css faces h1.1 h1.2 d, predict_eq nn css faces' h1'.1 h1'.2 d]
    by_cases h2 : edges = []
    · left
      rw [hbad edges (.inr h2), hbad edges' (.inr (hnil he h2))]
      exact ⟨_, rfl, rfl⟩
    · have h2' : edges' ≠ [] := fun h => h2 (hnil he.symm h)
      rw [predict_eq nn css edges h1.1 h2 d, predict_eq nn css edges' h1'.1 h2' d]
      exact .inr ⟨_, _, rfl, rfl⟩

theorem classifyWithRegions_perm (nn : NearestPicker K) (trunc : ι → ι) (blank : ι) (css : List (Station ι K))
    {faces faces' edges edges' : List (GridPoint ι K)} (hf : faces.Perm faces') (he : edges.Perm edges') :
    (∃ e, classifyWithRegions nn trunc blank css faces edges = .error e ∧
      classifyWithRegions nn trunc blank css faces' edges' = .error e) ∨
    ∃ gf ge, classifyWithRegions nn trunc blank css faces edges = .ok (faces.map gf, edges.map ge) ∧
      classifyWithRegions nn trunc blank css faces' edges' = .ok (faces'.map gf, edges'.map ge) := by
  have hmem : ∀ r, r ∈ pdUnique (faces.map (·.region)) ↔ r ∈ pdUnique (faces'.map (·.region)) := by
    intro r
    rw [mem_pdUnique, mem_pdUnique]
    exact (hf.map _).mem_iff
  have hnil : ∀ {a b : List (GridPoint ι K)} (r : ι), a.Perm b →
      (a.filter (fun p => p.region = r) = [] ↔ b.filter (fun p => p.region = r) = []) := by
    intro a b r h
    have h := h.filter fun p : GridPoint ι K => decide (p.region = r)
    constructor
    · intro e; rw [e] at h; exact List.nil_perm.1 h
    · intro e; rw [e] at h; exact List.perm_nil.1 h
  unfold classifyWithRegions
  by_cases hok : ∀ r ∈ pdUnique (faces.map (·.region)), inRegion css r = [] ∨
      (faces.filter (fun p => p.region = r) ≠ [] ∧ edges.filter (fun p => p.region = r) ≠ [])
  · right
    have hok' : ∀ r ∈ pdUnique (faces'.map (·.region)), inRegion css r = [] ∨
        (faces'.filter (fun p => p.region = r) ≠ [] ∧ edges'.filter (fun p => p.region = r) ≠ []) := by
      intro r hr
      refine (hok r ((hmem r).2 hr)).imp id fun h => ⟨fun e => h.1 ((hnil r hf).2 e), fun e => h.2 ((hnil r he).2 e)⟩
    rw [classifyRegions_eq nn trunc css faces edges _ (nodup_pdUnique _) _ _ (by simp) (by simp) hok,
      classifyRegions_eq nn trunc css faces' edges' _ (nodup_pdUnique _) _ _ (by simp) (by simp) hok',
      zipWith_self_map, zipWith_self_map, zipWith_self_map, zipWith_self_map]
    refine ⟨_, _, rfl, ?_⟩
    congr 2
    · apply List.map_congr_left
      intro p _
      unfold faceLabel
      simp only [hmem]
    · apply List.map_congr_left
      intro p _
      unfold edgeLabel
      simp only [hmem]
  · left
    push Not at hok
    obtain ⟨r, hr, h1, h2⟩ := hok
    have hbad : faces.filter (fun p => p.region = r) = [] ∨ edges.filter (fun p => p.region = r) = [] := by
      by_cases h' : faces.filter (fun p => p.region = r) = []
      · exact .inl h'
      · exact .inr (h2 h')
    refine ⟨.valueError, classifyRegions_error nn trunc css faces edges _ _ _ (by simp) (by simp) r hr h1 hbad,
      classifyRegions_error nn trunc css faces' edges' _ _ _ (by simp) (by simp) r ((hmem r).1 hr) h1 ?_⟩
    exact hbad.imp (hnil r hf).1 (hnil r he).1

end

/-! ## Sections of points in another order -/

theorem min?_perm {l l' : List K} (h : l.Perm l') : l.min? = l'.min? := by
  cases hm : l.min? with
  | none =>
    rw [List.min?_eq_none_iff] at hm
    subst hm
    rw [List.nil_perm.1 h]; rfl
  | some a =>
    symm
    rw [List.min?_eq_some_iff] at hm ⊢
    exact ⟨h.mem_iff.1 hm.1, fun b hb => hm.2 b (h.mem_iff.2 hb)⟩

theorem max?_perm {l l' : List K} (h : l.Perm l') : l.max? = l'.max? := by
  cases hm : l.max? with
  | none =>
    rw [List.max?_eq_none_iff] at hm
    subst hm
    rw [List.nil_perm.1 h]; rfl
  | some a =>
    symm
    rw [List.max?_eq_some_iff] at hm ⊢
    exact ⟨h.mem_iff.1 hm.1, fun b hb => hm.2 b (h.mem_iff.2 hb)⟩

theorem npVar_perm {l l' : List K} (h : l.Perm l') : npVar l = npVar l' := by
  unfold npVar
  rw [h.sum_eq, h.length_eq, (h.map _).sum_eq]

theorem splitVariance_perm {l l' : List K} (h : l.Perm l') (s : K) : splitVariance l s = splitVariance l' s := by
  unfold splitVariance
  rw [npVar_perm (h.filter _), npVar_perm (h.filter fun v => decide (v ≤ s))]

theorem classifySections_perm {l l' : List K} (h : l.Perm l') :
    (∃ e, classifySections l = .error e ∧ classifySections l' = .error e) ∨
    ∃ g : K → Nat, classifySections l = .ok (l.map g) ∧ classifySections l' = .ok (l'.map g) := by
  unfold classifySections
  rw [← min?_perm h, ← max?_perm h]
  have hv : splitVariance l' = splitVariance l := by funext s; exact (splitVariance_perm h s).symm
  rw [hv]
  cases l.min? with
  | none => exact .inl ⟨_, rfl, rfl⟩
  | some lo =>
    cases l.max? with
    | none => exact .inl ⟨_, rfl, rfl⟩
    | some hi =>
      simp only
      split
      · exact .inr ⟨_, rfl, rfl⟩
      · cases argminFirst ((splitCandidates lo hi).map (splitVariance l)) with
        | none => exact .inl ⟨_, rfl, rfl⟩
        | some k =>
          simp only
          cases (splitCandidates lo hi)[k]? with
          | none => exact .inl ⟨_, rfl, rfl⟩
          | some split => exact .inr ⟨_, rfl, rfl⟩

theorem allSome_values {α : Type} (k : α → Option K) (l : List α) :
    (allSome (l.map k) = none ∧ ∃ a ∈ l, k a = none) ∨ (allSome (l.map k) = some (l.map fun a => (k a).getD 0) ∧ ∀ a ∈ l, k a ≠ none) := by
  induction l with
  | nil => exact .inr ⟨rfl, fun a ha => (by cases ha)⟩
  | cons a as ih =>
    rw [List.map_cons]
    cases hk : k a with
    | none => exact .inl ⟨rfl, a, List.mem_cons_self, hk⟩
    | some y =>
      rcases ih with ⟨h1, b, hb, hb'⟩ | ⟨h1, h2⟩
      · exact .inl ⟨by rw [allSome, h1]; rfl, b, List.mem_cons_of_mem _ hb, hb'⟩
      · refine .inr ⟨by rw [allSome, h1, List.map_cons, hk]; rfl, fun b hb => ?_⟩
        rcases List.mem_cons.1 hb with rfl | hb
        · rw [hk]; exact nofun
        · exact h2 b hb

theorem sectionsByVariance_perm {α : Type} (series : α → List (Option K)) {l l' : List α} (h : l.Perm l') :
    (∃ e, sectionsByVariance (l.map series) = .error e ∧ sectionsByVariance (l'.map series) = .error e) ∨
    ∃ g : α → Nat, sectionsByVariance (l.map series) = .ok (l.map g) ∧ sectionsByVariance (l'.map series) = .ok (l'.map g) := by
  unfold sectionsByVariance
  rw [List.map_map, List.map_map]
  rcases allSome_values ((fun r : List (Option K) => r.getLast?.join) ∘ series) l with ⟨h1, a, ha, hka⟩ | ⟨h1, hall⟩
  · left
    rcases allSome_values ((fun r : List (Option K) => r.getLast?.join) ∘ series) l' with ⟨h2, _⟩ | ⟨_, h2⟩
    · rw [h1, h2]; exact ⟨_, rfl, rfl⟩
    · exact absurd hka (h2 a (h.mem_iff.1 ha))
  · rcases allSome_values ((fun r : List (Option K) => r.getLast?.join) ∘ series) l' with ⟨_, b, hb, hkb⟩ | ⟨h2, _⟩
    · exact absurd hkb (hall b (h.mem_iff.2 hb))
    · rw [h1, h2]
      simp only
      rcases classifySections_perm (h.map fun a => (((fun r : List (Option K) => r.getLast?.join) ∘ series) a).getD 0) with
        ⟨e, h3, h4⟩ | ⟨g, h3, h4⟩
      · exact .inl ⟨e, h3, h4⟩
      · rw [List.map_map] at h3 h4
        exact .inr ⟨_, h3, h4⟩

/-! ## The model of a renumbered grid -/

theorem faceRows_filter_length (x : Tools K) (rows : List (FaceRow K)) (e : EdgeData Text K) (name : Text) :
    (getSelection x.sqrt (faceColumns rows) e name).x.length = (rows.filter fun r => decide (r.sclass = name)).length := by
  unfold getSelection faceColumns
  simp only [List.map_map]
  have hp : (fun c : Text => decide (c = name)) ∘ (fun r : FaceRow K => r.sclass) = fun r => decide (r.sclass = name) := rfl
  rw [hp, maskSelect_filter, List.length_map]

theorem rowsOf_length_filter (labels : List Text) (name : Text) :
    (rowsOf labels name).length = (labels.filter fun c => decide (c = name)).length := by
  induction labels using List.reverseRecOn with
  | nil => rfl
  | append_singleton as a ih =>
    unfold rowsOf at ih ⊢
    rw [List.length_append, List.length_singleton, List.range_succ, List.filter_append, List.length_append, List.filter_append,
      List.length_append, ← ih]
    congr 1
    · congr 1
      apply List.filter_congr
      intro i hi
      rw [List.getElem?_append_left (List.mem_range.1 hi)]
    · rw [List.filter_singleton, List.filter_singleton, List.getElem?_append_right (Nat.le_refl _)]
      simp only [Nat.sub_self, List.getElem?_cons_zero, Option.some.injEq]
      cases decide (a = name) <;> rfl

theorem faceRows_rowsOf (rows : List (FaceRow K)) (name : Text) :
    (rowsOf (faceColumns rows).sclass name).length = (rows.filter fun r => decide (r.sclass = name)).length := by
  rw [rowsOf_length_filter]
  show ((rows.map (·.sclass)).filter _).length = _
  rw [List.filter_map, List.length_map]
  rfl

/-- The face with the labels that are given to it. -/
def InFace.labelled (gs gc : InFace K → Text) (withRegions : Bool) (f : InFace K) : FaceRow K :=
  { f.row with sect := gs f, sclass := gc f, region := if withRegions then f.inRegion else f.row.region }

def InEdge.labelled (gs gc : InEdge K → Text) (e : InEdge K) : EdgeRow K := { e.row with sect := gs e, sclass := gc e }

theorem assignCss_perm (nn : NearestPicker K) {faces faces' : List (InFace K)} {edges edges' : List (InEdge K)}
    (hf : faces.Perm faces') (he : edges.Perm edges') (ef ef' : Option (List (Int × Int))) (nMaps : Nat) (css : List (Loc K))
    (regions : Option (List Text)) :
    let m := fun (fs : List (InFace K)) (es : List (InEdge K)) (f : Option (List (Int × Int))) =>
      (⟨faceColumns (fs.map (·.row)), edgeColumns (es.map (·.row)) f, fs.map (·.chezyMean), nMaps⟩ : MapData K)
    let r := fun (fs : List (InFace K)) (es : List (InEdge K)) =>
      regions.map fun r => (⟨fs.map (·.inRegion), es.map (·.inRegion), r⟩ : RegionLabels)
    (∃ e, assignCss nn (m faces edges ef) css (r faces edges) = .error e ∧
      assignCss nn (m faces' edges' ef') css (r faces' edges') = .error e) ∨
    ∃ gf ge, assignCss nn (m faces edges ef) css (r faces edges) = .ok (faces.map gf, edges.map ge) ∧
      assignCss nn (m faces' edges' ef') css (r faces' edges') = .ok (faces'.map gf, edges'.map ge) := by
  have hpts : ∀ {α : Type} (px py : α → K) (g : α → Text) (l : List α),
      gridPoints (l.map px) (l.map py) (l.map g) = l.map fun a => ⟨(px a, py a), g a⟩ := by
    intro α px py g l
    unfold gridPoints
    induction l with
    | nil => rfl
    | cons a as ih => simp only [List.map_cons, List.zip_cons_cons, ih]
  intro m r
  cases regions with
  | none =>
    simp only [m, r, Option.map_none, assignCss, faceColumns, edgeColumns, List.map_map]
    simp only [Function.comp_def, hpts]
    rcases classifyWithoutRegions_perm nn (stationsOf css (css.map fun _ => [])) []
      (hf.map fun a => (⟨(a.row.x, a.row.y), []⟩ : GridPoint Text K)) (he.map fun a => (⟨(a.row.x, a.row.y), []⟩ : GridPoint Text K)) with
      ⟨e, h1, h2⟩ | ⟨gf, ge, h1, h2⟩
    · exact .inl ⟨e, h1, h2⟩
    · rw [List.map_map, List.map_map] at h1 h2
      exact .inr ⟨_, _, h1, h2⟩
  | some rs =>
    simp only [m, r, Option.map_some, assignCss, faceColumns, edgeColumns, List.map_map]
    simp only [Function.comp_def, hpts]
    rcases classifyWithRegions_perm nn (List.take 99) [] (stationsOf css rs)
      (hf.map fun a => (⟨(a.row.x, a.row.y), a.inRegion⟩ : GridPoint Text K)) (he.map fun a => (⟨(a.row.x, a.row.y), a.inRegion⟩ : GridPoint Text K)) with
      ⟨e, h1, h2⟩ | ⟨gf, ge, h1, h2⟩
    · exact .inl ⟨e, h1, h2⟩
    · rw [List.map_map, List.map_map] at h1 h2
      exact .inr ⟨_, _, h1, h2⟩

theorem assignSections_perm {faces faces' : List (InFace K)} {edges edges' : List (InEdge K)}
    (hf : faces.Perm faces') (he : edges.Perm edges') (ef ef' : Option (List (Int × Int))) (nMaps : Nat) (sections : Bool) :
    let m := fun (fs : List (InFace K)) (es : List (InEdge K)) (f : Option (List (Int × Int))) =>
      (⟨faceColumns (fs.map (·.row)), edgeColumns (es.map (·.row)) f, fs.map (·.chezyMean), nMaps⟩ : MapData K)
    let r := fun (fs : List (InFace K)) (es : List (InEdge K)) =>
      if sections then some (⟨fs.map (·.inSection), es.map (·.inSection)⟩ : SectionLabels) else none
    (∃ e, assignSections (m faces edges ef) (r faces edges) = .error e ∧
      assignSections (m faces' edges' ef') (r faces' edges') = .error e) ∨
    ∃ gf ge nb, assignSections (m faces edges ef) (r faces edges) = .ok (faces.map gf, edges.map ge, nb) ∧
      assignSections (m faces' edges' ef') (r faces' edges') = .ok (faces'.map gf, edges'.map ge, nb) := by
  intro m r
  cases sections with
  | true => exact .inr ⟨_, _, _, rfl, rfl⟩
  | false =>
    simp only [m, r, Bool.false_eq_true, if_false, assignSections, edgeColumns, List.map_map]
    rcases sectionsByVariance_perm ((fun r : EdgeRow K => r.chezy) ∘ fun e : InEdge K => e.row) he with ⟨e, h1, h2⟩ | ⟨ge, h1, h2⟩
    · rw [h1, h2]; exact .inl ⟨_, rfl, rfl⟩
    · rw [h1, h2]
      rcases sectionsByVariance_perm (fun f : InFace K => f.chezyMean) hf with ⟨e, h3, h4⟩ | ⟨gf, h3, h4⟩
      · rw [h3, h4]; exact .inl ⟨_, rfl, rfl⟩
      · rw [h3, h4]
        simp only [List.map_map]
        exact .inr ⟨_, _, _, rfl, rfl⟩

theorem readOptional_regions (regions : Option (List Text)) (fs es : List Text) :
    readOptional (regions.map fun r => (.ok ⟨fs, es, r⟩ : Except PyErr RegionLabels)) = .ok (regions.map fun r => ⟨fs, es, r⟩) := by
  cases regions <;> rfl

theorem readOptional_sections (sections : Bool) (fs es : List Text) :
    readOptional (if sections then some (.ok ⟨fs, es⟩ : Except PyErr SectionLabels) else none)
      = .ok (if sections then some ⟨fs, es⟩ else none) := by
  cases sections <;> rfl

/-- The models of the two inputs. -/
theorem setModelData_perm (nn : NearestPicker K) {faces faces' : List (InFace K)} {edges edges' : List (InEdge K)}
    (hf : faces.Perm faces') (he : edges.Perm edges') (ef ef' : Option (List (Int × Int))) (nMaps : Nat) (css : List (Loc K))
    (regions : Option (List Text)) (sections : Bool) :
    (∃ e, setModelData nn (inputsOf faces edges ef nMaps css regions sections) = .error e ∧
      setModelData nn (inputsOf faces' edges' ef' nMaps css regions sections) = .error e) ∨
    ∃ m m', setModelData nn (inputsOf faces edges ef nMaps css regions sections) = .ok m ∧
      setModelData nn (inputsOf faces' edges' ef' nMaps css regions sections) = .ok m' ∧ Renumbered m m' ∧
      m.stations = css ∧ m'.stations = css := by
  unfold setModelData inputsOf
  simp only [readOptional_regions, readOptional_sections]
  rcases assignCss_perm nn hf he ef ef' nMaps css regions with ⟨e, h1, h2⟩ | ⟨cf, ce, h1, h2⟩
  · simp only at h1 h2
    rw [h1, h2]
    exact .inl ⟨e, rfl, rfl⟩
  · simp only at h1 h2
    rw [h1, h2]
    simp only
    rcases assignSections_perm hf he ef ef' nMaps sections with ⟨e, h3, h4⟩ | ⟨sf, se, nb, h3, h4⟩
    · simp only at h3 h4
      rw [h3, h4]
      exact .inl ⟨e, rfl, rfl⟩
    · simp only at h3 h4
      rw [h3, h4]
      refine .inr ⟨_, _, rfl, rfl, ⟨⟨faces.map (InFace.labelled sf cf regions.isSome), faces'.map (InFace.labelled sf cf regions.isSome),
        hf.map _, ?_, ?_⟩, ⟨edges.map (InEdge.labelled se ce), edges'.map (InEdge.labelled se ce), ef, ef', he.map _, ?_, ?_⟩,
        rfl, rfl⟩, rfl, rfl⟩
      · cases regions <;> simp only [faceColumns, InFace.labelled, List.map_map] <;> rfl
      · cases regions <;> simp only [faceColumns, InFace.labelled, List.map_map] <;> rfl
      · simp only [edgeColumns, InEdge.labelled, List.map_map]; rfl
      · simp only [edgeColumns, InEdge.labelled, List.map_map]; rfl

/-- The runs on the two inputs. -/
theorem sameJobs_perm (x : Tools K) (cfg : RunConfig K) (hm : cfg.pipeline.build.conveyanceDetectionMethod ≠ 0) (o : Surroundings)
    {faces faces' : List (InFace K)} {edges edges' : List (InEdge K)}
    (hf : faces.Perm faces') (he : edges.Perm edges') (ef ef' : Option (List (Int × Int))) (nMaps : Nat) (css : List (Loc K))
    (regions : Option (List Text)) (sections : Bool)
    (hone : ClearCentres x.nn (inputsOf faces edges ef nMaps css regions sections)) :
    SameJobs (jobOf x cfg (inputsOf faces edges ef nMaps css regions sections) o)
      (jobOf x cfg (inputsOf faces' edges' ef' nMaps css regions sections) o) id erasePoints erasePoints (fun _ => True) := by
  have hload : ∀ m, (setModelData x.nn (inputsOf faces edges ef nMaps css regions sections)).map
      (fun m => (⟨m.stations, m.nMaps⟩ : Loaded (Loc K))) = .ok m →
      ∃ d d', setModelData x.nn (inputsOf faces edges ef nMaps css regions sections) = .ok d ∧
        setModelData x.nn (inputsOf faces' edges' ef' nMaps css regions sections) = .ok d' ∧ Renumbered d d' ∧
        m.stations = d.stations := by
    intro m h
    rcases setModelData_perm x.nn hf he ef ef' nMaps css regions sections with ⟨e, h1, _⟩ | ⟨d, d', h1, h2, h3, h4, h5⟩
    · rw [h1] at h; cases h
    · rw [h1] at h
      cases h
      exact ⟨d, d', h1, h2, h3, rfl⟩
  constructor
  · rfl
  · rfl
  · rfl
  · rfl
  · rfl
  · rfl
  · rfl
  · show (setModelData x.nn _).map _ = ((setModelData x.nn _).map _).map _
    rcases setModelData_perm x.nn hf he ef ef' nMaps css regions sections with ⟨e, h1, h2⟩ | ⟨d, d', h1, h2, h3, h4, h5⟩
    · rw [h1, h2]; rfl
    · rw [h1, h2]
      simp only [Except.map, h4, h5, h3.nMaps, List.map_id]
  · intro m _ l _; rfl
  · intro m _ l _ _ _; exact storeData_sim _ _ _ _ _ _ rfl rfl rfl
  · intro m h h' l _ _ _; exact jobOf_storeMask _ _ _ _ _ _ _ _ h h' rfl _ _ rfl _ _
  · intro m h l _ _
    obtain ⟨d, d', h1, h2, h3, _⟩ := hload m h
    show (match setModelData x.nn _ with | .error _ => 0 | .ok m => _) = (match setModelData x.nn _ with | .error _ => 0 | .ok m => _)
    rw [h1, h2]
    obtain ⟨rows, rows', hp, e1, e2⟩ := h3.faces
    show (getSelection x.sqrt d'.faces d'.edges l.id).x.length = (getSelection x.sqrt d.faces d.edges l.id).x.length
    rw [e1, e2, faceRows_filter_length, faceRows_filter_length]
    exact (hp.filter _).length_eq.symm
  · intro m h l hl hv hfaces
    obtain ⟨d, d', h1, h2, h3, h4⟩ := hload m h
    have hus : Usable d l := by
      refine ⟨of_decide_eq_true hv, ?_⟩
      have : 10 ≤ (getSelection x.sqrt d.faces d.edges l.id).x.length := by
        have h' : 10 ≤ (match setModelData x.nn (inputsOf faces edges ef nMaps css regions sections) with
          | .error _ => 0
          | .ok m => (getSelection x.sqrt m.faces m.edges l.id).x.length) := hfaces
        rw [h1] at h'
        exact h'
      obtain ⟨rows, rows', hp, e1, e2⟩ := h3.faces
      rw [e1, faceRows_filter_length] at this
      rw [e1, faceRows_rowsOf]
      exact this
    show (match setModelData x.nn _ with | .error e => Except.error e | .ok m => buildCss x cfg m l).map _
      = (match setModelData x.nn _ with | .error e => Except.error e | .ok m => buildCss x cfg m l).map _
    rw [h1, h2]
    exact erase_of_core (buildCss_perm_core x cfg hm d d' l h3 (hone d h1 l (h4 ▸ hl) hus))
  · intro cs cs' h s f _
    show writeOutput o.faults (exporterOf x) o.dirExists (harmoniseCss cs') s f
      = writeOutput o.faults (exporterOf x) o.dirExists (harmoniseCss cs) s f
    rw [← writeOutput_erase, ← harmoniseCss_erase, h, harmoniseCss_erase, writeOutput_erase]

/-! ## Other axes -/

section
variable {ι : Type} [DecidableEq ι]

/-- No two samples with different ids are both nearest. -/
def ClearAt (S : List (Station ι K)) (p : Pt K) : Prop :=
  ∀ a ∈ S, ∀ b ∈ S, (∀ c ∈ S, squaredDistance a.pos p ≤ squaredDistance c.pos p) → squaredDistance b.pos p = squaredDistance a.pos p → b.id = a.id

theorem labelD_moved (nn : NearestPicker K) (S : List (Station ι K)) (hne : S ≠ []) (ts : Station ι K → Station ι K) (p p' : Pt K)
    (hid : ∀ a, (ts a).id = a.id) (hd : ∀ a, squaredDistance (ts a).pos p' = squaredDistance a.pos p) (hc : ClearAt S p) (d : ι) :
    labelD nn (S.map ts) d p' = labelD nn S d p := by
  have h1 := labelD_nearest nn S hne d p
  have h2 := labelD_nearest nn (S.map ts) (by simpa using hne) d p'
  obtain ⟨a, ha, ha1, ha2⟩ := h1
  obtain ⟨b', hb', hb1, hb2⟩ := h2
  obtain ⟨b, hb, rfl⟩ := List.mem_map.1 hb'
  have hba : squaredDistance b.pos p ≤ squaredDistance a.pos p := by
    have := hb2 (ts a) (List.mem_map_of_mem ha)
    rwa [hd, hd] at this
  rw [← ha1, ← hb1, hid]
  exact hc a ha b hb ha2 (le_antisymm hba (ha2 b hb))

theorem inRegion_moved (css : List (Station ι K)) (ts : Station ι K → Station ι K) (hr : ∀ a, (ts a).region = a.region) (r : ι) :
    inRegion (css.map ts) r = (inRegion css r).map ts := by
  unfold inRegion
  rw [List.filter_map]
  congr 1
  apply List.filter_congr
  intro a _
  simp only [Function.comp_apply, hr]

theorem filter_moved (pts : List (GridPoint ι K)) (tp : GridPoint ι K → GridPoint ι K) (hr : ∀ a, (tp a).region = a.region) (r : ι) :
    (pts.map tp).filter (fun p => p.region = r) = [] ↔ pts.filter (fun p => p.region = r) = [] := by
  rw [List.filter_map, List.map_eq_nil_iff]
  have : (fun p : GridPoint ι K => decide (p.region = r)) ∘ tp = fun p => decide (p.region = r) := by
    funext p; simp only [Function.comp_apply, hr]
  rw [this]

theorem classifyWithoutRegions_moved (nn : NearestPicker K) (css : List (Station ι K)) (d : ι)
    (faces edges : List (GridPoint ι K)) (ts : Station ι K → Station ι K) (tp : GridPoint ι K → GridPoint ι K)
    (hid : ∀ a, (ts a).id = a.id) (hd : ∀ a p, squaredDistance (ts a).pos (tp p).pos = squaredDistance a.pos p.pos)
    (hf : ∀ p ∈ faces, ClearAt css p.pos) (he : ∀ p ∈ edges, ClearAt css p.pos) :
    classifyWithoutRegions nn (css.map ts) (faces.map tp) (edges.map tp) = classifyWithoutRegions nn css faces edges := by
  have hp : ∀ pts : List (GridPoint ι K), (∀ p ∈ pts, ClearAt css p.pos) → predict nn (css.map ts) (pts.map tp) = predict nn css pts := by
    intro pts hpts
    by_cases h : css = [] ∨ pts = []
    · unfold predict
      rw [if_pos h, if_pos (by simpa using h)]
    · push Not at h
      rw [predict_eq nn css pts h.1 h.2 d, predict_eq nn (css.map ts) (pts.map tp) (by simpa using h.1) (by simpa using h.2) d,
        List.map_map]
      congr 1
      apply List.map_congr_left
      intro p hp
      exact labelD_moved nn css h.1 ts p.pos (tp p).pos hid (fun a => hd a p) (hpts p hp) d
  unfold classifyWithoutRegions
  rw [hp faces hf, hp edges he]

theorem classifyWithRegions_moved (nn : NearestPicker K) (trunc : ι → ι) (blank : ι) (css : List (Station ι K))
    (faces edges : List (GridPoint ι K)) (ts : Station ι K → Station ι K) (tp : GridPoint ι K → GridPoint ι K)
    (hid : ∀ a, (ts a).id = a.id) (hsr : ∀ a, (ts a).region = a.region) (hpr : ∀ p, (tp p).region = p.region)
    (hd : ∀ a p, squaredDistance (ts a).pos (tp p).pos = squaredDistance a.pos p.pos)
    (hf : ∀ p ∈ faces, ClearAt (inRegion css p.region) p.pos) (he : ∀ p ∈ edges, ClearAt (inRegion css p.region) p.pos) :
    classifyWithRegions nn trunc blank (css.map ts) (faces.map tp) (edges.map tp)
      = classifyWithRegions nn trunc blank css faces edges := by
  have hnil : ∀ r, inRegion (css.map ts) r = [] ↔ inRegion css r = [] := by
    intro r; rw [inRegion_moved css ts hsr, List.map_eq_nil_iff]
  have hregs : (faces.map tp).map (·.region) = faces.map (·.region) := by
    rw [List.map_map]; exact List.map_congr_left fun p _ => hpr p
  have hblank : (edges.map tp).map (fun _ => blank) = edges.map fun _ => blank := by rw [List.map_map]; rfl
  unfold classifyWithRegions
  rw [hregs, hblank]
  by_cases hok : ∀ r ∈ pdUnique (faces.map (·.region)), inRegion css r = [] ∨
      (faces.filter (fun p => p.region = r) ≠ [] ∧ edges.filter (fun p => p.region = r) ≠ [])
  · have hok' : ∀ r ∈ pdUnique (faces.map (·.region)), inRegion (css.map ts) r = [] ∨
        ((faces.map tp).filter (fun p => p.region = r) ≠ [] ∧ (edges.map tp).filter (fun p => p.region = r) ≠ []) := by
      intro r hr
      exact (hok r hr).imp (hnil r).2 fun h => ⟨fun e => h.1 ((filter_moved faces tp hpr r).1 e),
        fun e => h.2 ((filter_moved edges tp hpr r).1 e)⟩
    rw [classifyRegions_eq nn trunc css faces edges _ (nodup_pdUnique _) _ _ (by simp) (by simp) hok,
      classifyRegions_eq nn trunc (css.map ts) (faces.map tp) (edges.map tp) _ (nodup_pdUnique _) _ _ (by simp) (by simp) hok',
      List.zipWith_map_left, List.zipWith_map_left, zipWith_self_map, zipWith_self_map, zipWith_self_map, zipWith_self_map]
    congr 2
    · apply List.map_congr_left
      intro p hp
      unfold faceLabel
      rw [hpr]
      by_cases h : p.region ∈ pdUnique (faces.map (·.region)) ∧ inRegion css p.region ≠ []
      · rw [if_pos h, if_pos ⟨h.1, fun e => h.2 ((hnil _).1 e)⟩, inRegion_moved css ts hsr]
        exact labelD_moved nn _ h.2 ts p.pos (tp p).pos hid (fun a => hd a p) (hf p hp) _
      · rw [if_neg h, if_neg fun h' => h ⟨h'.1, fun e => h'.2 ((hnil _).2 e)⟩]
    · apply List.map_congr_left
      intro p hp
      unfold edgeLabel
      rw [hpr]
      by_cases h : p.region ∈ pdUnique (faces.map (·.region)) ∧ inRegion css p.region ≠ []
      · rw [if_pos h, if_pos ⟨h.1, fun e => h.2 ((hnil _).1 e)⟩, inRegion_moved css ts hsr,
          labelD_moved nn _ h.2 ts p.pos (tp p).pos hid (fun a => hd a p) (he p hp) _]
      · rw [if_neg h, if_neg fun h' => h ⟨h'.1, fun e => h'.2 ((hnil _).2 e)⟩]
  · push Not at hok
    obtain ⟨r, hr, h1, h2⟩ := hok
    have hbad : faces.filter (fun p => p.region = r) = [] ∨ edges.filter (fun p => p.region = r) = [] := by
      by_cases h' : faces.filter (fun p => p.region = r) = []
      · exact .inl h'
      · exact .inr (h2 h')
    rw [classifyRegions_error nn trunc css faces edges _ _ _ (by simp) (by simp) r hr h1 hbad,
      classifyRegions_error nn trunc (css.map ts) (faces.map tp) (edges.map tp) _ _ _ (by simp) (by simp) r hr
        (fun e => h1 ((hnil r).1 e)) (hbad.imp (filter_moved faces tp hpr r).2 (filter_moved edges tp hpr r).2)]

end

/-- The map file of the faces and edges. -/
def mapOf (faces : List (InFace K)) (edges : List (InEdge K)) (ef : Option (List (Int × Int))) (nMaps : Nat) : MapData K :=
  ⟨faceColumns (faces.map (·.row)), edgeColumns (edges.map (·.row)) ef, faces.map (·.chezyMean), nMaps⟩

def regionsOf (faces : List (InFace K)) (edges : List (InEdge K)) (regions : Option (List Text)) : Option RegionLabels :=
  regions.map fun r => ⟨faces.map (·.inRegion), edges.map (·.inRegion), r⟩

def sectionsOf (faces : List (InFace K)) (edges : List (InEdge K)) (sections : Bool) : Option SectionLabels :=
  if sections then some ⟨faces.map (·.inSection), edges.map (·.inSection)⟩ else none

theorem gridPoints_rows {α : Type} (px py : α → K) (g : α → Text) (l : List α) :
    gridPoints (l.map px) (l.map py) (l.map g) = l.map fun a => ⟨(px a, py a), g a⟩ := by
  unfold gridPoints
  induction l with
  | nil => rfl
  | cons a as ih => simp only [List.map_cons, List.zip_cons_cons, ih]

theorem clearAt_of (css : List (Loc K)) (S : List (Station Text K)) (px py : K)
    (h1 : ∀ a ∈ S, ∃ l ∈ css, a.id = l.id ∧ a.pos = (l.x, l.y)) (h2 : ∀ l ∈ css, ∃ a ∈ S, a.pos = (l.x, l.y))
    (hc : OneNearestCss css px py) : ClearAt S (px, py) := by
  intro a ha b hb hmin heq
  obtain ⟨la, hla, hida, hpa⟩ := h1 a ha
  obtain ⟨lb, hlb, hidb, hpb⟩ := h1 b hb
  rw [hida, hidb]
  rw [hpa, hpb] at heq
  refine hc la hla lb hlb (fun c hcm => ?_) heq
  obtain ⟨cs, hcs, hpc⟩ := h2 c hcm
  have := hmin cs hcs
  rw [hpa, hpc] at this
  exact this

theorem assignCss_turn (nn : NearestPicker K) (c s p q : K) (hcs : c ^ 2 + s ^ 2 = 1) (faces : List (InFace K))
    (edges : List (InEdge K)) (ef ef' : Option (List (Int × Int))) (nMaps : Nat) (css : List (Loc K)) (regions : Option (List Text))
    (hclear : ClearCss faces edges css regions) :
    assignCss nn (mapOf (faces.map (InFace.turn c s p q)) (edges.map (InEdge.turn c s p q)) ef' nMaps) (css.map (Loc.turn c s p q))
        (regionsOf (faces.map (InFace.turn c s p q)) (edges.map (InEdge.turn c s p q)) regions)
      = assignCss nn (mapOf faces edges ef nMaps) css (regionsOf faces edges regions) := by
  let ts : Station Text K → Station Text K := fun a =>
    { a with pos := (c * a.pos.1 - s * a.pos.2 + p, s * a.pos.1 + c * a.pos.2 + q) }
  let tp : GridPoint Text K → GridPoint Text K := fun a =>
    { a with pos := (c * a.pos.1 - s * a.pos.2 + p, s * a.pos.1 + c * a.pos.2 + q) }
  have hd : ∀ a b, squaredDistance (ts a).pos (tp b).pos = squaredDistance a.pos b.pos := by
    intro a b
    simp only [ts, tp, squaredDistance]
    linear_combination ((a.pos.1 - b.pos.1) ^ 2 + (a.pos.2 - b.pos.2) ^ 2) * hcs
  have hst : ∀ rs : List Text, stationsOf (css.map (Loc.turn c s p q)) rs = (stationsOf css rs).map ts := by
    intro rs
    unfold stationsOf
    rw [List.zip_map_left, List.map_map, List.map_map]
    rfl
  obtain ⟨hcf, hce⟩ := hclear
  cases regions with
  | none =>
    simp only [mapOf, regionsOf, Option.map_none, assignCss, faceColumns, edgeColumns, List.map_map]
    simp only [Function.comp_def, gridPoints_rows, hst]
    have e1 : faces.map (fun a => (⟨((InFace.turn c s p q a).row.x, (InFace.turn c s p q a).row.y), []⟩ : GridPoint Text K))
        = (faces.map fun a => ⟨(a.row.x, a.row.y), []⟩).map tp := by rw [List.map_map]; rfl
    have e2 : edges.map (fun a => (⟨((InEdge.turn c s p q a).row.x, (InEdge.turn c s p q a).row.y), []⟩ : GridPoint Text K))
        = (edges.map fun a => ⟨(a.row.x, a.row.y), []⟩).map tp := by rw [List.map_map]; rfl
    rw [e1, e2]
    have h1 : ∀ a ∈ stationsOf css (css.map fun _ => []), ∃ l ∈ css, a.id = l.id ∧ a.pos = (l.x, l.y) := by
      intro a ha
      obtain ⟨⟨l, r⟩, hz, rfl⟩ := List.mem_map.1 ha
      exact ⟨l, (List.of_mem_zip hz).1, rfl, rfl⟩
    have h2 : ∀ l ∈ css, ∃ a ∈ stationsOf css (css.map fun _ => []), a.pos = (l.x, l.y) := by
      intro l hl
      refine ⟨⟨l.id, (l.x, l.y), []⟩, List.mem_map.2 ⟨(l, []), ?_, rfl⟩, rfl⟩
      have : css.zip (css.map fun _ => ([] : Text)) = css.map fun l => (l, []) := zipWith_self_map Prod.mk (fun _ => []) css
      rw [this]
      exact List.mem_map.2 ⟨l, hl, rfl⟩
    refine classifyWithoutRegions_moved nn _ [] _ _ ts tp (fun _ => rfl) hd ?_ ?_
    · intro a ha
      obtain ⟨f, hf, rfl⟩ := List.mem_map.1 ha
      exact clearAt_of css _ _ _ h1 h2 (hcf f hf)
    · intro a ha
      obtain ⟨f, hf, rfl⟩ := List.mem_map.1 ha
      exact clearAt_of css _ _ _ h1 h2 (hce f hf)
  | some rs =>
    simp only [mapOf, regionsOf, Option.map_some, assignCss, faceColumns, edgeColumns, List.map_map]
    simp only [Function.comp_def, gridPoints_rows, hst]
    have e1 : faces.map (fun a => (⟨((InFace.turn c s p q a).row.x, (InFace.turn c s p q a).row.y),
          (InFace.turn c s p q a).inRegion⟩ : GridPoint Text K))
        = (faces.map fun a => ⟨(a.row.x, a.row.y), a.inRegion⟩).map tp := by rw [List.map_map]; rfl
    have e2 : edges.map (fun a => (⟨((InEdge.turn c s p q a).row.x, (InEdge.turn c s p q a).row.y),
          (InEdge.turn c s p q a).inRegion⟩ : GridPoint Text K))
        = (edges.map fun a => ⟨(a.row.x, a.row.y), a.inRegion⟩).map tp := by rw [List.map_map]; rfl
    rw [e1, e2]
    have h1 : ∀ r, ∀ a ∈ inRegion (stationsOf css rs) r, ∃ l ∈ cssIn css (some rs) r, a.id = l.id ∧ a.pos = (l.x, l.y) := by
      intro r a ha
      obtain ⟨ha, har⟩ := List.mem_filter.1 ha
      obtain ⟨⟨l, r'⟩, hz, rfl⟩ := List.mem_map.1 ha
      exact ⟨l, List.mem_map.2 ⟨(l, r'), List.mem_filter.2 ⟨hz, har⟩, rfl⟩, rfl, rfl⟩
    have h2 : ∀ r, ∀ l ∈ cssIn css (some rs) r, ∃ a ∈ inRegion (stationsOf css rs) r, a.pos = (l.x, l.y) := by
      intro r l hl
      obtain ⟨⟨l', r'⟩, hz, rfl⟩ := List.mem_map.1 hl
      obtain ⟨hz, hr⟩ := List.mem_filter.1 hz
      exact ⟨⟨l'.id, (l'.x, l'.y), r'⟩, List.mem_filter.2 ⟨List.mem_map.2 ⟨(l', r'), hz, rfl⟩, hr⟩, rfl⟩
    refine classifyWithRegions_moved nn _ _ _ _ _ ts tp (fun _ => rfl) (fun _ => rfl) (fun _ => rfl) hd ?_ ?_
    · intro a ha
      obtain ⟨f, hf, rfl⟩ := List.mem_map.1 ha
      exact clearAt_of _ _ _ _ (h1 _) (h2 _) (hcf f hf)
    · intro a ha
      obtain ⟨f, hf, rfl⟩ := List.mem_map.1 ha
      exact clearAt_of _ _ _ _ (h1 _) (h2 _) (hce f hf)

/-- The models of the two inputs. -/
theorem setModelData_turn (nn : NearestPicker K) (c s p q : K) (hcs : c ^ 2 + s ^ 2 = 1) (faces : List (InFace K))
    (edges : List (InEdge K)) (ef ef' : Option (List (Int × Int))) (nMaps : Nat) (css : List (Loc K)) (regions : Option (List Text))
    (sections : Bool) (hclear : ClearCss faces edges css regions) :
    (∃ e, setModelData nn (inputsOf faces edges ef nMaps css regions sections) = .error e ∧
      setModelData nn (inputsOf (faces.map (InFace.turn c s p q)) (edges.map (InEdge.turn c s p q)) ef' nMaps
        (css.map (Loc.turn c s p q)) regions sections) = .error e) ∨
    ∃ m m' rows er, setModelData nn (inputsOf faces edges ef nMaps css regions sections) = .ok m ∧
      setModelData nn (inputsOf (faces.map (InFace.turn c s p q)) (edges.map (InEdge.turn c s p q)) ef' nMaps
        (css.map (Loc.turn c s p q)) regions sections) = .ok m' ∧
      m.faces = faceColumns rows ∧ m'.faces = faceColumns (rows.map (FaceRow.turn c s p q)) ∧
      m.edges = edgeColumns er ef ∧
      m'.edges = edgeColumns (er.map fun e => { e with x := c * e.x - s * e.y + p, y := s * e.x + c * e.y + q }) ef' ∧
      m'.nMaps = m.nMaps ∧ m'.numbered = m.numbered ∧
      m.stations = css ∧ m'.stations = css.map (Loc.turn c s p q) := by
  have hT := assignCss_turn nn c s p q hcs faces edges ef ef' nMaps css regions hclear
  have hsect : assignSections (mapOf (faces.map (InFace.turn c s p q)) (edges.map (InEdge.turn c s p q)) ef' nMaps)
      (sectionsOf (faces.map (InFace.turn c s p q)) (edges.map (InEdge.turn c s p q)) sections)
      = assignSections (mapOf faces edges ef nMaps) (sectionsOf faces edges sections) := by
    have e1 : (faces.map (InFace.turn c s p q)).map (·.inSection) = faces.map (·.inSection) := by rw [List.map_map]; rfl
    have e2 : (edges.map (InEdge.turn c s p q)).map (·.inSection) = edges.map (·.inSection) := by rw [List.map_map]; rfl
    have e3 : ((edges.map (InEdge.turn c s p q)).map (·.row)).map (·.chezy) = (edges.map (·.row)).map (·.chezy) := by
      rw [List.map_map, List.map_map, List.map_map]; rfl
    have e4 : (faces.map (InFace.turn c s p q)).map (·.chezyMean) = faces.map (·.chezyMean) := by rw [List.map_map]; rfl
    unfold mapOf sectionsOf edgeColumns
    rw [e1, e2, e3, e4]
    cases sections <;> rfl
  unfold setModelData inputsOf
  simp only [readOptional_regions, readOptional_sections]
  unfold mapOf regionsOf at hT
  unfold mapOf sectionsOf at hsect
  rw [hT]
  rcases assignCss_perm nn (List.Perm.refl faces) (List.Perm.refl edges) ef ef nMaps css regions with ⟨e, h1, _⟩ | ⟨cf, ce, h1, _⟩
  · simp only at h1
    rw [h1]
    exact .inl ⟨e, rfl, rfl⟩
  · simp only at h1
    rw [h1]
    simp only
    rw [hsect]
    rcases assignSections_perm (List.Perm.refl faces) (List.Perm.refl edges) ef ef nMaps sections with
      ⟨e, h3, _⟩ | ⟨sf, se, nb, h3, _⟩
    · simp only at h3
      rw [h3]
      exact .inl ⟨e, rfl, rfl⟩
    · simp only at h3
      rw [h3]
      refine .inr ⟨_, _, faces.map (InFace.labelled sf cf regions.isSome), edges.map (InEdge.labelled se ce), rfl, rfl,
        ?_, ?_, ?_, ?_, rfl, rfl, rfl, rfl⟩
      · cases regions <;> simp only [faceColumns, List.map_map] <;> rfl
      · cases regions <;> simp only [faceColumns, List.map_map] <;> rfl
      · simp only [edgeColumns, List.map_map]; rfl
      · simp only [edgeColumns, List.map_map]; rfl

/-- The runs on the two inputs. -/
theorem sameJobs_turn (x : Tools K) (cfg : RunConfig K) (o : Surroundings)
    (c s p q : K) (hcs : c ^ 2 + s ^ 2 = 1) (faces : List (InFace K))
    (edges : List (InEdge K)) (ef ef' : Option (List (Int × Int))) (nMaps : Nat) (css : List (Loc K)) (regions : Option (List Text))
    (sections : Bool) (hclear : ClearCss faces edges css regions)
    (hone : ClearCentres x.nn (inputsOf faces edges ef nMaps css regions sections)) :
    SameJobs (jobOf x cfg (inputsOf faces edges ef nMaps css regions sections) o)
      (jobOf x cfg (inputsOf (faces.map (InFace.turn c s p q)) (edges.map (InEdge.turn c s p q)) ef' nMaps
        (css.map (Loc.turn c s p q)) regions sections) o) (Loc.turn c s p q) erasePoints erasePoints (fun _ => True) := by
  have hset := setModelData_turn x.nn c s p q hcs faces edges ef ef' nMaps css regions sections hclear
  constructor
  · rfl
  · rfl
  · rfl
  · rfl
  · rfl
  · rfl
  · rfl
  · show (setModelData x.nn _).map _ = ((setModelData x.nn _).map _).map _
    rcases hset with ⟨e, h1, h2⟩ | ⟨d, d', rows, er, h1, h2, h3, h4, h5, h6, h7, h8, h9, h10⟩
    · rw [h1, h2]; rfl
    · rw [h1, h2]
      simp only [Except.map, h7, h9, h10]
  · intro m _ l _; rfl
  · intro m _ l _ _ _; exact storeData_sim _ _ _ _ _ _ rfl rfl rfl
  · intro m h h' l _ _ _; exact jobOf_storeMask _ _ _ _ _ _ _ _ h h' rfl l (Loc.turn c s p q l) rfl _ _
  · intro m h l _ _
    show (match setModelData x.nn _ with | .error _ => 0 | .ok m => (getSelection x.sqrt m.faces m.edges l.id).x.length)
      = (match setModelData x.nn _ with | .error _ => 0 | .ok m => (getSelection x.sqrt m.faces m.edges l.id).x.length)
    rcases hset with ⟨e, h1, h2⟩ | ⟨d, d', rows, er, h1, h2, h3, h4, h5, h6, h7, h8, h9, h10⟩
    · rw [h1, h2]
    · rw [h1, h2]
      show (getSelection x.sqrt d'.faces d'.edges l.id).x.length = (getSelection x.sqrt d.faces d.edges l.id).x.length
      rw [h3, h4, faceRows_filter_length, faceRows_filter_length, List.filter_map, List.length_map]
      rfl
  · intro m h l hl hv hfaces
    rcases hset with ⟨e, h1, h2⟩ | ⟨d, d', rows, er, h1, h2, h3, h4, h5, h6, h7, h8, h9, h10⟩
    · have h : (setModelData x.nn (inputsOf faces edges ef nMaps css regions sections)).map
        (fun m => (⟨m.stations, m.nMaps⟩ : Loaded (Loc K))) = .ok m := h
      rw [h1] at h
      cases h
    · have hms : m.stations = d.stations := by
        have h : (setModelData x.nn (inputsOf faces edges ef nMaps css regions sections)).map
          (fun m => (⟨m.stations, m.nMaps⟩ : Loaded (Loc K))) = .ok m := h
        rw [h1] at h
        cases h
        rfl
      have hus : Usable d l := by
        refine ⟨of_decide_eq_true hv, ?_⟩
        have : 10 ≤ (getSelection x.sqrt d.faces d.edges l.id).x.length := by
          have h' : 10 ≤ (match setModelData x.nn (inputsOf faces edges ef nMaps css regions sections) with
            | .error _ => 0
            | .ok m => (getSelection x.sqrt m.faces m.edges l.id).x.length) := hfaces
          rw [h1] at h'
          exact h'
        rw [h3, faceRows_filter_length] at this
        rw [h3, faceRows_rowsOf]
        exact this
      obtain ⟨rows₂, hf₂, r, hr, hrc, hru⟩ := hone d h1 l (hms ▸ hl) hus
      obtain rfl : rows₂ = rows := faceColumns_inj (hf₂.symm.trans h3)
      show (match setModelData x.nn _ with | .error e => Except.error e | .ok m => buildCss x cfg m (Loc.turn c s p q l)).map _
        = (match setModelData x.nn _ with | .error e => Except.error e | .ok m => buildCss x cfg m l).map _
      rw [h1, h2]
      exact erase_of_core (buildCss_turn_core x cfg c s p q hcs d d' l rows₂ er ef ef'
        (fun e => (c * e.x - s * e.y + p, s * e.x + c * e.y + q)) h3 h4 h5 h6 h7 h8 r hr hrc hru)
  · intro cs cs' h s f _
    show writeOutput o.faults (exporterOf x) o.dirExists (harmoniseCss cs') s f
      = writeOutput o.faults (exporterOf x) o.dirExists (harmoniseCss cs) s f
    rw [← writeOutput_erase, ← harmoniseCss_erase, h, harmoniseCss_erase, writeOutput_erase]

end Fm2prof

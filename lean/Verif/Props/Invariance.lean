import Verif.Proofs.Reorder
import Verif.Props.Pipeline

/-!
# Changes of the input that should not matter

C104 to C108: another reference level, another length, another numbering of the faces, faces that are always dry, and other axes.
-/

set_option linter.unusedSectionVars false

namespace Fm2prof.Props

open Spec

variable {K : Type} [Field K] [LinearOrder K] [IsStrictOrderedRing K] [FloorRing K]

private theorem ok_iff_map {α β γ : Type} {a : Except PyErr α} {b : Except PyErr β} {f : α → γ} {g : β → γ}
    (h : a.map f = b.map g) (y : β) (hb : b = .ok y) : ∃ x, a = .ok x ∧ f x = g y := by
  subst hb
  cases a with
  | error e => cases h
  | ok x => exact ⟨x, rfl, Except.ok.inj h⟩

private theorem error_iff_map {α β γ : Type} {a : Except PyErr α} {b : Except PyErr β} {f : α → γ} {g : β → γ}
    (h : a.map f = b.map g) (e : PyErr) : a = .error e ↔ b = .error e := by
  cases a with
  | error e' =>
    cases b with
    | error e'' => exact ⟨fun k => by cases k; cases h; rfl, fun k => by cases k; cases h; rfl⟩
    | ok y => cases h
  | ok x =>
    cases b with
    | error e'' => cases h
    | ok y => exact ⟨fun k => (by cases k), fun k => (by cases k)⟩

/-! ## Sample data -/

/-- A minimiser that stays where it starts. -/
def idleOptimiser : Optimiser ℚ :=
  { crestAndVolume := fun _ p => .ok (some p.1, p.2)
    volume := fun _ _ t => .ok t
    both := fun p => .ok (some p.1, p.2) }

/-- The sample libraries with this minimiser. -/
noncomputable def idleTools : Tools ℚ := { sampleTools with opt := fun _ => idleOptimiser }

private theorem idle_raised (d : ℚ) : RaisedOptimiser d idleOptimiser idleOptimiser :=
  ⟨fun _ _ _ => rfl, fun _ _ _ => rfl, fun _ _ _ => rfl⟩

private theorem idle_scaled (k : ℚ) : ScaledOptimiser k idleOptimiser idleOptimiser :=
  ⟨fun _ _ _ => rfl, fun _ _ _ => rfl, fun _ _ _ => rfl⟩

theorem ramp_raised (d z c h : ℚ) : ramp (z + d) (c + d) h = ramp z c h := by
  unfold ramp
  have h1 : z + d ≤ c + d ↔ z ≤ c := add_le_add_iff_right d
  have h2 : c + d + h ≤ z + d ↔ c + h ≤ z := by constructor <;> intro k <;> linarith
  have h3 : z + d - (c + d) = z - c := by ring
  simp only [h1, h2, h3]

private theorem built_of_isSome {x : Tools ℚ} {cfg : RunConfig ℚ} {m : Model2d ℚ} {l : Loc ℚ} {p : Finished ℚ → Bool}
    (h : (buildCss x cfg m l).toOption.any p = true) : ∃ f, buildCss x cfg m l = .ok f ∧ p f = true := by
  cases hb : buildCss x cfg m l with
  | error e => rw [hb] at h; cases h
  | ok f => rw [hb] at h; exact ⟨f, rfl, h⟩

/-- The first sample location. -/
def sampleLoc : Loc ℚ := ⟨"rhine_100".toList, 5, 0, 10, "rhine".toList, 100⟩

/-! ## C104: another reference level -/

/-- **C104.** Raise all bed and water levels of the 2D model by `d`. The raised model has a cross-section exactly if the given one
has, and fails in the same way otherwise. Its profile has the same widths at levels that are `d` higher, its section widths, extra
areas and volumes are the same, its roughness tables have the same values at levels that are `d` higher. If the cross-section has
been corrected, crest level and base level of the floodplain are `d` higher as well. Missing: the base level of the floodplain
without correction, see `C104_floodplain_violated`. The minimiser has to find the raised crest for raised levels. -/
theorem C104_levels_partial (d : K) (x : Tools K) (cfg : RunConfig K) (m : Model2d K) (l : Loc K)
    (hopt : RaisedOptimiser d (x.opt l.id) (x.opt l.id)) (hb : ∀ y, x.bump (y + d) = x.bump y + d)
    (hr : ∀ z c h, x.release (z + d) (c + d) h = x.release z c h) (hm : NoNodataIn d m) :
    (∀ e, buildCss x cfg (Model2d.raise d m) l = .error e ↔ buildCss x cfg m l = .error e) ∧
    ∀ f, buildCss x cfg m l = .ok f →
      ∃ f', buildCss x cfg (Model2d.raise d m) l = .ok f' ∧
        { f'.out with floodplainBase := none } = { ExportCss.raise f.css.isCorrected d f.out with floodplainBase := none } ∧
        (f.css.isCorrected = true → f'.out = ExportCss.raise true d f.out) := by
  have h := buildCss_raise d x cfg m l hopt hb hr hm
  refine ⟨error_iff_map h, fun f hf => ?_⟩
  obtain ⟨f', hf', he⟩ := ok_iff_map h f hf
  refine ⟨f', hf', by rw [he], fun hc => ?_⟩
  rw [he, hc]
  rfl

/-- **C104.** The levels at which roughness is put into the files move along: raising all tables raises the tables on the common
levels. -/
theorem C104_roughness (d : K) (l : List (Tables Text K)) (hn : ∀ css ∈ l, (css.map (·.1)).Nodup)
    (hwf : ∀ css ∈ l, ∀ p ∈ css, WellFormedTable p.2)
    (hwf' : ∀ css ∈ l, ∀ p ∈ css, WellFormedTable (FrictionTable.raise d p.2)) :
    (harmonise (l.map (List.map fun p => (p.1, FrictionTable.raise d p.2)))).1
      = (harmonise l).1.map (List.map fun p => (p.1, FrictionTable.raise d p.2)) :=
  harmonise_raise d l hn hwf hwf'

/-- **C104 does not hold** for the base level of the floodplain without correction: with section polygons it is minus the
tolerance, whatever the levels of the river are. -/
theorem C104_floodplain_violated (d : K) (x : Tools K) (cfg : RunConfig K) (m : Model2d K) (l : Loc K)
    (hs : cfg.pipeline.sdCorrection = false) (hn : m.numbered = false) (f f' : Finished K) (hf : buildCss x cfg m l = .ok f)
    (hf' : buildCss x cfg (Model2d.raise d m) l = .ok f') :
    f.out.floodplainBase = some (-cfg.floodplainTolerance) ∧ f'.out.floodplainBase = some (-cfg.floodplainTolerance) := by
  have key : ∀ (m : Model2d K) (f : Finished K), m.numbered = false → buildCss x cfg m l = .ok f →
      f.out.floodplainBase = some (-cfg.floodplainTolerance) := by
    intro m f hn hf
    unfold buildCss at hf
    simp only at hf
    cases hg : buildCrossSectionGeometry (x.opt l.id) cfg.pipeline x.bump x.release (x.log l.id) l.length
        (centreOf x.nn (getSelection x.sqrt m.faces m.edges l.id) l)
        (controlVolumeOf m.nMaps (getSelection x.sqrt m.faces m.edges l.id)) with
    | error e => rw [hg] at hf; cases hf
    | ok css =>
      rw [hg] at hf
      simp only at hf
      have hcrest : css.crestLevel = some 0 := by
        unfold buildCrossSectionGeometry at hg
        cases hbg : buildGeometry cfg.pipeline.build l.length (centreOf x.nn (getSelection x.sqrt m.faces m.edges l.id) l)
            (controlVolumeOf m.nMaps (getSelection x.sqrt m.faces m.edges l.id)) with
        | error e => rw [hbg] at hg; cases hg
        | ok b =>
          rw [hbg] at hg
          simp only at hg
          have hp : performCorrection (x.opt l.id) cfg.pipeline x.release (x.log l.id) (Css.ofBuilt l.length b)
              = Css.ofBuilt l.length b := by
            unfold performCorrection
            rw [hs]
            rfl
          rw [hp] at hg
          unfold checkCss at hg
          cases hc : checkRequirements x.bump cfg.pipeline.minimumWidth
              ⟨(Css.ofBuilt l.length b).raw.z, (Css.ofBuilt l.length b).raw.totalWidth, (Css.ofBuilt l.length b).raw.flowWidth⟩ with
          | error e => rw [hc] at hg; cases hg
          | ok g =>
            rw [hc] at hg
            simp only at hg
            obtain rfl := Except.ok.inj hg
            unfold reduceCss
            split <;> rfl
      have hfil : ∀ s : Selection Text K, (sectionFacesOf m.numbered s).filter (fun f => f.label.is 2) = [] := by
        intro s
        refine List.filter_eq_nil_iff.2 fun q hq => ?_
        unfold sectionFacesOf at hq
        obtain ⟨p, _, rfl⟩ := List.mem_map.1 hq
        rw [hn]
        simp [sectionLabelOf, SectionLabel.is]
      cases ha : assignRoughness cfg m (getSelection x.sqrt m.faces m.edges l.id) l.length css with
      | error e => rw [ha] at hf; cases hf
      | ok r =>
        obtain ⟨tables, widths, base⟩ := r
        rw [ha] at hf
        simp only at hf
        have hbase : base = some (-cfg.floodplainTolerance) := by
          unfold assignRoughness at ha
          cases hz : allSome css.raw.zRoughness with
          | none => rw [hz] at ha; cases ha
          | some level =>
            rw [hz] at ha
            simp only at ha
            cases ht : buildRoughnessTables cfg.frictionWeighing none (sliceStart m.nMaps cfg.pipeline.build.skipMaps) m.nMaps
                level (linksOf (getSelection x.sqrt m.faces m.edges l.id)) with
            | error e => rw [ht] at ha; cases ha
            | ok ts =>
              rw [ht] at ha
              simp only at ha
              cases hw : computeSectionWidths l.length (sectionFacesOf m.numbered (getSelection x.sqrt m.faces m.edges l.id))
                  css.flowWidth css.raw.flowWidth with
              | error e => rw [hw] at ha; cases ha
              | ok w =>
                rw [hw] at ha
                simp only at ha
                have := (Prod.mk.inj (Prod.mk.inj (Except.ok.inj ha)).2).2
                rw [← this]
                unfold floodplainBase
                rw [hfil, hcrest]
                simp
        cases h2 : css.extraFlowArea with
        | none => rw [hcrest, h2] at hf; cases hf
        | some a =>
          cases h3 : css.extraTotalArea with
          | none => rw [hcrest, h2, h3] at hf; cases hf
          | some b =>
            cases h4 : css.extraTotalVolume with
            | none => rw [hcrest, h2, h3, h4] at hf; cases hf
            | some c =>
              rw [hcrest, h2, h3, h4] at hf
              simp only at hf
              obtain rfl := Except.ok.inj hf
              exact hbase
  exact ⟨key m f hn hf, key (Model2d.raise d m) f' hn hf'⟩

/-- The sample river, 100 higher: a corrected cross-section, and one without correction. -/
example : RaisedOptimiser 100 (idleTools.opt sampleLoc.id) (idleTools.opt sampleLoc.id) ∧
    (∀ y, idleTools.bump (y + 100) = idleTools.bump y + 100) ∧
    (∀ z c h, idleTools.release (z + 100) (c + 100) h = idleTools.release z c h) ∧
    NoNodataIn 100 (sampleLoaded sampleSectionInputs) ∧
    (∃ f, buildCss idleTools sampleRunConfig (sampleLoaded sampleSectionInputs) sampleLoc = .ok f ∧
      f.css.isCorrected = true) ∧
    (sampleLoaded sampleSectionInputs).numbered = false ∧
    ∃ f, buildCss idleTools { sampleRunConfig with pipeline := { riverPipeline with sdCorrection := false } }
      (sampleLoaded sampleSectionInputs) sampleLoc = .ok f := by
  refine ⟨idle_raised 100, fun y => ?_, ramp_raised 100, by unfold NoNodataIn; decide +kernel, ?_, by decide +kernel, ?_⟩
  · show y + 100 + 1 / 1000 = y + 1 / 1000 + 100
    ring
  · obtain ⟨f, h1, h2⟩ := built_of_isSome (x := idleTools) (cfg := sampleRunConfig) (m := sampleLoaded sampleSectionInputs)
      (l := sampleLoc) (p := fun f => f.css.isCorrected) (by decide +kernel)
    exact ⟨f, h1, h2⟩
  · obtain ⟨f, h1, _⟩ := built_of_isSome (x := idleTools)
      (cfg := { sampleRunConfig with pipeline := { riverPipeline with sdCorrection := false } })
      (m := sampleLoaded sampleSectionInputs) (l := sampleLoc) (p := fun _ => true) (by decide +kernel)
    exact ⟨f, h1⟩

/-- Tables of two cross-sections at different levels. -/
def levelTables : List (Tables Text ℚ) :=
  [[("main".toList, ⟨[0, 1, 2], [30, 40, 45]⟩)],
    [("main".toList, ⟨[1 / 2, 3 / 2], [35, 36]⟩), ("floodplain1".toList, ⟨[1], [20]⟩)]]

example : (∀ css ∈ levelTables, (css.map (·.1)).Nodup) ∧ (∀ css ∈ levelTables, ∀ p ∈ css, WellFormedTable p.2) ∧
    ∀ css ∈ levelTables, ∀ p ∈ css, WellFormedTable (FrictionTable.raise 100 p.2) := by
  refine ⟨by decide +kernel, fun css hc p hp => ?_, fun css hc p hp => ?_⟩
  · have h : ∀ css ∈ levelTables, ∀ p ∈ css, p.2.level ≠ [] ∧ p.2.level.length = p.2.friction.length ∧
        ∀ z ∈ p.2.level, -10 ^ 20 ≤ z ∧ z ≤ 10 ^ 20 := by decide +kernel
    obtain ⟨h1, h2, h3⟩ := h css hc p hp
    exact ⟨h1, h2, h3⟩
  · have h : ∀ css ∈ levelTables, ∀ p ∈ css, (FrictionTable.raise 100 p.2).level ≠ [] ∧
        (FrictionTable.raise 100 p.2).level.length = (FrictionTable.raise 100 p.2).friction.length ∧
        ∀ z ∈ (FrictionTable.raise 100 p.2).level, -10 ^ 20 ≤ z ∧ z ≤ 10 ^ 20 := by decide +kernel
    obtain ⟨h1, h2, h3⟩ := h css hc p hp
    exact ⟨h1, h2, h3⟩

/-! ## C105: another length -/

/-- **C105.** Make the faces of the 2D model `k` times as large and the cross-section `k` times as long. The model has a
cross-section exactly if it had one, and fails in the same way otherwise. Its profile, crest level, extra areas, section widths,
base level and roughness tables are the same; the volumes and areas of the control volume are `k` times as large. The minimiser
has to find `k` times the volumes for `k` times the volumes. -/
theorem C105_scale (k : K) (hk : 0 < k) (x : Tools K) (cfg : RunConfig K) (m : Model2d K) (l : Loc K)
    (hopt : ScaledOptimiser k (x.opt l.id) (x.opt l.id)) :
    (∀ e, buildCss x cfg (Model2d.scale k m) { l with length := k * l.length } = .error e ↔ buildCss x cfg m l = .error e) ∧
    ∀ f, buildCss x cfg m l = .ok f →
      ∃ f', buildCss x cfg (Model2d.scale k m) { l with length := k * l.length } = .ok f' ∧ f'.out = ExportCss.scale k f.out := by
  have h := buildCss_scale k hk x cfg m l hopt
  exact ⟨error_iff_map h, fun f hf => ok_iff_map h f hf⟩

/-- **C105.** In particular the lines of the cross-section in the definition file are the same. -/
theorem C105_definitions (k : K) (hk : 0 < k) (x : Tools K) (cfg : RunConfig K) (m : Model2d K) (ls : List (Loc K))
    (hopt : ∀ l ∈ ls, ScaledOptimiser k (x.opt l.id) (x.opt l.id)) (fs fs' : List (Finished K))
    (h : List.Forall₂ (fun l f => buildCss x cfg m l = .ok f) ls fs)
    (h' : List.Forall₂ (fun l f => buildCss x cfg (Model2d.scale k m) { l with length := k * l.length } = .ok f) ls fs') :
    exportDefinitions x.ft (fs'.map (·.out)) = exportDefinitions x.ft (fs.map (·.out)) ∧
      exportLocations x.ft (fs'.map (·.out)) = exportLocations x.ft (fs.map (·.out)) := by
  have hout : fs'.map (·.out) = fs.map fun f => ExportCss.scale k f.out := by
    induction h generalizing fs' with
    | nil => cases h'; rfl
    | @cons l f ls fs hf _ ih =>
      cases h' with
      | @cons _ f' _ fs'' hf' h'' =>
        obtain ⟨g, hg, he⟩ := (C105_scale k hk x cfg m l (hopt l List.mem_cons_self)).2 f hf
        have : g = f' := Except.ok.inj (hg.symm.trans hf')
        subst this
        rw [List.map_cons, List.map_cons, he, ih (fun q hq => hopt q (List.mem_cons_of_mem _ hq)) _ h'']
  have hmap : fs.map (fun f => ExportCss.scale k f.out) = (fs.map (·.out)).map (ExportCss.scale k) := by
    rw [List.map_map]; rfl
  rw [hout, hmap]
  refine ⟨?_, ?_⟩
  · unfold exportDefinitions
    rw [List.map_map]
    rfl
  · unfold exportLocations
    rw [List.map_map]
    rfl

/-- The sample river, three times as long. -/
example : (0 : ℚ) < 3 ∧ ScaledOptimiser 3 (idleTools.opt sampleLoc.id) (idleTools.opt sampleLoc.id) ∧
    ∃ f, buildCss idleTools sampleRunConfig (sampleLoaded sampleInputs) sampleLoc = .ok f ∧ f.css.isCorrected = true := by
  refine ⟨by norm_num, idle_scaled 3, ?_⟩
  obtain ⟨f, h1, h2⟩ := built_of_isSome (x := idleTools) (cfg := sampleRunConfig) (m := sampleLoaded sampleInputs)
    (l := sampleLoc) (p := fun f => f.css.isCorrected) (by decide +kernel)
  exact ⟨f, h1, h2⟩

/-! ## C106: another numbering of the faces and edges -/

/-- **C106.** Number the faces and edges of the 2D model in another way. If one face is nearer to the location than all others and
the default way of finding the flowing part is used, the cross-section is the same. Missing: the other way, see
`C106_mean_velocity_violated`. -/
theorem C106_numbering_partial (x : Tools K) (cfg : RunConfig K) (hm : cfg.pipeline.build.conveyanceDetectionMethod ≠ 0)
    (m m' : Model2d K) (l : Loc K) (h : Renumbered m m') (hone : OneNearest m l) :
    (∀ e, buildCss x cfg m' l = .error e ↔ buildCss x cfg m l = .error e) ∧
    ∀ f, buildCss x cfg m l = .ok f → ∃ f', buildCss x cfg m' l = .ok f' ∧ f'.out = f.out := by
  have h := buildCss_perm x cfg hm m m' l h hone
  exact ⟨error_iff_map h, fun f hf => ok_iff_map h f hf⟩

/-- Six cells, one with a large velocity. -/
def sixCells (v : List ℚ) : ControlVolume ℚ :=
  ⟨1, v.map fun w => ⟨100, 0, fun _ => some 2, fun _ => some 2, fun _ => some w⟩⟩

/-- A configuration with the other way of finding the flowing part. -/
def meanConfig : BuildConfig ℚ := { riverConfig with conveyanceDetectionMethod := 0, skipMaps := 0, lakeTimesteps := 0 }

/-- **C106 does not hold** for the other way of finding the flowing part: it takes the mean velocity over rows with neighbouring
numbers. The same six cells in another order have another profile. -/
theorem C106_mean_velocity_violated :
    ∃ cv cv' : ControlVolume ℚ, cv.nMaps = cv'.nMaps ∧ cv.cells.Perm cv'.cells ∧ cv.cells[1]? = cv'.cells[1]? ∧
      meanConfig.conveyanceDetectionMethod = 0 ∧
      ((buildGeometry meanConfig 10 1 cv).toOption.map (·.flowWidth.getLast?)) = some (some 60) ∧
      ((buildGeometry meanConfig 10 1 cv').toOption.map (·.flowWidth.getLast?)) = some (some 50) := by
  refine ⟨sixCells [6, 0, 0, 0, 0, 0], sixCells [0, 0, 0, 0, 0, 6], rfl, ?_, rfl, rfl, by decide +kernel, by decide +kernel⟩
  have h : [6, 0, 0, 0, 0, (0 : ℚ)].Perm [0, 0, 0, 0, 0, 6] := by decide +kernel
  simp only [sixCells]
  exact h.map _

/-- The faces of a model one by one. -/
def faceRows (f : FaceData Text ℚ) : List (FaceRow ℚ) :=
  (List.range f.x.length).map fun i =>
    ⟨f.x[i]?.getD 0, f.y[i]?.getD 0, f.area[i]?.getD 0, f.bedlevel[i]?.getD 0, f.region[i]?.getD [], f.islake[i]?.getD false,
      f.sect[i]?.getD [], f.sclass[i]?.getD [], f.waterdepth[i]?.getD [], f.waterlevel[i]?.getD [], f.velocityX[i]?.getD [],
      f.velocityY[i]?.getD []⟩

/-- The edges of a model one by one. -/
def edgeRows (e : EdgeData Text ℚ) : List (EdgeRow ℚ) :=
  (List.range e.x.length).map fun i =>
    ⟨e.x[i]?.getD 0, e.y[i]?.getD 0, e.sect[i]?.getD [], e.sclass[i]?.getD [], e.chezy[i]?.getD []⟩

/-- The sample model in columns made of rows. -/
noncomputable def rowsModel : Model2d ℚ :=
  { sampleLoaded sampleInputs with
    faces := faceColumns (faceRows (sampleLoaded sampleInputs).faces)
    edges := edgeColumns (edgeRows (sampleLoaded sampleInputs).edges) none }

/-- The sample model with faces and edges in the opposite order. -/
noncomputable def reversedModel : Model2d ℚ :=
  { sampleLoaded sampleInputs with
    faces := faceColumns (faceRows (sampleLoaded sampleInputs).faces).reverse
    edges := edgeColumns (edgeRows (sampleLoaded sampleInputs).edges).reverse none }

/-- The face of the sample nearest to the first location. -/
noncomputable def nearRow : FaceRow ℚ := (faceRows (sampleLoaded sampleInputs).faces)[5]?.getD ⟨0, 0, 0, 0, [], false, [], [], [], [], [], []⟩

theorem nearRow_nearest : ∀ q ∈ faceRows (sampleLoaded sampleInputs).faces, q.sclass = sampleLoc.id → q ≠ nearRow →
    (nearRow.x - sampleLoc.x) ^ 2 + (nearRow.y - sampleLoc.y) ^ 2 < (q.x - sampleLoc.x) ^ 2 + (q.y - sampleLoc.y) ^ 2 := by
  intro q hq _ hne
  have h : ∀ i < 13, i ≠ 5 → ∃ a b : ℚ, ((faceRows (sampleLoaded sampleInputs).faces)[i]?.map (·.x)) = some a ∧
      ((faceRows (sampleLoaded sampleInputs).faces)[i]?.map (·.y)) = some b ∧
      (nearRow.x - sampleLoc.x) ^ 2 + (nearRow.y - sampleLoc.y) ^ 2 < (a - sampleLoc.x) ^ 2 + (b - sampleLoc.y) ^ 2 := by
    intro i hi h5
    refine ⟨(i : ℚ), 0, ?_⟩
    revert i
    decide +kernel
  obtain ⟨i, hi⟩ := List.getElem?_of_mem hq
  have hlen : (faceRows (sampleLoaded sampleInputs).faces).length = 13 := by decide +kernel
  have hlt : i < 13 := by rw [← hlen]; exact (List.getElem?_eq_some_iff.1 hi).1
  by_cases h5 : i = 5
  · subst h5
    refine absurd ?_ hne
    unfold nearRow
    rw [hi]
    rfl
  · obtain ⟨a, b, ha, hb, hab⟩ := h i hlt h5
    rw [hi] at ha hb
    have ha : q.x = a := Option.some.inj ha
    have hb : q.y = b := Option.some.inj hb
    rw [ha, hb]
    exact hab

theorem nearRow_mem : nearRow ∈ faceRows (sampleLoaded sampleInputs).faces := by
  have hlen : (faceRows (sampleLoaded sampleInputs).faces).length = 13 := by decide +kernel
  have h : 5 < (faceRows (sampleLoaded sampleInputs).faces).length := by omega
  unfold nearRow
  rw [List.getElem?_eq_getElem h]
  exact List.getElem_mem h

/-- The sample river with its faces and edges in the opposite order. -/
example : sampleRunConfig.pipeline.build.conveyanceDetectionMethod ≠ 0 ∧ Renumbered rowsModel reversedModel ∧
    OneNearest rowsModel sampleLoc ∧
    ∃ f, buildCss sampleTools sampleRunConfig rowsModel sampleLoc = .ok f ∧ f.css.isCorrected = true := by
  refine ⟨by decide, ⟨⟨_, _, (List.reverse_perm _).symm, rfl, rfl⟩, ⟨_, _, _, _, (List.reverse_perm _).symm, rfl, rfl⟩, rfl, rfl⟩,
    ⟨_, rfl, nearRow, nearRow_mem, by decide +kernel, nearRow_nearest⟩, ?_⟩
  obtain ⟨f, h1, h2⟩ := built_of_isSome (x := sampleTools) (cfg := sampleRunConfig) (m := rowsModel) (l := sampleLoc)
    (p := fun f => f.css.isCorrected) (by decide +kernel)
  exact ⟨f, h1, h2⟩

/-! ## C107: faces that are always dry -/

/-- **C107.** Add a face that is dry at all maps, with velocity zero, to a 2D model whose cross-section has at least three faces.
With the default way of finding the flowing part, and if another face is nearest to the location, the profile of the
cross-section, its crest level and extra areas and volumes, its roughness and its volume table are the same. The section widths
and the base level of the floodplain may change: they are taken from the areas and bed levels of all faces. Missing: faces with
missing velocities, see `C107_missing_velocity_violated`. -/
theorem C107_dry_partial (x : Tools K) (cfg : RunConfig K) (hm : cfg.pipeline.build.conveyanceDetectionMethod ≠ 0)
    (hsq : x.sqrt 0 = 0) (hsn : ∀ y, 0 ≤ x.sqrt y) (m : Model2d K) (l : Loc K) (rows : List (FaceRow K)) (dry : FaceRow K)
    (hf : m.faces = faceColumns rows) (h3 : 3 ≤ (rows.filter fun r => decide (r.sclass = l.id)).length)
    (hd : ∀ v ∈ dry.waterdepth, v = some 0)
    (hvx : dry.velocityX = List.replicate m.nMaps (some 0)) (hvy : dry.velocityY = List.replicate m.nMaps (some 0))
    (r : FaceRow K) (hr : r ∈ rows) (hrc : r.sclass = l.id)
    (hru : ∀ q ∈ rows ++ [dry], q.sclass = l.id → q ≠ r →
      (r.x - l.x) ^ 2 + (r.y - l.y) ^ 2 < (q.x - l.x) ^ 2 + (q.y - l.y) ^ 2) :
    (∀ e, buildCss x cfg { m with faces := faceColumns (rows ++ [dry]) } l = .error e ↔ buildCss x cfg m l = .error e) ∧
    ∀ f, buildCss x cfg m l = .ok f →
      ∃ f', buildCss x cfg { m with faces := faceColumns (rows ++ [dry]) } l = .ok f' ∧
        { f'.out with widths := f.out.widths, floodplainBase := f.out.floodplainBase } = f.out := by
  have hgeo := buildCss_dry x cfg hm hsq hsn m l rows dry hf h3 hd hvx hvy r hr hrc hru
  have hgeo' := geometry_eq_of (x.opt l.id) cfg.pipeline x.bump x.release (x.log l.id) l.length _ _ _ _ hgeo
  have hl : linksOf (getSelection x.sqrt (faceColumns (rows ++ [dry])) m.edges l.id)
      = linksOf (getSelection x.sqrt m.faces m.edges l.id) := rfl
  have hmain : (buildCss x cfg { m with faces := faceColumns (rows ++ [dry]) } l).map
        (fun f => { f.out with widths := ⟨0, 0, 0⟩, floodplainBase := none })
      = (buildCss x cfg m l).map fun f => { f.out with widths := ⟨0, 0, 0⟩, floodplainBase := none } := by
    unfold buildCss
    simp only [hgeo']
    cases buildCrossSectionGeometry (x.opt l.id) cfg.pipeline x.bump x.release (x.log l.id) l.length
        (centreOf x.nn (getSelection x.sqrt m.faces m.edges l.id) l)
        (controlVolumeOf m.nMaps (getSelection x.sqrt m.faces m.edges l.id)) with
    | error e => rfl
    | ok css =>
      simp only
      unfold assignRoughness
      simp only [hl]
      cases allSome css.raw.zRoughness with
      | none => rfl
      | some level =>
        simp only
        cases buildRoughnessTables cfg.frictionWeighing none (sliceStart m.nMaps cfg.pipeline.build.skipMaps) m.nMaps
            level (linksOf (getSelection x.sqrt m.faces m.edges l.id)) with
        | error e => rfl
        | ok ts =>
          simp only
          rcases computeSectionWidths_ok l.length
              (sectionFacesOf m.numbered (getSelection x.sqrt (faceColumns (rows ++ [dry])) m.edges l.id))
              (sectionFacesOf m.numbered (getSelection x.sqrt m.faces m.edges l.id)) css.flowWidth css.raw.flowWidth with
            ⟨w, hw, w', hw'⟩ | ⟨e, he, he'⟩
          · rw [hw, hw']
            cases css.crestLevel <;> cases css.extraFlowArea <;> cases css.extraTotalArea <;> cases css.extraTotalVolume <;> rfl
          · rw [he, he']
  refine ⟨error_iff_map hmain, fun f hfo => ?_⟩
  obtain ⟨f', hf', he⟩ := ok_iff_map hmain f hfo
  refine ⟨f', hf', ?_⟩
  simp only [ExportCss.mk.injEq] at he
  obtain ⟨h1, h2, h3, h4, h5, h6, h7, h8, h9, h10, _, _, h13, h14⟩ := he
  show ExportCss.mk f'.out.name f'.out.branch f'.out.chainage f'.out.z f'.out.flowWidth f'.out.totalWidth f'.out.crestLevel
    f'.out.extraFlowArea f'.out.extraTotalArea f'.out.extraTotalVolume f.out.floodplainBase f.out.widths f'.out.tables
    f'.out.volumes = f.out
  rw [h1, h2, h3, h4, h5, h6, h7, h8, h9, h10, h13, h14]

/-- A face of the sample that is always dry. -/
def dryRow : FaceRow ℚ :=
  ⟨13, 0, 500, 9, [], false, [], sampleLoc.id, [some 0, some 0, some 0, some 0], [some 9, some 9, some 9, some 9],
    List.replicate 4 (some 0), List.replicate 4 (some 0)⟩

/-- The sample river with one more face. -/
example : sampleRunConfig.pipeline.build.conveyanceDetectionMethod ≠ 0 ∧ (fun y : ℚ => |y|) 0 = 0 ∧ (∀ y : ℚ, 0 ≤ (fun y => |y|) y) ∧
    rowsModel.faces = faceColumns (faceRows (sampleLoaded sampleInputs).faces) ∧
    3 ≤ ((faceRows (sampleLoaded sampleInputs).faces).filter fun r => decide (r.sclass = sampleLoc.id)).length ∧
    (∀ v ∈ dryRow.waterdepth, v = some 0) ∧ dryRow.velocityX = List.replicate rowsModel.nMaps (some 0) ∧
    dryRow.sclass = sampleLoc.id ∧
    nearRow ∈ faceRows (sampleLoaded sampleInputs).faces ∧ nearRow.sclass = sampleLoc.id ∧
    (∀ q ∈ faceRows (sampleLoaded sampleInputs).faces ++ [dryRow], q.sclass = sampleLoc.id → q ≠ nearRow →
      (nearRow.x - sampleLoc.x) ^ 2 + (nearRow.y - sampleLoc.y) ^ 2 < (q.x - sampleLoc.x) ^ 2 + (q.y - sampleLoc.y) ^ 2) ∧
    ∃ f, buildCss { sampleTools with sqrt := fun y => |y| } sampleRunConfig rowsModel sampleLoc = .ok f ∧
      f.css.isCorrected = true := by
  refine ⟨by decide, abs_zero, fun y => abs_nonneg y, rfl, by decide +kernel, by decide +kernel, by decide +kernel, rfl, nearRow_mem,
    by decide +kernel, ?_, ?_⟩
  · intro q hq hc hne
    rcases List.mem_append.1 hq with h | h
    · exact nearRow_nearest q h hc hne
    · obtain rfl := List.mem_singleton.1 h
      decide +kernel
  · obtain ⟨f, h1, h2⟩ := built_of_isSome (x := { sampleTools with sqrt := fun y => |y| }) (cfg := sampleRunConfig)
      (m := rowsModel) (l := sampleLoc) (p := fun f => f.css.isCorrected) (by decide +kernel)
    exact ⟨f, h1, h2⟩

/-- Cells with the given velocities. -/
def threeCells (v : List (Option ℚ)) : ControlVolume ℚ :=
  ⟨1, v.map fun w => ⟨100, 0, fun _ => some 2, fun _ => some 2, fun _ => w⟩⟩

/-- A configuration with a relative threshold of one half and an absolute one that is never reached. -/
def halfConfig : BuildConfig ℚ :=
  { riverConfig with skipMaps := 0, lakeTimesteps := 0, relativeVelocityThreshold := 1 / 2, absoluteVelocityThreshold := 100 }

/-- **C107 does not hold** for a face without velocities: sorting puts them last, so that they are among the three largest. Here
the flow width changes by a face that is never wet. -/
theorem C107_missing_velocity_violated :
    ∃ (cv : ControlVolume ℚ) (dry : Cell ℚ), AlwaysDry dry ∧ (∀ t, dry.velocity t = none) ∧
      halfConfig.conveyanceDetectionMethod ≠ 0 ∧ 3 ≤ cv.cells.length ∧
      ((buildGeometry halfConfig 10 0 cv).toOption.map (·.flowWidth.getLast?)) = some (some 30) ∧
      ((buildGeometry halfConfig 10 0 { cv with cells := cv.cells ++ [dry] }).toOption.map (·.flowWidth.getLast?)) = some (some 20) := by
  refine ⟨threeCells [some 4, some 4, some 2], ⟨500, 9, fun _ => some 0, fun _ => some 9, fun _ => none⟩, fun _ => Or.inl rfl,
    fun _ => rfl, by decide, by decide, by decide +kernel, by decide +kernel⟩

/-! ## C108: other axes -/

/-- **C108.** Turn and move the axes: the positions of faces, edges and the location and the components of the velocities change
accordingly. If one face is nearer to the location than all others, the cross-section is the same. -/
theorem C108_axes (x : Tools K) (cfg : RunConfig K)
    (c s p q : K) (hcs : c ^ 2 + s ^ 2 = 1) (m : Model2d K) (l : Loc K) (rows : List (FaceRow K)) (er : List (EdgeRow K))
    (ef : Option (List (Int × Int))) (hf : m.faces = faceColumns rows) (he : m.edges = edgeColumns er ef)
    (hone : OneNearest m l) :
    (∀ e, buildCss x cfg
        { m with faces := faceColumns (rows.map (FaceRow.turn c s p q))
                 edges := edgeColumns (er.map fun e => { e with x := c * e.x - s * e.y + p, y := s * e.x + c * e.y + q }) ef }
        (Loc.turn c s p q l) = .error e ↔ buildCss x cfg m l = .error e) ∧
    ∀ f, buildCss x cfg m l = .ok f → ∃ f', buildCss x cfg
        { m with faces := faceColumns (rows.map (FaceRow.turn c s p q))
                 edges := edgeColumns (er.map fun e => { e with x := c * e.x - s * e.y + p, y := s * e.x + c * e.y + q }) ef }
        (Loc.turn c s p q l) = .ok f' ∧ f'.out = f.out := by
  obtain ⟨rows₂, hf₂, r, hr, hrc, hru⟩ := hone
  obtain rfl : rows₂ = rows := faceColumns_inj (hf₂.symm.trans hf)
  have h := buildCss_turn x cfg c s p q hcs m
    { m with faces := faceColumns (rows₂.map (FaceRow.turn c s p q))
             edges := edgeColumns (er.map fun e => { e with x := c * e.x - s * e.y + p, y := s * e.x + c * e.y + q }) ef }
    l rows₂ er ef ef (fun e => (c * e.x - s * e.y + p, s * e.x + c * e.y + q)) hf rfl he rfl rfl rfl r hr hrc hru
  exact ⟨error_iff_map h, fun f hf => ok_iff_map h f hf⟩

/-- The sample river, turned over an angle with cosine 3/5. -/
example : (3 / 5 : ℚ) ^ 2 + (4 / 5) ^ 2 = 1 ∧
    OneNearest rowsModel sampleLoc ∧
    ∃ f, buildCss sampleTools sampleRunConfig rowsModel sampleLoc = .ok f ∧ f.css.isCorrected = true := by
  refine ⟨by norm_num, ⟨_, rfl, nearRow, nearRow_mem, by decide +kernel, nearRow_nearest⟩, ?_⟩
  obtain ⟨f, h1, h2⟩ := built_of_isSome (x := sampleTools) (cfg := sampleRunConfig) (m := rowsModel) (l := sampleLoc)
    (p := fun f => f.css.isCorrected) (by decide +kernel)
  exact ⟨f, h1, h2⟩

end Fm2prof.Props

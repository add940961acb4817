import Verif.Proofs.InvarianceRun
import Verif.Proofs.Scaling

/-!
# Runs with another reference level and with another unit of length along the river
-/

set_option linter.unusedSectionVars false

namespace Fm2prof

open Spec

variable {K : Type} [Field K] [LinearOrder K] [IsStrictOrderedRing K] [FloorRing K]

theorem setModelData_scale (k : K) (nn : NearestPicker K) (i : Inputs K) :
    setModelData nn (Inputs.scale k i) = (setModelData nn i).map fun m =>
      { Model2d.scale k m with stations := m.stations.map fun l => { l with length := k * l.length } } := by
  obtain ⟨map, css, regions, sections⟩ := i
  unfold setModelData Inputs.scale
  cases map with
  | error e => rfl
  | ok m =>
    cases css with
    | error e => rfl
    | ok css =>
      simp only [Except.map]
      cases readOptional regions with
      | error e => rfl
      | ok r =>
        simp only
        cases readOptional sections with
        | error e => rfl
        | ok sc =>
          simp only
          have hst : ∀ rs : List Text, stationsOf (css.map fun l => { l with length := k * l.length }) rs = stationsOf css rs := by
            intro rs
            unfold stationsOf
            rw [List.zip_map_left, List.map_map]
            rfl
          have ha : assignCss nn { m with faces := { m.faces with area := m.faces.area.map (k * ·) } }
              (css.map fun l => { l with length := k * l.length }) r = assignCss nn m css r := by
            cases r with
            | none =>
              unfold assignCss
              simp only [hst, List.map_map]
              rfl
            | some r =>
              unfold assignCss
              simp only [hst]
          have hs : assignSections { m with faces := { m.faces with area := m.faces.area.map (k * ·) } } sc = assignSections m sc := by
            cases sc <;> rfl
          rw [ha, hs]
          cases assignCss nn m css r with
          | error e => rfl
          | ok p =>
            simp only
            cases assignSections m sc with
            | error e => rfl
            | ok q => rfl

theorem setModelData_raise (d : K) (nn : NearestPicker K) (i : Inputs K) :
    setModelData nn (Inputs.raise d i) = (setModelData nn i).map (Model2d.raise d) := by
  obtain ⟨map, css, regions, sections⟩ := i
  unfold setModelData Inputs.raise
  cases map with
  | error e => rfl
  | ok m =>
    cases css with
    | error e => rfl
    | ok css =>
      simp only [Except.map]
      cases readOptional regions with
      | error e => rfl
      | ok r =>
        simp only
        cases readOptional sections with
        | error e => rfl
        | ok sc =>
          simp only
          have ha : assignCss nn { m with faces := { m.faces with
              bedlevel := m.faces.bedlevel.map (· + d)
              waterlevel := m.faces.waterlevel.map (List.map (Option.map (· + d))) } } css r = assignCss nn m css r := by
            cases r <;> rfl
          have hs : assignSections { m with faces := { m.faces with
              bedlevel := m.faces.bedlevel.map (· + d)
              waterlevel := m.faces.waterlevel.map (List.map (Option.map (· + d))) } } sc = assignSections m sc := by
            cases sc <;> rfl
          rw [ha, hs]
          cases assignCss nn m css r with
          | error e => rfl
          | ok p =>
            simp only
            cases assignSections m sc with
            | error e => rfl
            | ok q => rfl

/-! ## Files that depend on part of the exported quantities -/

theorem writeOutput_except (x : Tools K) (w : WriteFaults) (d : Bool) (cs cs' : List (Finished K)) (s : Store) (he : cs'.isEmpty = cs.isEmpty)
    (h1 : exportLocations x.ft (cs'.map (·.out)) = exportLocations x.ft (cs.map (·.out)))
    (h2 : exportDefinitions x.ft (cs'.map (·.out)) = exportDefinitions x.ft (cs.map (·.out)))
    (h3 : ∀ sec, exportRoughness x.ft x.sig (cs'.map (·.out)) sec = exportRoughness x.ft x.sig (cs.map (·.out)) sec)
    (h4 : (cs'.flatMap fun c => c.out.tables.map (·.1)) = cs.flatMap fun c => c.out.tables.map (·.1))
    (h5 : exportSobekGeometry x.ft (cs'.map (·.out)) = exportSobekGeometry x.ft (cs.map (·.out)))
    (h6 : sobekRoughnessText x.ft (cs'.map (·.out)) = sobekRoughnessText x.ft (cs.map (·.out)))
    (h7 : testText x.ft (cs'.map (·.out)) = testText x.ft (cs.map (·.out))) (f : Text) (hf : f ≠ "volumes.csv".toList) :
    writeOutput w (exporterOf x) d cs' s f = writeOutput w (exporterOf x) d cs s f := by
  have e1 : dimrBlock (exporterOf x) cs' = dimrBlock (exporterOf x) cs := by
    unfold dimrBlock exporterOf
    have hr : roughnessStep (exporterOf x) cs' = roughnessStep (exporterOf x) cs := by
      funext sec
      unfold roughnessStep exporterOf
      simp only [h3]
    unfold exporterOf at hr
    simp only [h1, h2, h4]
    rw [hr]
  have e2 : sobekBlock' (exporterOf x) cs' = sobekBlock' (exporterOf x) cs := by
    unfold sobekBlock' exporterOf
    simp only [h5, h6]
  unfold writeOutput
  rw [he, e1, e2]
  split
  · rfl
  · generalize tryBlock w (sobekBlock' (exporterOf x) cs) (tryBlock w (dimrBlock (exporterOf x) cs) s) = s₁
    have e3 : ∀ ds : List (Finished K), ∀ s₁, tryBlock w (otherBlock (exporterOf x) ds) s₁ f =
        tryBlock w [.write "geometry_test.csv".toList (testText x.ft (ds.map (·.out))).1 (testText x.ft (ds.map (·.out))).2] s₁ f := by
      intro ds s₁
      unfold otherBlock exporterOf
      simp only [tryBlock]
      cases hr : (ExportStep.write "geometry_test.csv".toList (testText x.ft (ds.map (·.out))).1
        (testText x.ft (ds.map (·.out))).2).run w s₁ with
      | mk s₂ e =>
        cases e with
        | some e => rfl
        | none =>
          exact tryBlock_other w [.write "volumes.csv".toList _ _] s₂ f fun hm => hf (List.mem_singleton.1 hm)
    rw [e3, e3, h7]

/-! ## Larger faces -/

/-- The common levels of the roughness tables, on the exported quantities only. -/
def harmoniseOuts (os : List (ExportCss K)) : List (ExportCss K) :=
  List.zipWith (fun c t => { c with tables := t }) os (harmonise (os.map (·.tables))).1

theorem harmoniseCss_outs (cs : List (Finished K)) : (harmoniseCss cs).map (·.out) = harmoniseOuts (cs.map (·.out)) := by
  unfold harmoniseCss harmoniseOuts
  rw [List.map_zipWith, List.zipWith_map_left, List.map_map]
  rfl

theorem harmoniseOuts_scale (k : K) (os : List (ExportCss K)) :
    harmoniseOuts (os.map (ExportCss.scale k)) = (harmoniseOuts os).map (ExportCss.scale k) := by
  unfold harmoniseOuts
  rw [List.map_zipWith, List.zipWith_map_left, List.map_map]
  rfl

theorem sobekGeometry_scale (k : K) (hk : 0 < k) (ft : FloatText K) (os : List (ExportCss K)) :
    exportSobekGeometry ft (os.map (ExportCss.scale k)) = exportSobekGeometry ft os := by
  have hm : ∀ c : ExportCss K, sobekMeta ft (ExportCss.scale k c) = sobekMeta ft c := by
    intro c
    have : decide (0 < k * c.extraTotalVolume) = decide (0 < c.extraTotalVolume) := by
      rw [decide_eq_decide]
      exact mul_pos_iff_of_pos_left hk
    unfold sobekMeta ExportCss.scale
    simp only [this]
  have hr : ∀ (c : ExportCss K) (ws : List K) (i : Nat), sobekRows ft (ExportCss.scale k c) i ws = sobekRows ft c i ws := by
    intro c ws
    induction ws with
    | nil => intro i; rfl
    | cons w ws ih =>
      intro i
      rw [sobekRows, sobekRows]
      simp only [ih]
      rfl
  have hb : ∀ c : ExportCss K, sobekBlock ft (ExportCss.scale k c) = sobekBlock ft c := by
    intro c
    unfold sobekBlock
    rw [hm, hr]
    rfl
  unfold exportSobekGeometry
  rw [List.map_map]
  have : (sobekBlock ft ∘ ExportCss.scale k) = sobekBlock ft := funext hb
  rw [this]

theorem sobekRoughnessText_scale (k : K) (ft : FloatText K) (os : List (ExportCss K)) :
    sobekRoughnessText ft (os.map (ExportCss.scale k)) = sobekRoughnessText ft os := by
  have h1 : (os.map (ExportCss.scale k)).flatMap (fun c => c.tables.map (·.1)) = os.flatMap fun c => c.tables.map (·.1) := by
    rw [List.flatMap_map]; rfl
  have h2 : sobekRoughnessRows ft (os.map (ExportCss.scale k)) = sobekRoughnessRows ft os := by
    funext sec
    unfold sobekRoughnessRows
    rw [List.map_map]
    rfl
  unfold sobekRoughnessText
  rw [h1, h2]

theorem linesUntil_map {α β : Type} (f : α → Except PyErr Text) (g : β → Except PyErr Text) (t : α → β) (h : ∀ a, g (t a) = f a) (l : List α) :
    linesUntil g (l.map t) = linesUntil f l := by
  induction l with
  | nil => rfl
  | cons a as ih => rw [List.map_cons, linesUntil, linesUntil, ih, h]

theorem testText_scale (k : K) (ft : FloatText K) (os : List (ExportCss K)) :
    testText ft (os.map (ExportCss.scale k)) = testText ft os := by
  have hf : (os.map (ExportCss.scale k)).flatMap (fun c => (List.range c.z.length).map fun i => (c, i))
      = (os.flatMap fun c => (List.range c.z.length).map fun i => (c, i)).map fun p => (ExportCss.scale k p.1, p.2) := by
    rw [List.map_flatMap, List.flatMap_map]
    simp only [List.map_map]
    rfl
  unfold testText
  rw [hf, linesUntil_map (testLine ft) (testLine ft) (fun p => (ExportCss.scale k p.1, p.2)) (fun _ => rfl)]

theorem roughness_scale (k : K) (ft : FloatText K) (sig : K → Text) (os : List (ExportCss K)) (sec : Text) :
    exportRoughness ft sig (os.map (ExportCss.scale k)) sec = exportRoughness ft sig os sec := by
  have h1 : ∀ (s : Text) (os : List (ExportCss K)) (seen : List Text), branchSec s seen (os.map (ExportCss.scale k)) = branchSec s seen os := by
    intro s os
    induction os with
    | nil => intro seen; rfl
    | cons c cs ih =>
      intro seen
      rw [List.map_cons, branchSec, branchSec]
      simp only [ih]
      rfl
  have h2 : ∀ (s : Text) (os : List (ExportCss K)), definitionSec ft sig s (os.map (ExportCss.scale k)) = definitionSec ft sig s os := by
    intro s os
    induction os with
    | nil => rfl
    | cons c cs ih =>
      rw [List.map_cons, definitionSec, definitionSec]
      simp only [ih]
      rfl
  unfold exportRoughness
  rw [h1, h2]

theorem output_scale (k : K) (hk : 0 < k) (x : Tools K) (w : WriteFaults) (d : Bool) (cs cs' : List (Finished K)) (s : Store)
    (h : cs'.map (·.out) = cs.map fun f => ExportCss.scale k f.out) (f : Text) (hf : f ≠ "volumes.csv".toList) :
    writeOutput w (exporterOf x) d (harmoniseCss cs') s f = writeOutput w (exporterOf x) d (harmoniseCss cs) s f := by
  have hh : (harmoniseCss cs').map (·.out) = ((harmoniseCss cs).map (·.out)).map (ExportCss.scale k) := by
    have : (cs.map fun f => ExportCss.scale k f.out) = (cs.map (·.out)).map (ExportCss.scale k) := by rw [List.map_map]; rfl
    rw [harmoniseCss_outs, h, this, harmoniseOuts_scale, harmoniseCss_outs]
  generalize harmoniseCss cs' = ds' at hh ⊢
  generalize harmoniseCss cs = ds at hh ⊢
  refine writeOutput_except x w d ds ds' s ?_ ?_ ?_ ?_ ?_ ?_ ?_ ?_ f hf
  · have := congrArg List.length hh
    rw [List.length_map, List.length_map, List.length_map] at this
    cases ds <;> cases ds' <;> first | rfl | cases this
  · rw [hh]
    unfold exportLocations
    rw [List.map_map]
    rfl
  · rw [hh]
    unfold exportDefinitions
    rw [List.map_map]
    rfl
  · intro sec
    rw [hh, roughness_scale]
  · have e : ∀ l : List (Finished K), (l.flatMap fun c => c.out.tables.map (·.1)) = (l.map (·.out)).flatMap fun c => c.tables.map (·.1) := by
      intro l; rw [List.flatMap_map]
    rw [e, e, hh, List.flatMap_map]
    rfl
  · rw [hh, sobekGeometry_scale k hk]
  · rw [hh, sobekRoughnessText_scale]
  · rw [hh, testText_scale]

theorem sameJobs_scale (k : K) (hk : 0 < k) (x : Tools K) (cfg : RunConfig K) (o : Surroundings) (i : Inputs K)
    (hopt : ∀ css, i.css = .ok css → ∀ l ∈ css, ScaledOptimiser k (x.opt l.id) (x.opt l.id)) :
    SameJobs (jobOf x cfg i o) (jobOf x cfg (Inputs.scale k i) o) (fun l => { l with length := k * l.length })
      (fun f => ExportCss.scale k f.out) (fun f => f.out) (fun f => f ≠ "volumes.csv".toList) := by
  have hset := setModelData_scale k x.nn i
  have hstat : ∀ m, setModelData x.nn i = .ok m → i.css = .ok m.stations := by
    intro m hm
    unfold setModelData at hm
    cases h1 : i.map with
    | error e => rw [h1] at hm; cases hm
    | ok d =>
      rw [h1] at hm
      cases h2 : i.css with
      | error e => rw [h2] at hm; cases hm
      | ok css =>
        rw [h2] at hm
        simp only at hm
        cases h3 : readOptional i.regions with
        | error e => rw [h3] at hm; cases hm
        | ok r =>
          rw [h3] at hm
          simp only at hm
          cases h4 : readOptional i.sections with
          | error e => rw [h4] at hm; cases hm
          | ok sc =>
            rw [h4] at hm
            simp only at hm
            cases h5 : assignCss x.nn d css r with
            | error e => rw [h5] at hm; cases hm
            | ok p =>
              rw [h5] at hm
              simp only at hm
              cases h6 : assignSections d sc with
              | error e => rw [h6] at hm; cases hm
              | ok q =>
                rw [h6] at hm
                cases hm
                rfl
  constructor
  · rfl
  · rfl
  · rfl
  · rfl
  · rfl
  · rfl
  · rfl
  · show (setModelData x.nn _).map _ = ((setModelData x.nn _).map _).map _
    rw [hset]
    cases setModelData x.nn i <;> rfl
  · intro m _ l _; rfl
  · intro m _ l _ _ _; exact storeData_sim _ _ _ _ _ _ rfl rfl rfl
  · intro m h h' l _ _ _; exact jobOf_storeMask _ _ _ _ _ _ _ _ h h' rfl l { l with length := k * l.length } rfl _ _
  · intro m h l _ _
    show (match setModelData x.nn _ with | .error _ => 0 | .ok m => (getSelection x.sqrt m.faces m.edges l.id).x.length)
      = (match setModelData x.nn _ with | .error _ => 0 | .ok m => (getSelection x.sqrt m.faces m.edges l.id).x.length)
    rw [hset]
    cases setModelData x.nn i <;> rfl
  · intro m h l hl hv hfaces
    show (match setModelData x.nn _ with | .error e => Except.error e | .ok m => buildCss x cfg m { l with length := k * l.length }).map _
      = (match setModelData x.nn _ with | .error e => Except.error e | .ok m => buildCss x cfg m l).map _
    have h : (setModelData x.nn i).map (fun m => (⟨m.stations, m.nMaps⟩ : Loaded (Loc K))) = .ok m := h
    rw [hset]
    cases hm : setModelData x.nn i with
    | error e => rw [hm] at h; cases h
    | ok d =>
      rw [hm] at h
      obtain rfl := Except.ok.inj h
      exact buildCss_scale k hk x cfg d l (hopt _ (hstat d hm) l hl)
  · intro cs cs' h s f hf
    exact output_scale k hk x o.faults o.dirExists cs cs' s h f hf

/-! ## Higher levels -/

theorem consistent_raise (d : K) (i : Inputs K) (h : Consistent i) : Consistent (Inputs.raise d i) := by
  have hmap : ∀ e, (Inputs.raise d i).map = .ok e → ∃ m, i.map = .ok m ∧ e = { m with faces := { m.faces with
      bedlevel := m.faces.bedlevel.map (· + d)
      waterlevel := m.faces.waterlevel.map (List.map (Option.map (· + d))) } } := by
    intro e he
    unfold Inputs.raise at he
    cases hm : i.map with
    | error e => rw [hm] at he; cases he
    | ok m => rw [hm] at he; exact ⟨m, rfl, (Except.ok.inj he).symm⟩
  constructor
  · intro e he
    obtain ⟨m, hm, rfl⟩ := hmap e he
    have c := h.map m hm
    exact ⟨c.y, c.area, by simpa using c.bedlevel, c.region, c.islake, c.waterdepth, by simpa using c.waterlevel, c.velocityX,
      c.velocityY, c.chezyMean, c.edgeY, c.edgeChezy⟩
  · intro e css r he hc hr
    obtain ⟨m, hm, rfl⟩ := hmap e he
    exact h.regions m css r hm hc hr
  · intro e r he hr
    obtain ⟨m, hm, rfl⟩ := hmap e he
    exact h.sections m r hm hr

theorem sameJobs_raise (d : K) (x : Tools K) (cfg : RunConfig K) (o : Surroundings) (i : Inputs K)
    (hb : ∀ y, x.bump (y + d) = x.bump y + d) (hr : ∀ z c h, x.release (z + d) (c + d) h = x.release z c h)
    (hopt : ∀ m, setModelData x.nn i = .ok m → ∀ l ∈ m.stations, RaisedOptimiser d (x.opt l.id) (x.opt l.id))
    (hm : ∀ m, setModelData x.nn i = .ok m → NoNodataIn d m) :
    SameJobs (jobOf x cfg i o) (jobOf x cfg (Inputs.raise d i) o) (fun l => l) (fun _ => ()) (fun _ => ()) (fun _ => False) := by
  have hset := setModelData_raise d x.nn i
  constructor
  · rfl
  · rfl
  · rfl
  · rfl
  · rfl
  · rfl
  · rfl
  · show (setModelData x.nn _).map _ = ((setModelData x.nn _).map _).map _
    rw [hset]
    cases setModelData x.nn i with
    | error e => rfl
    | ok m =>
      simp only [Except.map, List.map_id']
      rfl
  · intro m _ l _; rfl
  · intro m _ l _ _ _; exact storeData_sim _ _ _ _ _ _ rfl rfl rfl
  · intro m h h' l _ _ _; exact jobOf_storeMask _ _ _ _ _ _ _ _ h h' rfl l _ rfl _ _
  · intro m h l _ _
    show (match setModelData x.nn _ with | .error _ => 0 | .ok m => (getSelection x.sqrt m.faces m.edges l.id).x.length)
      = (match setModelData x.nn _ with | .error _ => 0 | .ok m => (getSelection x.sqrt m.faces m.edges l.id).x.length)
    rw [hset]
    cases setModelData x.nn i <;> rfl
  · intro m h l hl hv hfaces
    show (match setModelData x.nn _ with | .error e => Except.error e | .ok m => buildCss x cfg m l).map _
      = (match setModelData x.nn _ with | .error e => Except.error e | .ok m => buildCss x cfg m l).map _
    have h : (setModelData x.nn i).map (fun m => (⟨m.stations, m.nMaps⟩ : Loaded (Loc K))) = .ok m := h
    rw [hset]
    cases hmd : setModelData x.nn i with
    | error e => rw [hmd] at h; cases h
    | ok e =>
      rw [hmd] at h
      obtain rfl := Except.ok.inj h
      have hbu := buildCss_raise d x cfg e l (hopt e hmd l hl) hb hr (hm e hmd)
      show (buildCss x cfg (Model2d.raise d e) l).map _ = (buildCss x cfg e l).map _
      cases h1 : buildCss x cfg (Model2d.raise d e) l <;> cases h2 : buildCss x cfg e l <;> rw [h1, h2] at hbu
      · have := Except.error.inj hbu
        rw [this]
      · cases hbu
      · cases hbu
      · rfl
  · intro cs cs' h s f hf
    exact hf.elim

end Fm2prof

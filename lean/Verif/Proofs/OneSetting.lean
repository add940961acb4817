import Verif.Spec.OneSetting
import Verif.Proofs.ScaleRun
import Verif.Props.Pipeline

/-!
# Runs with one setting changed
-/

set_option linter.unusedSectionVars false

namespace Fm2prof.OneSettingProof

open Fm2prof Fm2prof.Spec Fm2prof.Props

/-! ## Blocks with other texts for other files -/

/-- Blocks of steps that do the same to a file. -/
inductive SameFor (f : Text) : List ExportStep → List ExportStep → Prop where
  | rest (xs ys : List ExportStep) : f ∉ blockFiles xs → f ∉ blockFiles ys → SameFor f xs ys
  | same (a : ExportStep) (xs ys : List ExportStep) : SameFor f xs ys → SameFor f (a :: xs) (a :: ys)
  | other (g t t' : Text) (r : Option PyErr) (xs ys : List ExportStep) : f ≠ g → SameFor f xs ys →
      SameFor f (.write g t r :: xs) (.write g t' r :: ys)

theorem SameFor.refl (f : Text) (xs : List ExportStep) : SameFor f xs xs := by
  induction xs with
  | nil => exact .rest _ _ (by simp [blockFiles]) (by simp [blockFiles])
  | cons a xs ih => exact .same a _ _ ih

theorem tryBlock_sameFor (w : WriteFaults) (f : Text) (xs ys : List ExportStep) (h : SameFor f xs ys) (s s' : Store) (hs : s f = s' f) :
    tryBlock w xs s f = tryBlock w ys s' f := by
  induction h generalizing s s' with
  | rest xs ys h1 h2 => rw [tryBlock_other w xs s f h1, tryBlock_other w ys s' f h2, hs]
  | same a xs ys _ ih =>
    obtain ⟨h1, h2⟩ := step_local w a s s' f hs
    rw [tryBlock, tryBlock]
    cases ha : a.run w s with
    | mk s₁ e₁ =>
      cases hb : a.run w s' with
      | mk s₂ e₂ =>
        rw [ha, hb] at h1 h2
        obtain rfl : e₁ = e₂ := h2
        cases e₁ with
        | none => exact ih s₁ s₂ h1
        | some e => exact h1
  | other g t t' r xs ys hg _ ih =>
    have hset : ∀ (s : Store) (t : Text), (s.set g t) f = s f := fun s t => if_neg hg
    rw [tryBlock, tryBlock]
    simp only [ExportStep.run, writeFile]
    cases w.refuses g with
    | true => exact hs
    | false =>
      simp only [Bool.false_eq_true, if_false]
      cases w.breaks g with
      | some u =>
        show (s.set g u) f = (s'.set g u) f
        rw [hset, hset, hs]
      | none =>
        cases r with
        | none => exact ih _ _ (by rw [hset, hset, hs])
        | some e =>
          show (s.set g t) f = (s'.set g t') f
          rw [hset, hset, hs]

theorem writeOutput_sameFor {C C' : Type} (w : WriteFaults) (x : Exporter C) (x' : Exporter C') (d : Bool) (cs : List C) (cs' : List C')
    (s : Store) (f : Text) (he : cs'.isEmpty = cs.isEmpty) (h1 : SameFor f (dimrBlock x cs) (dimrBlock x' cs'))
    (h2 : SameFor f (sobekBlock' x cs) (sobekBlock' x' cs')) (h3 : SameFor f (otherBlock x cs) (otherBlock x' cs')) :
    writeOutput w x d cs s f = writeOutput w x' d cs' s f := by
  unfold writeOutput
  rw [he]
  split
  · rfl
  · exact tryBlock_sameFor w f _ _ h3 _ _ (tryBlock_sameFor w f _ _ h2 _ _ (tryBlock_sameFor w f _ _ h1 _ _ rfl))

variable {K : Type} [Field K] [LinearOrder K] [IsStrictOrderedRing K] [FloorRing K]

/-! ## What the exporters use -/

/-- A cross-section without its profile, its sections and its summer dike. -/
def bare (c : ExportCss K) : ExportCss K :=
  { name := c.name, branch := c.branch, chainage := c.chainage, z := [], flowWidth := [], totalWidth := [], crestLevel := 0
    extraFlowArea := 0, extraTotalArea := 0, extraTotalVolume := 0, floodplainBase := none, widths := ⟨0, 0, 0⟩, tables := c.tables
    volumes := ⟨[], [], [], [], [], [], [], [], [], [], []⟩ }

/-- A cross-section without its sections and its summer dike. -/
def shape (c : ExportCss K) : ExportCss K :=
  { bare c with z := c.z, flowWidth := c.flowWidth, totalWidth := c.totalWidth }

theorem bare_shape (c : ExportCss K) : bare (shape c) = bare c := rfl

theorem harmoniseOuts_map (g : ExportCss K → ExportCss K) (h1 : ∀ c, (g c).tables = c.tables)
    (h2 : ∀ c t, g { c with tables := t } = { g c with tables := t }) (os : List (ExportCss K)) :
    harmoniseOuts (os.map g) = (harmoniseOuts os).map g := by
  unfold harmoniseOuts
  rw [List.map_zipWith, List.zipWith_map_left, List.map_map]
  have e : (fun c : ExportCss K => c.tables) ∘ g = fun c => c.tables := funext h1
  rw [e]
  congr 1
  funext c t
  exact (h2 c t).symm

theorem outs_same (g : ExportCss K → ExportCss K) (h1 : ∀ c, (g c).tables = c.tables)
    (h2 : ∀ c t, g { c with tables := t } = { g c with tables := t }) (cs cs' : List (Finished K))
    (h : cs'.map (fun c => g c.out) = cs.map fun c => g c.out) :
    ((harmoniseCss cs').map (·.out)).map g = ((harmoniseCss cs).map (·.out)).map g := by
  have e : ∀ l : List (Finished K), (l.map fun c => g c.out) = (l.map (·.out)).map g := by intro l; rw [List.map_map]; rfl
  rw [harmoniseCss_outs, harmoniseCss_outs, ← harmoniseOuts_map g h1 h2, ← harmoniseOuts_map g h1 h2, ← e, ← e, h]

theorem locations_bare (ft : FloatText K) (os : List (ExportCss K)) : exportLocations ft (os.map bare) = exportLocations ft os := by
  unfold exportLocations
  rw [List.map_map]
  rfl

theorem roughness_bare (ft : FloatText K) (sig : K → Text) (os : List (ExportCss K)) (sec : Text) :
    exportRoughness ft sig (os.map bare) sec = exportRoughness ft sig os sec := by
  have h1 : ∀ (s : Text) (os : List (ExportCss K)) (seen : List Text), branchSec s seen (os.map bare) = branchSec s seen os := by
    intro s os
    induction os with
    | nil => intro seen; rfl
    | cons c cs ih =>
      intro seen
      rw [List.map_cons, branchSec, branchSec]
      simp only [ih]
      rfl
  have h2 : ∀ (s : Text) (os : List (ExportCss K)), definitionSec ft sig s (os.map bare) = definitionSec ft sig s os := by
    intro s os
    induction os with
    | nil => rfl
    | cons c cs ih =>
      rw [List.map_cons, definitionSec, definitionSec]
      simp only [ih]
      rfl
  unfold exportRoughness
  rw [h1, h2]

theorem sobekRoughness_bare (ft : FloatText K) (os : List (ExportCss K)) : sobekRoughnessText ft (os.map bare) = sobekRoughnessText ft os := by
  have h1 : (os.map bare).flatMap (fun c => c.tables.map (·.1)) = os.flatMap fun c => c.tables.map (·.1) := by
    rw [List.flatMap_map]; rfl
  have h2 : sobekRoughnessRows ft (os.map bare) = sobekRoughnessRows ft os := by
    funext sec
    unfold sobekRoughnessRows
    rw [List.map_map]
    rfl
  unfold sobekRoughnessText
  rw [h1, h2]

theorem testText_shape (ft : FloatText K) (os : List (ExportCss K)) : testText ft (os.map shape) = testText ft os := by
  have hf : (os.map shape).flatMap (fun c => (List.range c.z.length).map fun i => (c, i))
      = (os.flatMap fun c => (List.range c.z.length).map fun i => (c, i)).map fun p => (shape p.1, p.2) := by
    rw [List.map_flatMap, List.flatMap_map]
    simp only [List.map_map]
    rfl
  unfold testText
  rw [hf, linesUntil_map (testLine ft) (testLine ft) (fun p => (shape p.1, p.2)) (fun _ => rfl)]

theorem dimr_bare (x x' : Tools K) (hft : x'.ft = x.ft) (hsig : x'.sig = x.sig) (cs cs' : List (Finished K))
    (h : (cs'.map (·.out)).map bare = (cs.map (·.out)).map bare) (f : Text) (hf : f ≠ "CrossSectionDefinitions.ini".toList) :
    SameFor f (dimrBlock (exporterOf x) cs) (dimrBlock (exporterOf x') cs') := by
  have e1 : exportLocations x.ft (cs'.map (·.out)) = exportLocations x.ft (cs.map (·.out)) := by
    rw [← locations_bare, h, locations_bare]
  have e2 : ∀ sec, exportRoughness x.ft x.sig (cs'.map (·.out)) sec = exportRoughness x.ft x.sig (cs.map (·.out)) sec := by
    intro sec
    rw [← roughness_bare, h, roughness_bare]
  have e3 : (cs'.flatMap fun c => c.out.tables.map (·.1)) = cs.flatMap fun c => c.out.tables.map (·.1) := by
    have e : ∀ l : List (Finished K), (l.flatMap fun c => c.out.tables.map (·.1)) =
        ((l.map (·.out)).map bare).flatMap fun c => c.tables.map (·.1) := by
      intro l; rw [List.flatMap_map, List.flatMap_map]; rfl
    rw [e, e, h]
  have hr : roughnessStep (exporterOf x') cs' = roughnessStep (exporterOf x) cs := by
    funext sec
    unfold roughnessStep exporterOf
    simp only [hft, hsig, e2]
  unfold dimrBlock
  rw [hr]
  unfold exporterOf
  simp only [hft, e1, e3]
  exact .same _ _ _ (.other _ _ _ _ _ _ hf (.refl _ _))

theorem sobek_bare (x x' : Tools K) (hft : x'.ft = x.ft) (cs cs' : List (Finished K))
    (h : (cs'.map (·.out)).map bare = (cs.map (·.out)).map bare) (f : Text) (hf : f ≠ "geometry.csv".toList) :
    SameFor f (sobekBlock' (exporterOf x) cs) (sobekBlock' (exporterOf x') cs') := by
  have e : sobekRoughnessText x.ft (cs'.map (·.out)) = sobekRoughnessText x.ft (cs.map (·.out)) := by
    rw [← sobekRoughness_bare, h, sobekRoughness_bare]
  unfold sobekBlock' exporterOf
  simp only [hft, e]
  exact .other _ _ _ _ _ _ hf (.refl _ _)

theorem isEmpty_of_map {α β : Type} (g : α → β) (l l' : List α) (h : l'.map g = l.map g) : l'.isEmpty = l.isEmpty := by
  cases l <;> cases l' <;> first | rfl | cases h

/-! ## The geometry -/

theorem geometry_steps (opt : Optimiser K) (cfg : PipelineConfig K) (bump : K → K) (release : K → K → K → K)
    (log : Nat → Option PyErr) (len : K) (centre : Nat) (cv : ControlVolume K) (css : Css K)
    (h : buildCrossSectionGeometry opt cfg bump release log len centre cv = .ok css) :
    ∃ b g, buildGeometry cfg.build len centre cv = .ok b ∧
      checkRequirements bump cfg.minimumWidth { z := b.z, totalWidth := b.totalWidth, flowWidth := b.flowWidth } = .ok g ∧
      css = reduceCss cfg.maximumPoints { performCorrection opt cfg release log (Css.ofBuilt len b) with
        raw := { b with z := g.z, totalWidth := g.totalWidth, flowWidth := g.flowWidth } } := by
  unfold buildCrossSectionGeometry at h
  cases hbg : buildGeometry cfg.build len centre cv with
  | error e => rw [hbg] at h; cases h
  | ok b =>
    rw [hbg] at h
    obtain ⟨hraw, hz, ht, hf⟩ := performCorrection_raw opt cfg release log (Css.ofBuilt len b)
    simp only [checkCss, hraw] at h
    cases hcr : checkRequirements bump cfg.minimumWidth
        { z := (Css.ofBuilt len b).raw.z, totalWidth := (Css.ofBuilt len b).raw.totalWidth
          flowWidth := (Css.ofBuilt len b).raw.flowWidth } with
    | error e => rw [hcr] at h; cases h
    | ok g =>
      rw [hcr] at h
      exact ⟨b, g, rfl, hcr, (Except.ok.inj h).symm⟩

theorem reduceCss_rest (n : Int) (c : Css K) :
    (reduceCss n c).raw = c.raw ∧ (reduceCss n c).crestLevel = c.crestLevel ∧ (reduceCss n c).extraFlowArea = c.extraFlowArea ∧
    (reduceCss n c).extraTotalArea = c.extraTotalArea ∧ (reduceCss n c).extraTotalVolume = c.extraTotalVolume ∧
    (reduceCss n c).totalVolumeCorrected = c.totalVolumeCorrected ∧ (reduceCss n c).flowVolumeCorrected = c.flowVolumeCorrected := by
  unfold reduceCss
  split <;> exact ⟨rfl, rfl, rfl, rfl, rfl, rfl, rfl⟩

theorem reduceCss_profile (n : Int) (c c' : Css K) (hr : c'.raw = c.raw) (hz : c'.z = c.z) (ht : c'.totalWidth = c.totalWidth)
    (hf : c'.flowWidth = c.flowWidth) :
    (reduceCss n c').z = (reduceCss n c).z ∧ (reduceCss n c').totalWidth = (reduceCss n c).totalWidth ∧
    (reduceCss n c').flowWidth = (reduceCss n c).flowWidth := by
  unfold reduceCss
  rw [hr]
  split
  · exact ⟨hz, ht, hf⟩
  · exact ⟨rfl, rfl, rfl⟩

/-! ## Another treatment of summer dikes -/

theorem css_dike (x : Tools K) (opt : Text → Optimiser K) (log : Text → Nat → Option PyErr) (cfg : RunConfig K) (on : Bool) (method : Int)
    (height tolerance : K) (m : Model2d K) (l : Loc K) (c c' : Finished K) (h : buildCss x cfg m l = .ok c)
    (h' : buildCss { x with opt := opt, log := log } (RunConfig.withSummerdike on method height tolerance cfg) m l = .ok c') :
    shape c'.out = shape c.out ∧ c'.out.widths = c.out.widths := by
  obtain ⟨g1, g2, -, -, -, -, g3, g4, g5, g6, g7, g8, -, -⟩ := buildCss_ok x cfg m l c h
  obtain ⟨k1, k2, -, -, -, -, k3, k4, k5, k6, k7, k8, -, -⟩ := buildCss_ok _ _ m l c' h'
  obtain ⟨b, g, e1, e2, e3⟩ := geometry_steps _ _ _ _ _ _ _ _ _ g1
  obtain ⟨b', g', f1, f2, f3⟩ := geometry_steps _ _ _ _ _ _ _ _ _ k1
  have f1 : buildGeometry cfg.pipeline.build l.length (centreOf x.nn (getSelection x.sqrt m.faces m.edges l.id) l)
    (controlVolumeOf m.nMaps (getSelection x.sqrt m.faces m.edges l.id)) = .ok b' := f1
  rw [e1] at f1
  obtain rfl := Except.ok.inj f1
  have f2 : checkRequirements x.bump cfg.pipeline.minimumWidth ⟨b.z, b.totalWidth, b.flowWidth⟩ = .ok g' := f2
  rw [e2] at f2
  obtain rfl := Except.ok.inj f2
  obtain ⟨-, p1, p2, p3⟩ := performCorrection_raw (x.opt l.id) cfg.pipeline x.release (x.log l.id) (Css.ofBuilt l.length b)
  obtain ⟨-, q1, q2, q3⟩ := performCorrection_raw (opt l.id) (RunConfig.withSummerdike on method height tolerance cfg).pipeline x.release
    (log l.id) (Css.ofBuilt l.length b)
  have hraw : c'.css.raw = c.css.raw := by
    rw [e3, f3, (reduceCss_rest _ _).1, (reduceCss_rest _ _).1]
  have hprof : c'.css.z = c.css.z ∧ c'.css.totalWidth = c.css.totalWidth ∧ c'.css.flowWidth = c.css.flowWidth := by
    rw [e3, f3]
    exact reduceCss_profile _ _ _ rfl (q1.trans p1.symm) (q2.trans p2.symm) (q3.trans p3.symm)
  obtain ⟨level, a1, a2, a3, a4⟩ := assignRoughness_ok cfg m _ _ _ _ _ _ g2
  obtain ⟨level', b1, b2, b3, b4⟩ := assignRoughness_ok _ m _ _ _ _ _ _ k2
  rw [hraw, a1] at b1
  obtain rfl := Option.some.inj b1
  have htab : c'.out.tables = c.out.tables := Except.ok.inj (b2.symm.trans a2)
  rw [hraw, hprof.2.2] at b3
  refine ⟨?_, Except.ok.inj (b3.symm.trans a3)⟩
  unfold shape bare
  rw [g3, g4, g5, g6, g7, g8, k3, k4, k5, k6, k7, k8, hprof.1, hprof.2.1, hprof.2.2, htab]

/-! ## Another smallest width -/

theorem css_width (x : Tools K) (cfg : RunConfig K) (width : K) (m : Model2d K) (l : Loc K) (c c' : Finished K)
    (h : buildCss x cfg m l = .ok c) (h' : buildCss x (RunConfig.withMinimumWidth width cfg) m l = .ok c') :
    bare c'.out = bare c.out ∧ c'.out.crestLevel = c.out.crestLevel ∧ c'.out.extraFlowArea = c.out.extraFlowArea ∧
      c'.out.extraTotalArea = c.out.extraTotalArea ∧ c'.out.floodplainBase = c.out.floodplainBase := by
  obtain ⟨g1, g2, d1, d2, d3, d4, g3, g4, g5, g6, g7, g8, -, -⟩ := buildCss_ok x cfg m l c h
  obtain ⟨k1, k2, u1, u2, u3, u4, k3, k4, k5, k6, k7, k8, -, -⟩ := buildCss_ok _ _ m l c' h'
  obtain ⟨b, g, e1, e2, e3⟩ := geometry_steps _ _ _ _ _ _ _ _ _ g1
  obtain ⟨b', g', f1, f2, f3⟩ := geometry_steps _ _ _ _ _ _ _ _ _ k1
  have f1 : buildGeometry cfg.pipeline.build l.length (centreOf x.nn (getSelection x.sqrt m.faces m.edges l.id) l)
    (controlVolumeOf m.nMaps (getSelection x.sqrt m.faces m.edges l.id)) = .ok b' := f1
  rw [e1] at f1
  obtain rfl := Except.ok.inj f1
  have hpc : performCorrection (x.opt l.id) (RunConfig.withMinimumWidth width cfg).pipeline x.release (x.log l.id) (Css.ofBuilt l.length b) =
    performCorrection (x.opt l.id) cfg.pipeline x.release (x.log l.id) (Css.ofBuilt l.length b) := rfl
  rw [hpc] at f3
  have r := reduceCss_rest cfg.pipeline.maximumPoints { performCorrection (x.opt l.id) cfg.pipeline x.release (x.log l.id) (Css.ofBuilt l.length b) with
    raw := { b with z := g.z, totalWidth := g.totalWidth, flowWidth := g.flowWidth } }
  have r' := reduceCss_rest (RunConfig.withMinimumWidth width cfg).pipeline.maximumPoints
    { performCorrection (x.opt l.id) cfg.pipeline x.release (x.log l.id) (Css.ofBuilt l.length b) with
      raw := { b with z := g'.z, totalWidth := g'.totalWidth, flowWidth := g'.flowWidth } }
  rw [← e3] at r
  rw [← f3] at r'
  obtain ⟨r1, r2, r3, r4, r5, -, -⟩ := r
  obtain ⟨s1, s2, s3, s4, s5, -, -⟩ := r'
  have hcrest : c'.css.crestLevel = c.css.crestLevel := s2.trans r2.symm
  have hzr : c'.css.raw.zRoughness = c.css.raw.zRoughness := by rw [r1, s1]
  obtain ⟨level, a1, a2, a3, a4⟩ := assignRoughness_ok cfg m _ _ _ _ _ _ g2
  obtain ⟨level', b1, b2, b3, b4⟩ := assignRoughness_ok _ m _ _ _ _ _ _ k2
  rw [hzr, a1] at b1
  obtain rfl := Option.some.inj b1
  have htab : c'.out.tables = c.out.tables := Except.ok.inj (b2.symm.trans a2)
  refine ⟨?_, ?_, ?_, ?_, ?_⟩
  · unfold bare
    rw [g3, g4, g5, k3, k4, k5, htab]
  · exact Option.some.inj (u1.symm.trans (hcrest.trans d1))
  · exact Option.some.inj (u2.symm.trans ((s3.trans r3.symm).trans d2))
  · exact Option.some.inj (u3.symm.trans ((s4.trans r4.symm).trans d3))
  · rw [a4, b4, hcrest]
    rfl

/-! ## Another number of points -/

/-- A cross-section without its published profile. -/
def unprofiled (c : Finished K) : Finished K :=
  { c with
    out := { c.out with z := [], flowWidth := [], totalWidth := [] }
    css := { c.css with z := [], flowWidth := [], totalWidth := [], isReduced := false } }

theorem volumesText_unprofiled (ft : FloatText K) (cs : List (Finished K)) :
    volumesText ft (cs.map unprofiled) = volumesText ft cs := by
  have hf : (cs.map unprofiled).flatMap (fun c => (List.range c.css.raw.z.length).map fun i => (c, i))
      = (cs.flatMap fun c => (List.range c.css.raw.z.length).map fun i => (c, i)).map fun p => (unprofiled p.1, p.2) := by
    rw [List.map_flatMap, List.flatMap_map]
    simp only [List.map_map]
    rfl
  unfold volumesText
  rw [hf, linesUntil_map (volumesLine ft) (volumesLine ft) (fun p => (unprofiled p.1, p.2)) (fun _ => rfl)]

theorem harmoniseCss_unprofiled (cs : List (Finished K)) :
    harmoniseCss (cs.map unprofiled) = (harmoniseCss cs).map unprofiled := by
  unfold harmoniseCss
  rw [List.map_map, List.map_zipWith, List.zipWith_map_left]
  rfl

theorem reduced (n : Nat) (hn : 2 ≤ n) (g : Geometry K) (hlen : g.totalWidth.length = g.z.length ∧ g.flowWidth.length = g.z.length)
    (c : Css K) (hr : c.raw.z = g.z ∧ c.raw.totalWidth = g.totalWidth ∧ c.raw.flowWidth = g.flowWidth) :
    ∃ g', reducePoints (n : Int) g = .ok g' ∧
      reduceCss n c = { c with z := g'.z, totalWidth := g'.totalWidth, flowWidth := g'.flowWidth, isReduced := true } := by
  obtain ⟨g', keep, h, -⟩ := C14_sub_profile n g hlen
  refine ⟨g', h, ?_⟩
  unfold reduceCss
  rw [hr.1, hr.2.1, hr.2.2]
  rw [h]

theorem css_points (x : Tools K) (hb : ∀ y, y < x.bump y) (cfg : RunConfig K) (n n' : Nat) (hn : 2 ≤ n) (hn' : 2 ≤ n')
    (m : Model2d K) (l : Loc K) (c c' : Finished K)
    (h : buildCss x (RunConfig.withPoints n cfg) m l = .ok c) (h' : buildCss x (RunConfig.withPoints n' cfg) m l = .ok c') :
    unprofiled c' = unprofiled c ∧ ∃ g gn gn' : Geometry K, 2 ≤ g.z.length ∧
      (g.totalWidth.length = g.z.length ∧ g.flowWidth.length = g.z.length) ∧
      reducePoints (n : Int) g = .ok gn ∧ reducePoints (n' : Int) g = .ok gn' ∧
      c.out.z = gn.z ∧ c.out.totalWidth = gn.totalWidth ∧ c.out.flowWidth = gn.flowWidth ∧
      c'.out.z = gn'.z ∧ c'.out.totalWidth = gn'.totalWidth ∧ c'.out.flowWidth = gn'.flowWidth := by
  obtain ⟨g1, g2, d1, d2, d3, d4, g3, g4, g5, g6, g7, g8, g9, g10⟩ := buildCss_ok x _ m l c h
  obtain ⟨k1, k2, u1, u2, u3, u4, k3, k4, k5, k6, k7, k8, k9, k10⟩ := buildCss_ok x _ m l c' h'
  obtain ⟨b, g, e1, e2, e3⟩ := geometry_steps _ _ _ _ _ _ _ _ _ g1
  obtain ⟨b', g', f1, f2, f3⟩ := geometry_steps _ _ _ _ _ _ _ _ _ k1
  have e1' : buildGeometry cfg.pipeline.build l.length (centreOf x.nn (getSelection x.sqrt m.faces m.edges l.id) l)
    (controlVolumeOf m.nMaps (getSelection x.sqrt m.faces m.edges l.id)) = .ok b := e1
  have f1 : buildGeometry cfg.pipeline.build l.length (centreOf x.nn (getSelection x.sqrt m.faces m.edges l.id) l)
    (controlVolumeOf m.nMaps (getSelection x.sqrt m.faces m.edges l.id)) = .ok b' := f1
  rw [e1'] at f1
  obtain rfl := Except.ok.inj f1
  have e2' : checkRequirements x.bump cfg.pipeline.minimumWidth ⟨b.z, b.totalWidth, b.flowWidth⟩ = .ok g := e2
  have f2 : checkRequirements x.bump cfg.pipeline.minimumWidth ⟨b.z, b.totalWidth, b.flowWidth⟩ = .ok g' := f2
  rw [e2'] at f2
  obtain rfl := Except.ok.inj f2
  obtain ⟨acc, hacc, hl⟩ := C07_arrays_aligned e1'
  obtain ⟨hv, hgl⟩ := C03_requirements_give_valid_profile x.bump hb cfg.pipeline.minimumWidth _ g
    ⟨by show b.totalWidth.length = b.z.length; omega, by show b.flowWidth.length = b.z.length; omega⟩ e2'
  have h2 : 2 ≤ g.z.length := by
    rw [hgl]
    show 2 ≤ b.z.length
    omega
  generalize hpc : ({ performCorrection (x.opt l.id) cfg.pipeline x.release (x.log l.id) (Css.ofBuilt l.length b) with
      raw := { b with z := g.z, totalWidth := g.totalWidth, flowWidth := g.flowWidth } } : Css K) = base at *
  have e3 : c.css = reduceCss (n : Int) base := by rw [← hpc]; exact e3
  have f3 : c'.css = reduceCss (n' : Int) base := by rw [← hpc]; exact f3
  have hraw : base.raw.z = g.z ∧ base.raw.totalWidth = g.totalWidth ∧ base.raw.flowWidth = g.flowWidth := by
    rw [← hpc]; exact ⟨rfl, rfl, rfl⟩
  obtain ⟨gn, r1, r2⟩ := reduced n hn g hv.lengths base hraw
  obtain ⟨gn', s1, s2⟩ := reduced n' hn' g hv.lengths base hraw
  rw [r2] at e3
  rw [s2] at f3
  have hlast : c'.css.flowWidth.getLast? = c.css.flowWidth.getLast? := by
    rw [e3, f3]
    obtain ⟨-, -, -, -, -, q⟩ := C14_endpoints_kept n hn g gn hv.lengths r1
    obtain ⟨-, -, -, -, -, q'⟩ := C14_endpoints_kept n' hn' g gn' hv.lengths s1
    exact q'.trans q.symm
  obtain ⟨level, a1, a2, a3, a4⟩ := assignRoughness_ok _ m _ _ _ _ _ _ g2
  obtain ⟨level', b1, b2, b3, b4⟩ := assignRoughness_ok _ m _ _ _ _ _ _ k2
  have hzr : c'.css.raw = c.css.raw := by rw [e3, f3]
  have hcrest : c'.css.crestLevel = c.css.crestLevel := by rw [e3, f3]
  rw [hzr, a1] at b1
  obtain rfl := Option.some.inj b1
  have htab : c'.out.tables = c.out.tables := Except.ok.inj (b2.symm.trans a2)
  have hwid : c'.out.widths = c.out.widths := by
    unfold computeSectionWidths coverFlowWidth at a3 b3
    rw [hlast, hzr] at b3
    exact Except.ok.inj (b3.symm.trans a3)
  have hbase : c'.out.floodplainBase = c.out.floodplainBase := by
    rw [a4, b4, hcrest]
    rfl
  have v1 : c'.out.crestLevel = c.out.crestLevel := Option.some.inj (u1.symm.trans (hcrest.trans d1))
  have v2 : c'.out.extraFlowArea = c.out.extraFlowArea :=
    Option.some.inj (u2.symm.trans ((show c'.css.extraFlowArea = c.css.extraFlowArea by rw [e3, f3]).trans d2))
  have v3 : c'.out.extraTotalArea = c.out.extraTotalArea :=
    Option.some.inj (u3.symm.trans ((show c'.css.extraTotalArea = c.css.extraTotalArea by rw [e3, f3]).trans d3))
  have v4 : c'.out.extraTotalVolume = c.out.extraTotalVolume :=
    Option.some.inj (u4.symm.trans ((show c'.css.extraTotalVolume = c.css.extraTotalVolume by rw [e3, f3]).trans d4))
  have v5 : c'.out.volumes = c.out.volumes := by
    rw [g9, k9, e3, f3]
    rfl
  refine ⟨?_, g, gn, gn', h2, hv.lengths, r1, s1, ?_, ?_, ?_, ?_, ?_, ?_⟩
  · have hc : ({ c'.css with z := [], flowWidth := [], totalWidth := [], isReduced := false } : Css K) =
        { c.css with z := [], flowWidth := [], totalWidth := [], isReduced := false } := by
      rw [e3, f3]
    have ho : ({ c'.out with z := [], flowWidth := [], totalWidth := [] } : ExportCss K) =
        { c.out with z := [], flowWidth := [], totalWidth := [] } := by
      rw [ExportCss.mk.injEq]
      exact ⟨k3.trans g3.symm, k4.trans g4.symm, k5.trans g5.symm, rfl, rfl, rfl, v1, v2, v3, v4, hbase, hwid, htab, v5⟩
    unfold unprofiled
    rw [hc, ho, k10, g10]
  · rw [g6, e3]
  · rw [g8, e3]
  · rw [g7, e3]
  · rw [k6, f3]
  · rw [k8, f3]
  · rw [k7, f3]

theorem sorted_sublist (a b : List Nat) (ha : a.Pairwise (· < ·)) (hb : b.Pairwise (· < ·)) (h : a ⊆ b) : a.Sublist b := by
  induction b generalizing a with
  | nil => rw [List.subset_nil.1 h]
  | cons y b ih =>
    cases a with
    | nil => exact List.nil_sublist _
    | cons x a =>
      have hx := List.pairwise_cons.1 ha
      have hy := List.pairwise_cons.1 hb
      by_cases e : x = y
      · subst e
        refine List.Sublist.cons_cons _ (ih a hx.2 hy.2 fun z hz => ?_)
        rcases List.mem_cons.1 (h (List.mem_cons_of_mem _ hz)) with e | e
        · have := hx.1 z hz; omega
        · exact e
      · have hxb : x ∈ b := (List.mem_cons.1 (h List.mem_cons_self)).resolve_left e
        refine List.Sublist.cons _ (ih (x :: a) ha hy.2 fun z hz => ?_)
        rcases List.mem_cons.1 (h hz) with e' | e'
        · have hyx := hy.1 x hxb
          rcases List.mem_cons.1 hz with e2 | e2
          · omega
          · have := hx.1 z e2; omega
        · exact e'

theorem map_kept (f : K → Option K) (l l' : List K) (keep : List Nat) (h : l'.map some = keep.map (l[·]?)) :
    l'.map f = keep.map fun i => (l[i]?).bind f := by
  have : l'.map f = (l'.map some).map (·.bind f) := by rw [List.map_map]; rfl
  rw [this, h, List.map_map]
  rfl

theorem getLast?_zip {α β : Type} (a : List α) (b : List β) (h : a.length = b.length) :
    (a.zip b).getLast? = a.getLast?.bind fun x => b.getLast?.map fun y => (x, y) := by
  rw [List.getLast?_eq_getElem?, List.getLast?_eq_getElem?, List.getLast?_eq_getElem?, List.length_zip, ← h, Nat.min_self]
  cases ha : a[a.length - 1]? with
  | none =>
    rw [Option.bind_none, List.getElem?_eq_none]
    have := List.getElem?_eq_none_iff.1 ha
    rw [List.length_zip]
    omega
  | some x =>
    rw [Option.bind_some]
    cases hb : b[a.length - 1]? with
    | none =>
      rw [Option.map_none, List.getElem?_eq_none]
      have := List.getElem?_eq_none_iff.1 hb
      rw [List.length_zip]
      omega
    | some y => exact List.getElem?_zip_eq_some.2 ⟨ha, hb⟩

theorem head?_zip' {α β : Type} (a : List α) (b : List β) :
    (a.zip b).head? = a.head?.bind fun x => b.head?.map fun y => (x, y) := by
  cases a <;> cases b <;> rfl

theorem definition_points (ft : FloatText K) (c c' : Finished K) (n n' : Nat) (hn : 2 ≤ n) (hnn : n ≤ n') (hs : unprofiled c' = unprofiled c)
    (h : ∃ g gn gn' : Geometry K, 2 ≤ g.z.length ∧
      (g.totalWidth.length = g.z.length ∧ g.flowWidth.length = g.z.length) ∧
      reducePoints (n : Int) g = .ok gn ∧ reducePoints (n' : Int) g = .ok gn' ∧
      c.out.z = gn.z ∧ c.out.totalWidth = gn.totalWidth ∧ c.out.flowWidth = gn.flowWidth ∧
      c'.out.z = gn'.z ∧ c'.out.totalWidth = gn'.totalWidth ∧ c'.out.flowWidth = gn'.flowWidth) :
    FewerPoints (definitionOf ft c.out) (definitionOf ft c'.out) := by
  obtain ⟨g, gn, gn', h2, hlen, r, r', e1, e2, e3, e4, e5, e6⟩ := h
  obtain ⟨gm, kn, gm', km, q, q', s1, s2, hk⟩ := C15_nested n n' hnn g hlen h2
  obtain rfl := Except.ok.inj (r.symm.trans q)
  obtain rfl := Except.ok.inj (r'.symm.trans q')
  obtain ⟨p1, p2, p3, p4⟩ := s1
  obtain ⟨t1, t2, t3, t4⟩ := s2
  have l1 : gn.z.length = kn.length := by have := congrArg List.length p2; simpa using this
  have l2 : gn.totalWidth.length = kn.length := by have := congrArg List.length p3; simpa using this
  have l3 : gn.flowWidth.length = kn.length := by have := congrArg List.length p4; simpa using this
  have l4 : gn'.z.length = km.length := by have := congrArg List.length t2; simpa using this
  have l5 : gn'.totalWidth.length = km.length := by have := congrArg List.length t3; simpa using this
  have l6 : gn'.flowWidth.length = km.length := by have := congrArg List.length t4; simpa using this
  obtain ⟨a1, a2, a3, a4, a5, a6⟩ := C14_endpoints_kept n hn g gn hlen r
  obtain ⟨b1, b2, b3, b4, b5, b6⟩ := C14_endpoints_kept n' (by omega) g gn' hlen r'
  have hp : ∀ (k : List Nat) (z t f : List K), z.map some = k.map (g.z[·]?) → t.map some = k.map (g.totalWidth[·]?) →
      f.map some = k.map (g.flowWidth[·]?) →
      ((z.map (as4 ft)).zip (f.map (as4 ft))).zip (t.map (as4 ft)) =
        k.map fun i => (((g.z[i]?).bind (as4 ft), (g.flowWidth[i]?).bind (as4 ft)), (g.totalWidth[i]?).bind (as4 ft)) := by
    intro k z t f h1 h2 h3
    rw [map_kept (as4 ft) _ _ _ h1, map_kept (as4 ft) _ _ _ h2, map_kept (as4 ft) _ _ _ h3, List.zip_map', List.zip_map']
  have ho : ({ c'.out with z := [], flowWidth := [], totalWidth := [] } : ExportCss K) =
      { c.out with z := [], flowWidth := [], totalWidth := [] } := congrArg (fun c => c.out) hs
  rw [ExportCss.mk.injEq] at ho
  obtain ⟨o1, o2, o3, -, -, -, o4, o5, o6, o7, o8, o9, o10, o11⟩ := ho
  have hP : CssDef.points (definitionOf ft c.out) =
      ((gn.z.map (as4 ft)).zip (gn.flowWidth.map (as4 ft))).zip (gn.totalWidth.map (as4 ft)) := by
    unfold CssDef.points definitionOf
    rw [e1, e2, e3]
  have hP' : CssDef.points (definitionOf ft c'.out) =
      ((gn'.z.map (as4 ft)).zip (gn'.flowWidth.map (as4 ft))).zip (gn'.totalWidth.map (as4 ft)) := by
    unfold CssDef.points definitionOf
    rw [e4, e5, e6]
  refine ⟨⟨o1, ?_, ?_, ?_, o8⟩, ?_, ?_, ?_, ?_, ?_, ?_, ?_⟩
  · show as4 ft c'.out.crestLevel = as4 ft c.out.crestLevel
    rw [o4]
  · show some c'.out.extraFlowArea = some c.out.extraFlowArea
    rw [o5]
  · show as4 ft c'.out.extraTotalArea = as4 ft c.out.extraTotalArea
    rw [o6]
  · show as4 ft c'.out.widths.main = as4 ft c.out.widths.main
    rw [o9]
  · show as4 ft c'.out.widths.floodplain1 = as4 ft c.out.widths.floodplain1
    rw [o9]
  · rw [hP, hP', hp kn _ _ _ p2 p3 p4, hp km _ _ _ t2 t3 t4]
    exact (sorted_sublist kn km p1 t1 hk).map _
  · rw [hP, hP', head?_zip', head?_zip', head?_zip', head?_zip']
    simp only [List.head?_map, a1, a3, a5, b1, b3, b5]
  · have hl : ∀ (z t f : List K) (k : List Nat), z.length = k.length → t.length = k.length → f.length = k.length →
        (((z.map (as4 ft)).zip (f.map (as4 ft))).zip (t.map (as4 ft))).getLast? =
          ((z.map (as4 ft)).getLast?.bind fun x => (f.map (as4 ft)).getLast?.map fun y => (x, y)).bind fun x =>
            (t.map (as4 ft)).getLast?.map fun y => (x, y) := by
      intro z t f k h1 h2 h3
      rw [getLast?_zip _ _ (by simp [h1, h2, h3]), getLast?_zip _ _ (by simp [h1, h3])]
    rw [hP, hP', hl _ _ _ kn l1 l2 l3, hl _ _ _ km l4 l5 l6]
    simp only [List.getLast?_map, a2, a4, a6, b2, b4, b6]
  · rw [hP]
    show (c.out.z.map (as4 ft)).length = _
    simp [e1, l1, l2, l3]
  · rw [hP']
    show (c'.out.z.map (as4 ft)).length = _
    simp [e4, l4, l5, l6]

end Fm2prof.OneSettingProof

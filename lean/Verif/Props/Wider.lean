import Verif.Spec.Wider
import Verif.Proofs.Wider
import Verif.Props.Refined

/-!
# Properties of runs with a larger smallest width

C202: a larger smallest width changes only the parts of the profiles that are narrower.
-/

set_option linter.unusedSectionVars false

namespace Fm2prof.Props

open Fm2prof Spec WiderProof

variable {K : Type} [Field K] [LinearOrder K] [IsStrictOrderedRing K] [FloorRing K]

/-- **C202.** Two runs that differ in `MinimumTotalWidth` only. The tables that can be read from the volume file agree in the levels, the
2D volumes and areas and the volumes of the profile. A total or flow width of the run with the larger minimum is that of the other run,
or it is larger and not more than that minimum, apart from the small steps with which equal widths are kept apart. -/
theorem C202_minimum_width (x : Tools K) (hb : ∀ y, y < x.bump y) (hmono : Monotone x.bump) (cfg : RunConfig K) (w : K)
    (hlo : cfg.pipeline.minimumWidth ≤ w) (i : Inputs K) (hi : Consistent i) (o : Surroundings) (hdir : o.dirExists = true)
    (hw : ∀ f, IsResult f → Sound o.faults f) (overwrite : Bool) (s : Store)
    (h : (run (jobOf x cfg i o) overwrite s).2 = .ok true)
    (h' : (run (jobOf x (RunConfig.withMinimumWidth w cfg) i o) overwrite s).2 = .ok true)
    (m : Model2d K) (hm : setModelData x.nn i = .ok m) (xs : List (Loc K)) (hx : Requested cfg.cssSelection m.stations xs)
    (hn : ∀ l ∈ xs, CsvName l.id ∧ l.id ≠ "id".toList) (hd : (xs.map (·.id)).Nodup)
    (hfloat : ∀ l ∈ xs, ∀ c, buildCss x cfg m l = .ok c → VolumeTable.Floats x.ft (volumeTableOf c.css))
    (hfloat' : ∀ l ∈ xs, ∀ c, buildCss x (RunConfig.withMinimumWidth w cfg) m l = .ok c → VolumeTable.Floats x.ft (volumeTableOf c.css))
    (l : Loc K) (hl : l ∈ xs) (hu : Usable m l) :
    ∃ text text' v v', (run (jobOf x cfg i o) overwrite s).1 "volumes.csv".toList = some text ∧
      (run (jobOf x (RunConfig.withMinimumWidth w cfg) i o) overwrite s).1 "volumes.csv".toList = some text' ∧
      readVolumes x.ft text l.id = .ok v ∧ readVolumes x.ft text' l.id = .ok v' ∧
      { v' with tw1d := v.tw1d, fw1d := v.fw1d } = v ∧ v.z ≠ [] ∧
      ∃ total total' flow flow' : List K, v.tw1d = total.map some ∧ v'.tw1d = total'.map some ∧ v.fw1d = flow.map some ∧
        v'.fw1d = flow'.map some ∧ total.length = v.z.length ∧ flow.length = v.z.length ∧ RaisedTo x.bump w total total' ∧
        RaisedTo x.bump w flow flow' := by
  obtain ⟨text, c, t1, t2, t3⟩ := run_volumes x hb cfg i hi o hdir hw overwrite s h m hm xs hx hn hd hfloat l hl hu
  obtain ⟨text', c', u1, u2, u3⟩ := run_volumes x hb (RunConfig.withMinimumWidth w cfg) i hi o hdir hw overwrite s h' m hm xs hx hn hd
    hfloat' l hl hu
  obtain ⟨r1, r2, r3⟩ := table_wider x hb hmono cfg w hlo m l c c' t3 u3
  obtain ⟨hg, -⟩ := buildCss_ok x cfg m l c t3
  obtain ⟨-, -, hrect⟩ := volumeTable_rectangular _ _ _ _ _ _ _ _ _ hg
  obtain ⟨text2, b, v, e1, e2, e3, e4, -⟩ := C99_volumes x hb cfg i hi o hdir hw overwrite s h m hm xs hx hn hd hfloat l hl hu
  rw [t1] at e1
  obtain rfl := Option.some.inj e1
  rw [t2] at e2
  obtain rfl := Except.ok.inj e2
  refine ⟨text, text', _, _, t1, u1, t2, u2, r1, ?_, c.css.raw.totalWidth, c'.css.raw.totalWidth, c.css.raw.flowWidth, c'.css.raw.flowWidth,
    rfl, rfl, rfl, rfl, ?_, ?_, r2, r3⟩
  · intro h0
    rw [h0] at e4
    obtain ⟨acc, -, e5, -⟩ := C07_arrays_aligned e3
    rw [e5] at e4
    have : 0 = 10 + acc.length := e4
    omega
  · have := hrect _ (by simp [VolumeTable.columns] : (volumeTableOf c.css).tw1d ∈ _)
    rw [← this]
    exact (List.length_map _).symm
  · have := hrect _ (by simp [VolumeTable.columns] : (volumeTableOf c.css).fw1d ∈ _)
    rw [← this]
    exact (List.length_map _).symm

/-! ## A sample run -/

private noncomputable def sixWith (cfg : RunConfig ℚ) (m : Model2d ℚ) : Bool :=
  m.stations.all fun l => (buildCss idleTools cfg m l).toOption.all fun c =>
    (VolumeTable.columns (volumeTableOf c.css)).all fun col => col.all fun v => v.all fun v => decide (roundTo 6 v = v)

private theorem floats_with (cfg : RunConfig ℚ) (m : Model2d ℚ) (h : sixWith cfg m = true) (l : Loc ℚ) (hl : l ∈ m.stations)
    (c : Finished ℚ) (hc : buildCss idleTools cfg m l = .ok c) : VolumeTable.Floats idleTools.ft (volumeTableOf c.css) := by
  have h := List.all_eq_true.1 h l hl
  rw [hc] at h
  have h : ((VolumeTable.columns (volumeTableOf c.css)).all fun col => col.all fun v =>
      v.all fun v => decide (roundTo 6 v = v)) = true := h
  exact fun col hcol v hv => of_decide_eq_true (p := roundTo 6 _ = _) (List.all_eq_true.1 (List.all_eq_true.1 h col hcol) _ hv)

private noncomputable def widthsWith (cfg : RunConfig ℚ) : Option (List ℚ × List ℚ) :=
  (buildCss idleTools cfg (sampleLoaded sampleSectionInputs) loc₆).toOption.map fun c => (c.css.raw.totalWidth, c.css.raw.flowWidth)

/-- The sample run with a smallest width that some of the widths are below and others above. -/
example : (∀ y, y < idleTools.bump y) ∧ Monotone idleTools.bump ∧ sampleRunConfig.pipeline.minimumWidth ≤ 40 ∧
    Consistent sampleSectionInputs ∧ sampleSurroundings.dirExists = true ∧ (∀ f, IsResult f → Sound sampleSurroundings.faults f) ∧
    (run (jobOf idleTools sampleRunConfig sampleSectionInputs sampleSurroundings) false noFiles).2 = .ok true ∧
    (run (jobOf idleTools (RunConfig.withMinimumWidth 40 sampleRunConfig) sampleSectionInputs sampleSurroundings) false noFiles).2 = .ok true ∧
    ∃ m, setModelData idleTools.nn sampleSectionInputs = .ok m ∧ Requested sampleRunConfig.cssSelection m.stations m.stations ∧
      (∀ l ∈ m.stations, CsvName l.id ∧ l.id ≠ "id".toList) ∧ (m.stations.map (·.id)).Nodup ∧
      (∀ l ∈ m.stations, ∀ c, buildCss idleTools sampleRunConfig m l = .ok c → VolumeTable.Floats idleTools.ft (volumeTableOf c.css)) ∧
      (∀ l ∈ m.stations, ∀ c, buildCss idleTools (RunConfig.withMinimumWidth 40 sampleRunConfig) m l = .ok c →
        VolumeTable.Floats idleTools.ft (volumeTableOf c.css)) ∧
      ∃ l ∈ m.stations, Usable m l := by
  refine ⟨?_, ?_, by decide +kernel, sampleSectionInputs_consistent, rfl, fun _ _ => ⟨rfl, rfl⟩, ok_of₆ (by decide +kernel),
    ok_of₆ (by decide +kernel), sampleLoaded sampleSectionInputs, loaded_of₆ _ (by decide +kernel), .inl ⟨rfl, rfl⟩, by decide +kernel,
    by decide +kernel, floats_with _ _ (by decide +kernel), floats_with _ _ (by decide +kernel), loc₆, by decide +kernel, by decide +kernel⟩
  · intro y
    show y < y + 1 / 1000
    linarith
  · intro y y' h
    show y + 1 / 1000 ≤ y' + 1 / 1000
    linarith

/-- There the lowest width is raised and the highest is not. -/
example : ((widthsWith sampleRunConfig).bind fun p => p.1.head?) ≠
      ((widthsWith (RunConfig.withMinimumWidth 40 sampleRunConfig)).bind fun p => p.1.head?) ∧
    ((widthsWith sampleRunConfig).bind fun p => p.1.getLast?).isSome = true ∧
    ((widthsWith sampleRunConfig).bind fun p => p.1.getLast?) =
      ((widthsWith (RunConfig.withMinimumWidth 40 sampleRunConfig)).bind fun p => p.1.getLast?) := by
  refine ⟨?_, ?_, ?_⟩
  · decide +kernel
  · decide +kernel
  · decide +kernel

end Fm2prof.Props

import Verif.Proofs.Stricter
import Verif.Props.Conveyance

/-!
# Properties of runs with stricter criteria for the conveying part

C196: with higher velocity thresholds the conveying part does not grow.
-/

set_option linter.unusedSectionVars false

namespace Fm2prof.Props

open Fm2prof Spec OneSettingProof ConveyanceProof StricterProof

variable {K : Type} [Field K] [LinearOrder K] [IsStrictOrderedRing K] [FloorRing K]

private theorem forall₂_pair'' {α β γ : Type} {R : α → β → Prop} {S : α → γ → Prop} {as : List α} {bs : List β} {cs : List γ}
    (h : List.Forall₂ R as bs) (h' : List.Forall₂ S as cs) : List.Forall₂ (fun b c => ∃ a ∈ as, R a b ∧ S a c) bs cs := by
  induction h generalizing cs with
  | nil => cases h'; exact .nil
  | @cons a b as bs hr _ ih =>
    cases h' with
    | cons hs hs' =>
      refine .cons ⟨a, List.mem_cons_self, hr, hs⟩ ((ih hs').imp fun b c => ?_)
      rintro ⟨a', ha, h⟩
      exact ⟨a', List.mem_cons_of_mem _ ha, h⟩

/-- **C196, areas.** The thresholds for the velocity are raised, or one of them is. When both runs report success, the volume files
give for each location as many levels, and at each of them a flow area that is not larger than before. The optimiser may give
anything. -/
theorem C196_areas (x : Tools K) (hs : ∀ y, 0 ≤ y → 0 ≤ x.sqrt y) (hb : ∀ y, y < x.bump y) (opt : Text → Optimiser K)
    (log : Text → Nat → Option PyErr) (cfg : RunConfig K) (absolute relative : K)
    (ha : cfg.pipeline.build.absoluteVelocityThreshold ≤ absolute) (hr : cfg.pipeline.build.relativeVelocityThreshold ≤ relative)
    (i : Inputs K) (hi : Consistent i) (o : Surroundings) (hdir : o.dirExists = true) (hw : ∀ f, IsResult f → Sound o.faults f)
    (overwrite : Bool) (s : Store) (h : (run (jobOf x cfg i o) overwrite s).2 = .ok true)
    (h' : (run (jobOf { x with opt := opt, log := log } (RunConfig.withThresholds absolute relative cfg) i o) overwrite s).2 = .ok true)
    (m : Model2d K) (hm : setModelData x.nn i = .ok m) (harea : ∀ a ∈ m.faces.area, 0 ≤ a)
    (xs : List (Loc K)) (hq : Requested cfg.cssSelection m.stations xs)
    (hn : ∀ l ∈ xs, CsvName l.id ∧ l.id ≠ "id".toList) (hnd : (xs.map (·.id)).Nodup)
    (hfloat : ∀ l ∈ xs, ∀ c, buildCss x cfg m l = .ok c → VolumeTable.Floats x.ft (volumeTableOf c.css))
    (hfloat' : ∀ l ∈ xs, ∀ c, buildCss { x with opt := opt, log := log } (RunConfig.withThresholds absolute relative cfg) m l = .ok c →
      VolumeTable.Floats x.ft (volumeTableOf c.css))
    (l : Loc K) (hl : l ∈ xs) (hu : Usable m l) (hlen : 0 ≤ l.length) :
    ∃ text text' v v', (run (jobOf x cfg i o) overwrite s).1 "volumes.csv".toList = some text ∧
      (run (jobOf { x with opt := opt, log := log } (RunConfig.withThresholds absolute relative cfg) i o) overwrite s).1
        "volumes.csv".toList = some text' ∧
      readVolumes x.ft text l.id = .ok v ∧ readVolumes x.ft text' l.id = .ok v' ∧ v.z ≠ [] ∧ v'.z.length = v.z.length ∧
      v.fa2d.length = v.z.length ∧ List.Forall₂ AtMost v'.fa2d v.fa2d := by
  obtain ⟨text, b, v, t1, t2, t3, t4, -, -, -, t7, -⟩ := C99_volumes x hb cfg i hi o hdir hw overwrite s h m hm xs hq hn hnd hfloat l hl hu
  obtain ⟨text', b', v', u1, u2, u3, u4, -, -, -, u7, -⟩ := C99_volumes { x with opt := opt, log := log } hb
    (RunConfig.withThresholds absolute relative cfg) i hi o hdir hw overwrite s h' m hm xs hq hn hnd hfloat' l hl hu
  have u3 : buildGeometry (RunConfig.withThresholds absolute relative cfg).pipeline.build l.length
    (centreOf x.nn (getSelection x.sqrt m.faces m.edges l.id) l)
    (controlVolumeOf m.nMaps (getSelection x.sqrt m.faces m.edges l.id)) = .ok b' := u3
  obtain ⟨cv, ca⟩ := cells_nonneg x.sqrt hs m harea l.id
  obtain ⟨q1, -⟩ := build_stricter cfg.pipeline.build (RunConfig.withThresholds absolute relative cfg).pipeline.build rfl rfl rfl rfl ha hr
    l.length hlen _ _ cv ca b b' t3 u3
  have ht : total b' = total b := build_still cfg.pipeline.build (RunConfig.withThresholds absolute relative cfg).pipeline.build rfl rfl
    l.length _ (controlVolumeOf m.nMaps (getSelection x.sqrt m.faces m.edges l.id))
    (controlVolumeOf m.nMaps (getSelection x.sqrt m.faces m.edges l.id)) rfl rfl b b' t3 u3
  have e1 : b'.z = b.z := congrArg Total.z ht
  obtain ⟨acc, -, a1, -, -, -, a2, -⟩ := C07_arrays_aligned t3
  refine ⟨text, text', v, v', t1, u1, t2, u2, ?_, by rw [t4, u4, e1], by rw [t7, List.length_map, t4, a1, a2], ?_⟩
  · intro e
    rw [e] at t4
    have : b.z.length = 0 := t4.symm
    omega
  · rw [t7, u7, List.forall₂_map_left_iff, List.forall₂_map_right_iff]
    exact q1.imp fun a b h => ⟨a, b, rfl, rfl, h⟩

/-- **C196, widths.** Likewise both definition files have the same levels and total widths, and a flow width that is not larger
than before, but for the repair of repeated widths: that adds a small step `b` at most once for each level, so that the sum is at most
`b` times ten more than the number of maps. Missing: without this allowance, which is false of the code, see
`C196_widths_violated`. -/
theorem C196_widths_partial (x : Tools K) (hs : ∀ y, 0 ≤ y → 0 ≤ x.sqrt y) (b : K) (hb0 : 0 ≤ b) (hb : ∀ y, x.bump y = y + b)
    (opt : Text → Optimiser K) (log : Text → Nat → Option PyErr) (cfg : RunConfig K) (absolute relative : K)
    (ha : cfg.pipeline.build.absoluteVelocityThreshold ≤ absolute) (hr : cfg.pipeline.build.relativeVelocityThreshold ≤ relative)
    (i : Inputs K) (hi : Consistent i) (o : Surroundings) (hdir : o.dirExists = true) (hw : ∀ f, IsResult f → Sound o.faults f)
    (overwrite : Bool) (s : Store) (h : (run (jobOf x cfg i o) overwrite s).2 = .ok true)
    (h' : (run (jobOf { x with opt := opt, log := log } (RunConfig.withThresholds absolute relative cfg) i o) overwrite s).2 = .ok true)
    (m : Model2d K) (hm : setModelData x.nn i = .ok m) (harea : ∀ a ∈ m.faces.area, 0 ≤ a)
    (xs : List (Loc K)) (hq : Requested cfg.cssSelection m.stations xs) (hu : ∃ l ∈ xs, Usable m l)
    (hn : ∀ l ∈ xs, PlainName l.id) (hlen : ∀ l ∈ xs, 0 ≤ l.length)
    (hfull : ∀ l ∈ xs, ∀ c, buildCss x cfg m l = .ok c → FullNumbers x.ft c)
    (hfull' : ∀ l ∈ xs, ∀ c, buildCss { x with opt := opt, log := log } (RunConfig.withThresholds absolute relative cfg) m l = .ok c →
      FullNumbers x.ft c) :
    ∃ text text' defs defs', (run (jobOf x cfg i o) overwrite s).1 "CrossSectionDefinitions.ini".toList = some text ∧
      (run (jobOf { x with opt := opt, log := log } (RunConfig.withThresholds absolute relative cfg) i o) overwrite s).1
        "CrossSectionDefinitions.ini".toList = some text' ∧
      readDefinitions x.ft text = .ok defs ∧ readDefinitions x.ft text' = .ok defs' ∧ defs ≠ [] ∧
      List.Forall₂ (NoWider x.ft (((m.nMaps + 10 : Nat) : K) * b)) defs defs' := by
  obtain ⟨cs, text, hcs, ht, hdef⟩ := run_definitions x cfg i hi o hdir hw overwrite s h m hm xs hq hu hn hfull
  obtain ⟨cs', text', hcs', ht', hdef'⟩ := run_definitions { x with opt := opt, log := log }
    (RunConfig.withThresholds absolute relative cfg) i hi o hdir hw overwrite s h' m hm xs hq hu hn hfull'
  refine ⟨text, text', _, _, ht, ht', hdef, hdef', ?_, ?_⟩
  · obtain ⟨l, hl, hlu⟩ := hu
    have hmem : l ∈ xs.filter fun l => decide (Usable m l) := List.mem_filter.2 ⟨hl, by simpa using hlu⟩
    intro e
    have h1 := congrArg List.length e
    rw [List.length_map, ← hcs.length_eq] at h1
    have := List.length_pos_of_mem hmem
    rw [h1] at this
    cases this
  · rw [List.forall₂_map_left_iff, List.forall₂_map_right_iff]
    refine (forall₂_pair'' hcs hcs').imp fun c c' => ?_
    rintro ⟨l, hl, h1, h2⟩
    have hl := (List.mem_filter.1 hl).1
    obtain ⟨e1, e2, e3, -⟩ := css_flow x opt log cfg cfg.pipeline.build.conveyanceDetectionMethod absolute relative
      cfg.pipeline.build.extrapolateStorage m m m.faces.velocityX m.faces.velocityY rfl rfl rfl rfl rfl rfl l c c' h1 h2
    obtain ⟨w, -⟩ := css_stricter x hs b hb0 hb opt log cfg absolute relative ha hr m harea l (hlen l hl) c c' h1 h2
    have en : c'.out.name = c.out.name := by have e := congrArg (fun c : ExportCss K => c.name) e1; exact e
    refine ⟨?_, ?_⟩
    · unfold SameTotal definitionOf
      simp only [en, e2, e3, and_self]
    · show List.Forall₂ _ (c'.out.flowWidth.map (as4 x.ft)) (c.out.flowWidth.map (as4 x.ft))
      rw [List.forall₂_map_left_iff, List.forall₂_map_right_iff]
      exact w.imp fun a b h => ⟨a, b, rfl, rfl, h⟩

/-! ## A sample -/

/-- The sample with a small face on the floodplain that conveys slowly at the highest level, the other faces there do not. -/
def narrowMap : MapData ℚ :=
  let kinds : List Nat := [0, 1, 2, 0, 3, 2, 0, 3, 2, 0, 0, 2, 2]
  let level : List ℚ := [2, 3, 5 / 2, 5]
  { sampleMap with
    faces := { sampleMap.faces with
      area := kinds.map fun k => if k = 0 then 100 else if k = 1 then 9 / 200 else if k = 3 then 300 else 50
      velocityX := kinds.map fun k => level.map fun z =>
        some (if k = 1 then (if z = 5 then 1 / 4 else 0) else if k = 3 then 0 else 1) } }

/-- The inputs with this map. -/
def narrowInputs : Inputs ℚ := { sampleSectionInputs with map := .ok narrowMap }

/-- The configuration with thresholds that let this face convey. -/
def looseConfig : RunConfig ℚ := RunConfig.withThresholds (1 / 50) (3 / 4) sampleRunConfig

/-- A stricter one. -/
def strictConfig : RunConfig ℚ := RunConfig.withThresholds (1 / 2) (3 / 4) sampleRunConfig

theorem ok_of₅ {α : Type} {e : Except PyErr α} {a : α} (h : e.toOption = some a) : e = .ok a := by
  cases e with
  | error e => cases h
  | ok b => exact congrArg Except.ok (Option.some.inj h)

theorem loaded_of₅ (i : Inputs ℚ) (h : (setModelData firstNearest i).toOption.isSome = true) :
    setModelData firstNearest i = .ok (sampleLoaded i) := by
  unfold sampleLoaded
  cases hm : setModelData firstNearest i with
  | error e => rw [hm] at h; cases h
  | ok m => rfl

noncomputable def shortWith₅ (cfg : RunConfig ℚ) : Bool :=
  (sampleLoaded narrowInputs).stations.all fun l => (buildCss idleTools cfg (sampleLoaded narrowInputs) l).toOption.all fun c =>
    decide (roundTo 6 c.out.extraFlowArea = c.out.extraFlowArea) && c.out.floodplainBase.all fun b => decide (roundTo 6 b = b)

theorem full_of₅ (cfg : RunConfig ℚ) (h : shortWith₅ cfg = true) (l : Loc ℚ) (hl : l ∈ (sampleLoaded narrowInputs).stations)
    (c : Finished ℚ) (hc : buildCss idleTools cfg (sampleLoaded narrowInputs) l = .ok c) : FullNumbers idleTools.ft c := by
  have h := List.all_eq_true.1 h l hl
  rw [hc] at h
  have h : (decide (roundTo 6 c.out.extraFlowArea = c.out.extraFlowArea) &&
          c.out.floodplainBase.all fun b => decide (roundTo 6 b = b)) = true := h
  rw [Bool.and_eq_true] at h
  refine ⟨of_decide_eq_true (p := roundTo 6 _ = _) h.1, fun b hb => ?_⟩
  have h2 := h.2
  rw [hb] at h2
  exact of_decide_eq_true (p := roundTo 6 _ = _) h2

noncomputable def sixWith₅ (cfg : RunConfig ℚ) : Bool :=
  (sampleLoaded narrowInputs).stations.all fun l => (buildCss idleTools cfg (sampleLoaded narrowInputs) l).toOption.all fun c =>
    (VolumeTable.columns (volumeTableOf c.css)).all fun col => col.all fun v => v.all fun v => decide (roundTo 6 v = v)

theorem floats_of₅ (cfg : RunConfig ℚ) (h : sixWith₅ cfg = true) (l : Loc ℚ) (hl : l ∈ (sampleLoaded narrowInputs).stations)
    (c : Finished ℚ) (hc : buildCss idleTools cfg (sampleLoaded narrowInputs) l = .ok c) :
    VolumeTable.Floats idleTools.ft (volumeTableOf c.css) := by
  have h := List.all_eq_true.1 h l hl
  rw [hc] at h
  have h : ((VolumeTable.columns (volumeTableOf c.css)).all fun col => col.all fun v =>
      v.all fun v => decide (roundTo 6 v = v)) = true := h
  exact fun col hcol v hv => of_decide_eq_true (p := roundTo 6 _ = _) (List.all_eq_true.1 (List.all_eq_true.1 h col hcol) _ hv)

theorem narrow_consistent : Consistent narrowInputs := by
  have hc := sampleSectionInputs_consistent
  have hm := hc.map sampleMap rfl
  refine ⟨?_, ?_, ?_⟩
  · rintro d h
    obtain rfl : narrowMap = d := Except.ok.inj h
    exact { hm with area := rfl, velocityX := rfl }
  · rintro d css r h h1 h2
    obtain rfl : narrowMap = d := Except.ok.inj h
    exact hc.regions sampleMap css r rfl h1 h2
  · rintro d r h h1
    obtain rfl : narrowMap = d := Except.ok.inj h
    exact hc.sections sampleMap r rfl h1

/-- Both runs come to their end, and a location has a profile. -/
example : (∀ y, 0 ≤ y → 0 ≤ idleTools.sqrt y) ∧ (∀ y, y < idleTools.bump y) ∧ (∀ y, idleTools.bump y = y + 1 / 1000) ∧
    looseConfig.pipeline.build.absoluteVelocityThreshold < strictConfig.pipeline.build.absoluteVelocityThreshold ∧
    strictConfig = RunConfig.withThresholds (1 / 2) (3 / 4) looseConfig ∧ Consistent narrowInputs ∧
    sampleSurroundings.dirExists = true ∧ (∀ f, IsResult f → Sound sampleSurroundings.faults f) ∧
    (run (jobOf idleTools looseConfig narrowInputs sampleSurroundings) false noFiles).2 = .ok true ∧
    (run (jobOf idleTools strictConfig narrowInputs sampleSurroundings) false noFiles).2 = .ok true ∧
    ∃ m, setModelData idleTools.nn narrowInputs = .ok m ∧ (∀ a ∈ m.faces.area, 0 ≤ a) ∧
      Requested looseConfig.cssSelection m.stations m.stations ∧ (∃ l ∈ m.stations, Usable m l) ∧
      (∀ l ∈ m.stations, PlainName l.id) ∧ (∀ l ∈ m.stations, CsvName l.id ∧ l.id ≠ "id".toList) ∧
      (m.stations.map (·.id)).Nodup ∧ (∀ l ∈ m.stations, 0 ≤ l.length) ∧
      (∀ l ∈ m.stations, ∀ c, buildCss idleTools looseConfig m l = .ok c → FullNumbers idleTools.ft c) ∧
      (∀ l ∈ m.stations, ∀ c, buildCss idleTools strictConfig m l = .ok c → FullNumbers idleTools.ft c) ∧
      (∀ l ∈ m.stations, ∀ c, buildCss idleTools looseConfig m l = .ok c → VolumeTable.Floats idleTools.ft (volumeTableOf c.css)) ∧
      (∀ l ∈ m.stations, ∀ c, buildCss idleTools strictConfig m l = .ok c → VolumeTable.Floats idleTools.ft (volumeTableOf c.css)) := by
  refine ⟨fun y h => h, ?_, fun y => rfl, by decide +kernel, rfl, narrow_consistent, rfl, fun _ _ => ⟨rfl, rfl⟩,
    ok_of₅ (by decide +kernel), ok_of₅ (by decide +kernel), sampleLoaded narrowInputs,
    loaded_of₅ _ (by decide +kernel), by decide +kernel, .inl ⟨rfl, rfl⟩,
    ⟨⟨"rhine_100".toList, 5, 0, 10, "rhine".toList, 100⟩, by decide +kernel, by decide +kernel⟩, by decide +kernel, by decide +kernel,
    by decide +kernel, by decide +kernel, full_of₅ _ (by decide +kernel), full_of₅ _ (by decide +kernel),
    floats_of₅ _ (by decide +kernel), floats_of₅ _ (by decide +kernel)⟩
  intro y
  show y < y + 1 / 1000
  linarith

/-- **C196 is false of the flow widths themselves.** There is a map for which a higher threshold gives a profile with the same levels
and a larger flow width at the highest one of them: with the lower threshold a small face makes the widths increase, with the higher
one the repair of repeated widths does, and adds more. -/
theorem C196_widths_violated : ∃ (x : Tools ℚ) (cfg : RunConfig ℚ) (absolute relative : ℚ) (i : Inputs ℚ) (o : Surroundings),
    cfg.pipeline.build.absoluteVelocityThreshold ≤ absolute ∧ cfg.pipeline.build.relativeVelocityThreshold ≤ relative ∧
    Consistent i ∧ (run (jobOf x cfg i o) false noFiles).2 = .ok true ∧
    (run (jobOf x (RunConfig.withThresholds absolute relative cfg) i o) false noFiles).2 = .ok true ∧
    ∃ text text' d d', (run (jobOf x cfg i o) false noFiles).1 "CrossSectionDefinitions.ini".toList = some text ∧
      (run (jobOf x (RunConfig.withThresholds absolute relative cfg) i o) false noFiles).1 "CrossSectionDefinitions.ini".toList =
        some text' ∧
      readDefinitions x.ft text = .ok [d] ∧ readDefinitions x.ft text' = .ok [d'] ∧ SameTotal d d' ∧
      ∃ w w', d.flowWidth.getLast? = some (some w) ∧ d'.flowWidth.getLast? = some (some w') ∧ w < w' := by
  have hu : ∃ l ∈ (sampleLoaded narrowInputs).stations, Usable (sampleLoaded narrowInputs) l :=
    ⟨⟨"rhine_100".toList, 5, 0, 10, "rhine".toList, 100⟩, by decide +kernel, by decide +kernel⟩
  have hm := loaded_of₅ narrowInputs (by decide +kernel)
  have h1 : (run (jobOf idleTools looseConfig narrowInputs sampleSurroundings) false noFiles).2 = .ok true := ok_of₅ (by decide +kernel)
  have h2 : (run (jobOf idleTools strictConfig narrowInputs sampleSurroundings) false noFiles).2 = .ok true := ok_of₅ (by decide +kernel)
  refine ⟨idleTools, looseConfig, 1 / 2, 3 / 4, narrowInputs, sampleSurroundings, by decide +kernel, by decide +kernel,
    narrow_consistent, h1, h2, ?_⟩
  obtain ⟨cs, text, hcs, ht, hdef⟩ := run_definitions idleTools looseConfig narrowInputs narrow_consistent sampleSurroundings rfl
    (fun _ _ => ⟨rfl, rfl⟩) false noFiles h1 _ hm _ (.inl ⟨rfl, rfl⟩) hu (by decide +kernel) (full_of₅ _ (by decide +kernel))
  obtain ⟨cs', text', hcs', ht', hdef'⟩ := run_definitions idleTools strictConfig narrowInputs narrow_consistent sampleSurroundings rfl
    (fun _ _ => ⟨rfl, rfl⟩) false noFiles h2 _ hm _ (.inl ⟨rfl, rfl⟩) hu (by decide +kernel) (full_of₅ _ (by decide +kernel))
  have hone : (sampleLoaded narrowInputs).stations.filter (fun l => decide (Usable (sampleLoaded narrowInputs) l)) =
      [⟨"rhine_100".toList, 5, 0, 10, "rhine".toList, 100⟩] := by decide +kernel
  rw [hone] at hcs hcs'
  have hw : ((buildCss idleTools looseConfig (sampleLoaded narrowInputs) ⟨"rhine_100".toList, 5, 0, 10, "rhine".toList, 100⟩).toOption.bind
      fun c => (definitionOf idleTools.ft c.out).flowWidth.getLast?) = some (some (750045 / 10000)) := by decide +kernel
  have hw' : ((buildCss idleTools strictConfig (sampleLoaded narrowInputs) ⟨"rhine_100".toList, 5, 0, 10, "rhine".toList, 100⟩).toOption.bind
      fun c => (definitionOf idleTools.ft c.out).flowWidth.getLast?) = some (some (75005 / 1000)) := by decide +kernel
  cases hcs with
  | cons hc hn =>
    cases hn
    cases hcs' with
    | cons hc' hn' =>
      cases hn'
      rw [hc] at hw
      rw [hc'] at hw'
      obtain ⟨e1, e2, e3, -⟩ := css_flow idleTools idleTools.opt idleTools.log looseConfig
        looseConfig.pipeline.build.conveyanceDetectionMethod (1 / 2) (3 / 4) looseConfig.pipeline.build.extrapolateStorage
        (sampleLoaded narrowInputs) (sampleLoaded narrowInputs) (sampleLoaded narrowInputs).faces.velocityX
        (sampleLoaded narrowInputs).faces.velocityY rfl rfl rfl rfl rfl rfl _ _ _ hc hc'
      refine ⟨text, text', _, _, ht, ht', hdef, hdef', ?_, _, _, hw, hw', by norm_num⟩
      have en := congrArg (fun c : ExportCss ℚ => c.name) e1
      unfold SameTotal definitionOf
      simp only [e2, e3, and_true]
      exact en

end Fm2prof.Props

import Verif.Proofs.Extrapolate
import Verif.Props.Roomier
import Verif.Props.Stricter

/-!
# Properties of runs with and without storage below the first level

C205: `ExtrapolateStorage` matters for the flow part of the ten lowest points only.
-/

set_option linter.unusedSectionVars false

namespace Fm2prof.Props

open Fm2prof Spec OneSettingProof ConveyanceProof StricterProof ExtrapolateProof

variable {K : Type} [Field K] [LinearOrder K] [IsStrictOrderedRing K] [FloorRing K]

private theorem forall₂_pair₅ {α β γ : Type} {R : α → β → Prop} {S : α → γ → Prop} {as : List α} {bs : List β} {cs : List γ}
    (h : List.Forall₂ R as bs) (h' : List.Forall₂ S as cs) : List.Forall₂ (fun b c => ∃ a ∈ as, R a b ∧ S a c) bs cs := by
  induction h generalizing cs with
  | nil => cases h'; exact .nil
  | @cons a b as bs hr _ ih =>
    cases h' with
    | cons hs hs' =>
      refine .cons ⟨a, List.mem_cons_self, hr, hs⟩ ((ih hs').imp fun b c => ?_)
      rintro ⟨a', ha, h⟩
      exact ⟨a', List.mem_cons_of_mem _ ha, h⟩

/-- **C205, the geometry.** The profiles of one control volume with `ExtrapolateStorage` (`b`) and without it (`b'`). Levels, wet areas,
total widths, total volumes and 2D flow volumes are the same, and flow areas and flow widths of all points but the ten lowest. At these
ten, without the setting the whole wet area conveys; with it the flow area is the smaller one of this area and the flow area of the
first map. The 1D flow volumes with the setting are not larger than without it. -/
theorem C205_geometry (cfg : BuildConfig K) (len : K) (hlen : 0 ≤ len) (centre : Nat) (raw : ControlVolume K)
    (hd : ∀ c, raw.cells[centre]? = some c → ∀ t d, c.depth t = some d → 0 ≤ d) (b b' : Built K)
    (h : buildGeometry { cfg with extrapolateStorage := true } len centre raw = .ok b)
    (h' : buildGeometry { cfg with extrapolateStorage := false } len centre raw = .ok b') :
    b'.z = b.z ∧ b'.wetArea = b.wetArea ∧ b'.totalWidth = b.totalWidth ∧ b'.totalVolume2d = b.totalVolume2d ∧
      b'.totalVolume1d = b.totalVolume1d ∧ b'.flowVolume2d = b.flowVolume2d ∧ b'.flowArea.drop 10 = b.flowArea.drop 10 ∧
      b'.flowWidth.drop 10 = b.flowWidth.drop 10 ∧ b'.flowArea.take 10 = b.wetArea.take 10 ∧
      b'.flowWidth.take 10 = b.totalWidth.take 10 ∧
      (∃ f0, b.flowArea[10]? = some f0 ∧ b.flowArea.take 10 = (b.wetArea.take 10).map (min · f0)) ∧
      List.Forall₂ (· ≤ ·) b.flowVolume1d b'.flowVolume1d := by
  obtain ⟨e1, e2, e3, e4, e5, e6, e7, e8⟩ := build_extrapolate cfg len hlen centre raw b b' h h'
  have ht := total_extrapolate cfg len centre raw b b' h h'
  have t1 : b'.z = b.z := congrArg Total.z ht
  have t2 : b'.totalWidth = b.totalWidth := congrArg Total.totalWidth ht
  have t3 : b'.wetArea = b.wetArea := congrArg Total.wetArea ht
  have t4 : b'.totalVolume2d = b.totalVolume2d := congrArg Total.totalVolume2d ht
  have t5 : b'.totalVolume1d = b.totalVolume1d := congrArg Total.totalVolume1d ht
  rw [t3] at e4
  rw [t2] at e5
  have hlong : 10 < b.flowArea.length := by
    obtain ⟨_, _, _, _, _, accs, _, _, _, _, _, _, _, _, _, fa, _⟩ := built_parts h
    rw [fa, List.length_append, List.length_map, List.length_map, ten_below, List.length_map, List.length_cons]
    omega
  refine ⟨t1, t3, t2, t4, t5, e1, e2, e3, e4, e5, ?_, ?_⟩
  · refine ⟨b.flowArea[10], List.getElem?_eq_getElem hlong, ?_⟩
    rw [e8 _ (List.getElem?_eq_getElem hlong), e4]
  · have hz : NonDecreasing b.z := by
      refine (C02_built_levels h fun d hdd y hy => ?_).1
      have hdd : (getTimeseries cfg.skipMaps raw).cells[centre]? = some d := hdd
      unfold getTimeseries at hdd
      rw [List.getElem?_map] at hdd
      cases hc : raw.cells[centre]? with
      | none => rw [hc] at hdd; cases hdd
      | some c =>
        rw [hc] at hdd
        obtain rfl := Option.some.inj hdd
        have hy : clean (c.depth (sliceStart raw.nMaps cfg.skipMaps + 0)) = some y := hy
        cases hq : c.depth (sliceStart raw.nMaps cfg.skipMaps + 0) with
        | none => rw [hq] at hy; cases hy
        | some w =>
          rw [hq] at hy
          unfold clean at hy
          simp only at hy
          split at hy
          · cases hy
          · obtain rfl := Option.some.inj hy
            exact hd c hc _ _ hq
    obtain ⟨-, -, -, -, -, -, -, -, -, -, -, -, -, -, -, -, -, -, -, -, -, f1⟩ := built_parts h
    obtain ⟨-, -, -, -, -, -, -, -, -, -, -, -, -, -, -, -, -, -, -, -, -, f1'⟩ := built_parts h'
    rw [f1, f1', t1]
    exact C08_flow_le_total _ _ _ _ hlen hz e7

/-- **C205, volumes.** Two runs that differ in `ExtrapolateStorage` only, and in what the optimiser gives. When both report success, the
volume files give for each location as many levels, the same 2D volumes, wet areas and total 1D volumes, and the same flow areas from
the eleventh level on. At the ten lowest levels the flow area without the setting is the wet area, and with it that area or the flow
area of the eleventh level, whichever is smaller. No 1D flow volume is larger with the setting than without it. -/
theorem C205_volumes (x : Tools K) (hb : ∀ y, y < x.bump y) (opt : Text → Optimiser K)
    (log : Text → Nat → Option PyErr) (cfg : RunConfig K) (i : Inputs K) (hi : Consistent i) (o : Surroundings)
    (hdir : o.dirExists = true) (hw : ∀ f, IsResult f → Sound o.faults f) (overwrite : Bool) (s : Store)
    (h : (run (jobOf x (RunConfig.withExtrapolation true cfg) i o) overwrite s).2 = .ok true)
    (h' : (run (jobOf { x with opt := opt, log := log } (RunConfig.withExtrapolation false cfg) i o) overwrite s).2 = .ok true)
    (m : Model2d K) (hm : setModelData x.nn i = .ok m) (hdepth : ∀ ds ∈ m.faces.waterdepth, ∀ d, some d ∈ ds → 0 ≤ d)
    (xs : List (Loc K)) (hq : Requested cfg.cssSelection m.stations xs)
    (hn : ∀ l ∈ xs, CsvName l.id ∧ l.id ≠ "id".toList) (hnd : (xs.map (·.id)).Nodup)
    (hfloat : ∀ l ∈ xs, ∀ c, buildCss x (RunConfig.withExtrapolation true cfg) m l = .ok c →
      VolumeTable.Floats x.ft (volumeTableOf c.css))
    (hfloat' : ∀ l ∈ xs, ∀ c, buildCss { x with opt := opt, log := log } (RunConfig.withExtrapolation false cfg) m l = .ok c →
      VolumeTable.Floats x.ft (volumeTableOf c.css))
    (l : Loc K) (hl : l ∈ xs) (hu : Usable m l) (hlen : 0 ≤ l.length) :
    ∃ text text' v v',
      (run (jobOf x (RunConfig.withExtrapolation true cfg) i o) overwrite s).1 "volumes.csv".toList = some text ∧
      (run (jobOf { x with opt := opt, log := log } (RunConfig.withExtrapolation false cfg) i o) overwrite s).1
        "volumes.csv".toList = some text' ∧
      readVolumes x.ft text l.id = .ok v ∧ readVolumes x.ft text' l.id = .ok v' ∧ v'.z.length = v.z.length ∧
      v.fa2d.length = v.z.length ∧ v'.tv2d = v.tv2d ∧ v'.fv2d = v.fv2d ∧ v'.wa2d = v.wa2d ∧ v'.tv1d = v.tv1d ∧
      v'.fa2d.drop 10 = v.fa2d.drop 10 ∧ v'.fa2d.take 10 = v.wa2d.take 10 ∧
      (∃ f0, v.fa2d[10]? = some (some f0) ∧ v.fa2d.take 10 = (v.wa2d.take 10).map (Option.map (min · f0))) ∧
      List.Forall₂ AtMost v.fv1d v'.fv1d := by
  have hl2 := loaded2d x.nn i hi m hm
  obtain ⟨text, b, v, t1, t2, t3, t4, t5, t6, t7, t8, t9, t10, -⟩ := C99_volumes x hb (RunConfig.withExtrapolation true cfg) i hi o hdir hw
    overwrite s h m hm xs hq hn hnd hfloat l hl hu
  obtain ⟨text', b', v', u1, u2, u3, u4, u5, u6, u7, u8, u9, u10, -⟩ := C99_volumes { x with opt := opt, log := log } hb
    (RunConfig.withExtrapolation false cfg) i hi o hdir hw overwrite s h' m hm xs hq hn hnd hfloat' l hl hu
  obtain ⟨r, c, h1, h2, h3⟩ := centre_cell x (RunConfig.withExtrapolation true cfg) m hl2 l b t3
  have hcd : ∀ t d, c.depth t = some d → 0 ≤ d := by
    intro t d hd
    unfold gridCell at h3
    cases g1 : m.faces.area[r]? <;> rw [g1] at h3
    · cases h3
    cases g2 : m.faces.bedlevel[r]? <;> rw [g2] at h3
    · cases h3
    cases g3 : m.faces.waterdepth[r]? with
    | none => rw [g3] at h3; cases h3
    | some ds =>
      rw [g3] at h3
      cases g4 : m.faces.waterlevel[r]? <;> rw [g4] at h3
      · cases h3
      cases g5 : m.faces.velocityX[r]? <;> rw [g5] at h3
      · cases h3
      cases g6 : m.faces.velocityY[r]? <;> rw [g6] at h3
      · cases h3
      obtain rfl := Option.some.inj h3
      have hd : ds[t]?.join = some d := hd
      refine hdepth ds (List.mem_of_getElem? g3) d ?_
      exact List.mem_of_getElem? (Option.join_eq_some_iff.1 hd)
  obtain ⟨e1, e2, e3, e4, e5, e6, e7, e8, e9, e10, ⟨f0, e11, e12⟩, e13⟩ := C205_geometry cfg.pipeline.build l.length hlen _ _
    (fun c' hc' t d hd => by
      obtain rfl : c = c' := Option.some.inj (h1.symm.trans hc')
      exact hcd t d hd) b b' t3 u3
  obtain ⟨acc, -, a1, -, -, -, a2, -⟩ := C07_arrays_aligned t3
  refine ⟨text, text', v, v', t1, u1, t2, u2, by rw [t4, u4, e1], by rw [t8, List.length_map, t4, a1, a2], by rw [t5, u5, e4],
    by rw [t6, u6, e6], by rw [t7, u7, e2], by rw [t9, u9, e5], ?_, ?_, ⟨f0, ?_, ?_⟩, ?_⟩
  · rw [u8, t8, ← List.map_drop, ← List.map_drop, e7]
  · rw [u8, t7, ← List.map_take, ← List.map_take, e9]
  · rw [t8, List.getElem?_map, e11, Option.map_some]
  · rw [t8, t7, ← List.map_take, ← List.map_take, e12, List.map_map, List.map_map]
    exact List.map_congr_left fun a _ => rfl
  · rw [t10, u10, List.forall₂_map_left_iff, List.forall₂_map_right_iff]
    exact e13.imp fun a b h => ⟨a, b, rfl, rfl, h⟩

/-- **C205, widths.** Likewise both definition files have the same levels and total widths, and with the setting a flow width that is not
larger than without it, but for the repair of repeated widths: that adds a small step `b` at most once for each level. -/
theorem C205_widths (x : Tools K) (b : K) (hb0 : 0 ≤ b) (hb : ∀ y, x.bump y = y + b)
    (opt : Text → Optimiser K) (log : Text → Nat → Option PyErr) (cfg : RunConfig K)
    (i : Inputs K) (hi : Consistent i) (o : Surroundings) (hdir : o.dirExists = true) (hw : ∀ f, IsResult f → Sound o.faults f)
    (overwrite : Bool) (s : Store) (h : (run (jobOf x (RunConfig.withExtrapolation true cfg) i o) overwrite s).2 = .ok true)
    (h' : (run (jobOf { x with opt := opt, log := log } (RunConfig.withExtrapolation false cfg) i o) overwrite s).2 = .ok true)
    (m : Model2d K) (hm : setModelData x.nn i = .ok m)
    (xs : List (Loc K)) (hq : Requested cfg.cssSelection m.stations xs) (hu : ∃ l ∈ xs, Usable m l)
    (hn : ∀ l ∈ xs, PlainName l.id) (hlen : ∀ l ∈ xs, 0 ≤ l.length)
    (hfull : ∀ l ∈ xs, ∀ c, buildCss x (RunConfig.withExtrapolation true cfg) m l = .ok c → FullNumbers x.ft c)
    (hfull' : ∀ l ∈ xs, ∀ c, buildCss { x with opt := opt, log := log } (RunConfig.withExtrapolation false cfg) m l = .ok c →
      FullNumbers x.ft c) :
    ∃ text text' defs defs',
      (run (jobOf x (RunConfig.withExtrapolation true cfg) i o) overwrite s).1 "CrossSectionDefinitions.ini".toList = some text ∧
      (run (jobOf { x with opt := opt, log := log } (RunConfig.withExtrapolation false cfg) i o) overwrite s).1
        "CrossSectionDefinitions.ini".toList = some text' ∧
      readDefinitions x.ft text = .ok defs ∧ readDefinitions x.ft text' = .ok defs' ∧ defs ≠ [] ∧
      List.Forall₂ (NoWider x.ft (((m.nMaps + 10 : Nat) : K) * b)) defs' defs := by
  obtain ⟨cs, text, hcs, ht, hdef⟩ := run_definitions x (RunConfig.withExtrapolation true cfg) i hi o hdir hw overwrite s h m hm xs hq hu hn hfull
  obtain ⟨cs', text', hcs', ht', hdef'⟩ := run_definitions { x with opt := opt, log := log }
    (RunConfig.withExtrapolation false cfg) i hi o hdir hw overwrite s h' m hm xs hq hu hn hfull'
  refine ⟨text, text', _, _, ht, ht', hdef, hdef', ?_, ?_⟩
  · obtain ⟨l, hl, hlu⟩ := hu
    have hmem : l ∈ xs.filter fun l => decide (Usable m l) := List.mem_filter.2 ⟨hl, by simpa using hlu⟩
    intro e
    have h1 := congrArg List.length e
    rw [List.length_map, ← hcs.length_eq] at h1
    have := List.length_pos_of_mem hmem
    rw [h1] at this
    cases this
  · rw [List.forall₂_map_left_iff, List.forall₂_map_right_iff]
    refine (forall₂_pair₅ hcs' hcs).imp fun c' c => ?_
    rintro ⟨l, hl, h2, h1⟩
    have hl := (List.mem_filter.1 hl).1
    obtain ⟨e1, e2, e3, -⟩ := css_flow x opt log (RunConfig.withExtrapolation true cfg) cfg.pipeline.build.conveyanceDetectionMethod
      cfg.pipeline.build.absoluteVelocityThreshold cfg.pipeline.build.relativeVelocityThreshold false m m m.faces.velocityX m.faces.velocityY
      rfl rfl rfl rfl rfl rfl l c c' h1 h2
    have w := css_extrapolate x b hb0 hb opt log cfg m l (hlen l hl) c c' h1 h2
    have en : c'.out.name = c.out.name := by have e := congrArg (fun c : ExportCss K => c.name) e1; exact e
    refine ⟨?_, ?_⟩
    · unfold SameTotal definitionOf
      simp only [en, e2, e3, and_self]
    · show List.Forall₂ _ (c.out.flowWidth.map (as4 x.ft)) (c'.out.flowWidth.map (as4 x.ft))
      rw [List.forall₂_map_left_iff, List.forall₂_map_right_iff]
      exact w.imp fun a b h => ⟨a, b, rfl, rfl, h⟩

/-- A configuration with thresholds above all velocities: nothing conveys in the 2D model. -/
def storeConfig (v : Bool) : RunConfig ℚ := RunConfig.withExtrapolation v (RunConfig.withThresholds 2 2 sampleRunConfig)

/-- Both runs come to their end, and a location has a profile; at the lowest levels the flow area with the setting is smaller. -/
example : (∀ y, y < idleTools.bump y) ∧ (∀ y, idleTools.bump y = y + 1 / 1000) ∧ Consistent narrowInputs ∧
    sampleSurroundings.dirExists = true ∧ (∀ f, IsResult f → Sound sampleSurroundings.faults f) ∧
    (∀ v, (run (jobOf idleTools (storeConfig v) narrowInputs sampleSurroundings) false noFiles).2 = .ok true) ∧
    ∃ m, setModelData idleTools.nn narrowInputs = .ok m ∧ (∀ ds ∈ m.faces.waterdepth, ∀ d, some d ∈ ds → 0 ≤ d) ∧
      (∀ v, Requested (storeConfig v).cssSelection m.stations m.stations) ∧ (∃ l ∈ m.stations, Usable m l) ∧
      (∀ l ∈ m.stations, PlainName l.id) ∧ (∀ l ∈ m.stations, CsvName l.id ∧ l.id ≠ "id".toList) ∧
      (m.stations.map (·.id)).Nodup ∧ (∀ l ∈ m.stations, 0 ≤ l.length) ∧
      (∀ v, ∀ l ∈ m.stations, ∀ c, buildCss idleTools (storeConfig v) m l = .ok c → FullNumbers idleTools.ft c) ∧
      (∀ v, ∀ l ∈ m.stations, ∀ c, buildCss idleTools (storeConfig v) m l = .ok c →
        VolumeTable.Floats idleTools.ft (volumeTableOf c.css)) ∧
      (∀ l ∈ m.stations.head?, (buildCss idleTools (storeConfig true) m l).toOption.map (fun c => c.css.raw.flowArea[9]?) ≠
        (buildCss idleTools (storeConfig false) m l).toOption.map (fun c => c.css.raw.flowArea[9]?)) := by
  refine ⟨?_, fun y => rfl, narrow_consistent, rfl, fun _ _ => ⟨rfl, rfl⟩, fun v => ?_, sampleLoaded narrowInputs,
    loaded_of₅ _ (by decide +kernel), ?_, fun v => .inl ⟨rfl, rfl⟩,
    ⟨⟨"rhine_100".toList, 5, 0, 10, "rhine".toList, 100⟩, by decide +kernel, by decide +kernel⟩, by decide +kernel, by decide +kernel,
    by decide +kernel, by decide +kernel, fun v => ?_, fun v => ?_, ?_⟩
  · intro y
    show y < y + 1 / 1000
    linarith
  · cases v <;> exact ok_of₅ (by decide +kernel)
  · have h : ((sampleLoaded narrowInputs).faces.waterdepth.all fun ds => ds.all fun d => d.all fun d => decide (0 ≤ d)) = true := by
      decide +kernel
    exact fun ds hds d hd => of_decide_eq_true (List.all_eq_true.1 (List.all_eq_true.1 h ds hds) _ hd)
  · cases v <;> exact full_of₅ _ (by decide +kernel)
  · cases v <;> exact floats_of₅ _ (by decide +kernel)
  · decide +kernel

end Fm2prof.Props

import Verif.Proofs.FewerMaps
import Verif.Props.CutMaps
import Verif.Props.Refined

/-!
# Properties of runs on map files that are written less often

C199: with fewer maps a profile has fewer points, and those it has are the same.
-/

set_option linter.unusedSectionVars false

namespace Fm2prof.Props

open Fm2prof Spec CutMapsProof FewerMapsProof

variable {K : Type} [Field K] [LinearOrder K] [IsStrictOrderedRing K] [FloorRing K]

/-- **C199, the geometry.** The level at the centre rises from each map to the next, the default way of finding the flowing part is used,
and there are no lakes. With only some of the maps the profile has the ten points below the first level and a point for each map that
is left. These have the levels, total widths, areas and 2D volumes they have with all maps, and a flow width that is not smaller. -/
theorem C199_geometry (cfg : BuildConfig K) (hmethod : cfg.conveyanceDetectionMethod ≠ 0) (skip lake : Nat)
    (hskip : cfg.skipMaps = (skip : Int)) (hlake : cfg.lakeTimesteps = (lake : Int)) (len : K) (centre : Nat) (raw : ControlVolume K)
    (ts : List Nat) (hts : Selects raw.nMaps skip ts) (c : Cell K) (hc : raw.cells[centre]? = some c)
    (hr : RisingFrom skip raw.nMaps c.level)
    (hno : ∀ k ∈ raw.cells, ¬ IsLake (fun t => k.depth (skip + t)) lake ∧ ¬ IsLake (fun t => ts[skip + t]?.bind k.depth) lake)
    (b b' : Built K) (h : buildGeometry cfg len centre raw = .ok b)
    (h' : buildGeometry cfg len centre (ControlVolume.onlyMaps ts raw) = .ok b') :
    b'.z = keepMaps skip ts b.z ∧ b'.wetArea = keepMaps skip ts b.wetArea ∧ b'.flowArea = keepMaps skip ts b.flowArea ∧
      b'.totalWidth = keepMaps skip ts b.totalWidth ∧ b'.totalVolume2d = keepMaps skip ts b.totalVolume2d ∧
      b'.flowVolume2d = keepMaps skip ts b.flowVolume2d ∧
      List.Forall₂ (· ≤ ·) (keepMaps skip ts b.flowWidth) b'.flowWidth :=
  build_fewer cfg hmethod skip lake hskip hlake len centre raw ts hts c hc hr
    (fun k hk => ⟨noLake lake skip k (hno k hk).1, noLake lake skip (chosen ts k) (hno k hk).2⟩) b b' h h'

/-- **C199.** A map file is written less often: some of the maps after those that are skipped are left out. The sections are given by
polygons and the default way of finding the flowing part is used. At a requested location the level of the nearest face rises from each
map to the next, and no face is taken for a lake. If both runs report success, the rows of the location in the second volume file are
those of the first one without the maps that were left out: they have the same 2D areas and volumes. -/
theorem C199_volumes (x : Tools K) (hb : ∀ y, y < x.bump y) (cfg : RunConfig K)
    (hmethod : cfg.pipeline.build.conveyanceDetectionMethod ≠ 0) (i : Inputs K) (hi : Consistent i) (o o' : Surroundings)
    (hdir : o.dirExists = true) (hdir' : o'.dirExists = true) (hw : ∀ f, IsResult f → Sound o.faults f)
    (hw' : ∀ f, IsResult f → Sound o'.faults f) (overwrite overwrite' : Bool) (s s' : Store) (ts : List Nat)
    (h : (run (jobOf x cfg i o) overwrite s).2 = .ok true)
    (h' : (run (jobOf x cfg (Inputs.onlyMaps ts i) o') overwrite' s').2 = .ok true)
    (d : MapData K) (hd : i.map = .ok d) (hwhole : MapData.Whole d) (labels : SectionLabels) (hsec : i.sections = some (.ok labels))
    (m : Model2d K) (hm : setModelData x.nn i = .ok m)
    (xs : List (Loc K)) (hx : Requested cfg.cssSelection m.stations xs)
    (hn : ∀ l ∈ xs, CsvName l.id ∧ l.id ≠ "id".toList) (hnd : (xs.map (·.id)).Nodup)
    (hfloat : ∀ l ∈ xs, ∀ c, buildCss x cfg m l = .ok c → VolumeTable.Floats x.ft (volumeTableOf c.css))
    (hfloat' : ∀ m' l c, setModelData x.nn (Inputs.onlyMaps ts i) = .ok m' → l ∈ xs → buildCss x cfg m' l = .ok c →
      VolumeTable.Floats x.ft (volumeTableOf c.css))
    (skip lake : Nat) (hskip : cfg.pipeline.build.skipMaps = (skip : Int)) (hlake : cfg.pipeline.build.lakeTimesteps = (lake : Int))
    (hts : Selects m.nMaps skip ts) (l : Loc K) (hl : l ∈ xs) (hu : Usable m l)
    (hnear : ∀ r c, IsNearest m l r → gridCell x.sqrt m.faces r = some c → RisingFrom skip m.nMaps c.level)
    (hlakes : ∀ c ∈ facesOf x.sqrt m l,
      ¬ IsLake (fun t => c.depth (skip + t)) lake ∧ ¬ IsLake (fun t => ts[skip + t]?.bind c.depth) lake) :
    ∃ text text' v v', (run (jobOf x cfg i o) overwrite s).1 "volumes.csv".toList = some text ∧
      (run (jobOf x cfg (Inputs.onlyMaps ts i) o') overwrite' s').1 "volumes.csv".toList = some text' ∧
      readVolumes x.ft text l.id = .ok v ∧ readVolumes x.ft text' l.id = .ok v' ∧
      v.z.length = 10 + (m.nMaps - skip) ∧ v'.z.length = 10 + (ts.length - skip) ∧
      v'.wa2d = keepMaps skip ts v.wa2d ∧ v'.fa2d = keepMaps skip ts v.fa2d ∧
      v'.tv2d = keepMaps skip ts v.tv2d ∧ v'.fv2d = keepMaps skip ts v.fv2d := by
  have hl2 := loaded2d x.nn i hi m hm
  have he : Inputs.onlyMaps ts i = { i with map := .ok (MapData.editMaps (pickMaps ts) ts.length d) } := by
    unfold Inputs.onlyMaps; rw [hd]; rfl
  have hm' : setModelData x.nn (Inputs.onlyMaps ts i) = .ok (editModel (pickMaps ts) ts.length m) := by
    rw [he, setModelData_edit x.nn _ _ i d hd (.inl ⟨labels, hsec⟩), hm]; rfl
  have hi' : Consistent (Inputs.onlyMaps ts i) := by rw [he]; exact consistent_edit _ _ i hi d hd
  have hu' : Usable (editModel (pickMaps ts) ts.length m) l := hu
  obtain ⟨text, b, v, t1, t2, t3, t4, t5, t6, t7, t8, -⟩ := C99_volumes x hb cfg i hi o hdir hw overwrite s h m hm xs hx hn hnd hfloat l hl hu
  obtain ⟨text', b', v', u1, u2, u3, u4, u5, u6, u7, u8, -⟩ := C99_volumes x hb cfg _ hi' o' hdir' hw' overwrite' s' h' _ hm' xs hx hn hnd
    (fun l hl c hc => hfloat' _ l c hm' hl hc) l hl hu'
  obtain ⟨r, c, h1, h2, h3⟩ := centre_cell x cfg m hl2 l b t3
  have hrise := hnear r c h2 h3
  rw [selection_edit (pickMaps ts) (uniform_pick ts hts.order) x.sqrt ts.length m l.id] at u3
  have u3 : buildGeometry cfg.pipeline.build l.length (centreOf x.nn (getSelection x.sqrt m.faces m.edges l.id) l)
      (controlVolumeOf ts.length (editSelection (pickMaps ts) (getSelection x.sqrt m.faces m.edges l.id))) = .ok b' := u3
  rw [controlVolume_pick ts m.nMaps _ hts.within (selection_lengths x i d hd hwhole m hm l.id m.nMaps rfl)] at u3
  have hcells := controlVolume_cells x m hl2 m.nMaps l.id
  obtain ⟨e1, e2, e3, -, e5, e6, -⟩ := C199_geometry cfg.pipeline.build hmethod skip lake hskip hlake l.length _ _ ts hts c h1 hrise
    (by rw [hcells]; exact hlakes) b b' t3 u3
  have hkeep : ∀ {β γ : Type} (f : β → γ) (col : List β), (keepMaps skip ts col).map f = keepMaps skip ts (col.map f) := by
    intro β γ f col
    unfold keepMaps
    rw [List.map_append, List.map_take, List.map_filterMap]
    simp only [List.getElem?_map]
  have hsn : skip < m.nMaps := hts.within skip (List.mem_of_getElem? hts.first)
  have hz : b.z.length = 10 + (m.nMaps - skip) := by
    obtain ⟨d0, -, hb0⟩ := build_rising cfg.pipeline.build skip lake hskip hlake l.length _ _ hsn c h1 hrise b t3
    rw [hb0]
    unfold assemble linspace10
    simp only [List.length_append, List.length_map, List.length_reverse, List.length_range]
    rfl
  refine ⟨text, text', v, v', t1, u1, t2, u2, by rw [t4, hz], ?_, by rw [t7, u7, e2, hkeep], by rw [t8, u8, e3, hkeep],
    by rw [t5, u5, e5], by rw [t6, u6, e6]⟩
  rw [u4, e1]
  unfold keepMaps
  have hall : ∀ u ∈ ts.drop skip, (b.z[10 + (u - skip)]?).isSome = true := by
    intro u hu
    obtain ⟨k1, k2⟩ := selects_drop _ _ _ hts u hu
    rw [List.getElem?_eq_getElem (by omega)]; rfl
  have hfm : ((ts.drop skip).filterMap fun t => b.z[10 + (t - skip)]?).length = (ts.drop skip).length := by
    generalize ts.drop skip = us at hall
    induction us with
    | nil => rfl
    | cons u us ih =>
      obtain ⟨z, hz⟩ := Option.isSome_iff_exists.1 (hall u List.mem_cons_self)
      rw [List.filterMap_cons, hz]
      simp only [List.length_cons, ih fun w hw => hall w (List.mem_cons_of_mem _ hw)]
  rw [List.length_append, hfm, List.length_take, List.length_drop]
  omega

/-- The sample with section polygons and water that rises at all maps. -/
def everRisingMap : MapData ℚ :=
  let kinds : List Nat := [0, 1, 2, 0, 1, 2, 0, 1, 2, 0, 0, 2, 2]
  let level : List ℚ := [2, 3, 4, 5]
  let bed : Nat → ℚ := fun k => if k = 0 then 0 else if k = 1 then 3 else -7
  { sampleMap with
    faces :=
      { sampleMap.faces with
        waterdepth := kinds.map fun k => level.map fun z => some (max 0 (z - bed k))
        waterlevel := kinds.map fun k => level.map fun z => some (max (bed k) z) } }

/-- The input of this run. -/
def everRisingInputs : Inputs ℚ := { sampleSectionInputs with map := .ok everRisingMap }

private theorem noLakes_of (m : Model2d ℚ) (f : Cell ℚ → Nat → Option ℚ) (lake : Nat)
    (h : ((facesOf idleTools.sqrt m fallingLoc).all fun c => match f c lake, f c 0 with
      | some dL, some d0 => decide (¬ (0 < dL ∧ |dL - d0| ≤ 1 / 100))
      | _, _ => true) = true) : ∀ c ∈ facesOf idleTools.sqrt m fallingLoc, ¬ IsLake (f c) lake := by
  rintro c hc ⟨dL, d0, h1, h2, h3⟩
  have h := List.all_eq_true.1 h c hc
  rw [h1, h2] at h
  exact of_decide_eq_true h h3

/-- The third of the four maps is left out. -/
example : (∀ y, y < idleTools.bump y) ∧ Consistent everRisingInputs ∧ sampleRunConfig.pipeline.build.conveyanceDetectionMethod ≠ 0 ∧
    (run (jobOf idleTools sampleRunConfig everRisingInputs sampleSurroundings) false noFiles).2 = .ok true ∧
    (run (jobOf idleTools sampleRunConfig (Inputs.onlyMaps [0, 1, 3] everRisingInputs) sampleSurroundings) false noFiles).2 = .ok true ∧
    everRisingInputs.map = .ok everRisingMap ∧ MapData.Whole everRisingMap ∧ (∃ labels, everRisingInputs.sections = some (.ok labels)) ∧
    sampleRunConfig.pipeline.build.skipMaps = ((0 : Nat) : Int) ∧ sampleRunConfig.pipeline.build.lakeTimesteps = ((1 : Nat) : Int) ∧
    ∃ m, setModelData idleTools.nn everRisingInputs = .ok m ∧ Selects m.nMaps 0 [0, 1, 3] ∧
      Requested sampleRunConfig.cssSelection m.stations m.stations ∧
      (∀ l ∈ m.stations, CsvName l.id ∧ l.id ≠ "id".toList) ∧ (m.stations.map (·.id)).Nodup ∧ fallingLoc ∈ m.stations ∧
      Usable m fallingLoc ∧
      (∀ l ∈ m.stations, ∀ c, buildCss idleTools sampleRunConfig m l = .ok c → VolumeTable.Floats idleTools.ft (volumeTableOf c.css)) ∧
      (∀ m' l c, setModelData idleTools.nn (Inputs.onlyMaps [0, 1, 3] everRisingInputs) = .ok m' → l ∈ m.stations →
        buildCss idleTools sampleRunConfig m' l = .ok c → VolumeTable.Floats idleTools.ft (volumeTableOf c.css)) ∧
      (∀ r c, IsNearest m fallingLoc r → gridCell idleTools.sqrt m.faces r = some c → RisingFrom 0 m.nMaps c.level) ∧
      ∀ c ∈ facesOf idleTools.sqrt m fallingLoc,
        ¬ IsLake (fun t => c.depth (0 + t)) 1 ∧ ¬ IsLake (fun t => [0, 1, 3][0 + t]?.bind c.depth) 1 := by
  have hn : (sampleLoaded everRisingInputs).nMaps = 4 := by decide +kernel
  refine ⟨?_, ⟨?_, fun _ _ _ _ _ h => (by cases h), ?_⟩, by decide +kernel, ok_of₆ (by decide +kernel), ok_of₆ (by decide +kernel), rfl,
    (by unfold MapData.Whole; decide +kernel), ⟨_, rfl⟩, by decide +kernel, by decide +kernel, sampleLoaded everRisingInputs,
    loaded_of₆ _ (by decide +kernel), ⟨by decide, by decide +kernel, rfl⟩, .inl ⟨rfl, rfl⟩, by decide +kernel, by decide +kernel,
    by decide +kernel, by decide +kernel, floats_of₆ _ (by decide +kernel), ?_, ?_, fun c hc => ⟨?_, ?_⟩⟩
  · intro y
    show y < y + 1 / 1000
    linarith
  · intro d hd
    obtain rfl := Except.ok.inj hd
    constructor <;> rfl
  · intro d r hd h
    obtain rfl := Except.ok.inj hd
    obtain rfl := Except.ok.inj (Option.some.inj h)
    constructor <;> rfl
  · intro m' l c hm' hl hc
    have h := loaded_of₆ (Inputs.onlyMaps [0, 1, 3] everRisingInputs) (by decide +kernel)
    obtain rfl := Except.ok.inj (h.symm.trans hm')
    have hs : (sampleLoaded (Inputs.onlyMaps [0, 1, 3] everRisingInputs)).stations = (sampleLoaded everRisingInputs).stations := by decide +kernel
    exact floats_of₆ (Inputs.onlyMaps [0, 1, 3] everRisingInputs) (by decide +kernel) l (by rw [hs]; exact hl) c hc
  · intro r c hr hc
    obtain rfl := near_five _ (by decide +kernel) r hr
    have hlev : (gridCell idleTools.sqrt (sampleLoaded everRisingInputs).faces 5).map (fun c => (List.range 4).map c.level) =
        some [some 2, some 3, some 4, some 5] := by decide +kernel
    rw [hc] at hlev
    have hlev : (List.range 4).map c.level = [some 2, some 3, some 4, some 5] := Option.some.inj hlev
    have e : ∀ t < 4, c.level t = some ((t : ℚ) + 2) := by
      intro t ht
      have h : some (c.level t) = [some 2, some 3, some 4, some 5][t]? := by
        rw [← hlev, List.getElem?_map, List.getElem?_range ht]; rfl
      rcases t with _ | _ | _ | _ | t
      · exact (Option.some.inj h).trans (by norm_num)
      · exact (Option.some.inj h).trans (by norm_num)
      · exact (Option.some.inj h).trans (by norm_num)
      · exact (Option.some.inj h).trans (by norm_num)
      · omega
    rw [hn]
    constructor
    · intro t _ ht
      refine ⟨_, e t ht, ?_⟩
      have : (0 : ℚ) ≤ t := Nat.cast_nonneg t
      linarith
    · intro t t' _ htt ht' a b ha hb
      rw [e t (by omega)] at ha
      rw [e t' ht'] at hb
      obtain rfl := Option.some.inj ha
      obtain rfl := Option.some.inj hb
      have : (t : ℚ) < t' := Nat.cast_lt.2 htt
      linarith
  · exact noLakes_of _ (fun c t => c.depth (0 + t)) 1 (by decide +kernel) c hc
  · exact noLakes_of _ (fun c t => [0, 1, 3][0 + t]?.bind c.depth) 1 (by decide +kernel) c hc

end Fm2prof.Props

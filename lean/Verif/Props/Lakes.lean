import Verif.Proofs.Lakes
import Verif.Props.Roomier
import Mathlib.Tactic.IntervalCases

/-!
# Properties of runs that look for lakes in another map

C206: a later `LakeTimesteps` leaves fewer lakes, so wet areas, widths and volumes do not get smaller.
-/

set_option linter.unusedSectionVars false

namespace Fm2prof.Props

open Fm2prof Spec OneSettingProof ConveyanceProof StricterProof LakesProof

variable {K : Type} [Field K] [LinearOrder K] [IsStrictOrderedRing K] [FloorRing K]

/-- **C206, the geometry.** The water does not fall anywhere in a control volume, and a face that is wet at the later one of two maps is
wet at the earlier one. With the later map for `LakeTimesteps` the profile has the same levels, and from the first level on the same
flow areas and flow widths; wet areas, total widths, total 1D volumes, flow areas and flow widths are nowhere smaller than with the
earlier map. `SkipMaps` is `k`, so that the maps are number `k + a` and `k + b` of the file. -/
theorem C206_geometry (cfg : BuildConfig K) (k : Nat) (hk : cfg.skipMaps = (k : Int)) (a b : Nat) (hab : a ≤ b) (len : K) (hlen : 0 ≤ len)
    (centre : Nat) (raw : ControlVolume K) (harea : ∀ c ∈ raw.cells, 0 ≤ c.area) (hr : ∀ c ∈ raw.cells, NoFall raw.nMaps c.depth)
    (hw : ∀ c ∈ raw.cells, Wet c.depth (k + b) → Wet c.depth (k + a)) (u u' : Built K)
    (h : buildGeometry { cfg with lakeTimesteps := (a : Int) } len centre raw = .ok u)
    (h' : buildGeometry { cfg with lakeTimesteps := (b : Int) } len centre raw = .ok u') :
    u'.z = u.z ∧ u'.flowArea.drop 10 = u.flowArea.drop 10 ∧ u'.flowWidth.drop 10 = u.flowWidth.drop 10 ∧
      List.Forall₂ (· ≤ ·) u.wetArea u'.wetArea ∧ List.Forall₂ (· ≤ ·) u.totalWidth u'.totalWidth ∧
      List.Forall₂ (· ≤ ·) u.totalVolume1d u'.totalVolume1d ∧ List.Forall₂ (· ≤ ·) u.flowArea u'.flowArea ∧
      List.Forall₂ (· ≤ ·) u.flowWidth u'.flowWidth := by
  have hs : sliceStart raw.nMaps cfg.skipMaps = k := by
    obtain ⟨-, -, -, -, -, hn, -⟩ := buildGeometry_ok h
    have hn : 0 < raw.nMaps - sliceStart raw.nMaps cfg.skipMaps := hn
    unfold sliceStart at hn ⊢
    rw [hk, if_pos (Int.natCast_nonneg k), Int.toNat_natCast] at hn ⊢
    omega
  obtain ⟨e1, e2, e3, e4, e5, e6, e7⟩ := build_lakes cfg a b hab len hlen centre raw harea hr (by rw [hs]; exact hw) u u' h h'
  refine ⟨e1, e2, e3, e4, e5, ?_, e6, e7⟩
  have hz : NonDecreasing u.z := by
    refine (C02_built_levels h fun d hdd y hy => ?_).1
    have hdd : (getTimeseries cfg.skipMaps raw).cells[centre]? = some d := hdd
    obtain ⟨c, hc, rfl⟩ := List.mem_map.1 (List.mem_of_getElem? hdd)
    obtain ⟨-, -, -, -, -, hn, -⟩ := buildGeometry_ok h
    obtain ⟨x, x', h1, -, h2, -⟩ := rising_used cfg.skipMaps raw c (hr c hc) 0 0 (le_refl _) hn
    have hy : clean (c.depth (sliceStart raw.nMaps cfg.skipMaps + 0)) = some y := hy
    obtain rfl : x = y := Option.some.inj (h1.symm.trans hy)
    exact h2
  obtain ⟨-, -, -, -, -, -, -, -, -, -, -, -, -, -, -, -, -, -, -, -, t1, -⟩ := built_parts h
  obtain ⟨-, -, -, -, -, -, -, -, -, -, -, -, -, -, -, -, -, -, -, -, t1', -⟩ := built_parts h'
  rw [t1, t1', e1]
  exact C08_flow_le_total _ _ _ _ hlen hz e5

/-- **C206, volumes.** Two runs that differ in `LakeTimesteps`, which is `a` in the first one and a later map `b` in the second one, for
a 2D model in which the water does not fall anywhere, and in which a face that is wet at the later map is wet at the earlier one.
When both report success, the volume files give for each location as many levels, and at each of them a wet area, a flow area and
a total 1D volume that are not smaller in the second run; from the eleventh level on the flow areas are the same. -/
theorem C206_volumes (x : Tools K) (hb : ∀ y, y < x.bump y) (opt : Text → Optimiser K)
    (log : Text → Nat → Option PyErr) (cfg : RunConfig K) (k : Nat) (hk : cfg.pipeline.build.skipMaps = (k : Int)) (a b : Nat)
    (hab : a ≤ b) (i : Inputs K) (hi : Consistent i) (o : Surroundings)
    (hdir : o.dirExists = true) (hw : ∀ f, IsResult f → Sound o.faults f) (overwrite : Bool) (s : Store)
    (h : (run (jobOf x (RunConfig.withLakeMap (a : Int) cfg) i o) overwrite s).2 = .ok true)
    (h' : (run (jobOf { x with opt := opt, log := log } (RunConfig.withLakeMap (b : Int) cfg) i o) overwrite s).2 = .ok true)
    (m : Model2d K) (hm : setModelData x.nn i = .ok m) (harea : ∀ a ∈ m.faces.area, 0 ≤ a)
    (hrise : ∀ ds ∈ m.faces.waterdepth, NoFall m.nMaps fun t => ds[t]?.join)
    (hwet : ∀ ds ∈ m.faces.waterdepth, Wet (fun t => ds[t]?.join) (k + b) → Wet (fun t => ds[t]?.join) (k + a))
    (xs : List (Loc K)) (hq : Requested cfg.cssSelection m.stations xs)
    (hn : ∀ l ∈ xs, CsvName l.id ∧ l.id ≠ "id".toList) (hnd : (xs.map (·.id)).Nodup)
    (hfloat : ∀ l ∈ xs, ∀ c, buildCss x (RunConfig.withLakeMap (a : Int) cfg) m l = .ok c →
      VolumeTable.Floats x.ft (volumeTableOf c.css))
    (hfloat' : ∀ l ∈ xs, ∀ c, buildCss { x with opt := opt, log := log } (RunConfig.withLakeMap (b : Int) cfg) m l = .ok c →
      VolumeTable.Floats x.ft (volumeTableOf c.css))
    (l : Loc K) (hl : l ∈ xs) (hu : Usable m l) (hlen : 0 ≤ l.length) :
    ∃ text text' v v',
      (run (jobOf x (RunConfig.withLakeMap (a : Int) cfg) i o) overwrite s).1 "volumes.csv".toList = some text ∧
      (run (jobOf { x with opt := opt, log := log } (RunConfig.withLakeMap (b : Int) cfg) i o) overwrite s).1
        "volumes.csv".toList = some text' ∧
      readVolumes x.ft text l.id = .ok v ∧ readVolumes x.ft text' l.id = .ok v' ∧ v.z ≠ [] ∧ v'.z.length = v.z.length ∧
      v.wa2d.length = v.z.length ∧ v.tv1d.length = v.z.length ∧ v.fa2d.length = v.z.length ∧
      v'.fa2d.drop 10 = v.fa2d.drop 10 ∧ List.Forall₂ AtMost v.wa2d v'.wa2d ∧ List.Forall₂ AtMost v.tv1d v'.tv1d ∧
      List.Forall₂ AtMost v.fa2d v'.fa2d := by
  obtain ⟨text, u, v, t1, t2, t3, t4, -, -, t7, t8, t9, -⟩ := C99_volumes x hb (RunConfig.withLakeMap (a : Int) cfg) i hi o hdir hw
    overwrite s h m hm xs hq hn hnd hfloat l hl hu
  obtain ⟨text', u', v', u1, u2, u3, u4, -, -, u7, u8, u9, -⟩ := C99_volumes { x with opt := opt, log := log } hb
    (RunConfig.withLakeMap (b : Int) cfg) i hi o hdir hw overwrite s h' m hm xs hq hn hnd hfloat' l hl hu
  have hcell : ∀ c ∈ (controlVolumeOf m.nMaps (getSelection x.sqrt m.faces m.edges l.id)).cells,
      0 ≤ c.area ∧ ∃ ds ∈ m.faces.waterdepth, c.depth = fun t => ds[t]?.join := by
    intro c hc
    obtain ⟨p, hp, rfl⟩ := List.mem_map.1 hc
    have h1 := (List.of_mem_zip (List.of_mem_zip hp).1).1
    have h1 : p.1.1 ∈ maskSelect (m.faces.sclass.map fun c => decide (c = l.id)) m.faces.area := h1
    have h2 := (List.of_mem_zip (List.of_mem_zip hp).2).1
    have h2 : p.2.1 ∈ maskSelect (m.faces.sclass.map fun c => decide (c = l.id)) m.faces.waterdepth := h2
    unfold maskSelect at h1 h2
    obtain ⟨q, hq, e⟩ := List.mem_map.1 h1
    have g1 := (List.of_mem_zip (List.mem_filter.1 hq).1).2
    rw [e] at g1
    obtain ⟨q', hq', e'⟩ := List.mem_map.1 h2
    have g2 := (List.of_mem_zip (List.mem_filter.1 hq').1).2
    rw [e'] at g2
    exact ⟨harea _ g1, p.2.1, g2, rfl⟩
  obtain ⟨e1, e2, -, e4, -, e6, e7, -⟩ := C206_geometry cfg.pipeline.build k hk a b hab l.length hlen _ _ (fun c hc => (hcell c hc).1)
    (fun c hc => by
      obtain ⟨-, ds, hds, e⟩ := hcell c hc
      rw [e]
      exact hrise ds hds)
    (fun c hc => by
      obtain ⟨-, ds, hds, e⟩ := hcell c hc
      rw [e]
      exact hwet ds hds) u u' t3 u3
  obtain ⟨acc, hacc, a1, a2, a3, a4, a5, a6⟩ := C07_arrays_aligned t3
  refine ⟨text, text', v, v', t1, u1, t2, u2, ?_, by rw [t4, u4, e1], ?_, ?_, ?_, ?_, ?_, ?_, ?_⟩
  · intro e
    rw [e] at t4
    have : u.z.length = 0 := t4.symm
    omega
  · rw [t7, List.length_map, t4]
    omega
  · rw [t9, List.length_map, t4]
    omega
  · rw [t8, List.length_map, t4]
    omega
  · rw [u8, t8, ← List.map_drop, ← List.map_drop, e2]
  · rw [t7, u7, List.forall₂_map_left_iff, List.forall₂_map_right_iff]
    exact e4.imp fun a b h => ⟨a, b, rfl, rfl, h⟩
  · rw [t9, u9, List.forall₂_map_left_iff, List.forall₂_map_right_iff]
    exact e6.imp fun a b h => ⟨a, b, rfl, rfl, h⟩
  · rw [t8, u8, List.forall₂_map_left_iff, List.forall₂_map_right_iff]
    exact e7.imp fun a b h => ⟨a, b, rfl, rfl, h⟩

/-! ## A sample -/

/-- The sample with water that rises at every map, and pools that rise from the third map on. -/
def calmMap : MapData ℚ :=
  let kinds : List Nat := [0, 1, 2, 0, 1, 2, 0, 1, 2, 0, 0, 2, 2]
  let bed : Nat → ℚ := fun k => if k = 0 then 0 else if k = 1 then 5 / 2 else -7
  let depth : Nat → List ℚ := fun k => if k = 0 then [2, 3, 4, 5] else if k = 1 then [0, 1 / 2, 3 / 2, 5 / 2] else [9, 9, 10, 12]
  { sampleMap with
    faces := { sampleMap.faces with
      bedlevel := kinds.map bed
      waterdepth := kinds.map fun k => (depth k).map some
      waterlevel := kinds.map fun k => (depth k).map fun d => some (bed k + d) } }

/-- The inputs with this map. -/
def calmInputs : Inputs ℚ := { sampleSectionInputs with map := .ok calmMap }

/-- The configuration that looks for lakes in this map. -/
def calmConfig (v : Nat) : RunConfig ℚ := RunConfig.withLakeMap (v : Int) sampleRunConfig

private noncomputable def sixWith₇ (cfg : RunConfig ℚ) : Bool :=
  (sampleLoaded calmInputs).stations.all fun l => (buildCss idleTools cfg (sampleLoaded calmInputs) l).toOption.all fun c =>
    (VolumeTable.columns (volumeTableOf c.css)).all fun col => col.all fun v => v.all fun v => decide (roundTo 6 v = v)

private theorem floats_of₇ (cfg : RunConfig ℚ) (h : sixWith₇ cfg = true) (l : Loc ℚ) (hl : l ∈ (sampleLoaded calmInputs).stations)
    (c : Finished ℚ) (hc : buildCss idleTools cfg (sampleLoaded calmInputs) l = .ok c) :
    VolumeTable.Floats idleTools.ft (volumeTableOf c.css) := by
  have h := List.all_eq_true.1 h l hl
  rw [hc] at h
  have h : ((VolumeTable.columns (volumeTableOf c.css)).all fun col => col.all fun v =>
      v.all fun v => decide (roundTo 6 v = v)) = true := h
  exact fun col hcol v hv => of_decide_eq_true (p := roundTo 6 _ = _) (List.all_eq_true.1 (List.all_eq_true.1 h col hcol) _ hv)

private theorem calm_consistent : Consistent calmInputs := by
  have hc := sampleSectionInputs_consistent
  have hm := hc.map sampleMap rfl
  refine ⟨?_, ?_, ?_⟩
  · rintro d h
    obtain rfl : calmMap = d := Except.ok.inj h
    exact { hm with bedlevel := rfl, waterdepth := rfl, waterlevel := rfl }
  · rintro d css r h h1 h2
    obtain rfl : calmMap = d := Except.ok.inj h
    exact hc.regions sampleMap css r rfl h1 h2
  · rintro d r h h1
    obtain rfl : calmMap = d := Except.ok.inj h
    exact hc.sections sampleMap r rfl h1

private theorem calm_series (ds : List (Option ℚ)) (h : ds ∈ (sampleLoaded calmInputs).faces.waterdepth) :
    ds = [some 2, some 3, some 4, some 5] ∨ ds = [some 0, some (1 / 2), some (3 / 2), some (5 / 2)] ∨
      ds = [some 9, some 9, some 10, some 12] := by
  have : ((sampleLoaded calmInputs).faces.waterdepth.all fun ds => decide (ds = [some 2, some 3, some 4, some 5] ∨
      ds = [some 0, some (1 / 2), some (3 / 2), some (5 / 2)] ∨ ds = [some 9, some 9, some 10, some 12])) = true := by decide +kernel
  exact of_decide_eq_true (List.all_eq_true.1 this ds h)

/-- Both runs come to their end, and a location has a profile; in the second one the pools count. -/
example : (∀ y, y < idleTools.bump y) ∧ sampleRunConfig.pipeline.build.skipMaps = ((0 : Nat) : Int) ∧ Consistent calmInputs ∧
    sampleSurroundings.dirExists = true ∧ (∀ f, IsResult f → Sound sampleSurroundings.faults f) ∧
    (run (jobOf idleTools (calmConfig 1) calmInputs sampleSurroundings) false noFiles).2 = .ok true ∧
    (run (jobOf idleTools (calmConfig 2) calmInputs sampleSurroundings) false noFiles).2 = .ok true ∧
    ∃ m, setModelData idleTools.nn calmInputs = .ok m ∧ (∀ a ∈ m.faces.area, 0 ≤ a) ∧
      (∀ ds ∈ m.faces.waterdepth, NoFall m.nMaps fun t => ds[t]?.join) ∧
      (∀ ds ∈ m.faces.waterdepth, Wet (fun t => ds[t]?.join) (0 + 2) → Wet (fun t => ds[t]?.join) (0 + 1)) ∧
      Requested sampleRunConfig.cssSelection m.stations m.stations ∧ (∃ l ∈ m.stations, Usable m l) ∧
      (∀ l ∈ m.stations, CsvName l.id ∧ l.id ≠ "id".toList) ∧
      (m.stations.map (·.id)).Nodup ∧ (∀ l ∈ m.stations, 0 ≤ l.length) ∧
      (∀ l ∈ m.stations, ∀ c, buildCss idleTools (calmConfig 1) m l = .ok c → VolumeTable.Floats idleTools.ft (volumeTableOf c.css)) ∧
      (∀ l ∈ m.stations, ∀ c, buildCss idleTools (calmConfig 2) m l = .ok c → VolumeTable.Floats idleTools.ft (volumeTableOf c.css)) ∧
      (∀ l ∈ m.stations.head?, (buildCss idleTools (calmConfig 1) m l).toOption.map (fun c => c.css.raw.wetArea[10]?) ≠
        (buildCss idleTools (calmConfig 2) m l).toOption.map (fun c => c.css.raw.wetArea[10]?)) := by
  have hn : (sampleLoaded calmInputs).nMaps = 4 := by decide +kernel
  refine ⟨?_, by decide +kernel, calm_consistent, rfl, fun _ _ => ⟨rfl, rfl⟩, ok_of₆ (by decide +kernel), ok_of₆ (by decide +kernel),
    sampleLoaded calmInputs, loaded_of₆ _ (by decide +kernel), by decide +kernel, ?_, ?_, .inl ⟨rfl, rfl⟩,
    ⟨⟨"rhine_100".toList, 5, 0, 10, "rhine".toList, 100⟩, by decide +kernel, by decide +kernel⟩, by decide +kernel, by decide +kernel,
    by decide +kernel, floats_of₇ _ (by decide +kernel), floats_of₇ _ (by decide +kernel), by decide +kernel⟩
  · intro y
    show y < y + 1 / 1000
    linarith
  · intro ds hds s t hst ht
    rw [hn] at ht
    rcases calm_series ds hds with rfl | rfl | rfl <;> interval_cases t <;> interval_cases s <;>
      exact ⟨_, _, rfl, rfl, by norm_num, by norm_num⟩
  · intro ds hds
    rcases calm_series ds hds with rfl | rfl | rfl <;> exact fun _ => ⟨_, rfl, by norm_num⟩

end Fm2prof.Props

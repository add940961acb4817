import Verif.Proofs.Conveyance
import Verif.Proofs.Range
import Verif.Spec.Horizontal
import Verif.Props.Robust
import Verif.Props.ScaleRun

/-!
# Runs on grids of different resolution

C165 for the files of a run: the faces of each control volume are divided into smaller ones that hold the same water.
-/

set_option linter.unusedSectionVars false

namespace Fm2prof.Spec

open Fm2prof

variable {K : Type} [Field K] [LinearOrder K] [IsStrictOrderedRing K]

/-- The second 2D model has a finer grid at a location: its faces there are those of the first model, divided into smaller ones, and the
faces nearest to the location hold the same water. -/
structure FinerAt [FloorRing K] (sqrt : K → K) (m m' : Model2d K) (l : Loc K) : Prop where
  divided : Divided (facesOf sqrt m l) (facesOf sqrt m' l)
  nearest : ∀ r r' c c', IsNearest m l r → IsNearest m' l r' → gridCell sqrt m.faces r = some c → gridCell sqrt m'.faces r' = some c' →
    SameWater c c'

end Fm2prof.Spec

namespace Fm2prof.Props

open Fm2prof Spec OneSettingProof ConveyanceProof

variable {K : Type} [Field K] [LinearOrder K] [IsStrictOrderedRing K] [FloorRing K]

theorem centre_cell (x : Tools K) (cfg : RunConfig K) (m : Model2d K) (hl2 : Loaded2d m) (l : Loc K) (b : Built K)
    (h : buildGeometry cfg.pipeline.build l.length (centreOf x.nn (getSelection x.sqrt m.faces m.edges l.id) l)
      (controlVolumeOf m.nMaps (getSelection x.sqrt m.faces m.edges l.id)) = .ok b) :
    ∃ r c, (controlVolumeOf m.nMaps (getSelection x.sqrt m.faces m.edges l.id)).cells[
        centreOf x.nn (getSelection x.sqrt m.faces m.edges l.id) l]? = some c ∧ IsNearest m l r ∧
      gridCell x.sqrt m.faces r = some c := by
  obtain ⟨c', L, z0, d0, zs, accs, hc', -⟩ := built_parts h
  have hlt := (List.getElem?_eq_some_iff.1 hc').1
  unfold getTimeseries at hlt
  rw [List.length_map] at hlt
  have hc := List.getElem?_eq_getElem hlt
  obtain ⟨r, hr, hcell⟩ := controlVolume_at x m hl2 _ _ _ _ hc
  exact ⟨r, _, hc, centre_nearest x m hl2 l r hr, hcell⟩

private theorem finer_totals (x : Tools K) (cfg : RunConfig K) (m m' : Model2d K) (hl2 : Loaded2d m) (hl2' : Loaded2d m')
    (hn : m'.nMaps = m.nMaps) (l : Loc K) (hd : FinerAt x.sqrt m m' l) (b b' : Built K)
    (h : buildGeometry cfg.pipeline.build l.length (centreOf x.nn (getSelection x.sqrt m.faces m.edges l.id) l)
      (controlVolumeOf m.nMaps (getSelection x.sqrt m.faces m.edges l.id)) = .ok b)
    (h' : buildGeometry cfg.pipeline.build l.length (centreOf x.nn (getSelection x.sqrt m'.faces m'.edges l.id) l)
      (controlVolumeOf m'.nMaps (getSelection x.sqrt m'.faces m'.edges l.id)) = .ok b') : totalsOf b' = totalsOf b := by
  obtain ⟨r, c, h1, h2, h3⟩ := centre_cell x cfg m hl2 l b h
  obtain ⟨r', c', h1', h2', h3'⟩ := centre_cell x cfg m' hl2' l b' h'
  have hs := hd.nearest r r' c c' h2 h2' h3 h3'
  have hdiv : Divided (controlVolumeOf m.nMaps (getSelection x.sqrt m.faces m.edges l.id)).cells
      (controlVolumeOf m'.nMaps (getSelection x.sqrt m'.faces m'.edges l.id)).cells := by
    rw [controlVolume_cells x m hl2, controlVolume_cells x m' hl2']
    exact hd.divided
  have key := C165_totals cfg.pipeline.build l.length _ _ _ _ hn hdiv c c' h1 h1' hs
  rw [h, h'] at key
  exact Except.ok.inj key

private theorem finer_css (x : Tools K) (cfg : RunConfig K) (m m' : Model2d K) (hl2 : Loaded2d m) (hl2' : Loaded2d m')
    (hn : m'.nMaps = m.nMaps) (l : Loc K) (hd : FinerAt x.sqrt m m' l) (c c' : Finished K) (h : buildCss x cfg m l = .ok c)
    (h' : buildCss x cfg m' l = .ok c') :
    c'.out.name = c.out.name ∧ c'.out.z = c.out.z ∧ c'.out.totalWidth = c.out.totalWidth := by
  obtain ⟨g1, -, -, -, -, -, g3, -, -, g6, -, g8, -, -⟩ := buildCss_ok x cfg m l c h
  obtain ⟨k1, -, -, -, -, -, k3, -, -, k6, -, k8, -, -⟩ := buildCss_ok x cfg m' l c' h'
  obtain ⟨b, g, e1, e2, e3⟩ := geometry_steps _ _ _ _ _ _ _ _ _ g1
  obtain ⟨b', g', f1, f2, f3⟩ := geometry_steps _ _ _ _ _ _ _ _ _ k1
  have ht := finer_totals x cfg m m' hl2 hl2' hn l hd b b' e1 f1
  have t1 : b'.z = b.z := by have e := congrArg (fun b : Built K => b.z) ht; exact e
  have t2 : b'.totalWidth = b.totalWidth := by have e := congrArg (fun b : Built K => b.totalWidth) ht; exact e
  obtain ⟨r1, r2⟩ := requirements_total x.bump cfg.pipeline.minimumWidth _ _ _ _ t1 t2 e2 f2
  obtain ⟨-, p1, p2, p3⟩ := performCorrection_raw (x.opt l.id) cfg.pipeline x.release (x.log l.id) (Css.ofBuilt l.length b)
  obtain ⟨-, q1, q2, q3⟩ := performCorrection_raw (x.opt l.id) cfg.pipeline x.release (x.log l.id) (Css.ofBuilt l.length b')
  have hprof : c'.css.z = c.css.z ∧ c'.css.totalWidth = c.css.totalWidth := by
    rw [e3, f3]
    exact reduce_total _ _ _ r1 r2 (q1.trans p1.symm) (q2.trans p2.symm)
  exact ⟨by rw [g3, k3], by rw [g6, k6, hprof.1], by rw [g8, k8, hprof.2]⟩

private theorem mem_forall₂ {α β : Type} {R : α → β → Prop} {as : List α} {bs : List β} (h : List.Forall₂ R as bs) (a : α) (ha : a ∈ as) :
    ∃ b ∈ bs, R a b := by
  induction h with
  | nil => cases ha
  | cons hr _ ih =>
    rcases List.mem_cons.1 ha with rfl | ha
    · exact ⟨_, List.mem_cons_self, hr⟩
    · obtain ⟨b, hb, hr⟩ := ih ha
      exact ⟨b, List.mem_cons_of_mem _ hb, hr⟩

/-- **C165, definitions.** Two runs with the same configuration, on grids of which the second one is finer at a requested location. When
both report success, both definition files have a definition for the location, with the same levels and the same total width at
each of them, for every way to find the flowing part. -/
theorem C165_definitions (x : Tools K) (cfg : RunConfig K) (i i' : Inputs K) (hi : Consistent i) (hi' : Consistent i')
    (o : Surroundings) (hdir : o.dirExists = true) (hw : ∀ f, IsResult f → Sound o.faults f) (overwrite : Bool) (s : Store)
    (h : (run (jobOf x cfg i o) overwrite s).2 = .ok true) (h' : (run (jobOf x cfg i' o) overwrite s).2 = .ok true)
    (m m' : Model2d K) (hm : setModelData x.nn i = .ok m) (hm' : setModelData x.nn i' = .ok m') (hst : m'.stations = m.stations)
    (hnm : m'.nMaps = m.nMaps) (xs : List (Loc K)) (hq : Requested cfg.cssSelection m.stations xs) (hn : ∀ l ∈ xs, PlainName l.id)
    (hfull : ∀ l ∈ xs, ∀ c, buildCss x cfg m l = .ok c → FullNumbers x.ft c)
    (hfull' : ∀ l ∈ xs, ∀ c, buildCss x cfg m' l = .ok c → FullNumbers x.ft c)
    (l : Loc K) (hl : l ∈ xs) (hu : Usable m l) (hu' : Usable m' l) (hf : FinerAt x.sqrt m m' l) :
    ∃ text text' defs defs', (run (jobOf x cfg i o) overwrite s).1 "CrossSectionDefinitions.ini".toList = some text ∧
      (run (jobOf x cfg i' o) overwrite s).1 "CrossSectionDefinitions.ini".toList = some text' ∧
      readDefinitions x.ft text = .ok defs ∧ readDefinitions x.ft text' = .ok defs' ∧
      ∃ d ∈ defs, ∃ d' ∈ defs', d.id = l.id ∧ SameTotal d d' := by
  have hl2 := loaded2d x.nn i hi m hm
  have hl2' := loaded2d x.nn i' hi' m' hm'
  obtain ⟨cs, text, hcs, ht, hdef⟩ := run_definitions x cfg i hi o hdir hw overwrite s h m hm xs hq ⟨l, hl, hu⟩ hn hfull
  obtain ⟨cs', text', hcs', ht', hdef'⟩ := run_definitions x cfg i' hi' o hdir hw overwrite s h' m' hm' xs (by rw [hst]; exact hq)
    ⟨l, hl, hu'⟩ hn hfull'
  obtain ⟨c, hc, hb⟩ := mem_forall₂ hcs l (List.mem_filter.2 ⟨hl, by simpa using hu⟩)
  obtain ⟨c', hc', hb'⟩ := mem_forall₂ hcs' l (List.mem_filter.2 ⟨hl, by simpa using hu'⟩)
  obtain ⟨e1, e2, e3⟩ := finer_css x cfg m m' hl2 hl2' hnm l hf c c' hb hb'
  refine ⟨text, text', _, _, ht, ht', hdef, hdef', _, List.mem_map_of_mem hc, _, List.mem_map_of_mem hc',
    (buildCss_ok x cfg m l c hb).2.2.2.2.2.2.1, ?_⟩
  unfold SameTotal definitionOf
  simp only [e1, e2, e3, and_self]

/-- **C165, volumes.** Likewise both volume files have the same total 2D volumes, wet areas and total 1D volumes for the location. -/
theorem C165_volumes (x : Tools K) (hb : ∀ y, y < x.bump y) (cfg : RunConfig K) (i i' : Inputs K) (hi : Consistent i)
    (hi' : Consistent i') (o : Surroundings) (hdir : o.dirExists = true) (hw : ∀ f, IsResult f → Sound o.faults f) (overwrite : Bool)
    (s : Store) (h : (run (jobOf x cfg i o) overwrite s).2 = .ok true) (h' : (run (jobOf x cfg i' o) overwrite s).2 = .ok true)
    (m m' : Model2d K) (hm : setModelData x.nn i = .ok m) (hm' : setModelData x.nn i' = .ok m') (hst : m'.stations = m.stations)
    (hnm : m'.nMaps = m.nMaps) (xs : List (Loc K)) (hq : Requested cfg.cssSelection m.stations xs)
    (hn : ∀ l ∈ xs, CsvName l.id ∧ l.id ≠ "id".toList) (hnd : (xs.map (·.id)).Nodup)
    (hfloat : ∀ l ∈ xs, ∀ c, buildCss x cfg m l = .ok c → VolumeTable.Floats x.ft (volumeTableOf c.css))
    (hfloat' : ∀ l ∈ xs, ∀ c, buildCss x cfg m' l = .ok c → VolumeTable.Floats x.ft (volumeTableOf c.css))
    (l : Loc K) (hl : l ∈ xs) (hu : Usable m l) (hu' : Usable m' l) (hf : FinerAt x.sqrt m m' l) :
    ∃ text text' v v', (run (jobOf x cfg i o) overwrite s).1 "volumes.csv".toList = some text ∧
      (run (jobOf x cfg i' o) overwrite s).1 "volumes.csv".toList = some text' ∧
      readVolumes x.ft text l.id = .ok v ∧ readVolumes x.ft text' l.id = .ok v' ∧ v.z ≠ [] ∧ v'.z.length = v.z.length ∧
      v'.tv2d = v.tv2d ∧ v'.wa2d = v.wa2d ∧ v'.tv1d = v.tv1d := by
  have hl2 := loaded2d x.nn i hi m hm
  have hl2' := loaded2d x.nn i' hi' m' hm'
  obtain ⟨text, b, v, t1, t2, t3, t4, t5, -, t6, -, t7, -⟩ := C99_volumes x hb cfg i hi o hdir hw overwrite s h m hm xs hq hn hnd hfloat l hl hu
  obtain ⟨text', b', v', u1, u2, u3, u4, u5, -, u6, -, u7, -⟩ := C99_volumes x hb cfg i' hi' o hdir hw overwrite s h' m' hm' xs
    (by rw [hst]; exact hq) hn hnd hfloat' l hl hu'
  have ht := finer_totals x cfg m m' hl2 hl2' hnm l hf b b' t3 u3
  have e1 : b'.z = b.z := by have e := congrArg (fun b : Built K => b.z) ht; exact e
  have e2 : b'.totalVolume2d = b.totalVolume2d := by have e := congrArg (fun b : Built K => b.totalVolume2d) ht; exact e
  have e3 : b'.wetArea = b.wetArea := by have e := congrArg (fun b : Built K => b.wetArea) ht; exact e
  have e4 : b'.totalVolume1d = b.totalVolume1d := by have e := congrArg (fun b : Built K => b.totalVolume1d) ht; exact e
  refine ⟨text, text', v, v', t1, u1, t2, u2, ?_, by rw [t4, u4, e1], by rw [t5, u5, e2], by rw [t6, u6, e3], by rw [t7, u7, e4]⟩
  obtain ⟨acc, hacc, hlen⟩ := C07_arrays_aligned t3
  intro e
  rw [e] at t4
  have : b.z.length = 0 := t4.symm
  omega

/-- The map with its last face divided into two of half the area. -/
def finerMap : MapData ℚ :=
  let level : List ℚ := [2, 3, 5 / 2, 5]
  { sampleMap with
    faces :=
      { x := sampleMap.faces.x ++ [49 / 4], y := sampleMap.faces.y ++ [0], area := sampleMap.faces.area.take 12 ++ [25, 25]
        bedlevel := sampleMap.faces.bedlevel ++ [-7], region := sampleMap.faces.region ++ [[]]
        islake := sampleMap.faces.islake ++ [false], sect := sampleMap.faces.sect ++ [[]]
        sclass := sampleMap.faces.sclass ++ [[]]
        waterdepth := sampleMap.faces.waterdepth ++ [level.map fun z => some (z + 7)]
        waterlevel := sampleMap.faces.waterlevel ++ [level.map some]
        velocityX := sampleMap.faces.velocityX ++ [level.map fun _ => some 1]
        velocityY := sampleMap.faces.velocityY ++ [level.map fun _ => some 0] }
    chezyMean := sampleMap.chezyMean ++ [level.map fun _ => some 40] }

/-- The inputs with this map. -/
def finerInputs : Inputs ℚ :=
  { longerInputs with map := .ok finerMap }

theorem ok_of₆ {α : Type} {e : Except PyErr α} {a : α} (h : e.toOption = some a) : e = .ok a := by
  cases e with
  | error e => cases h
  | ok b => exact congrArg Except.ok (Option.some.inj h)

theorem loaded_of₆ (i : Inputs ℚ) (h : (setModelData firstNearest i).toOption.isSome = true) :
    setModelData firstNearest i = .ok (sampleLoaded i) := by
  unfold sampleLoaded
  cases hm : setModelData firstNearest i with
  | error e => rw [hm] at h; cases h
  | ok m => rfl

private noncomputable def shortWith₆ (i : Inputs ℚ) : Bool :=
  (sampleLoaded i).stations.all fun l => (buildCss idleTools sampleRunConfig (sampleLoaded i) l).toOption.all fun c =>
    decide (roundTo 6 c.out.extraFlowArea = c.out.extraFlowArea) && c.out.floodplainBase.all fun b => decide (roundTo 6 b = b)

private theorem full_of₆ (i : Inputs ℚ) (h : shortWith₆ i = true) (l : Loc ℚ) (hl : l ∈ (sampleLoaded i).stations)
    (c : Finished ℚ) (hc : buildCss idleTools sampleRunConfig (sampleLoaded i) l = .ok c) : FullNumbers idleTools.ft c := by
  have h := List.all_eq_true.1 h l hl
  rw [hc] at h
  have h : (decide (roundTo 6 c.out.extraFlowArea = c.out.extraFlowArea) &&
          c.out.floodplainBase.all fun b => decide (roundTo 6 b = b)) = true := h
  rw [Bool.and_eq_true] at h
  refine ⟨of_decide_eq_true (p := roundTo 6 _ = _) h.1, fun b hb => ?_⟩
  have h2 := h.2
  rw [hb] at h2
  exact of_decide_eq_true (p := roundTo 6 _ = _) h2

noncomputable def sixWith₆ (i : Inputs ℚ) : Bool :=
  (sampleLoaded i).stations.all fun l => (buildCss idleTools sampleRunConfig (sampleLoaded i) l).toOption.all fun c =>
    (VolumeTable.columns (volumeTableOf c.css)).all fun col => col.all fun v => v.all fun v => decide (roundTo 6 v = v)

theorem floats_of₆ (i : Inputs ℚ) (h : sixWith₆ i = true) (l : Loc ℚ) (hl : l ∈ (sampleLoaded i).stations)
    (c : Finished ℚ) (hc : buildCss idleTools sampleRunConfig (sampleLoaded i) l = .ok c) :
    VolumeTable.Floats idleTools.ft (volumeTableOf c.css) := by
  have h := List.all_eq_true.1 h l hl
  rw [hc] at h
  have h : ((VolumeTable.columns (volumeTableOf c.css)).all fun col => col.all fun v =>
      v.all fun v => decide (roundTo 6 v = v)) = true := h
  exact fun col hcol v hv => of_decide_eq_true (p := roundTo 6 _ = _) (List.all_eq_true.1 (List.all_eq_true.1 h col hcol) _ hv)

private theorem finer_consistent : Consistent finerInputs := by
  have hc : Columns sampleMap := sampleSectionInputs_consistent.map sampleMap rfl
  refine ⟨?_, ?_, ?_⟩
  · rintro d h
    obtain rfl : finerMap = d := Except.ok.inj h
    constructor <;> decide +kernel
  · rintro d css r h h1 h2
    cases h2
  · rintro d r h h1
    obtain rfl : finerMap = d := Except.ok.inj h
    obtain rfl := Except.ok.inj (Option.some.inj h1)
    constructor <;> rfl

/-- The location of the sample. -/
def loc₆ : Loc ℚ := ⟨"rhine_100".toList, 5, 0, 10, "rhine".toList, 100⟩

def sameAt₆ (f f' : FaceData Text ℚ) (r r' : Nat) : Bool :=
  decide (f'.bedlevel[r']? = f.bedlevel[r]?) && decide (f'.waterdepth[r']? = f.waterdepth[r]?) &&
    decide (f'.waterlevel[r']? = f.waterlevel[r]?) && decide (f'.velocityX[r']? = f.velocityX[r]?) &&
    decide (f'.velocityY[r']? = f.velocityY[r]?)

theorem gridCell_sameAt₆ (f f' : FaceData Text ℚ) (r r' : Nat) (h : sameAt₆ f f' r r' = true) (a a' : ℚ) (ha : f.area[r]? = some a)
    (ha' : f'.area[r']? = some a') : gridCell id f' r' = (gridCell id f r).map fun c => { c with area := a' } := by
  unfold sameAt₆ at h
  simp only [Bool.and_eq_true, decide_eq_true_eq] at h
  obtain ⟨⟨⟨⟨h1, h2⟩, h3⟩, h4⟩, h5⟩ := h
  unfold gridCell
  rw [h1, h2, h3, h4, h5, ha, ha']
  cases f.bedlevel[r]? <;> cases f.waterdepth[r]? <;> cases f.waterlevel[r]? <;> cases f.velocityX[r]? <;>
    cases f.velocityY[r]? <;> rfl

theorem gridCell_some₆ : ∀ r < 13, (gridCell id (sampleLoaded sampleSectionInputs).faces r).isSome = true := by decide +kernel

theorem gridCell_area₆ (f : FaceData Text ℚ) (r : Nat) (c : Cell ℚ) (h : gridCell id f r = some c) : f.area[r]? = some c.area := by
  unfold gridCell at h
  cases h1 : f.area[r]? <;> rw [h1] at h
  · cases h
  cases h2 : f.bedlevel[r]? <;> rw [h2] at h
  · cases h
  cases h3 : f.waterdepth[r]? <;> rw [h3] at h
  · cases h
  cases h4 : f.waterlevel[r]? <;> rw [h4] at h
  · cases h
  cases h5 : f.velocityX[r]? <;> rw [h5] at h
  · cases h
  cases h6 : f.velocityY[r]? <;> rw [h6] at h
  · cases h
  obtain rfl := Option.some.inj h
  rfl

private theorem gridCell_low₆ (r : Nat) (hr : r < 12) :
    gridCell id (sampleLoaded finerInputs).faces r = gridCell id (sampleLoaded sampleSectionInputs).faces r := by
  obtain ⟨c, hc⟩ := Option.isSome_iff_exists.1 (gridCell_some₆ r (by omega))
  have ha := gridCell_area₆ _ _ _ hc
  have hall : ∀ r < 12, sameAt₆ (sampleLoaded sampleSectionInputs).faces (sampleLoaded finerInputs).faces r r = true ∧
      (sampleLoaded finerInputs).faces.area[r]? = (sampleLoaded sampleSectionInputs).faces.area[r]? := by decide +kernel
  rw [gridCell_sameAt₆ _ _ r r (hall r hr).1 _ _ ha ((hall r hr).2.trans ha), hc]
  rfl

private theorem finer_here : FinerAt id (sampleLoaded sampleSectionInputs) (sampleLoaded finerInputs) loc₆ := by
  have hrows : rowsOf (sampleLoaded sampleSectionInputs).faces.sclass loc₆.id = List.range 12 ++ [12] := by decide +kernel
  have hrows' : rowsOf (sampleLoaded finerInputs).faces.sclass loc₆.id = List.range 12 ++ [12, 13] := by decide +kernel
  refine ⟨?_, ?_⟩
  · unfold facesOf
    rw [hrows, hrows', List.filterMap_append, List.filterMap_append]
    rw [List.filterMap_congr (fun r hr => gridCell_low₆ r (List.mem_range.1 hr))]
    obtain ⟨c, hc⟩ := Option.isSome_iff_exists.1 (gridCell_some₆ 12 (by omega))
    have ha := gridCell_area₆ _ _ _ hc
    have h12 := gridCell_sameAt₆ (sampleLoaded sampleSectionInputs).faces (sampleLoaded finerInputs).faces 12 12 (by decide +kernel) _ 25 ha
      (by decide +kernel)
    have h13 := gridCell_sameAt₆ (sampleLoaded sampleSectionInputs).faces (sampleLoaded finerInputs).faces 12 13 (by decide +kernel) _ 25 ha
      (by decide +kernel)
    have h50 : (sampleLoaded sampleSectionInputs).faces.area[12]? = some (50 : ℚ) := by decide +kernel
    have hca : c.area = 50 := Option.some.inj (ha.symm.trans h50)
    rw [hc] at h12 h13
    have e1 : List.filterMap (gridCell id (sampleLoaded sampleSectionInputs).faces) [12] = [c] := by
      rw [List.filterMap_cons, hc]; rfl
    have e2 : List.filterMap (gridCell id (sampleLoaded finerInputs).faces) [12, 13] =
        [{ c with area := 25 }, { c with area := 25 }] := by
      rw [List.filterMap_cons, h12, List.filterMap_cons, h13]; rfl
    rw [e1, e2]
    generalize (List.range 12).filterMap (gridCell id (sampleLoaded sampleSectionInputs).faces) = pre
    induction pre with
    | nil =>
      have := Divided.cons (c := c) (cells := []) (parts := [{ c with area := 25 }, { c with area := 25 }]) (rest := [])
        (by
          intro p hp
          rcases List.mem_cons.1 hp with rfl | hp
          · exact ⟨rfl, rfl, rfl, rfl⟩
          · obtain rfl := List.mem_singleton.1 hp
            exact ⟨rfl, rfl, rfl, rfl⟩) (by rw [hca]; norm_num) Divided.nil
      exact this
    | cons p pre ih =>
      have := Divided.cons (c := p) (parts := [p]) (fun q hq => by
        obtain rfl := List.mem_singleton.1 hq
        exact ⟨rfl, rfl, rfl, rfl⟩) (by simp) ih
      exact this
  · intro r r' c c' hr hr' hc hc'
    have five : ∀ m : Model2d ℚ, 5 ∈ rowsOf m.faces.sclass loc₆.id → m.faces.x[5]? = some 5 → m.faces.y[5]? = some 0 →
        (∀ k ∈ rowsOf m.faces.sclass loc₆.id, k ≠ 5 → ∃ a, m.faces.x[k]? = some a ∧ m.faces.y[k]? = some 0 ∧ a ≠ 5) →
        ∀ k, IsNearest m loc₆ k → k = 5 := by
      intro m h5 hx hy hall k hk
      by_contra hne
      obtain ⟨a, ha, hb, ha5⟩ := hall k hk.1 hne
      have h := hk.2 5 h5 a 0 5 0 ha hb hx hy
      have hz : ((5 : ℚ) - loc₆.x) ^ 2 + ((0 : ℚ) - loc₆.y) ^ 2 = 0 := by
        show ((5 : ℚ) - 5) ^ 2 + ((0 : ℚ) - 0) ^ 2 = 0
        norm_num
      have hpos : 0 < (a - loc₆.x) ^ 2 := by
        show 0 < (a - 5) ^ 2
        have : a - 5 ≠ 0 := sub_ne_zero.2 ha5
        positivity
      have := sq_nonneg ((0 : ℚ) - loc₆.y)
      linarith
    have some_of : ∀ (m : Model2d ℚ), ((rowsOf m.faces.sclass loc₆.id).all fun k => decide (k = 5) ||
        ((m.faces.x[k]?).any fun a => decide (a ≠ 5)) && decide (m.faces.y[k]? = some 0)) = true →
        ∀ k ∈ rowsOf m.faces.sclass loc₆.id, k ≠ 5 → ∃ a, m.faces.x[k]? = some a ∧ m.faces.y[k]? = some 0 ∧ a ≠ 5 := by
      intro m h k hk hne
      have h := List.all_eq_true.1 h k hk
      rw [Bool.or_eq_true, Bool.and_eq_true] at h
      rcases h with h | ⟨h, h'⟩
      · exact absurd (of_decide_eq_true h) hne
      · cases ha : m.faces.x[k]? with
        | none => rw [ha] at h; cases h
        | some a =>
          rw [ha] at h
          exact ⟨a, rfl, of_decide_eq_true h', of_decide_eq_true h⟩
    obtain rfl := five _ (by decide +kernel) (by decide +kernel) (by decide +kernel) (some_of _ (by decide +kernel)) r hr
    obtain rfl := five _ (by decide +kernel) (by decide +kernel) (by decide +kernel) (some_of _ (by decide +kernel)) r' hr'
    rw [gridCell_low₆ 5 (by omega), hc] at hc'
    obtain rfl := Option.some.inj hc'
    exact ⟨rfl, rfl, rfl, rfl⟩

/-- Both runs come to their end, for a location with 13 faces of which the finer grid divides one. -/
example : (∀ y, y < idleTools.bump y) ∧ Consistent sampleSectionInputs ∧ Consistent finerInputs ∧ sampleSurroundings.dirExists = true ∧
    (∀ f, IsResult f → Sound sampleSurroundings.faults f) ∧
    (run (jobOf idleTools sampleRunConfig sampleSectionInputs sampleSurroundings) false noFiles).2 = .ok true ∧
    (run (jobOf idleTools sampleRunConfig finerInputs sampleSurroundings) false noFiles).2 = .ok true ∧
    ∃ m m', setModelData idleTools.nn sampleSectionInputs = .ok m ∧ setModelData idleTools.nn finerInputs = .ok m' ∧
      m'.stations = m.stations ∧ m'.nMaps = m.nMaps ∧ m.faces.area ≠ m'.faces.area ∧
      Requested sampleRunConfig.cssSelection m.stations m.stations ∧ (∀ l ∈ m.stations, PlainName l.id) ∧
      (∀ l ∈ m.stations, CsvName l.id ∧ l.id ≠ "id".toList) ∧ (m.stations.map (·.id)).Nodup ∧
      (∀ l ∈ m.stations, ∀ c, buildCss idleTools sampleRunConfig m l = .ok c → FullNumbers idleTools.ft c) ∧
      (∀ l ∈ m.stations, ∀ c, buildCss idleTools sampleRunConfig m' l = .ok c → FullNumbers idleTools.ft c) ∧
      (∀ l ∈ m.stations, ∀ c, buildCss idleTools sampleRunConfig m l = .ok c → VolumeTable.Floats idleTools.ft (volumeTableOf c.css)) ∧
      (∀ l ∈ m.stations, ∀ c, buildCss idleTools sampleRunConfig m' l = .ok c → VolumeTable.Floats idleTools.ft (volumeTableOf c.css)) ∧
      ∃ l ∈ m.stations, Usable m l ∧ Usable m' l ∧ FinerAt idleTools.sqrt m m' l := by
  have hst : (sampleLoaded finerInputs).stations = (sampleLoaded sampleSectionInputs).stations := by decide +kernel
  refine ⟨?_, sampleSectionInputs_consistent, finer_consistent, rfl, fun _ _ => ⟨rfl, rfl⟩,
    ok_of₆ (by decide +kernel), ok_of₆ (by decide +kernel), sampleLoaded sampleSectionInputs, sampleLoaded finerInputs,
    loaded_of₆ _ (by decide +kernel), loaded_of₆ _ (by decide +kernel), hst, by decide +kernel, by decide +kernel, .inl ⟨rfl, rfl⟩,
    by decide +kernel, by decide +kernel, by decide +kernel, full_of₆ _ (by decide +kernel),
    by rw [← hst]; exact full_of₆ _ (by decide +kernel), floats_of₆ _ (by decide +kernel),
    by rw [← hst]; exact floats_of₆ _ (by decide +kernel),
    loc₆, by decide +kernel, by decide +kernel, by decide +kernel, finer_here⟩
  intro y
  show y < y + 1 / 1000
  linarith

end Fm2prof.Props

import Verif.Proofs.CutMaps
import Verif.Props.Robust
import Verif.Props.ScaleRun
import Verif.Proofs.HorizontalRun

/-!
# Properties of runs with maps left out

C186: maps after the highest water, and others in which the water does not rise, do not matter for the definitions.
-/

set_option linter.unusedSectionVars false

namespace Fm2prof.Props

open Fm2prof Spec CutMapsProof HorizontalProof

variable {K : Type} [Field K] [LinearOrder K] [IsStrictOrderedRing K] [FloorRing K]

private theorem centre_cell (x : Tools K) (cfg : RunConfig K) (m : Model2d K) (hl2 : Loaded2d m) (l : Loc K) (c : Finished K)
    (hc : buildCss x cfg m l = .ok c) :
    ∃ r c0, IsNearest m l r ∧ gridCell x.sqrt m.faces r = some c0 ∧
      (controlVolumeOf m.nMaps (getSelection x.sqrt m.faces m.edges l.id)).cells[
        centreOf x.nn (getSelection x.sqrt m.faces m.edges l.id) l]? = some c0 := by
  have hg := (buildCss_ok x cfg m l c hc).1
  obtain ⟨b, g, hbg, hcr, klen, kmem⟩ := geometry_points _ _ _ _ _ _ _ _ _ hg
  obtain ⟨c', L, z0, d0, zs, accs, hc', _⟩ := built_parts hbg
  obtain ⟨c0, hc0⟩ : ∃ c0, (controlVolumeOf m.nMaps (getSelection x.sqrt m.faces m.edges l.id)).cells[
      centreOf x.nn (getSelection x.sqrt m.faces m.edges l.id) l]? = some c0 := by
    have hlt := (List.getElem?_eq_some_iff.1 hc').1
    unfold getTimeseries at hlt
    rw [List.length_map] at hlt
    exact ⟨_, List.getElem?_eq_getElem hlt⟩
  obtain ⟨r, hr, hcell⟩ := controlVolume_at x m hl2 _ _ _ _ hc0
  exact ⟨r, c0, centre_nearest x m hl2 l r hr, hcell, hc0⟩

private theorem same_without (x : Tools K) (cfg : RunConfig K) (i i' : Inputs K) (hi : Consistent i) (hi' : Consistent i')
    (o o' : Surroundings) (hdir : o.dirExists = true) (hdir' : o'.dirExists = true)
    (hw : ∀ f, IsResult f → Sound o.faults f) (hw' : ∀ f, IsResult f → Sound o'.faults f) (overwrite overwrite' : Bool)
    (s s' : Store) (h : (run (jobOf x cfg i o) overwrite s).2 = .ok true) (h' : (run (jobOf x cfg i' o') overwrite' s').2 = .ok true)
    (m : Model2d K) (hm : setModelData x.nn i = .ok m) (g : List (Option K) → List (Option K)) (hg : Uniform g) (n : Nat)
    (hm' : setModelData x.nn i' = .ok (editModel g n m))
    (xs : List (Loc K)) (hx : Requested cfg.cssSelection m.stations xs) (hn : ∀ l ∈ xs, PlainName l.id)
    (hfull : ∀ l ∈ xs, ∀ c, buildCss x cfg m l = .ok c → FullNumbers x.ft c)
    (hfull' : ∀ m' l c, setModelData x.nn i' = .ok m' → l ∈ xs → buildCss x cfg m' l = .ok c → FullNumbers x.ft c)
    (l : Loc K) (hl : l ∈ xs) (hu : Usable m l)
    (hp : ∀ r c0, IsNearest m l r → gridCell x.sqrt m.faces r = some c0 →
      (controlVolumeOf m.nMaps (getSelection x.sqrt m.faces m.edges l.id)).cells[
        centreOf x.nn (getSelection x.sqrt m.faces m.edges l.id) l]? = some c0 →
      (buildCrossSectionGeometry (x.opt l.id) cfg.pipeline x.bump x.release (x.log l.id) l.length
        (centreOf x.nn (getSelection x.sqrt m.faces m.edges l.id) l)
        (controlVolumeOf n (editSelection g (getSelection x.sqrt m.faces m.edges l.id)))).map profileOf =
      (buildCrossSectionGeometry (x.opt l.id) cfg.pipeline x.bump x.release (x.log l.id) l.length
        (centreOf x.nn (getSelection x.sqrt m.faces m.edges l.id) l)
        (controlVolumeOf m.nMaps (getSelection x.sqrt m.faces m.edges l.id))).map profileOf) :
    ∃ text text' defs defs', (run (jobOf x cfg i o) overwrite s).1 "CrossSectionDefinitions.ini".toList = some text ∧
      (run (jobOf x cfg i' o') overwrite' s').1 "CrossSectionDefinitions.ini".toList = some text' ∧
      readDefinitions x.ft text = .ok defs ∧ readDefinitions x.ft text' = .ok defs' ∧
      ∃ d ∈ defs, d ∈ defs' ∧ d.id = l.id := by
  have hu' : Usable (editModel g n m) l := hu
  obtain ⟨cs, text, hcs, ht, hd⟩ := run_definitions x cfg i hi o hdir hw overwrite s h m hm xs hx ⟨l, hl, hu⟩ hn hfull
  obtain ⟨cs', text', hcs', ht', hd'⟩ := run_definitions x cfg i' hi' o' hdir' hw' overwrite' s' h' _ hm' xs hx ⟨l, hl, hu'⟩ hn
    fun l hl c hc => hfull' _ l c hm' hl hc
  obtain ⟨c, hc, hbc⟩ := forall₂_mem hcs.flip l (List.mem_filter.2 ⟨hl, decide_eq_true hu⟩)
  obtain ⟨c', hc', hbc'⟩ := forall₂_mem hcs'.flip l (List.mem_filter.2 ⟨hl, decide_eq_true hu'⟩)
  have hbc : buildCss x cfg m l = .ok c := hbc
  have hbc' : buildCss x cfg (editModel g n m) l = .ok c' := hbc'
  obtain ⟨r, c0, h1, h2, h3⟩ := centre_cell x cfg m (loaded2d x.nn i hi m hm) l c hbc
  have key := definition_of_profile x cfg g hg n m l c c' hbc hbc' (hp r c0 h1 h2 h3)
  have e : definitionOf x.ft c.out = definitionOf x.ft c'.out := by rw [← key]; rfl
  refine ⟨text, text', _, _, ht, ht', hd, hd', definitionOf x.ft c.out, List.mem_map_of_mem (f := fun c : Finished K =>
    definitionOf x.ft c.out) hc, ?_, ?_⟩
  · rw [e]; exact List.mem_map_of_mem (f := fun c : Finished K => definitionOf x.ft c.out) hc'
  · exact (buildCss_ok x cfg m l c hbc).2.2.2.2.2.2.1

/-- A map file with changed series still has all its columns. -/
theorem consistent_edit (g : List (Option K) → List (Option K)) (n : Nat) (i : Inputs K) (hi : Consistent i) (d : MapData K)
    (hd : i.map = .ok d) : Consistent { i with map := .ok (MapData.editMaps g n d) } := by
  have hc := hi.map d hd
  constructor
  · intro d' hd'
    obtain rfl := Except.ok.inj hd'
    have h1 := hc.waterdepth
    have h2 := hc.waterlevel
    have h3 := hc.velocityX
    have h4 := hc.velocityY
    have h5 := hc.chezyMean
    have h6 := hc.edgeChezy
    exact { y := hc.y, area := hc.area, bedlevel := hc.bedlevel, region := hc.region, islake := hc.islake, edgeY := hc.edgeY
            waterdepth := by unfold MapData.editMaps; rw [List.length_map]; exact h1
            waterlevel := by unfold MapData.editMaps; rw [List.length_map]; exact h2
            velocityX := by unfold MapData.editMaps; rw [List.length_map]; exact h3
            velocityY := by unfold MapData.editMaps; rw [List.length_map]; exact h4
            chezyMean := by unfold MapData.editMaps; rw [List.length_map]; exact h5
            edgeChezy := by unfold MapData.editMaps; rw [List.length_map]; exact h6 }
  · intro d' css r hd' hcss hr
    obtain rfl := Except.ok.inj hd'
    exact hi.regions d css r hd hcss hr
  · intro d' r hd' hr
    obtain rfl := Except.ok.inj hd'
    exact hi.sections d r hd hr

/-- **C186, after the highest water.** A map file is cut off after some map. For a requested cross-section all later maps have a level at
the face nearest to the location that is not above that of some map before the cut, and this face is always wet. The sections are given
by polygons, and the default way of finding the flowing part is used. If the runs with the whole file and with the part of it both report
success, both definition files have the same definition for the cross-section. -/
theorem C186_after_peak (x : Tools K) (cfg : RunConfig K) (hmethod : cfg.pipeline.build.conveyanceDetectionMethod ≠ 0) (i : Inputs K)
    (hi : Consistent i) (o o' : Surroundings) (hdir : o.dirExists = true) (hdir' : o'.dirExists = true)
    (hw : ∀ f, IsResult f → Sound o.faults f) (hw' : ∀ f, IsResult f → Sound o'.faults f) (overwrite overwrite' : Bool)
    (s s' : Store) (n : Nat) (h : (run (jobOf x cfg i o) overwrite s).2 = .ok true)
    (h' : (run (jobOf x cfg (Inputs.firstMaps n i) o') overwrite' s').2 = .ok true)
    (d : MapData K) (hd : i.map = .ok d) (hwhole : MapData.Whole d) (labels : SectionLabels) (hsec : i.sections = some (.ok labels))
    (m : Model2d K) (hm : setModelData x.nn i = .ok m)
    (xs : List (Loc K)) (hx : Requested cfg.cssSelection m.stations xs) (hn : ∀ l ∈ xs, PlainName l.id)
    (hfull : ∀ l ∈ xs, ∀ c, buildCss x cfg m l = .ok c → FullNumbers x.ft c)
    (hfull' : ∀ m' l c, setModelData x.nn (Inputs.firstMaps n i) = .ok m' → l ∈ xs → buildCss x cfg m' l = .ok c → FullNumbers x.ft c)
    (skip lake : Nat) (hskip : cfg.pipeline.build.skipMaps = (skip : Int)) (hlake : cfg.pipeline.build.lakeTimesteps = (lake : Int))
    (hlate : skip + lake < n) (hcut : n ≤ m.nMaps) (l : Loc K) (hl : l ∈ xs) (hu : Usable m l)
    (hnear : ∀ r c, IsNearest m l r → gridCell x.sqrt m.faces r = some c →
      (∀ t, skip ≤ t → t < m.nMaps → ∃ z, c.level t = some z ∧ z ≠ -999) ∧
      ∀ t, n ≤ t → t < m.nMaps → ∃ j, skip ≤ j ∧ j < n ∧ ∃ a b, c.level t = some a ∧ c.level j = some b ∧ a ≤ b) :
    ∃ text text' defs defs', (run (jobOf x cfg i o) overwrite s).1 "CrossSectionDefinitions.ini".toList = some text ∧
      (run (jobOf x cfg (Inputs.firstMaps n i) o') overwrite' s').1 "CrossSectionDefinitions.ini".toList = some text' ∧
      readDefinitions x.ft text = .ok defs ∧ readDefinitions x.ft text' = .ok defs' ∧
      ∃ d ∈ defs, d ∈ defs' ∧ d.id = l.id := by
  have he : Inputs.firstMaps n i = { i with map := .ok (MapData.editMaps (List.take n) n d) } := by
    unfold Inputs.firstMaps; rw [hd]; rfl
  have hm' : setModelData x.nn (Inputs.firstMaps n i) = .ok (editModel (List.take n) n m) := by
    rw [he, setModelData_edit x.nn (List.take n) n i d hd (.inl ⟨labels, hsec⟩), hm]; rfl
  refine same_without x cfg i _ hi (by rw [he]; exact consistent_edit _ _ i hi d hd) o o' hdir hdir' hw hw' overwrite overwrite' s s' h h'
    m hm (List.take n) (uniform_take n) n hm' xs hx hn hfull hfull' l hl hu fun r c0 h1 h2 h3 => ?_
  obtain ⟨hwet, hlow⟩ := hnear r c0 h1 h2
  obtain ⟨k, hk⟩ := Nat.exists_eq_add_of_le hcut
  have hlen : ∀ r ∈ (getSelection x.sqrt m.faces m.edges l.id).waterdepth ++ (getSelection x.sqrt m.faces m.edges l.id).waterlevel ++
      (getSelection x.sqrt m.faces m.edges l.id).velocity, r.length = n + k :=
    selection_lengths x i d hd hwhole m hm l.id (n + k) hk
  rw [controlVolume_take n k _ hlen, ← hk]
  exact C164_after_peak (x.opt l.id) cfg.pipeline hmethod x.bump x.release (x.log l.id) l.length _ skip lake n k hskip hlake hlate _ hk c0 h3
    hwet hlow

private theorem loaded_of' (i : Inputs ℚ) (h : (setModelData firstNearest i).toOption.isSome = true) :
    setModelData idleTools.nn i = .ok (sampleLoaded i) := by
  unfold sampleLoaded
  show setModelData firstNearest i = _
  cases hm : setModelData firstNearest i with
  | error e => rw [hm] at h; cases h
  | ok m => rfl

private theorem ok_of' {α : Type} {e : Except PyErr α} {a : α} (h : e.toOption = some a) : e = .ok a := by
  cases e with
  | error e => cases h
  | ok b => exact congrArg Except.ok (Option.some.inj h)

/-- The sample with section polygons and water that falls after the third map. -/
def fallingMap : MapData ℚ :=
  let kinds : List Nat := [0, 1, 2, 0, 1, 2, 0, 1, 2, 0, 0, 2, 2]
  let level : List ℚ := [2, 3, 5, 4]
  let bed : Nat → ℚ := fun k => if k = 0 then 0 else if k = 1 then 3 else -7
  { sampleMap with
    faces :=
      { sampleMap.faces with
        waterdepth := kinds.map fun k => level.map fun z => some (max 0 (z - bed k))
        waterlevel := kinds.map fun k => level.map fun z => some (max (bed k) z) } }

/-- The input of this run. -/
def fallingInputs : Inputs ℚ := { sampleSectionInputs with map := .ok fallingMap }

/-- The location in the middle. -/
def fallingLoc : Loc ℚ := ⟨"rhine_100".toList, 5, 0, 10, "rhine".toList, 100⟩

/-- The face nearest to this location. -/
theorem near_five (m : Model2d ℚ) (h5 : ∀ r ∈ rowsOf m.faces.sclass fallingLoc.id,
        5 ∈ rowsOf m.faces.sclass fallingLoc.id ∧ (m.faces.x[r]? = some (r : ℚ) ∧ m.faces.y[r]? = some 0) ∧
        (m.faces.x[5]? = some 5 ∧ m.faces.y[5]? = some 0) ∧
        (((r : ℚ) - fallingLoc.x) ^ 2 + (0 - fallingLoc.y) ^ 2 ≤ (5 - fallingLoc.x) ^ 2 + (0 - fallingLoc.y) ^ 2 → r = 5))
    (r : Nat) (h : IsNearest m fallingLoc r) : r = 5 := by
  obtain ⟨k1, ⟨k2, k3⟩, ⟨k4, k5⟩, k6⟩ := h5 r h.1
  exact k6 (h.2 5 k1 _ _ _ _ k2 k3 k4 k5)

/-- The water is highest in the third map; the fourth is cut off. -/
example : Consistent fallingInputs ∧ sampleRunConfig.pipeline.build.conveyanceDetectionMethod ≠ 0 ∧
    (run (jobOf idleTools sampleRunConfig fallingInputs sampleSurroundings) false noFiles).2 = .ok true ∧
    (run (jobOf idleTools sampleRunConfig (Inputs.firstMaps 3 fallingInputs) sampleSurroundings) false noFiles).2 = .ok true ∧
    fallingInputs.map = .ok fallingMap ∧ MapData.Whole fallingMap ∧ (∃ labels, fallingInputs.sections = some (.ok labels)) ∧
    sampleRunConfig.pipeline.build.skipMaps = ((0 : Nat) : Int) ∧ sampleRunConfig.pipeline.build.lakeTimesteps = ((1 : Nat) : Int) ∧
    ∃ m, setModelData idleTools.nn fallingInputs = .ok m ∧ 3 < m.nMaps ∧ Requested sampleRunConfig.cssSelection m.stations m.stations ∧
      (∀ l ∈ m.stations, PlainName l.id) ∧ fallingLoc ∈ m.stations ∧ Usable m fallingLoc ∧
      (∀ l ∈ m.stations, ∀ c, buildCss idleTools sampleRunConfig m l = .ok c → FullNumbers idleTools.ft c) ∧
      (∀ m' l c, setModelData idleTools.nn (Inputs.firstMaps 3 fallingInputs) = .ok m' → l ∈ m.stations →
        buildCss idleTools sampleRunConfig m' l = .ok c → FullNumbers idleTools.ft c) ∧
      ∀ r c, IsNearest m fallingLoc r → gridCell idleTools.sqrt m.faces r = some c →
        (∀ t, 0 ≤ t → t < m.nMaps → ∃ z, c.level t = some z ∧ z ≠ -999) ∧
        ∀ t, 3 ≤ t → t < m.nMaps → ∃ j, 0 ≤ j ∧ j < 3 ∧ ∃ a b, c.level t = some a ∧ c.level j = some b ∧ a ≤ b := by
  have hn : (sampleLoaded fallingInputs).nMaps = 4 := by decide +kernel
  refine ⟨⟨?_, fun _ _ _ _ _ h => (by cases h), ?_⟩, by decide +kernel, ok_of' (by decide +kernel), ok_of' (by decide +kernel), rfl,
    (by unfold MapData.Whole; decide +kernel), ⟨_, rfl⟩, by decide +kernel, by decide +kernel, sampleLoaded fallingInputs, loaded_of' _ (by decide +kernel),
    by decide +kernel, .inl ⟨rfl, rfl⟩, by decide +kernel, by decide +kernel, by decide +kernel,
    fullNumbers_of (sampleLoaded fallingInputs) (by decide +kernel), ?_, ?_⟩
  · intro d hd
    obtain rfl := Except.ok.inj hd
    constructor <;> rfl
  · intro d r hd h
    obtain rfl := Except.ok.inj hd
    obtain rfl := Except.ok.inj (Option.some.inj h)
    constructor <;> rfl
  · intro m' l c hm' hl hc
    have h := loaded_of' (Inputs.firstMaps 3 fallingInputs) (by decide +kernel)
    obtain rfl := Except.ok.inj (h.symm.trans hm')
    have hs : (sampleLoaded (Inputs.firstMaps 3 fallingInputs)).stations = (sampleLoaded fallingInputs).stations := by decide +kernel
    exact fullNumbers_of (sampleLoaded (Inputs.firstMaps 3 fallingInputs)) (by decide +kernel) l (by rw [hs]; exact hl) c hc
  · intro r c hr hc
    obtain rfl := near_five _ (by decide +kernel) r hr
    have hlev : (gridCell idleTools.sqrt (sampleLoaded fallingInputs).faces 5).map (fun c => (List.range 4).map c.level) =
        some [some 2, some 3, some 5, some 4] := by decide +kernel
    rw [hc] at hlev
    have hlev : (List.range 4).map c.level = [some 2, some 3, some 5, some 4] := Option.some.inj hlev
    have e : ∀ t < 4, some (c.level t) = [some 2, some 3, some 5, some 4][t]? := by
      intro t ht
      rw [← hlev, List.getElem?_map, List.getElem?_range ht]; rfl
    have e0 : c.level 0 = some 2 := Option.some.inj (e 0 (by omega))
    have e1 : c.level 1 = some 3 := Option.some.inj (e 1 (by omega))
    have e2 : c.level 2 = some 5 := Option.some.inj (e 2 (by omega))
    have e3 : c.level 3 = some 4 := Option.some.inj (e 3 (by omega))
    rw [hn]
    constructor
    · intro t _ ht
      rcases t with _ | _ | _ | _ | t
      · exact ⟨_, e0, by decide +kernel⟩
      · exact ⟨_, e1, by decide +kernel⟩
      · exact ⟨_, e2, by decide +kernel⟩
      · exact ⟨_, e3, by decide +kernel⟩
      · omega
    · intro t h3 ht
      obtain rfl : t = 3 := by omega
      exact ⟨2, by omega, by omega, _, _, e3, e2, by decide +kernel⟩

/-- **C186, a map in which the water does not rise.** One map is left out of a map file. For a requested cross-section its level at the face
nearest to the location is not above that of some map before it, and this face is always wet. It is the last map, or has the depths of the
map before it, or there are no lakes. The sections are given by polygons, or it is not the last map. The default way of finding the flowing
part is used. If both runs report success, both definition files have the same definition for the cross-section. -/
theorem C186_not_rising (x : Tools K) (cfg : RunConfig K) (hmethod : cfg.pipeline.build.conveyanceDetectionMethod ≠ 0) (i : Inputs K)
    (hi : Consistent i) (o o' : Surroundings) (hdir : o.dirExists = true) (hdir' : o'.dirExists = true)
    (hw : ∀ f, IsResult f → Sound o.faults f) (hw' : ∀ f, IsResult f → Sound o'.faults f) (overwrite overwrite' : Bool)
    (s s' : Store) (p : Nat) (h : (run (jobOf x cfg i o) overwrite s).2 = .ok true)
    (h' : (run (jobOf x cfg (Inputs.withoutMap p i) o') overwrite' s').2 = .ok true)
    (d : MapData K) (hd : i.map = .ok d) (hwhole : MapData.Whole d) (m : Model2d K) (hm : setModelData x.nn i = .ok m)
    (hsec : (∃ labels, i.sections = some (.ok labels)) ∨ p + 1 < m.nMaps)
    (xs : List (Loc K)) (hx : Requested cfg.cssSelection m.stations xs) (hn : ∀ l ∈ xs, PlainName l.id)
    (hfull : ∀ l ∈ xs, ∀ c, buildCss x cfg m l = .ok c → FullNumbers x.ft c)
    (hfull' : ∀ m' l c, setModelData x.nn (Inputs.withoutMap p i) = .ok m' → l ∈ xs → buildCss x cfg m' l = .ok c → FullNumbers x.ft c)
    (skip lake : Nat) (hskip : cfg.pipeline.build.skipMaps = (skip : Int)) (hlake : cfg.pipeline.build.lakeTimesteps = (lake : Int))
    (hlate : skip + lake < p) (hp : p < m.nMaps) (l : Loc K) (hl : l ∈ xs) (hu : Usable m l)
    (hnear : ∀ r c, IsNearest m l r → gridCell x.sqrt m.faces r = some c →
      (∀ t, skip ≤ t → t < m.nMaps → ∃ z, c.level t = some z ∧ z ≠ -999) ∧
      ∃ j, skip ≤ j ∧ j < p ∧ ∃ a b, c.level p = some a ∧ c.level j = some b ∧ a ≤ b)
    (hlakes : p + 1 = m.nMaps ∨ (∀ c ∈ facesOf x.sqrt m l, c.depth p = c.depth (p - 1)) ∨
      ∀ c ∈ facesOf x.sqrt m l, ¬ IsLake (fun t => c.depth (skip + t)) lake) :
    ∃ text text' defs defs', (run (jobOf x cfg i o) overwrite s).1 "CrossSectionDefinitions.ini".toList = some text ∧
      (run (jobOf x cfg (Inputs.withoutMap p i) o') overwrite' s').1 "CrossSectionDefinitions.ini".toList = some text' ∧
      readDefinitions x.ft text = .ok defs ∧ readDefinitions x.ft text' = .ok defs' ∧
      ∃ d ∈ defs, d ∈ defs' ∧ d.id = l.id := by
  have hl2 := loaded2d x.nn i hi m hm
  have hnm : m.nMaps = d.nMaps := by
    obtain ⟨d', css, r, sec, fc, ec, fs, es, hd', -, -, -, -, -, -, -, h9, -⟩ := setModelData_ok x.nn i m hm
    obtain rfl := Except.ok.inj (hd.symm.trans hd')
    exact h9
  have he : Inputs.withoutMap p i = { i with map := .ok (MapData.editMaps (fun r => r.eraseIdx p) (d.nMaps - 1) d) } := by
    unfold Inputs.withoutMap; rw [hd]; rfl
  have hlast : (∃ r, i.sections = some (.ok r)) ∨ ∀ r ∈ d.edges.chezy ++ d.chezyMean, (r.eraseIdx p).getLast? = r.getLast? := by
    refine hsec.imp id fun hp1 r hr => ?_
    have hr' : r.length = d.nMaps := hwhole r (by
      rcases List.mem_append.1 hr with h | h
      · exact List.mem_append.2 (.inl (List.mem_append.2 (.inr h)))
      · exact List.mem_append.2 (.inr h))
    rw [List.getLast?_eq_getElem?, List.getLast?_eq_getElem?, List.getElem?_eraseIdx,
      List.length_eraseIdx_of_lt (by omega), if_neg (by omega)]
    congr 1
    omega
  have hm' : setModelData x.nn (Inputs.withoutMap p i) = .ok (editModel (fun r => r.eraseIdx p) (d.nMaps - 1) m) := by
    rw [he, setModelData_edit x.nn _ (d.nMaps - 1) i d hd hlast, hm]; rfl
  refine same_without x cfg i _ hi (by rw [he]; exact consistent_edit _ _ i hi d hd) o o' hdir hdir' hw hw' overwrite overwrite' s s' h h'
    m hm (fun r => r.eraseIdx p) (uniform_erase p) (d.nMaps - 1) hm' xs hx hn hfull hfull' l hl hu fun r c0 h1 h2 h3 => ?_
  obtain ⟨hwet, hlow⟩ := hnear r c0 h1 h2
  rw [← hnm, controlVolume_erase p m.nMaps]
  refine C164_not_rising_partial (x.opt l.id) cfg.pipeline hmethod x.bump x.release (x.log l.id) l.length _ _ skip lake p hskip hlake hlate
    hp c0 h3 hwet hlow ?_
  rw [controlVolume_cells x m hl2]
  exact hlakes

/-- In the third map of the sample the water is lower than in the second; the sections are found from the roughness. -/
example : Consistent sampleInputs ∧
    (run (jobOf idleTools sampleRunConfig sampleInputs sampleSurroundings) false noFiles).2 = .ok true ∧
    (run (jobOf idleTools sampleRunConfig (Inputs.withoutMap 2 sampleInputs) sampleSurroundings) false noFiles).2 = .ok true ∧
    sampleInputs.map = .ok sampleMap ∧ MapData.Whole sampleMap ∧
    ∃ m, setModelData idleTools.nn sampleInputs = .ok m ∧ 2 + 1 < m.nMaps ∧ Requested sampleRunConfig.cssSelection m.stations m.stations ∧
      (∀ l ∈ m.stations, PlainName l.id) ∧ fallingLoc ∈ m.stations ∧ Usable m fallingLoc ∧
      (∀ l ∈ m.stations, ∀ c, buildCss idleTools sampleRunConfig m l = .ok c → FullNumbers idleTools.ft c) ∧
      (∀ m' l c, setModelData idleTools.nn (Inputs.withoutMap 2 sampleInputs) = .ok m' → l ∈ m.stations →
        buildCss idleTools sampleRunConfig m' l = .ok c → FullNumbers idleTools.ft c) ∧
      (∀ r c, IsNearest m fallingLoc r → gridCell idleTools.sqrt m.faces r = some c →
        (∀ t, 0 ≤ t → t < m.nMaps → ∃ z, c.level t = some z ∧ z ≠ -999) ∧
        ∃ j, 0 ≤ j ∧ j < 2 ∧ ∃ a b, c.level 2 = some a ∧ c.level j = some b ∧ a ≤ b) ∧
      ∀ c ∈ facesOf idleTools.sqrt m fallingLoc, ¬ IsLake (fun t => c.depth (0 + t)) 1 := by
  have hn : (sampleLoaded sampleInputs).nMaps = 4 := by decide +kernel
  refine ⟨⟨?_, fun _ _ _ _ _ h => (by cases h), fun _ _ _ h => (by cases h)⟩, ok_of' (by decide +kernel), ok_of' (by decide +kernel), rfl,
    (by unfold MapData.Whole; decide +kernel), sampleLoaded sampleInputs, loaded_of' _ (by decide +kernel),
    by decide +kernel, .inl ⟨rfl, rfl⟩, by decide +kernel, by decide +kernel, by decide +kernel,
    fullNumbers_of (sampleLoaded sampleInputs) (by decide +kernel), ?_, ?_, ?_⟩
  · intro d hd
    obtain rfl := Except.ok.inj hd
    constructor <;> rfl
  · intro m' l c hm' hl hc
    have h := loaded_of' (Inputs.withoutMap 2 sampleInputs) (by decide +kernel)
    obtain rfl := Except.ok.inj (h.symm.trans hm')
    have hs : (sampleLoaded (Inputs.withoutMap 2 sampleInputs)).stations = (sampleLoaded sampleInputs).stations := by decide +kernel
    exact fullNumbers_of (sampleLoaded (Inputs.withoutMap 2 sampleInputs)) (by decide +kernel) l (by rw [hs]; exact hl) c hc
  · intro r c hr hc
    obtain rfl := near_five _ (by decide +kernel) r hr
    have hlev : (gridCell idleTools.sqrt (sampleLoaded sampleInputs).faces 5).map (fun c => (List.range 4).map c.level) =
        some [some 2, some 3, some (5 / 2), some 5] := by decide +kernel
    rw [hc] at hlev
    have hlev : (List.range 4).map c.level = [some 2, some 3, some (5 / 2), some 5] := Option.some.inj hlev
    have e : ∀ t < 4, some (c.level t) = [some 2, some 3, some (5 / 2), some 5][t]? := by
      intro t ht
      rw [← hlev, List.getElem?_map, List.getElem?_range ht]; rfl
    have e0 : c.level 0 = some 2 := Option.some.inj (e 0 (by omega))
    have e1 : c.level 1 = some 3 := Option.some.inj (e 1 (by omega))
    have e2 : c.level 2 = some (5 / 2) := Option.some.inj (e 2 (by omega))
    have e3 : c.level 3 = some 5 := Option.some.inj (e 3 (by omega))
    rw [hn]
    constructor
    · intro t _ ht
      rcases t with _ | _ | _ | _ | t
      · exact ⟨_, e0, by decide +kernel⟩
      · exact ⟨_, e1, by decide +kernel⟩
      · exact ⟨_, e2, by decide +kernel⟩
      · exact ⟨_, e3, by decide +kernel⟩
      · omega
    · exact ⟨1, by omega, by omega, _, _, e2, e1, by decide +kernel⟩
  · have key : ∀ c ∈ facesOf idleTools.sqrt (sampleLoaded sampleInputs) fallingLoc,
        (c.depth (0 + 1) = some 0 ∨ ∃ a ∈ ([2, 9] : List ℚ), c.depth (0 + 0) = some a ∧ c.depth (0 + 1) = some (a + 1)) := by
      decide +kernel
    rintro c hc ⟨dL, d0, h1, h0, hpos, habs⟩
    rcases key c hc with h | ⟨a, ha, ha0, ha1⟩
    · have := Option.some.inj (h.symm.trans h1)
      rw [← this] at hpos
      exact absurd hpos (lt_irrefl _)
    · have e0 := Option.some.inj (ha0.symm.trans h0)
      have e1 := Option.some.inj (ha1.symm.trans h1)
      rw [← e0, ← e1, add_sub_cancel_left] at habs
      exact absurd habs (by norm_num)

end Fm2prof.Props

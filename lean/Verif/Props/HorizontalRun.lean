import Verif.Proofs.HorizontalRun
import Verif.Props.Range

/-!
# A run over a horizontal water surface: C177
-/

set_option linter.unusedSectionVars false

namespace Fm2prof.Props

open Fm2prof Spec HorizontalProof

variable {K : Type} [Field K] [LinearOrder K] [IsStrictOrderedRing K] [FloorRing K]

/-- **C177.** After a run that reports success, over a water surface that is horizontal at each location (not necessarily the same at all
locations), each point in the definition file lies on the curve of the area of the faces below each level over the length, up to a
millimetre for each point, a millimetre of the beds, and the rounding to four decimals. -/
theorem C177_definitions (x : Tools K) (hb : ∀ y, x.bump y = y + 1 / 1000) (cfg : RunConfig K) (i : Inputs K) (hi : Consistent i)
    (o : Surroundings) (hdir : o.dirExists = true) (hw : ∀ f, IsResult f → Sound o.faults f) (overwrite : Bool) (s : Store)
    (h : (run (jobOf x cfg i o) overwrite s).2 = .ok true) (m : Model2d K) (hm : setModelData x.nn i = .ok m)
    (xs : List (Loc K)) (hx : Requested cfg.cssSelection m.stations xs) (hu : ∃ l ∈ xs, Usable m l)
    (hn : ∀ l ∈ xs, PlainName l.id)
    (hfull : ∀ l ∈ xs, ∀ c, buildCss x cfg m l = .ok c → FullNumbers x.ft c)
    (harea : ∀ a ∈ m.faces.area, 0 ≤ a) (hlen : ∀ l ∈ xs, 0 < l.length)
    (skip lake : Nat) (hskip : cfg.pipeline.build.skipMaps = (skip : Int)) (hlake : cfg.pipeline.build.lakeTimesteps = (lake : Int))
    (hmaps : skip + lake < m.nMaps) (level : Loc K → Nat → K)
    (hlevel : ∀ l ∈ xs, Usable m l → HorizontalWater ⟨m.nMaps, facesOf x.sqrt m l⟩ (level l) ∧
      level l skip + 1 / 100 < level l (skip + lake) ∧
      ∀ r c, IsNearest m l r → gridCell x.sqrt m.faces r = some c → c.bed < level l skip) :
    ∃ text defs, (run (jobOf x cfg i o) overwrite s).1 "CrossSectionDefinitions.ini".toList = some text ∧
      readDefinitions x.ft text = .ok defs ∧
      List.Forall₂ (fun l d => d.id = l.id ∧ ∃ z w : List K, z.length = w.length ∧ d.levels = z.map (as4 x.ft) ∧
          d.totalWidth = w.map (as4 x.ft) ∧ ∀ p ∈ z.zip w,
            OnBedCurve (facesOf x.sqrt m l) l.length cfg.pipeline.minimumWidth (((9 + m.nMaps : Nat) : K) * (1 / 1000)) p)
        (xs.filter fun l => decide (Usable m l)) defs := by
  obtain ⟨cs, text, hcs, ht, hd⟩ := run_definitions x cfg i hi o hdir hw overwrite s h m hm xs hx hu hn hfull
  have hl2 := loaded2d x.nn i hi m hm
  refine ⟨text, _, ht, hd, ?_⟩
  rw [List.forall₂_map_right_iff]
  refine (forall₂_with_mem hcs).imp fun l c hc => ?_
  obtain ⟨hl, hc⟩ := hc
  have husable := of_decide_eq_true (List.mem_filter.1 hl).2
  have hl := (List.mem_filter.1 hl).1
  obtain ⟨hwater, hrise, hnear⟩ := hlevel l hl husable
  obtain ⟨hg, _, _, _, _, _, h1, _, _, h2, h3, h4, _⟩ := buildCss_ok x cfg m l c hc
  obtain ⟨b, g, hbg, hcr, klen, kmem⟩ := geometry_points _ _ _ _ _ _ _ _ _ hg
  have ebump : x.bump = (· + 1 / 1000) := funext hb
  rw [ebump] at hcr
  have hcv : controlVolumeOf m.nMaps (getSelection x.sqrt m.faces m.edges l.id) = ⟨m.nMaps, facesOf x.sqrt m l⟩ := by
    have := controlVolume_cells x m hl2 m.nMaps l.id
    have e : controlVolumeOf m.nMaps (getSelection x.sqrt m.faces m.edges l.id) =
        ⟨m.nMaps, (controlVolumeOf m.nMaps (getSelection x.sqrt m.faces m.edges l.id)).cells⟩ := rfl
    rw [e, this]
    rfl
  obtain ⟨c', L, z0, d0, zs, accs, hc', _⟩ := built_parts hbg
  obtain ⟨c0, hc0⟩ : ∃ c0, (controlVolumeOf m.nMaps (getSelection x.sqrt m.faces m.edges l.id)).cells[
      centreOf x.nn (getSelection x.sqrt m.faces m.edges l.id) l]? = some c0 := by
    have hlt := (List.getElem?_eq_some_iff.1 hc').1
    unfold getTimeseries at hlt
    rw [List.length_map] at hlt
    exact ⟨_, List.getElem?_eq_getElem hlt⟩
  obtain ⟨r, hr, hcell⟩ := controlVolume_at x m hl2 _ _ _ _ hc0
  have hwet := hnear r c0 (centre_nearest x m hl2 l r hr) hcell
  rw [hcv] at hbg hc0
  have hcells : ∀ c' ∈ facesOf x.sqrt m l, 0 ≤ c'.area := by
    intro c' hc'
    obtain ⟨r, _, hr⟩ := List.mem_filterMap.1 hc'
    unfold gridCell at hr
    cases ha : m.faces.area[r]? with
    | none => rw [ha] at hr; cases hr
    | some a =>
      rw [ha] at hr
      have := harea a (List.mem_of_getElem? ha)
      simp only [Option.bind_some, Option.bind_eq_some_iff, Option.map_eq_some_iff] at hr
      obtain ⟨_, _, _, _, _, _, _, _, _, _, rfl⟩ := hr
      exact this
  refine ⟨h1, c.css.z, c.css.totalWidth, klen, ?_, ?_, fun p hp => ?_⟩
  · show c.out.z.map _ = _; rw [h2]
  · show c.out.totalWidth.map _ = _; rw [h4]
  · exact repaired_points _ _ (hlen l hl) _ skip lake ⟨m.nMaps, facesOf x.sqrt m l⟩ (level l) c0 hwater hskip hlake hmaps hrise hc0 hwet
      hcells _ b g hbg hcr p (kmem p hp)

/-- The water in the sample run, but rising from each map to the next. -/
def levelMap : MapData ℚ :=
  let kinds : List Nat := [0, 1, 2, 0, 1, 2, 0, 1, 2, 0, 0, 2, 2]
  let level : List ℚ := [2, 3, 4, 5]
  let bed : Nat → ℚ := fun k => if k = 0 then 0 else if k = 1 then 3 else -7
  { sampleMap with
    faces :=
      { sampleMap.faces with
        waterdepth := kinds.map fun k => level.map fun z => some (max 0 (z - bed k))
        waterlevel := kinds.map fun k => level.map fun z => some (max (bed k) z) } }

/-- The sample run with this water. -/
def levelInputs : Inputs ℚ := { sampleInputs with map := .ok levelMap }

private theorem level_loaded : setModelData firstNearest levelInputs = .ok (sampleLoaded levelInputs) := by
  have h : (setModelData firstNearest levelInputs).toOption.isSome = true := by decide +kernel
  unfold sampleLoaded
  cases hm : setModelData firstNearest levelInputs with
  | error e => rw [hm] at h; cases h
  | ok m => rfl

/-- The levels of this water. -/
def levelAt (t : Nat) : ℚ := 2 + (t : ℚ)

private theorem level_water : ∀ l ∈ (sampleLoaded levelInputs).stations,
    HorizontalWater ⟨(sampleLoaded levelInputs).nMaps, facesOf sampleTools.sqrt (sampleLoaded levelInputs) l⟩ levelAt := by
  have hn : (sampleLoaded levelInputs).nMaps = 4 := by decide +kernel
  intro l hl
  rw [hn]
  refine ⟨?_, ?_, ?_, ?_⟩
  · have : ∀ l ∈ (sampleLoaded levelInputs).stations, ∀ c ∈ facesOf sampleTools.sqrt (sampleLoaded levelInputs) l, ∀ t < 4,
        c.bed < levelAt t → c.level t = some (levelAt t) := by decide +kernel
    exact this l hl
  · have : ∀ l ∈ (sampleLoaded levelInputs).stations, ∀ c ∈ facesOf sampleTools.sqrt (sampleLoaded levelInputs) l, ∀ t < 4,
        c.depth t = some (max (levelAt t) c.bed - c.bed) := by decide +kernel
    exact this l hl
  · intro t _
    unfold levelAt
    push_cast
    linarith
  · intro t _
    unfold levelAt
    have : (0 : ℚ) ≤ t := Nat.cast_nonneg t
    linarith

/-- This run meets the hypotheses; the second floodplain is wet in the last two maps. -/
example : Consistent levelInputs ∧ (∀ y, sampleTools.bump y = y + 1 / 1000) ∧
    (∃ a, (run (jobOf sampleTools sampleRunConfig levelInputs sampleSurroundings) false noFiles).2 = .ok a ∧ a = true) ∧
    sampleRunConfig.pipeline.build.skipMaps = ((0 : Nat) : Int) ∧ sampleRunConfig.pipeline.build.lakeTimesteps = ((1 : Nat) : Int) ∧
    levelAt 0 + 1 / 100 < levelAt (0 + 1) ∧
    ∃ m, setModelData sampleTools.nn levelInputs = .ok m ∧ (∃ l ∈ m.stations, Usable m l) ∧ (∀ l ∈ m.stations, PlainName l.id) ∧
      (∀ a ∈ m.faces.area, 0 ≤ a) ∧ (∀ l ∈ m.stations, 0 < l.length) ∧
      ∀ l ∈ m.stations, HorizontalWater ⟨m.nMaps, facesOf sampleTools.sqrt m l⟩ levelAt ∧
        ∀ r c, IsNearest m l r → gridCell sampleTools.sqrt m.faces r = some c → c.bed < levelAt 0 := by
  refine ⟨⟨?_, fun _ _ _ _ _ h => (by cases h), fun _ _ _ h => (by cases h)⟩, fun _ => rfl, ⟨true, ?_, rfl⟩, by decide +kernel,
    by decide +kernel, by decide +kernel, sampleLoaded levelInputs, level_loaded, by decide +kernel, by decide +kernel, by decide +kernel,
    by decide +kernel, fun l hl => ⟨level_water l hl, fun r c hne hc => ?_⟩⟩
  · intro d hd
    obtain rfl := Except.ok.inj hd
    constructor <;> rfl
  · have h : (run (jobOf sampleTools sampleRunConfig levelInputs sampleSurroundings) false noFiles).2.toOption = some true := by
      decide +kernel
    cases hr : (run (jobOf sampleTools sampleRunConfig levelInputs sampleSurroundings) false noFiles).2 with
    | error e => rw [hr] at h; cases h
    | ok b => rw [hr] at h; cases h; rfl
  · have h5 : ∀ l ∈ (sampleLoaded levelInputs).stations, ∀ r ∈ rowsOf (sampleLoaded levelInputs).faces.sclass l.id,
        5 ∈ rowsOf (sampleLoaded levelInputs).faces.sclass l.id ∧
        ((sampleLoaded levelInputs).faces.x[r]? = some (r : ℚ) ∧ (sampleLoaded levelInputs).faces.y[r]? = some 0) ∧
        ((sampleLoaded levelInputs).faces.x[5]? = some 5 ∧ (sampleLoaded levelInputs).faces.y[5]? = some 0) ∧
        (((r : ℚ) - l.x) ^ 2 + (0 - l.y) ^ 2 ≤ (5 - l.x) ^ 2 + (0 - l.y) ^ 2 → r = 5) := by decide +kernel
    obtain ⟨k1, ⟨k2, k3⟩, ⟨k4, k5⟩, k6⟩ := h5 l hl r hne.1
    obtain rfl := k6 (hne.2 5 k1 _ _ _ _ k2 k3 k4 k5)
    have : ((gridCell sampleTools.sqrt (sampleLoaded levelInputs).faces 5).all fun c => decide (c.bed < levelAt 0)) = true := by
      decide +kernel
    rw [hc] at this
    exact of_decide_eq_true this

end Fm2prof.Props

import Verif.Spec.Invariance
import Verif.Proofs.Build
import Verif.Proofs.Correction
import Verif.Proofs.Geometry
import Verif.Proofs.Roughness

/-! Helper lemmas about raising, scaling and renumbering. -/

set_option linter.unusedSectionVars false

namespace Fm2prof

open Spec

variable {K : Type} [Field K] [LinearOrder K] [IsStrictOrderedRing K]

/-! ## Raising all levels -/

section Raise

theorem clean_raise (d : K) (x : Option K) (h1 : x ≠ some (-999)) (h2 : x ≠ some (-999 - d)) :
    clean (x.map (· + d)) = (clean x).map (· + d) := by
  cases x with
  | none => rfl
  | some v =>
    have h1' : v ≠ -999 := fun h => h1 (by rw [h])
    have h2' : v + d ≠ -999 := fun h => h2 (by rw [← h]; congr 1; ring)
    simp only [clean, Option.map_some]
    rw [if_neg h2', if_neg h1', Option.map_some]

theorem getTimeseries_raise (d : K) (skip : Int) (cv : ControlVolume K) (h : NoNodata d cv) :
    getTimeseries skip (ControlVolume.raise d cv) = ControlVolume.raise d (getTimeseries skip cv) := by
  unfold getTimeseries ControlVolume.raise
  simp only [List.map_map]
  congr 1
  refine List.map_congr_left fun c hc => ?_
  simp only [Function.comp, Cell.raise]
  congr 1
  funext t
  exact clean_raise d _ (h c hc _).1 (h c hc _).2

theorem osub_raise (d : K) (a b : Option K) : osub (a.map (· + d)) b = (osub a b).map (· + d) := by
  cases a with
  | none => rfl
  | some x =>
    cases b with
    | none => rfl
    | some y => simp only [osub, Option.map_some, Option.bind_some]; congr 1; ring

theorem min?_raise (d : K) (l : List K) : (l.map (· + d)).min? = l.min?.map (· + d) := by
  induction l with
  | nil => rfl
  | cons a l ih =>
    rw [List.map_cons, List.min?_cons, List.min?_cons, ih]
    cases l.min? with
    | none => rfl
    | some m =>
      simp only [Option.map_some, Option.elim]
      rw [min_add_add_right]

theorem reduceOption_mapOption {α β : Type} (f : α → β) (l : List (Option α)) :
    (l.map (Option.map f)).reduceOption = l.reduceOption.map f := by
  rw [List.reduceOption_map]

theorem nanmin_raise (d : K) (l : List (Option K)) :
    nanmin (l.map (Option.map (· + d))) = (nanmin l).map (· + d) := by
  unfold nanmin
  rw [reduceOption_mapOption, min?_raise]

theorem centreBed_raise (d : K) (n : Nat) (c : Cell K) : centreBed n (Cell.raise d c) = (centreBed n c).map (· + d) := by
  unfold centreBed
  rw [← nanmin_raise, List.map_map]
  congr 1
  refine List.map_congr_left fun t _ => ?_
  simp only [Function.comp, Cell.raise]
  exact osub_raise d _ _

theorem centreLevels_raise (d : K) (n : Nat) (c : Cell K) :
    centreLevels n (Cell.raise d c) = (centreLevels n c).map (Option.map (· + d)) := by
  unfold centreLevels
  rw [List.map_map]
  refine List.map_congr_left fun t _ => ?_
  simp only [Function.comp]
  rw [centreBed_raise]
  simp only [Cell.raise]
  cases c.level t <;> rfl

theorem fgt_raise (d : K) (a b : Option K) : fgt (a.map (· + d)) (b.map (· + d)) = fgt a b := by
  cases a <;> cases b <;> simp [fgt]

theorem monoStep_raise (d : K) (arr : List (Option K)) (m : List Bool) (i : Nat) :
    monoStep (arr.map (Option.map (· + d))) m i = monoStep arr m i := by
  unfold monoStep
  cases lastTrue m with
  | none => rfl
  | some j =>
    have hj : ∀ k : Nat, ((arr.map (Option.map (· + d)))[k]?).join = ((arr[k]?).join).map (· + d) := by
      intro k
      rw [List.getElem?_map]
      cases arr[k]? <;> rfl
    simp only
    rw [hj, hj, fgt_raise]

theorem checkMonotonicity_raise (d : K) (arr : List (Option K)) :
    checkMonotonicity (arr.map (Option.map (· + d))) = checkMonotonicity arr := by
  unfold checkMonotonicity
  rw [List.length_map]
  congr 1
  funext m i
  exact monoStep_raise d arr m i

theorem allSome_map {α β : Type} (f : α → β) (l : List (Option α)) :
    allSome (l.map (Option.map f)) = (allSome l).map (List.map f) := by
  induction l with
  | nil => rfl
  | cons x xs ih =>
    cases x with
    | none => rfl
    | some v =>
      simp only [List.map_cons, Option.map_some, allSome, ih]
      cases allSome xs <;> rfl

theorem cumTrapz_raise (d : K) (acc : K) (w z : List K) :
    cumTrapzFrom acc w (z.map (· + d)) = cumTrapzFrom acc w z := by
  induction w generalizing acc z with
  | nil => simp [cumTrapzFrom]
  | cons y₀ ys ih =>
    cases ys with
    | nil => simp [cumTrapzFrom]
    | cons y₁ ys =>
      cases z with
      | nil => simp [cumTrapzFrom]
      | cons x₀ xs =>
        cases xs with
        | nil => simp [cumTrapzFrom]
        | cons x₁ xs =>
          simp only [List.map_cons, cumTrapzFrom]
          have he : x₁ + d - (x₀ + d) = x₁ - x₀ := by ring
          have hi := ih (acc + (x₁ - x₀) * ((y₁ + y₀) / 2)) (x₁ :: xs)
          rw [List.map_cons] at hi
          rw [he, hi]

theorem volume1d_raise (d : K) (w z : List K) (len : K) : volume1d w (z.map (· + d)) len = volume1d w z len := by
  unfold volume1d
  rw [cumTrapz_raise]

theorem maskedArea_map {cells : List (Cell K)} (g : Cell K → Cell K) (m : Nat → Cell K → Bool)
    (hm : ∀ i c, m i (g c) = m i c) (ha : ∀ c, (g c).area = c.area) :
    maskedArea (cells.map g) m = maskedArea cells m := by
  unfold maskedArea
  rw [List.zipIdx_map, List.map_map]
  congr 1
  refine List.map_congr_left fun p _ => ?_
  simp only [Function.comp, Prod.map, id]
  rw [hm, ha]

theorem flowMask_raise (d : K) (cfg : BuildConfig K) (cv : ControlVolume K) (i : Nat) (c : Cell K) (t : Nat) :
    flowMask cfg (ControlVolume.raise d cv) i (Cell.raise d c) t = flowMask cfg cv i c t := by
  have hv : ∀ s, (ControlVolume.raise d cv).cells.map (fun c => c.velocity s) = cv.cells.map fun c => c.velocity s := by
    intro s
    simp only [ControlVolume.raise, List.map_map]
    rfl
  have hs : ∀ j s, smoothed (ControlVolume.raise d cv) j s = smoothed cv j s := by
    intro j s
    unfold smoothed
    rw [hv]
  have hm : smoothedMean (ControlVolume.raise d cv) = smoothedMean cv := by
    unfold smoothedMean
    have hl : (ControlVolume.raise d cv).cells.length = cv.cells.length := by simp [ControlVolume.raise]
    rw [hl]
    simp only [hs]
    rfl
  unfold flowMask
  rw [hs, hm, hv]
  rfl

theorem resting_congr (L : Nat) (c c' : Cell K) (h : c.depth = c'.depth) (t : Nat) : resting L c t = resting L c' t := by
  induction t with
  | zero => simp only [resting, isLake, h]
  | succ t ih => simp only [resting, h, ih]

theorem wetNotLake_congr (L : Nat) (c c' : Cell K) (h : c.depth = c'.depth) (t : Nat) :
    wetNotLake L c t = wetNotLake L c' t := by
  unfold wetNotLake
  rw [resting_congr L c c' h, h]

theorem correctedDepth_congr (L : Nat) (e : Option K) (c c' : Cell K) (h : c.depth = c'.depth) (t : Nat) :
    correctedDepth L e c t = correctedDepth L e c' t := by
  unfold correctedDepth lakeDepth lakeCorrection isLake
  rw [h]

theorem checkMonotonicity_cons {α : Type} [LinearOrder α] (arr : List (Option α)) :
    ∃ rest, checkMonotonicity arr = true :: rest := by
  have key : ∀ (l : List Nat) (m : List Bool), (∃ r, m = true :: r) → ∃ r, l.foldl (monoStep arr) m = true :: r := by
    intro l
    induction l with
    | nil => exact fun m h => h
    | cons i l ih =>
      rintro m ⟨r, rfl⟩
      refine ih _ ?_
      unfold monoStep
      cases lastTrue (true :: r) with
      | none => exact ⟨_, rfl⟩
      | some j => exact ⟨_, rfl⟩
  exact key _ _ ⟨[], rfl⟩

theorem series2d_raise (d : K) (cfg : BuildConfig K) (cv : ControlVolume K) (L : Nat) (e : Option K) :
    series2d cfg (ControlVolume.raise d cv) L e = series2d cfg cv L e := by
  have hw : ∀ t, (maskedArea (ControlVolume.raise d cv).cells fun _ c => wetNotLake L c t)
      = maskedArea cv.cells fun _ c => wetNotLake L c t :=
    fun t => maskedArea_map (Cell.raise d) _ (fun _ c => wetNotLake_congr L (Cell.raise d c) c rfl t) fun _ => rfl
  have hf : ∀ t, (maskedArea (ControlVolume.raise d cv).cells fun i c => flowMask cfg (ControlVolume.raise d cv) i c t)
      = maskedArea cv.cells fun i c => flowMask cfg cv i c t := by
    intro t
    unfold maskedArea
    show ((cv.cells.map (Cell.raise d)).zipIdx.map _).sum = _
    rw [List.zipIdx_map, List.map_map]
    congr 1
    refine List.map_congr_left fun p _ => ?_
    simp only [Function.comp, Prod.map, id]
    rw [flowMask_raise]
    rfl
  have hv : ∀ (m m' : Nat → Cell K → Bool) (t : Nat), (∀ i c, m' i (Cell.raise d c) = m i c) →
      maskedVolume (ControlVolume.raise d cv).cells m' (fun c => correctedDepth L e c t)
        = maskedVolume cv.cells m fun c => correctedDepth L e c t := by
    intro m m' t hm
    unfold maskedVolume
    show ((cv.cells.map (Cell.raise d)).zipIdx.map _).sum = _
    rw [List.zipIdx_map, List.map_map]
    congr 1
    refine List.map_congr_left fun p _ => ?_
    simp only [Function.comp, Prod.map, id]
    rw [hm]
    rfl
  unfold series2d
  congr 1
  · exact List.map_congr_left fun t _ => hw t
  · exact List.map_congr_left fun t _ => hf t
  · exact List.map_congr_left fun t _ => hv _ _ t fun _ c => wetNotLake_congr L (Cell.raise d c) c rfl t
  · exact List.map_congr_left fun t _ => hv _ _ t fun i c => flowMask_raise d cfg cv i c t

theorem areaBelow_raise (d : K) (L : Nat) (cells : List (Cell K)) (dz : K) :
    areaBelow L (cells.map (Cell.raise d)) dz = areaBelow L cells dz := by
  unfold areaBelow
  refine maskedArea_map (Cell.raise d) _ (fun _ c => ?_) fun _ => rfl
  have h1 : (((Cell.raise d c).level 0).map (· - (Cell.raise d c).bed)) = (c.level 0).map (· - c.bed) := by
    simp only [Cell.raise]
    cases c.level 0 with
    | none => rfl
    | some x => simp only [Option.map_some]; congr 1; ring
  rw [h1]
  rfl

theorem assemble_raise (d : K) (ex : Bool) (len : K) (cells : List (Cell K)) (L : Nat) (d0 : K) (z wa fa tv fv : List K)
    (zr : List (Option K)) (hz : z ≠ []) :
    assemble ex len (cells.map (Cell.raise d)) L d0 (z.map (· + d)) wa fa tv fv (zr.map (Option.map (· + d)))
      = Built.raise d (assemble ex len cells L d0 z wa fa tv fv zr) := by
  cases z with
  | nil => exact absurd rfl hz
  | cons a z =>
    have hb : (linspace10 d0).reverse.map (fun x => (a :: z).headD 0 + d - x)
        = ((linspace10 d0).reverse.map ((a :: z).headD 0 - ·)).map (· + d) := by
      rw [List.map_map]
      refine List.map_congr_left fun x _ => ?_
      simp only [Function.comp]
      ring
    have ha : (areaBelow L (cells.map (Cell.raise d))) = areaBelow L cells := funext fun dz => areaBelow_raise d L cells dz
    have hh : ((a :: z).map (· + d)).headD 0 = (a :: z).headD 0 + d := rfl
    unfold assemble
    simp only [hh, hb, ha, ← List.map_append, volume1d_raise]
    rfl

/-- Everything built from raised levels is raised. -/
theorem buildGeometry_raise (d : K) (cfg : BuildConfig K) (len : K) (centre : Nat) (cv : ControlVolume K)
    (h : NoNodata d cv) :
    buildGeometry cfg len centre (ControlVolume.raise d cv) = (buildGeometry cfg len centre cv).map (Built.raise d) := by
  unfold buildGeometry
  rw [getTimeseries_raise d _ cv h]
  generalize getTimeseries cfg.skipMaps cv = cv'
  have hc : (ControlVolume.raise d cv').cells[centre]? = (cv'.cells[centre]?).map (Cell.raise d) := by
    simp only [ControlVolume.raise, List.getElem?_map]
  simp only [hc]
  cases cv'.cells[centre]? with
  | none => rfl
  | some c =>
    simp only [Option.map_some]
    have hn : (ControlVolume.raise d cv').nMaps = cv'.nMaps := rfl
    rw [hn]
    by_cases h0 : cv'.nMaps = 0
    · rw [if_pos h0, if_pos h0]
      rfl
    rw [if_neg h0, if_neg h0]
    cases pyIndex cv'.nMaps cfg.lakeTimesteps with
    | error e => rfl
    | ok L =>
      simp only
      have hd : (Cell.raise d c).depth 0 = c.depth 0 := rfl
      rw [centreLevels_raise, checkMonotonicity_raise, series2d_raise, hd, maskSelect_map, allSome_map]
      cases hz : allSome (maskSelect (checkMonotonicity (centreLevels cv'.nMaps c)) (centreLevels cv'.nMaps c)) with
      | none => rfl
      | some z =>
        cases c.depth 0 with
        | none => rfl
        | some d0 =>
          simp only [Option.map_some]
          have hne : z ≠ [] := by
            have := (allSome_eq _ _).1 hz
            intro hnil
            rw [hnil] at this
            have hl : (centreLevels cv'.nMaps c).length = cv'.nMaps := centreLevels_length _ _
            obtain ⟨x, xs, hx⟩ : ∃ x xs, centreLevels cv'.nMaps c = x :: xs := by
              cases hq : centreLevels cv'.nMaps c with
              | nil => rw [hq] at hl; exact absurd hl.symm h0
              | cons x xs => exact ⟨x, xs, rfl⟩
            obtain ⟨r, hr⟩ := checkMonotonicity_cons (centreLevels cv'.nMaps c)
            rw [hr, hx, maskSelect_cons_true] at this
            exact absurd this (by simp)
          show Except.ok _ = Except.ok _
          congr 1
          exact assemble_raise d _ _ _ _ _ _ _ _ _ _ _ hne

end Raise

/-! ## The correction as one expression -/

/-- A cross-section after a successful correction. -/
def correctedCss (release : K → K → K → K) (height : K) (sd : SdResult K) (c : Css K) : Css K :=
  { c with
    totalVolumeCorrected := some (addExtra c.raw.totalVolume1d (c.raw.z.map fun z => sd.crest.map fun x => release z x height)
      sd.totalVolume)
    flowVolumeCorrected := some (addExtra c.raw.flowVolume1d (c.raw.z.map fun z => sd.crest.map fun x => release z x height)
      sd.flowVolume)
    crestLevel := sd.crest
    transitionHeight := height
    extraTotalVolume := sd.totalVolume
    extraFlowVolume := some sd.flowVolume
    extraTotalArea := sd.totalVolume.map (· / c.length)
    extraFlowArea := sd.flowVolume.map (· / c.length)
    extraAreaPercentage := c.raw.z.map fun z => sd.crest.map fun x => release z x height
    isCorrected := true }

/-- The correction without its statements, apart from the log. -/
theorem calculateCorrection_eq (opt : Optimiser K) (method : Int) (release : K → K → K → K) (height : K)
    (log : Nat → Option PyErr) (css : Css K) :
    calculateCorrection opt method release height log css =
      match sdInitial css.raw with
      | .error e => (css, some e)
      | .ok r =>
        match [0, 1, 2, 3, 4].findSome? log with
        | some e => (css, some e)
        | none =>
          match optimizeSdStorage opt method css.raw.totalVolume1d css.raw.flowVolume1d r.1 r.2.1 r.2.2 with
          | .error e => (css, some e)
          | .ok sd =>
            match [5, 6, 7, 8, 9].findSome? log with
            | some e => (css, some e)
            | none => (correctedCss release height sd css, none) := by
  unfold calculateCorrection correctionProgram
  simp only [exec]
  cases hi : sdInitial css.raw with
  | error e => simp [stInitial, hi]
  | ok r =>
    obtain ⟨c0, t0, f0⟩ := r
    simp only [stInitial, hi, stLog, List.findSome?]
    cases log 0 with
    | some e => rfl
    | none =>
    cases log 1 with
    | some e => rfl
    | none =>
    cases log 2 with
    | some e => rfl
    | none =>
    cases log 3 with
    | some e => rfl
    | none =>
    cases log 4 with
    | some e => rfl
    | none =>
    simp only [stOptimise]
    cases ho : optimizeSdStorage opt method css.raw.totalVolume1d css.raw.flowVolume1d c0 t0 f0 with
    | error e => rfl
    | ok sd =>
    simp only
    cases log 5 with
    | some e => rfl
    | none =>
    cases log 6 with
    | some e => rfl
    | none =>
    cases log 7 with
    | some e => rfl
    | none =>
    cases log 8 with
    | some e => rfl
    | none =>
    cases log 9 with
    | some e => rfl
    | none => rfl

section RaiseCss

theorem sdInitial_raise (d : K) (b : Built K) :
    sdInitial (Built.raise d b) = (sdInitial b).map fun r => (r.1 + d, r.2) := by
  unfold sdInitial
  have h1 : (Built.raise d b).totalVolume1d = b.totalVolume1d := rfl
  have h2 : (Built.raise d b).totalVolume2d = b.totalVolume2d := rfl
  have h3 : (Built.raise d b).flowVolume1d = b.flowVolume1d := rfl
  have h4 : (Built.raise d b).flowVolume2d = b.flowVolume2d := rfl
  have h5 : (Built.raise d b).z = b.z.map (· + d) := rfl
  rw [h1, h2, h3, h4, h5]
  cases nanargmin (volumeDifference b.totalVolume1d b.totalVolume2d) with
  | error e => rfl
  | ok i =>
    simp only [List.getElem?_map]
    cases b.z[i]? with
    | none => rfl
    | some z =>
      cases (volumeDifference b.totalVolume1d b.totalVolume2d).getLast? with
      | none => rfl
      | some t =>
        cases (volumeDifference b.flowVolume1d b.flowVolume2d).getLast? with
        | none => rfl
        | some f => rfl

theorem optimizeSdStorage_raise (d : K) (opt opt' : Optimiser K) (h : RaisedOptimiser d opt opt') (method : Int)
    (total flow : List K) (c : K) (t f : Option K) :
    optimizeSdStorage opt' method total flow (c + d) t f
      = (optimizeSdStorage opt method total flow c t f).map fun r => { r with crest := r.crest.map (· + d) } := by
  unfold optimizeSdStorage
  split
  · unfold optimiseFlow
    rw [h.crestAndVolume]
    cases opt.crestAndVolume flow (c, t) with
    | error e => rfl
    | ok r =>
      obtain ⟨crest, v⟩ := r
      simp only [Except.map]
      rw [h.volume]
      cases opt.volume total crest f <;> rfl
  · split
    · unfold optimiseBoth
      rw [h.both]
      cases opt.both (c, t, f) with
      | error e => rfl
      | ok r => obtain ⟨crest, v, w⟩ := r; rfl
    · unfold optimiseTotal
      rw [h.crestAndVolume]
      cases opt.crestAndVolume total (c, t) with
      | error e => rfl
      | ok r =>
        obtain ⟨crest, v⟩ := r
        simp only [Except.map]
        rw [h.volume]
        cases opt.volume flow crest f <;> rfl

theorem correctedCss_raise (d : K) (release : K → K → K → K)
    (hr : ∀ z c h, release (z + d) (c + d) h = release z c h) (height : K) (sd : SdResult K) (c : Css K)  :
    correctedCss release height { sd with crest := sd.crest.map (· + d) } (Css.raise d c)
      = Css.raise d (correctedCss release height sd c) := by
  have hf : ((Css.raise d c).raw.z.map fun z => (sd.crest.map (· + d)).map fun x => release z x height)
      = c.raw.z.map fun z => sd.crest.map fun x => release z x height := by
    show ((c.raw.z.map (· + d)).map _) = _
    rw [List.map_map]
    refine List.map_congr_left fun z _ => ?_
    simp only [Function.comp, Option.map_map]
    congr 1
    funext x
    exact hr z x height
  unfold correctedCss
  rw [hf]
  rfl

theorem performCorrection_raise (d : K) (opt opt' : Optimiser K) (ho : RaisedOptimiser d opt opt') (cfg : PipelineConfig K)
    (release : K → K → K → K) (hr : ∀ z c h, release (z + d) (c + d) h = release z c h) (log : Nat → Option PyErr)
    (c : Css K) :
    performCorrection opt' cfg release log (Css.raise d c) = Css.raise d (performCorrection opt cfg release log c) := by
  unfold performCorrection
  split
  · rw [calculateCorrection_eq, calculateCorrection_eq]
    have h1 : (Css.raise d c).raw = Built.raise d c.raw := rfl
    rw [h1, sdInitial_raise]
    cases sdInitial c.raw with
    | error e => rfl
    | ok r =>
      obtain ⟨c0, t0, f0⟩ := r
      simp only [Except.map]
      cases [0, 1, 2, 3, 4].findSome? log with
      | some e => rfl
      | none =>
        simp only
        have h2 : (Built.raise d c.raw).totalVolume1d = c.raw.totalVolume1d := rfl
        have h3 : (Built.raise d c.raw).flowVolume1d = c.raw.flowVolume1d := rfl
        rw [h2, h3, optimizeSdStorage_raise d opt opt' ho]
        cases optimizeSdStorage opt cfg.sdOptimisationMethod c.raw.totalVolume1d c.raw.flowVolume1d c0 t0 f0 with
        | error e => rfl
        | ok sd =>
          simp only [Except.map]
          cases [5, 6, 7, 8, 9].findSome? log with
          | some e => rfl
          | none => exact correctedCss_raise d release hr _ sd c
  · rfl

theorem increasingFrom_raise (d : K) (bump : K → K) (hb : ∀ x, bump (x + d) = bump x + d) (p : K) (l : List K) :
    increasingFrom bump (p + d) (l.map (· + d)) = (increasingFrom bump p l).map (· + d) := by
  induction l generalizing p with
  | nil => rfl
  | cons x xs ih =>
    simp only [List.map_cons, increasingFrom, add_le_add_iff_right]
    by_cases h : x ≤ p
    · rw [if_pos h, if_pos h, hb, ih]
    · rw [if_neg h, if_neg h, ih]

theorem checkIncreasingOrder_raise (d : K) (bump : K → K) (hb : ∀ x, bump (x + d) = bump x + d) (l : List K) :
    checkIncreasingOrder bump (l.map (· + d)) = (checkIncreasingOrder bump l).map (· + d) := by
  cases l with
  | nil => rfl
  | cons x xs => simp only [List.map_cons, checkIncreasingOrder, increasingFrom_raise d bump hb]

theorem checkCss_raise (d : K) (bump : K → K) (hb : ∀ x, bump (x + d) = bump x + d) (w : K) (c : Css K) :
    checkCss bump w (Css.raise d c) = (checkCss bump w c).map (Css.raise d) := by
  unfold checkCss checkRequirements
  have h1 : (Css.raise d c).raw.totalWidth = c.raw.totalWidth := rfl
  have h2 : (Css.raise d c).raw.flowWidth = c.raw.flowWidth := rfl
  have h3 : (Css.raise d c).raw.z = c.raw.z.map (· + d) := rfl
  rw [h1, h2, h3]
  simp only [checkIncreasingOrder_raise d bump hb]
  cases firstNonzeroIndex c.raw.totalWidth with
  | error e => rfl
  | ok n => rfl

/-! The simplifier sees only the areas of triangles. -/

/-- Moving a point up. -/
def raisePoint (d : K) (p : K × K) : K × K := (p.1 + d, p.2)

theorem triangleArea_raise (d : K) (a b c : K × K) :
    triangleArea (raisePoint d a) (raisePoint d b) (raisePoint d c) = triangleArea a b c := by
  unfold triangleArea raisePoint
  congr 2
  ring

theorem interiorAreas_raise (d : K) (l : List (K × K)) : interiorAreas (l.map (raisePoint d)) = interiorAreas l := by
  induction l with
  | nil => rfl
  | cons a l ih =>
    cases l with
    | nil => rfl
    | cons b l =>
      cases l with
      | nil => rfl
      | cons c l =>
        simp only [List.map_cons, interiorAreas] at ih ⊢
        rw [triangleArea_raise, ih]

theorem triangleAreas_raise (d : K) (l : List (K × K)) : triangleAreas (l.map (raisePoint d)) = triangleAreas l := by
  cases l with
  | nil => rfl
  | cons a l =>
    cases l with
    | nil => rfl
    | cons b l =>
      have := interiorAreas_raise d (a :: b :: l)
      simp only [List.map_cons] at this
      simp only [List.map_cons, triangleAreas, this]

theorem vwRightArea_raise (d : K) (pts : List (K × K)) (live : List Nat) (mv : Nat) :
    vwRightArea (pts.map (raisePoint d)) live mv = vwRightArea pts live mv := by
  unfold vwRightArea
  simp only [List.getElem?_map, Option.bind_eq_bind]
  cases live[mv - 1]? with
  | none => rfl
  | some i =>
    simp only [Option.bind_some]
    cases pts[i]? with
    | none => rfl
    | some p =>
      simp only [Option.map_some, Option.bind_some]
      cases live[mv]? with
      | none => rfl
      | some r =>
        simp only [Option.bind_some]
        cases pts[r]? with
        | none => rfl
        | some q =>
          simp only [Option.map_some, Option.bind_some]
          cases live[mv + 1]? with
          | none => rfl
          | some j =>
            simp only [Option.bind_some]
            cases pts[j]? with
            | none => rfl
            | some s => simp only [Option.map_some, Option.bind_some, triangleArea_raise]

theorem vwLeftArea_raise (d : K) (pts : List (K × K)) (live : List Nat) (mv : Nat) :
    vwLeftArea (pts.map (raisePoint d)) live mv = vwLeftArea pts live mv := by
  unfold vwLeftArea
  simp only [List.getElem?_map, Option.bind_eq_bind]
  cases live[mv - 2]? with
  | none => rfl
  | some i =>
    simp only [Option.bind_some]
    cases pts[i]? with
    | none => rfl
    | some p =>
      simp only [Option.map_some, Option.bind_some]
      cases live[mv - 1]? with
      | none => rfl
      | some r =>
        simp only [Option.bind_some]
        cases pts[r]? with
        | none => rfl
        | some q =>
          simp only [Option.map_some, Option.bind_some]
          cases live[mv]? with
          | none => rfl
          | some j =>
            simp only [Option.bind_some]
            cases pts[j]? with
            | none => rfl
            | some s => simp only [Option.map_some, Option.bind_some, triangleArea_raise]

theorem vwUpdate_raise (d : K) (pts : List (K × K)) (s : VWState K) :
    vwUpdate (pts.map (raisePoint d)) s = vwUpdate pts s := by
  unfold vwUpdate vwRight
  rw [vwRightArea_raise, vwLeftArea_raise]

theorem vwLoop_raise (d : K) (pts : List (K × K)) (fuel : Nat) (s : VWState K) :
    vwLoop (pts.map (raisePoint d)) fuel s = vwLoop pts fuel s := by
  induction fuel generalizing s with
  | zero => unfold vwLoop; rfl
  | succ n ih =>
    unfold vwLoop
    rw [vwUpdate_raise]
    simp only [ih]

theorem buildThresholds_raise (d : K) (pts : List (K × K)) :
    buildThresholds (pts.map (raisePoint d)) = buildThresholds pts := by
  unfold buildThresholds
  rw [triangleAreas_raise, List.length_map]
  simp only [vwLoop_raise]

theorem reduceCss_raise (d : K) (n : Int) (c : Css K) : reduceCss n (Css.raise d c) = Css.raise d (reduceCss n c) := by
  unfold reduceCss reducePoints
  have h1 : (Css.raise d c).raw.totalWidth = c.raw.totalWidth := rfl
  have h2 : (Css.raise d c).raw.flowWidth = c.raw.flowWidth := rfl
  have h3 : (Css.raise d c).raw.z = c.raw.z.map (· + d) := rfl
  have h4 : (c.raw.z.map (· + d)).zip c.raw.totalWidth = (c.raw.z.zip c.raw.totalWidth).map (raisePoint d) := by
    rw [List.zip_map_left]
    rfl
  simp only [h1, h2, h3, h4, buildThresholds_raise]
  generalize (if n < (c.raw.totalWidth.length : Int) then
      match buildThresholds (c.raw.z.zip c.raw.totalWidth) with
      | .error _ => some (List.replicate c.raw.totalWidth.length true)
      | .ok th => fromNumberIndex th n
    else some (List.replicate c.raw.totalWidth.length true)) = o
  cases o with
  | none => rfl
  | some m =>
    simp only [maskSelect_map]
    rfl

/-- The geometry of raised levels is raised. -/
theorem geometry_raise (d : K) (opt opt' : Optimiser K) (ho : RaisedOptimiser d opt opt') (cfg : PipelineConfig K)
    (bump : K → K) (hb : ∀ x, bump (x + d) = bump x + d)
    (release : K → K → K → K) (hr : ∀ z c h, release (z + d) (c + d) h = release z c h) (log : Nat → Option PyErr)
    (len : K) (centre : Nat) (cv : ControlVolume K) (h : NoNodata d cv) :
    buildCrossSectionGeometry opt' cfg bump release log len centre (ControlVolume.raise d cv)
      = (buildCrossSectionGeometry opt cfg bump release log len centre cv).map (Css.raise d) := by
  unfold buildCrossSectionGeometry
  rw [buildGeometry_raise d _ _ _ _ h]
  cases buildGeometry cfg.build len centre cv with
  | error e => rfl
  | ok b =>
    simp only [Except.map]
    have h0 : Css.ofBuilt len (Built.raise d b) = Css.raise d (Css.ofBuilt len b) := rfl
    rw [h0, performCorrection_raise d opt opt' ho cfg release hr, checkCss_raise d bump hb]
    cases checkCss bump cfg.minimumWidth (performCorrection opt cfg release log (Css.ofBuilt len b)) with
    | error e => rfl
    | ok c =>
      simp only [Except.map]
      rw [reduceCss_raise]

end RaiseCss

section RaiseRun

theorem dryToNan_raise (d : K) (dep lev : Option K) : dryToNan dep (lev.map (· + d)) = (dryToNan dep lev).map (· + d) := by
  unfold dryToNan
  split <;> rfl

theorem selection_raise (d : K) (sqrt : K → K) (m : Model2d K) (id : Text) :
    getSelection sqrt (Model2d.raise d m).faces (Model2d.raise d m).edges id =
      { getSelection sqrt m.faces m.edges id with
        bedlevel := (getSelection sqrt m.faces m.edges id).bedlevel.map (· + d)
        waterlevel := (getSelection sqrt m.faces m.edges id).waterlevel.map (List.map (Option.map (· + d))) } := by
  unfold getSelection Model2d.raise
  simp only [maskSelect_map, List.zipWith_map_right, List.map_zipWith, dryToNan_raise]

theorem controlVolumeOf_raise (d : K) (n : Nat) (s : Selection Text K) :
    controlVolumeOf n { s with bedlevel := s.bedlevel.map (· + d)
                               waterlevel := s.waterlevel.map (List.map (Option.map (· + d))) }
      = ControlVolume.raise d (controlVolumeOf n s) := by
  unfold controlVolumeOf ControlVolume.raise
  simp only [List.zip_map_left, List.zip_map_right, List.map_map]
  congr 1
  refine List.map_congr_left fun p _ => ?_
  simp only [Function.comp, Prod.map, id, Cell.raise]
  congr 1
  funext t
  unfold mapSeries
  rw [List.getElem?_map]
  cases p.2.2.1[t]? with
  | none => rfl
  | some v => rfl

theorem mapSeries_mem (r : List (Option K)) (t : Nat) (v : K) (h : mapSeries r t = some v) : some v ∈ r := by
  unfold mapSeries at h
  cases hr : r[t]? with
  | none => rw [hr] at h; cases h
  | some o =>
    rw [hr] at h
    have : o = some v := h
    rw [← this]
    exact List.mem_of_getElem? hr

private theorem mem_zipWith' {α β γ : Type} (f : α → β → γ) (a : List α) (b : List β) (c : γ) (h : c ∈ List.zipWith f a b) :
    ∃ x ∈ a, ∃ y ∈ b, f x y = c := by
  induction a generalizing b with
  | nil => simp at h
  | cons x xs ih =>
    cases b with
    | nil => simp at h
    | cons y ys =>
      rw [List.zipWith_cons_cons, List.mem_cons] at h
      rcases h with h | h
      · exact ⟨x, List.mem_cons_self, y, List.mem_cons_self, h.symm⟩
      · obtain ⟨x', hx, y', hy, e⟩ := ih ys h
        exact ⟨x', List.mem_cons_of_mem _ hx, y', List.mem_cons_of_mem _ hy, e⟩

theorem noNodata_of (d : K) (sqrt : K → K) (m : Model2d K) (h : NoNodataIn d m) (id : Text) :
    NoNodata d (controlVolumeOf m.nMaps (getSelection sqrt m.faces m.edges id)) := by
  intro c hc t
  unfold controlVolumeOf at hc
  obtain ⟨p, hp, rfl⟩ := List.mem_map.1 hc
  have h1 : p.2.2.1 ∈ (getSelection sqrt m.faces m.edges id).waterlevel :=
    (List.of_mem_zip (List.of_mem_zip (List.of_mem_zip hp).2).2).1
  have key : ∀ v, mapSeries p.2.2.1 t = some v → v ≠ -999 ∧ v ≠ -999 - d := by
    intro v hv
    have hm := mapSeries_mem _ _ _ hv
    unfold getSelection at h1
    simp only at h1
    obtain ⟨q1, _, q, hq, hqe⟩ := mem_zipWith' _ _ _ _ h1
    rw [← hqe] at hm
    obtain ⟨w1, _, w, hw, hwe⟩ := mem_zipWith' _ _ _ _ hm
    have hrow := h q ((maskSelect_sublist _ _).subset hq) w hw
    have hwv : w = some v := by
      simp only [dryToNan] at hwe
      split at hwe
      · cases hwe
      · exact hwe
    rw [hwv] at hrow
    exact ⟨fun e => hrow.1 (by rw [e]), fun e => hrow.2 (by rw [e])⟩
  exact ⟨fun e => (key _ e).1 rfl, fun e => (key _ e).2 rfl⟩

theorem buildTablesFor_raise {σ : Type} [LinearOrder σ] (d : K) (method : Int) (areaFull : Option (Int → Option K))
    (skip n : Nat) (level : List K) (links : List (Link σ K)) (ss : List σ) :
    buildTablesFor method areaFull skip n (level.map (· + d)) links ss
      = (buildTablesFor method areaFull skip n level links ss).map
          (List.map fun t => (t.1, FrictionTable.raise d t.2)) := by
  induction ss with
  | nil => rfl
  | cons s ss ih =>
    simp only [buildTablesFor]
    cases sectionFriction method areaFull skip n (links.filter fun l => l.sect = s) with
    | error e => rfl
    | ok fr =>
      simp only [FrictionTable.make, List.length_map]
      by_cases hl : level.length = fr.length
      · rw [if_pos hl, if_pos hl, ih]
        simp only
        cases buildTablesFor method areaFull skip n level links ss <;> rfl
      · rw [if_neg hl, if_neg hl]
        rfl

theorem nanmean_raise (d : K) (l : List (Option K)) :
    nanmean (l.map (Option.map (· + d))) = (nanmean l).map (· + d) := by
  unfold nanmean
  rw [reduceOption_mapOption]
  cases l.reduceOption with
  | nil => rfl
  | cons x xs =>
    simp only [List.map_cons, Option.map_some]
    congr 1
    have hs : ∀ l : List K, (l.map (· + d)).sum = l.sum + l.length * d := by
      intro l
      induction l with
      | nil => simp
      | cons y ys ih => rw [List.map_cons, List.sum_cons, List.sum_cons, ih, List.length_cons]; push_cast; ring
    have h1 := hs (x :: xs)
    simp only [List.map_cons] at h1
    rw [h1]
    have hl : (((x + d) :: xs.map (· + d)).length : K) = ((x :: xs).length : K) := by simp
    rw [hl]
    have h0 : ((x :: xs).length : K) ≠ 0 := by
      simp only [List.length_cons]
      positivity
    field_simp

theorem sectionFacesOf_raise (d : K) (b : Bool) (s : Selection Text K) :
    sectionFacesOf b { s with bedlevel := s.bedlevel.map (· + d)
                              waterlevel := s.waterlevel.map (List.map (Option.map (· + d))) }
      = (sectionFacesOf b s).map fun f => { f with bed := f.bed.map (· + d) } := by
  unfold sectionFacesOf
  simp only [List.zip_map_left, List.zip_map_right, List.map_map]
  exact List.map_congr_left fun p _ => rfl

theorem sectionArea_raise (d : K) (fs : List (SectionFace K)) (n : Int) :
    sectionArea (fs.map fun f => { f with bed := f.bed.map (· + d) }) n = sectionArea fs n := by
  unfold sectionArea
  rw [List.filter_map, List.map_map]
  rfl

theorem floodplainBase_raise (d : K) (crest : Option K) (tol : K) (fs : List (SectionFace K)) :
    floodplainBase (crest.map (· + d)) tol (fs.map fun f => { f with bed := f.bed.map (· + d) })
      = (floodplainBase crest tol fs).map (· + d) := by
  unfold floodplainBase
  rw [List.filter_map]
  have hf : ((fun f : SectionFace K => f.label.is 2) ∘ fun f => { f with bed := f.bed.map (· + d) })
      = fun f : SectionFace K => f.label.is 2 := rfl
  rw [hf]
  have hc : ((crest.map (· + d)).map (· - tol)) = (crest.map (· - tol)).map (· + d) := by
    cases crest with
    | none => rfl
    | some c => simp only [Option.map_some]; congr 1; ring
  rw [hc]
  cases fs.filter fun f => f.label.is 2 with
  | nil => rfl
  | cons g gs =>
    simp only [List.map_cons]
    have hb : (Option.map (· + d) g.bed :: (gs.map fun f => { f with bed := f.bed.map (· + d) }).map (·.bed))
        = (g.bed :: gs.map (·.bed)).map (Option.map (· + d)) := by
      rw [List.map_cons, List.map_map, List.map_map]
      rfl
    rw [hb, nanmean_raise]
    cases crest.map (· - tol) with
    | none => rfl
    | some c =>
      cases nanmean (g.bed :: gs.map (·.bed)) with
      | none => rfl
      | some m =>
        simp only [Option.map_some, add_lt_add_iff_right]
        split <;> rfl

variable [FloorRing K]

/-- The roughness of raised levels: tables with raised levels, the same section widths, and the base level of the floodplain. -/
theorem assignRoughness_raise (d : K) (cfg : RunConfig K) (m : Model2d K) (s : Selection Text K) (len : K) (c : Css K) :
    assignRoughness cfg (Model2d.raise d m) { s with bedlevel := s.bedlevel.map (· + d)
                                                     waterlevel := s.waterlevel.map (List.map (Option.map (· + d))) }
        len (Css.raise d c)
      = (assignRoughness cfg m s len c).map fun r =>
          (r.1.map fun t => (t.1, FrictionTable.raise d t.2), r.2.1,
            floodplainBase (Css.raise d c).crestLevel cfg.floodplainTolerance
              ((sectionFacesOf m.numbered s).map fun f => { f with bed := f.bed.map (· + d) })) := by
  unfold assignRoughness
  have h1 : (Css.raise d c).raw.zRoughness = c.raw.zRoughness.map (Option.map (· + d)) := rfl
  rw [h1, allSome_map]
  cases allSome c.raw.zRoughness with
  | none => rfl
  | some level =>
    simp only [Option.map_some]
    unfold buildRoughnessTables
    rw [buildTablesFor_raise]
    have hl : linksOf { s with bedlevel := s.bedlevel.map (· + d)
                               waterlevel := s.waterlevel.map (List.map (Option.map (· + d))) } = linksOf s := rfl
    have hn : (Model2d.raise d m).nMaps = m.nMaps := rfl
    have hq : (Model2d.raise d m).numbered = m.numbered := rfl
    rw [hl, hn, hq]
    cases buildTablesFor cfg.frictionWeighing none (sliceStart m.nMaps cfg.pipeline.build.skipMaps) m.nMaps level (linksOf s)
        (npUnique ((linksOf s).map (·.sect))) with
    | error e => rfl
    | ok tables =>
      simp only [Except.map]
      rw [sectionFacesOf_raise]
      have hw : computeSectionWidths len ((sectionFacesOf m.numbered s).map fun f => { f with bed := f.bed.map (· + d) })
          (Css.raise d c).flowWidth (Css.raise d c).raw.flowWidth
          = computeSectionWidths len (sectionFacesOf m.numbered s) c.flowWidth c.raw.flowWidth := by
        unfold computeSectionWidths initialSectionWidths
        simp only [sectionArea_raise]
        rfl
      rw [hw]
      cases computeSectionWidths len (sectionFacesOf m.numbered s) c.flowWidth c.raw.flowWidth <;> rfl

/-- What is exported for raised levels is raised, but for the base level of the floodplain where there is no correction. -/
theorem buildCss_raise (d : K) (x : Tools K) (cfg : RunConfig K) (m : Model2d K) (l : Loc K)
    (hopt : RaisedOptimiser d (x.opt l.id) (x.opt l.id)) (hb : ∀ y, x.bump (y + d) = x.bump y + d)
    (hr : ∀ z c h, x.release (z + d) (c + d) h = x.release z c h) (hm : NoNodataIn d m) :
    (buildCss x cfg (Model2d.raise d m) l).map (·.out) = (buildCss x cfg m l).map fun f =>
      { ExportCss.raise f.css.isCorrected d f.out with
        floodplainBase := if f.css.isCorrected then f.out.floodplainBase.map (· + d)
          else floodplainBase f.css.crestLevel cfg.floodplainTolerance
            ((sectionFacesOf m.numbered (getSelection x.sqrt m.faces m.edges l.id)).map fun f =>
              { f with bed := f.bed.map (· + d) }) } := by
  unfold buildCss
  simp only [selection_raise]
  generalize hs : getSelection x.sqrt m.faces m.edges l.id = s
  have hcv : NoNodata d (controlVolumeOf m.nMaps s) := by rw [← hs]; exact noNodata_of d x.sqrt m hm l.id
  have hn : (Model2d.raise d m).nMaps = m.nMaps := rfl
  have hce : centreOf x.nn { s with bedlevel := s.bedlevel.map (· + d)
                                    waterlevel := s.waterlevel.map (List.map (Option.map (· + d))) } l = centreOf x.nn s l := rfl
  rw [hn, controlVolumeOf_raise, hce, geometry_raise d (x.opt l.id) (x.opt l.id) hopt _ _ hb _ hr _ _ _ _ hcv]
  cases buildCrossSectionGeometry (x.opt l.id) cfg.pipeline x.bump x.release (x.log l.id) l.length (centreOf x.nn s l)
      (controlVolumeOf m.nMaps s) with
  | error e => rfl
  | ok c =>
    simp only [Except.map]
    rw [assignRoughness_raise]
    cases ha : assignRoughness cfg m s l.length c with
    | error e => rfl
    | ok r =>
      obtain ⟨tables, widths, base⟩ := r
      simp only [Except.map]
      have hbase : base = floodplainBase c.crestLevel cfg.floodplainTolerance (sectionFacesOf m.numbered s) := by
        unfold assignRoughness at ha
        split at ha
        · cases ha
        · split at ha
          · cases ha
          · split at ha
            · cases ha
            · exact ((Prod.mk.inj (Prod.mk.inj (Except.ok.inj ha)).2).2).symm
      have e1 : (Css.raise d c).extraFlowArea = c.extraFlowArea := rfl
      have e2 : (Css.raise d c).extraTotalArea = c.extraTotalArea := rfl
      have e3 : (Css.raise d c).extraTotalVolume = c.extraTotalVolume := rfl
      have e4 : (Css.raise d c).crestLevel = if c.isCorrected then c.crestLevel.map (· + d) else c.crestLevel := rfl
      have e5 : volumeTableOf (Css.raise d c) = { volumeTableOf c with z := (volumeTableOf c).z.map (Option.map (· + d)) } := by
        unfold volumeTableOf
        have : (Css.raise d c).raw.z = c.raw.z.map (· + d) := rfl
        rw [this, List.map_map]
        congr 1
        rw [List.map_map]
        rfl
      rw [e1, e2, e3, e4, e5]
      cases hcorr : c.isCorrected with
      | false =>
        simp only [Bool.false_eq_true, if_false]
        cases hcl : c.crestLevel with
        | none => rfl
        | some crest =>
          cases c.extraFlowArea with
          | none => rfl
          | some fa =>
            cases c.extraTotalArea with
            | none => rfl
            | some ta =>
              cases c.extraTotalVolume with
              | none => rfl
              | some tv =>
                simp only [ExportCss.raise, hcorr, hcl, Bool.false_eq_true, if_false]
                rfl
      | true =>
        simp only [if_true]
        rw [floodplainBase_raise, ← hbase]
        cases hcl : c.crestLevel with
        | none => rfl
        | some crest =>
          cases c.extraFlowArea with
          | none => rfl
          | some fa =>
            cases c.extraTotalArea with
            | none => rfl
            | some ta =>
              cases c.extraTotalVolume with
              | none => rfl
              | some tv =>
                simp only [ExportCss.raise, hcorr, hcl, if_true, Option.map_some]
                rfl

/-! Harmonised roughness tables -/

theorem interpSearch_raise (d x : K) (l : List K) (i : Nat) :
    interpSearch (x + d) (l.map (· + d)) i = interpSearch x l i := by
  induction l generalizing i with
  | nil => rfl
  | cons a l ih => simp only [List.map_cons, interpSearch, add_le_add_iff_right, ih]

theorem interp1_raise (d x : K) (xp fp : List K) : interp1 (xp.map (· + d)) fp (x + d) = interp1 xp fp x := by
  unfold interp1
  rw [List.head?_map, List.getLast?_map, ← List.map_tail, interpSearch_raise]
  simp only [List.getElem?_map]
  cases xp.head? with
  | none => rfl
  | some x₀ =>
    cases xp.getLast? with
    | none => rfl
    | some x₁ =>
      cases fp.head? with
      | none => rfl
      | some f₀ =>
        cases fp.getLast? with
        | none => rfl
        | some f₁ =>
          simp only [Option.map_some, add_lt_add_iff_right]
          cases xp[interpSearch x xp.tail 0]? with
          | none => rfl
          | some a =>
            cases fp[interpSearch x xp.tail 0]? with
            | none => rfl
            | some fa =>
              cases xp[interpSearch x xp.tail 0 + 1]? with
              | none => rfl
              | some b =>
                cases fp[interpSearch x xp.tail 0 + 1]? with
                | none => rfl
                | some fb =>
                  simp only [Option.map_some, add_left_inj, add_sub_add_right_eq_sub]

theorem resampled_raise (d : K) (newZ : List K) (t : FrictionTable K) :
    resampled (newZ.map (· + d)) (FrictionTable.raise d t) = FrictionTable.raise d (resampled newZ t) := by
  unfold resampled FrictionTable.raise
  simp only [List.map_map]
  congr 2
  refine List.map_congr_left fun x _ => ?_
  exact interp1_raise d x _ _

theorem arange01_raise (d lo hi : K) : arange01 (lo + d) (hi + d) = (arange01 lo hi).map (· + d) := by
  unfold arange01
  rw [List.map_map, add_sub_add_right_eq_sub]
  refine List.map_congr_left fun i _ => ?_
  simp only [Function.comp]
  ring

theorem harmonise_raise {σ : Type} [LinearOrder σ] (d : K) (l : List (Tables σ K)) (hn : ∀ css ∈ l, (css.map (·.1)).Nodup)
    (hwf : ∀ css ∈ l, ∀ p ∈ css, WellFormedTable p.2)
    (hwf' : ∀ css ∈ l, ∀ p ∈ css, WellFormedTable (FrictionTable.raise d p.2)) :
    (harmonise (l.map (List.map fun p => (p.1, FrictionTable.raise d p.2)))).1
      = (harmonise l).1.map (List.map fun p => (p.1, FrictionTable.raise d p.2)) := by
  have hn2 : ∀ css ∈ l.map (List.map fun p : σ × FrictionTable K => (p.1, FrictionTable.raise d p.2)), (css.map (·.1)).Nodup := by
    intro css hc
    obtain ⟨c, hcl, rfl⟩ := List.mem_map.1 hc
    rw [List.map_map]
    exact hn c hcl
  have hwf2 : ∀ css ∈ l.map (List.map fun p : σ × FrictionTable K => (p.1, FrictionTable.raise d p.2)), ∀ p ∈ css,
      WellFormedTable p.2 := by
    intro css hc p hp
    obtain ⟨c, hcl, rfl⟩ := List.mem_map.1 hc
    obtain ⟨q, hq, rfl⟩ := List.mem_map.1 hp
    exact hwf' c hcl q hq
  rw [harmonise_eq l hn hwf, harmonise_eq _ hn2 hwf2]
  simp only [List.map_map]
  refine List.map_congr_left fun css hc => ?_
  simp only [Function.comp, List.map_map]
  refine List.map_congr_left fun p hp => ?_
  simp only [Function.comp]
  have hlev : ∀ x, x ∈ levelsOf p.1 l ↔
      x + d ∈ levelsOf p.1 (l.map (List.map fun p : σ × FrictionTable K => (p.1, FrictionTable.raise d p.2))) := by
    intro x
    rw [mem_levelsOf, mem_levelsOf]
    constructor
    · rintro ⟨c, hc, t, ht, hx⟩
      exact ⟨_, List.mem_map.2 ⟨c, hc, rfl⟩, FrictionTable.raise d t, List.mem_map.2 ⟨(p.1, t), ht, rfl⟩,
        List.mem_map.2 ⟨x, hx, rfl⟩⟩
    · rintro ⟨c', hc', t', ht', hx⟩
      obtain ⟨c, hcl, rfl⟩ := List.mem_map.1 hc'
      obtain ⟨q, hq, hqe⟩ := List.mem_map.1 ht'
      obtain ⟨h1, h2⟩ := Prod.mk.inj hqe
      subst h2
      obtain ⟨y, hy, hye⟩ := List.mem_map.1 hx
      have : y = x := add_right_cancel hye
      subst this
      refine ⟨c, hcl, q.2, ?_, hy⟩
      rw [← h1]
      exact hq
  have hne : levelsOf p.1 l ≠ [] := by
    obtain ⟨z, hz⟩ := List.exists_mem_of_ne_nil _ (hwf css hc p hp).nonempty
    exact List.ne_nil_of_mem (mem_levelsOf.2 ⟨css, hc, p.2, hp, hz⟩)
  have hne2 : levelsOf p.1 (l.map (List.map fun p : σ × FrictionTable K => (p.1, FrictionTable.raise d p.2))) ≠ [] := by
    obtain ⟨z, hz⟩ := List.exists_mem_of_ne_nil _ hne
    exact List.ne_nil_of_mem ((hlev z).1 hz)
  obtain ⟨lo, hi, h1, h2, h3⟩ := levelRange_bounds p.1 l (fun c hc => ⟨hn c hc, fun t ht => hwf c hc _ ht⟩) hne
  obtain ⟨lo', hi', h1', h2', h3'⟩ := levelRange_bounds p.1 _ (fun c hc => ⟨hn2 c hc, fun t ht => hwf2 c hc _ ht⟩) hne2
  have hback : ∀ y, y ∈ levelsOf p.1 (l.map (List.map fun p : σ × FrictionTable K => (p.1, FrictionTable.raise d p.2))) →
      y - d ∈ levelsOf p.1 l := by
    intro y hy
    rw [hlev, sub_add_cancel]
    exact hy
  have hlo : lo' = lo + d := by
    apply le_antisymm
    · exact h2'.2 _ ((hlev lo).1 h2.1)
    · have := h2.2 _ (hback lo' h2'.1)
      linarith
  have hhi : hi' = hi + d := by
    apply le_antisymm
    · have := h3.2 _ (hback hi' h3'.1)
      linarith
    · exact h3'.2 _ ((hlev hi).1 h3.1)
  have hg : gridOf p.1 (l.map (List.map fun p : σ × FrictionTable K => (p.1, FrictionTable.raise d p.2)))
      = (gridOf p.1 l).map (· + d) := by
    unfold gridOf
    rw [h1, h1', hlo, hhi]
    exact arange01_raise d lo hi
  rw [hg, resampled_raise]

end RaiseRun

end Fm2prof

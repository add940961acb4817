import Verif.Proofs.Invariance

/-! Helper lemmas about multiplying areas and lengths. -/

set_option linter.unusedSectionVars false

namespace Fm2prof

open Spec

variable {K : Type} [Field K] [LinearOrder K] [IsStrictOrderedRing K]

/-- A cell with its area multiplied. -/
def scaleCell (k : K) (c : Cell K) : Cell K := { c with area := k * c.area }

theorem getTimeseries_scale (k : K) (skip : Int) (cv : ControlVolume K) :
    getTimeseries skip (ControlVolume.scale k cv) = ControlVolume.scale k (getTimeseries skip cv) := by
  unfold getTimeseries ControlVolume.scale
  simp only [List.map_map]
  rfl

theorem maskedArea_scale (k : K) (cells : List (Cell K)) (m m' : Nat → Cell K → Bool)
    (hm : ∀ i c, m' i (scaleCell k c) = m i c) :
    maskedArea (cells.map (scaleCell k)) m' = k * maskedArea cells m := by
  unfold maskedArea
  rw [List.zipIdx_map, List.map_map, ← List.sum_map_mul_left]
  congr 1
  refine List.map_congr_left fun p _ => ?_
  simp only [Function.comp, Prod.map, id]
  rw [hm]
  split
  · rfl
  · rw [mul_zero]

theorem maskedVolume_scale (k : K) (cells : List (Cell K)) (m m' : Nat → Cell K → Bool) (dep dep' : Cell K → Option K)
    (hm : ∀ i c, m' i (scaleCell k c) = m i c) (hd : ∀ c, dep' (scaleCell k c) = dep c) :
    maskedVolume (cells.map (scaleCell k)) m' dep' = k * maskedVolume cells m dep := by
  unfold maskedVolume
  rw [List.zipIdx_map, List.map_map, ← List.sum_map_mul_left]
  congr 1
  refine List.map_congr_left fun p _ => ?_
  simp only [Function.comp, Prod.map, id]
  rw [hm, hd]
  split
  · cases dep p.1 with
    | none => simp
    | some x => simp only [Option.map_some, Option.getD_some, scaleCell]; ring
  · rw [mul_zero]

theorem flowMask_scale (k : K) (cfg : BuildConfig K) (cv : ControlVolume K) (i : Nat) (c : Cell K) (t : Nat) :
    flowMask cfg (ControlVolume.scale k cv) i (scaleCell k c) t = flowMask cfg cv i c t := by
  have hv : ∀ s, (ControlVolume.scale k cv).cells.map (fun c => c.velocity s) = cv.cells.map fun c => c.velocity s := by
    intro s
    simp only [ControlVolume.scale, List.map_map]
    rfl
  have hs : ∀ j s, smoothed (ControlVolume.scale k cv) j s = smoothed cv j s := by
    intro j s
    unfold smoothed
    rw [hv]
  have hm : smoothedMean (ControlVolume.scale k cv) = smoothedMean cv := by
    unfold smoothedMean
    have hl : (ControlVolume.scale k cv).cells.length = cv.cells.length := by simp [ControlVolume.scale]
    rw [hl]
    simp only [hs]
    rfl
  unfold flowMask
  rw [hs, hm, hv]
  rfl

/-- The series with areas and volumes multiplied. -/
def scaleSeries (k : K) (s : Series2d K) : Series2d K :=
  ⟨s.wetArea.map (k * ·), s.flowArea.map (k * ·), s.totalVolume.map (k * ·), s.flowVolume.map (k * ·)⟩

theorem series2d_scale (k : K) (cfg : BuildConfig K) (cv : ControlVolume K) (L : Nat) (e : Option K) :
    series2d cfg (ControlVolume.scale k cv) L e = scaleSeries k (series2d cfg cv L e) := by
  have hc : (ControlVolume.scale k cv).cells = cv.cells.map (scaleCell k) := rfl
  unfold series2d scaleSeries
  simp only [List.map_map, hc]
  congr 1
  · exact List.map_congr_left fun t _ => maskedArea_scale k _ _ _ fun _ c => wetNotLake_congr L (scaleCell k c) c rfl t
  · exact List.map_congr_left fun t _ => maskedArea_scale k _ _ _ fun i c => flowMask_scale k cfg cv i c t
  · exact List.map_congr_left fun t _ => maskedVolume_scale k _ _ _ _ _
      (fun _ c => wetNotLake_congr L (scaleCell k c) c rfl t) fun c => correctedDepth_congr L e (scaleCell k c) c rfl t
  · exact List.map_congr_left fun t _ => maskedVolume_scale k _ _ _ _ _
      (fun i c => flowMask_scale k cfg cv i c t) fun c => correctedDepth_congr L e (scaleCell k c) c rfl t

theorem areaBelow_scale (k : K) (L : Nat) (cells : List (Cell K)) (dz : K) :
    areaBelow L (cells.map (scaleCell k)) dz = k * areaBelow L cells dz := by
  unfold areaBelow
  refine maskedArea_scale k _ _ _ fun _ c => ?_
  rw [wetNotLake_congr L (scaleCell k c) c rfl 0]
  rfl

theorem volume1d_scale (k : K) (w z : List K) (len : K) : volume1d w z (k * len) = (volume1d w z len).map (k * ·) := by
  unfold volume1d
  rw [List.map_cons, mul_zero, List.map_map]
  congr 1
  refine List.map_congr_left fun x _ => ?_
  simp only [Function.comp]
  ring

theorem div_scale (k : K) (hk : 0 < k) (len : K) (l : List K) :
    (l.map (k * ·)).map (· / (k * len)) = l.map (· / len) := by
  rw [List.map_map]
  refine List.map_congr_left fun x _ => ?_
  simp only [Function.comp]
  exact mul_div_mul_left x len hk.ne'

theorem assemble_scale (k : K) (hk : 0 < k) (ex : Bool) (len : K) (cells : List (Cell K)) (L : Nat) (d0 : K)
    (z wa fa tv fv : List K) (zr : List (Option K)) (hfa : fa ≠ []) :
    assemble ex (k * len) (cells.map (scaleCell k)) L d0 z (wa.map (k * ·)) (fa.map (k * ·)) (tv.map (k * ·)) (fv.map (k * ·)) zr
      = Built.scale k (assemble ex len cells L d0 z wa fa tv fv zr) := by
  cases fa with
  | nil => exact absurd rfl hfa
  | cons f fa =>
    have ha : (linspace10 d0).reverse.map (areaBelow L (cells.map (scaleCell k)))
        = ((linspace10 d0).reverse.map (areaBelow L cells)).map (k * ·) := by
      rw [List.map_map]
      exact List.map_congr_left fun dz _ => areaBelow_scale k L cells dz
    have hf : ∀ l : List K, (l.map (k * ·)).map (flowAreaBelow ex (k * f)) = (l.map (flowAreaBelow ex f)).map (k * ·) := by
      intro l
      rw [List.map_map, List.map_map]
      refine List.map_congr_left fun x _ => ?_
      simp only [Function.comp, flowAreaBelow]
      split
      · exact (mul_min_of_nonneg x f hk.le).symm
      · rfl
    have hh : ((f :: fa).map (k * ·)).headD 0 = k * f := rfl
    have hh' : (f :: fa).headD 0 = f := rfl
    unfold assemble
    simp only [hh, hh', ha, hf, div_scale k hk, volume1d_scale, ← List.map_append]
    unfold Built.scale
    simp only [List.map_append, List.map_map]
    rfl

theorem buildGeometry_scale (k : K) (hk : 0 < k) (cfg : BuildConfig K) (len : K) (centre : Nat) (cv : ControlVolume K) :
    buildGeometry cfg (k * len) centre (ControlVolume.scale k cv)
      = (buildGeometry cfg len centre cv).map (Built.scale k) := by
  unfold buildGeometry
  rw [getTimeseries_scale]
  generalize getTimeseries cfg.skipMaps cv = cv'
  have hc : (ControlVolume.scale k cv').cells[centre]? = (cv'.cells[centre]?).map (scaleCell k) := by
    simp only [ControlVolume.scale, List.getElem?_map]
    rfl
  simp only [hc]
  cases cv'.cells[centre]? with
  | none => rfl
  | some c =>
    simp only [Option.map_some]
    have hn : (ControlVolume.scale k cv').nMaps = cv'.nMaps := rfl
    rw [hn]
    by_cases h0 : cv'.nMaps = 0
    · rw [if_pos h0, if_pos h0]
      rfl
    rw [if_neg h0, if_neg h0]
    cases pyIndex cv'.nMaps cfg.lakeTimesteps with
    | error e => rfl
    | ok L =>
      simp only
      have hd : (scaleCell k c).depth 0 = c.depth 0 := rfl
      have hl : centreLevels cv'.nMaps (scaleCell k c) = centreLevels cv'.nMaps c := rfl
      rw [hl, series2d_scale, hd]
      cases hz : allSome (maskSelect (checkMonotonicity (centreLevels cv'.nMaps c)) (centreLevels cv'.nMaps c)) with
      | none => rfl
      | some z =>
        cases c.depth 0 with
        | none => rfl
        | some d0 =>
          simp only
          show Except.ok _ = Except.ok _
          congr 1
          simp only [scaleSeries, maskSelect_map]
          have hne : maskSelect (checkMonotonicity (centreLevels cv'.nMaps c)) (series2d cfg cv' L (some d0)).flowArea ≠ [] := by
            obtain ⟨r, hr⟩ := checkMonotonicity_cons (centreLevels cv'.nMaps c)
            rw [hr]
            have hlen : (series2d cfg cv' L (some d0)).flowArea.length = cv'.nMaps := by simp [series2d]
            cases hq : (series2d cfg cv' L (some d0)).flowArea with
            | nil => rw [hq] at hlen; exact absurd hlen.symm h0
            | cons x xs => rw [maskSelect_cons_true]; simp
          exact assemble_scale k hk _ _ _ _ _ _ _ _ _ _ _ hne

theorem volumeDifference_scale (k : K) (v : List K) (w : List (Option K)) :
    volumeDifference (v.map (k * ·)) (w.map (Option.map (k * ·))) = (volumeDifference v w).map (Option.map (k * ·)) := by
  unfold volumeDifference
  rw [List.zipWith_map, List.map_zipWith]
  congr 1
  funext a b
  cases b with
  | none => rfl
  | some b => simp only [Option.map_some]; congr 1; ring

theorem min?_scale (k : K) (hk : 0 < k) (l : List K) : (l.map (k * ·)).min? = l.min?.map (k * ·) := by
  induction l with
  | nil => rfl
  | cons a l ih =>
    rw [List.map_cons, List.min?_cons, List.min?_cons, ih]
    cases l.min? with
    | none => rfl
    | some m =>
      simp only [Option.map_some, Option.elim]
      rw [mul_min_of_nonneg a m hk.le]

theorem nanargmin_scale (k : K) (hk : 0 < k) (l : List (Option K)) :
    nanargmin (l.map (Option.map (k * ·))) = nanargmin l := by
  unfold nanargmin nanmin
  rw [reduceOption_mapOption, min?_scale k hk]
  cases l.reduceOption.min? with
  | none => rfl
  | some m =>
    simp only [Option.map_some]
    rw [List.findIdx?_map]
    have : ((fun x : Option K => decide (x = some (k * m))) ∘ Option.map (k * ·)) = fun x => decide (x = some m) := by
      funext x
      simp only [Function.comp]
      cases x with
      | none => rfl
      | some y =>
        simp only [Option.map_some, Option.some.injEq]
        exact decide_eq_decide.2 ⟨fun h => mul_left_cancel₀ hk.ne' h, fun h => by rw [h]⟩
    rw [this]

theorem sdInitial_scale (k : K) (hk : 0 < k) (b : Built K) :
    sdInitial (Built.scale k b) = (sdInitial b).map fun r => (r.1, r.2.1.map (k * ·), r.2.2.map (k * ·)) := by
  unfold sdInitial
  have h1 : (Built.scale k b).totalVolume1d = b.totalVolume1d.map (k * ·) := rfl
  have h2 : (Built.scale k b).totalVolume2d = b.totalVolume2d.map (Option.map (k * ·)) := rfl
  have h3 : (Built.scale k b).flowVolume1d = b.flowVolume1d.map (k * ·) := rfl
  have h4 : (Built.scale k b).flowVolume2d = b.flowVolume2d.map (Option.map (k * ·)) := rfl
  have h5 : (Built.scale k b).z = b.z := rfl
  rw [h1, h2, h3, h4, h5, volumeDifference_scale, volumeDifference_scale, nanargmin_scale k hk]
  cases nanargmin (volumeDifference b.totalVolume1d b.totalVolume2d) with
  | error e => rfl
  | ok i =>
    simp only [List.getLast?_map]
    have habs : ∀ o : Option K, (o.map (k * ·)).map (fun x => |x|) = (o.map fun x => |x|).map (k * ·) := by
      intro o
      cases o with
      | none => rfl
      | some x => simp only [Option.map_some, abs_mul, abs_of_pos hk]
    cases b.z[i]? with
    | none => rfl
    | some z =>
      cases (volumeDifference b.totalVolume1d b.totalVolume2d).getLast? with
      | none => rfl
      | some t =>
        cases (volumeDifference b.flowVolume1d b.flowVolume2d).getLast? with
        | none => rfl
        | some f =>
          simp only [Option.map_some, habs]
          rfl

theorem omax_scale (k : K) (hk : 0 < k) (v : Option K) : omax (v.map (k * ·)) 0 = (omax v 0).map (k * ·) := by
  cases v with
  | none => rfl
  | some x =>
    simp only [omax, Option.map_some]
    rw [mul_max_of_nonneg x 0 hk.le, mul_zero]

theorem omin2_scale (k : K) (hk : 0 < k) (v w : Option K) :
    omin2 (v.map (k * ·)) (w.map (k * ·)) = (omin2 v w).map (k * ·) := by
  cases v <;> cases w <;> simp [omin2, mul_min_of_nonneg _ _ hk.le]

theorem omax2_scale (k : K) (hk : 0 < k) (v w : Option K) :
    omax2 (v.map (k * ·)) (w.map (k * ·)) = (omax2 v w).map (k * ·) := by
  cases v <;> cases w <;> simp [omax2, mul_max_of_nonneg _ _ hk.le]

theorem optimizeSdStorage_scale (k : K) (hk : 0 < k) (opt opt' : Optimiser K) (h : ScaledOptimiser k opt opt') (method : Int)
    (total flow : List K) (c : K) (t f : Option K) :
    optimizeSdStorage opt' method (total.map (k * ·)) (flow.map (k * ·)) c (t.map (k * ·)) (f.map (k * ·))
      = (optimizeSdStorage opt method total flow c t f).map fun r =>
          { r with totalVolume := r.totalVolume.map (k * ·), flowVolume := r.flowVolume.map (k * ·) } := by
  unfold optimizeSdStorage
  split
  · unfold optimiseFlow
    rw [h.crestAndVolume]
    cases opt.crestAndVolume flow (c, t) with
    | error e => rfl
    | ok r =>
      obtain ⟨crest, v⟩ := r
      simp only [Except.map]
      rw [h.volume]
      cases opt.volume total crest f with
      | error e => rfl
      | ok w => simp only [Except.map, omax_scale k hk, omax2_scale k hk]
  · split
    · unfold optimiseBoth
      rw [h.both]
      cases opt.both (c, t, f) with
      | error e => rfl
      | ok r => obtain ⟨crest, v, w⟩ := r; simp only [Except.map, omax_scale k hk, omin2_scale k hk]
    · unfold optimiseTotal
      rw [h.crestAndVolume]
      cases opt.crestAndVolume total (c, t) with
      | error e => rfl
      | ok r =>
        obtain ⟨crest, v⟩ := r
        simp only [Except.map]
        rw [h.volume]
        cases opt.volume flow crest f with
        | error e => rfl
        | ok w => simp only [Except.map, omax_scale k hk, omin2_scale k hk]

theorem addExtra_scale (k : K) (v : List K) (fr : List (Option K)) (x : Option K) :
    addExtra (v.map (k * ·)) fr (x.map (k * ·)) = (addExtra v fr x).map (Option.map (k * ·)) := by
  unfold addExtra
  rw [List.zipWith_map_left, List.map_zipWith]
  congr 1
  funext a p
  cases p with
  | none => rfl
  | some p =>
    cases x with
    | none => rfl
    | some x => simp only [Option.bind_some, Option.map_some]; congr 1; ring

theorem correctedCss_scale (k : K) (hk : 0 < k) (release : K → K → K → K) (height : K) (sd : SdResult K) (c : Css K) :
    correctedCss release height { sd with totalVolume := sd.totalVolume.map (k * ·), flowVolume := sd.flowVolume.map (k * ·) }
        (Css.scale k c)
      = Css.scale k (correctedCss release height sd c) := by
  have hd : ∀ o : Option K, (o.map (k * ·)).map (· / (k * c.length)) = o.map (· / c.length) := by
    intro o
    cases o with
    | none => rfl
    | some x => simp only [Option.map_some]; rw [mul_div_mul_left x c.length hk.ne']
  unfold correctedCss Css.scale
  simp only [hd]
  have h1 : (Built.scale k c.raw).totalVolume1d = c.raw.totalVolume1d.map (k * ·) := rfl
  have h3 : (Built.scale k c.raw).flowVolume1d = c.raw.flowVolume1d.map (k * ·) := rfl
  have h5 : (Built.scale k c.raw).z = c.raw.z := rfl
  simp only [h1, h3, h5, addExtra_scale, Option.map_some]

theorem performCorrection_scale (k : K) (hk : 0 < k) (opt opt' : Optimiser K) (ho : ScaledOptimiser k opt opt')
    (cfg : PipelineConfig K) (release : K → K → K → K) (log : Nat → Option PyErr) (c : Css K) :
    performCorrection opt' cfg release log (Css.scale k c) = Css.scale k (performCorrection opt cfg release log c) := by
  unfold performCorrection
  split
  · rw [calculateCorrection_eq, calculateCorrection_eq]
    have h1 : (Css.scale k c).raw = Built.scale k c.raw := rfl
    rw [h1, sdInitial_scale k hk]
    cases sdInitial c.raw with
    | error e => rfl
    | ok r =>
      obtain ⟨c0, t0, f0⟩ := r
      simp only [Except.map]
      cases [0, 1, 2, 3, 4].findSome? log with
      | some e => rfl
      | none =>
        simp only
        have h2 : (Built.scale k c.raw).totalVolume1d = c.raw.totalVolume1d.map (k * ·) := rfl
        have h3 : (Built.scale k c.raw).flowVolume1d = c.raw.flowVolume1d.map (k * ·) := rfl
        rw [h2, h3, optimizeSdStorage_scale k hk opt opt' ho]
        cases optimizeSdStorage opt cfg.sdOptimisationMethod c.raw.totalVolume1d c.raw.flowVolume1d c0 t0 f0 with
        | error e => rfl
        | ok sd =>
          simp only [Except.map]
          cases [5, 6, 7, 8, 9].findSome? log with
          | some e => rfl
          | none => exact correctedCss_scale k hk release _ sd c
  · rfl

theorem checkCss_scale (k : K) (bump : K → K) (w : K) (c : Css K) :
    checkCss bump w (Css.scale k c) = (checkCss bump w c).map (Css.scale k) := by
  unfold checkCss checkRequirements
  have h1 : (Css.scale k c).raw.totalWidth = c.raw.totalWidth := rfl
  have h2 : (Css.scale k c).raw.flowWidth = c.raw.flowWidth := rfl
  have h3 : (Css.scale k c).raw.z = c.raw.z := rfl
  rw [h1, h2, h3]
  cases firstNonzeroIndex c.raw.totalWidth with
  | error e => rfl
  | ok n => rfl

theorem reduceCss_scale (k : K) (n : Int) (c : Css K) : reduceCss n (Css.scale k c) = Css.scale k (reduceCss n c) := by
  unfold reduceCss
  have h1 : (Css.scale k c).raw.totalWidth = c.raw.totalWidth := rfl
  have h2 : (Css.scale k c).raw.flowWidth = c.raw.flowWidth := rfl
  have h3 : (Css.scale k c).raw.z = c.raw.z := rfl
  rw [h1, h2, h3]
  cases reducePoints n { z := c.raw.z, totalWidth := c.raw.totalWidth, flowWidth := c.raw.flowWidth } with
  | error e => rfl
  | ok g => rfl

theorem geometry_scale (k : K) (hk : 0 < k) (opt opt' : Optimiser K) (ho : ScaledOptimiser k opt opt') (cfg : PipelineConfig K)
    (bump : K → K) (release : K → K → K → K) (log : Nat → Option PyErr)
    (len : K) (centre : Nat) (cv : ControlVolume K) :
    buildCrossSectionGeometry opt' cfg bump release log (k * len) centre (ControlVolume.scale k cv)
      = (buildCrossSectionGeometry opt cfg bump release log len centre cv).map (Css.scale k) := by
  unfold buildCrossSectionGeometry
  rw [buildGeometry_scale k hk]
  cases buildGeometry cfg.build len centre cv with
  | error e => rfl
  | ok b =>
    simp only [Except.map]
    have h0 : Css.ofBuilt (k * len) (Built.scale k b) = Css.scale k (Css.ofBuilt len b) := by
      unfold Css.ofBuilt Css.scale
      simp only [Option.map_some, mul_zero, Option.map_none, Built.scale, List.map_map]
      rfl
    rw [h0, performCorrection_scale k hk opt opt' ho cfg release, checkCss_scale]
    cases checkCss bump cfg.minimumWidth (performCorrection opt cfg release log (Css.ofBuilt len b)) with
    | error e => rfl
    | ok c =>
      simp only [Except.map]
      rw [reduceCss_scale]

variable [FloorRing K]

theorem sectionWidths_scale (k : K) (hk : 0 < k) (len : K) (fs : List (SectionFace K)) (fw raw : List K) :
    computeSectionWidths (k * len) (fs.map fun f => { f with area := k * f.area }) fw raw
      = computeSectionWidths len fs fw raw := by
  have ha : ∀ n, sectionArea (fs.map fun f => { f with area := k * f.area }) n = k * sectionArea fs n := by
    intro n
    unfold sectionArea
    rw [List.filter_map, List.map_map, ← List.sum_map_mul_left]
    rfl
  unfold computeSectionWidths initialSectionWidths
  simp only [ha, ← mul_add, mul_div_mul_left _ _ hk.ne']

theorem floodplainBase_scale (k : K) (crest : Option K) (tol : K) (fs : List (SectionFace K)) :
    floodplainBase crest tol (fs.map fun f => { f with area := k * f.area }) = floodplainBase crest tol fs := by
  unfold floodplainBase
  rw [List.filter_map]
  have hf : ((fun f : SectionFace K => f.label.is 2) ∘ fun f => { f with area := k * f.area })
      = fun f : SectionFace K => f.label.is 2 := rfl
  rw [hf]
  cases fs.filter fun f => f.label.is 2 with
  | nil => rfl
  | cons g gs =>
    simp only [List.map_cons, List.map_map]
    rfl

/-- What is exported with areas and length multiplied. -/
theorem buildCss_scale (k : K) (hk : 0 < k) (x : Tools K) (cfg : RunConfig K) (m : Model2d K) (l : Loc K)
    (hopt : ScaledOptimiser k (x.opt l.id) (x.opt l.id)) :
    (buildCss x cfg (Model2d.scale k m) { l with length := k * l.length }).map (·.out)
      = (buildCss x cfg m l).map fun f => ExportCss.scale k f.out := by
  unfold buildCss
  have hs : getSelection x.sqrt (Model2d.scale k m).faces (Model2d.scale k m).edges l.id
      = { getSelection x.sqrt m.faces m.edges l.id with
          area := (getSelection x.sqrt m.faces m.edges l.id).area.map (k * ·) } := by
    unfold getSelection Model2d.scale
    simp only [maskSelect_map]
  simp only [hs]
  generalize getSelection x.sqrt m.faces m.edges l.id = s
  have hcv : controlVolumeOf (Model2d.scale k m).nMaps { s with area := s.area.map (k * ·) }
      = ControlVolume.scale k (controlVolumeOf m.nMaps s) := by
    unfold controlVolumeOf ControlVolume.scale
    simp only [List.zip_map_left, List.map_map]
    rfl
  have hce : centreOf x.nn { s with area := s.area.map (k * ·) } { l with length := k * l.length } = centreOf x.nn s l := rfl
  rw [hcv, hce, geometry_scale k hk (x.opt l.id) (x.opt l.id) hopt]
  cases buildCrossSectionGeometry (x.opt l.id) cfg.pipeline x.bump x.release (x.log l.id) l.length (centreOf x.nn s l)
      (controlVolumeOf m.nMaps s) with
  | error e => rfl
  | ok c =>
    simp only [Except.map]
    have hf : sectionFacesOf m.numbered { s with area := s.area.map (k * ·) }
        = (sectionFacesOf m.numbered s).map fun f => { f with area := k * f.area } := by
      unfold sectionFacesOf
      simp only [List.zip_map_left, List.map_map]
      rfl
    have hr : assignRoughness cfg (Model2d.scale k m) { s with area := s.area.map (k * ·) } (k * l.length) (Css.scale k c)
        = assignRoughness cfg m s l.length c := by
      unfold assignRoughness
      have h1 : (Css.scale k c).raw.zRoughness = c.raw.zRoughness := rfl
      have h2 : (Model2d.scale k m).nMaps = m.nMaps := rfl
      have h3 : (Model2d.scale k m).numbered = m.numbered := rfl
      have h4 : linksOf { s with area := s.area.map (k * ·) } = linksOf s := rfl
      have h5 : (Css.scale k c).flowWidth = c.flowWidth := rfl
      have h6 : (Css.scale k c).raw.flowWidth = c.raw.flowWidth := rfl
      have h7 : (Css.scale k c).crestLevel = c.crestLevel := rfl
      rw [h1, h2, h3, h4, h5, h6, h7, hf]
      simp only [sectionWidths_scale k hk, floodplainBase_scale]
    rw [hr]
    cases assignRoughness cfg m s l.length c with
    | error e => rfl
    | ok r =>
      obtain ⟨tables, widths, base⟩ := r
      simp only
      have e1 : (Css.scale k c).extraFlowArea = c.extraFlowArea := rfl
      have e2 : (Css.scale k c).extraTotalArea = c.extraTotalArea := rfl
      have e3 : (Css.scale k c).extraTotalVolume = c.extraTotalVolume.map (k * ·) := rfl
      have e4 : (Css.scale k c).crestLevel = c.crestLevel := rfl
      rw [e1, e2, e3, e4]
      cases c.crestLevel with
      | none => rfl
      | some crest =>
        cases c.extraFlowArea with
        | none => rfl
        | some fa =>
          cases c.extraTotalArea with
          | none => rfl
          | some ta =>
            cases c.extraTotalVolume with
            | none => rfl
            | some tv =>
              simp only [Option.map_some, ExportCss.scale]
              have hv : volumeTableOf (Css.scale k c) = (ExportCss.scale k
                  { name := [], branch := [], chainage := 0, z := [], flowWidth := [], totalWidth := [], crestLevel := 0
                    extraFlowArea := 0, extraTotalArea := 0, extraTotalVolume := 0, floodplainBase := none
                    widths := ⟨0, 0, 0⟩, tables := [], volumes := volumeTableOf c }).volumes := by
                unfold volumeTableOf ExportCss.scale Css.scale Built.scale
                simp only [List.map_map]
                congr 1
                · cases c.totalVolumeCorrected <;> rfl
                · cases c.flowVolumeCorrected <;> rfl
              rw [hv]
              rfl

end Fm2prof

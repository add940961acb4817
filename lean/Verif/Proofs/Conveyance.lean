import Verif.Spec.Conveyance
import Verif.Proofs.OneSetting
import Verif.Proofs.Invariance

/-!
# Proofs about runs that differ in what conveys
-/

set_option linter.unusedSectionVars false

namespace Fm2prof.ConveyanceProof

open Fm2prof Fm2prof.Spec Fm2prof.Props OneSettingProof

variable {K : Type} [Field K] [LinearOrder K] [IsStrictOrderedRing K] [FloorRing K]

/-- A cell without its velocity. -/
def still (c : Cell K) : Cell K := { c with velocity := fun _ => none }

/-- What is built, without the conveying part. -/
structure Total (K : Type) where
  z : List K
  totalWidth : List K
  wetArea : List K
  totalVolume2d : List (Option K)
  totalVolume1d : List K
  zRoughness : List (Option K)
  flowLengths : Nat × Nat

def total (b : Built K) : Total K :=
  ⟨b.z, b.totalWidth, b.wetArea, b.totalVolume2d, b.totalVolume1d, b.zRoughness, (b.flowVolume1d.length, b.flowVolume2d.length)⟩

theorem zipIdx_fst {α β : Type} (l : List α) (f : α → β) (k : Nat) : ((l.zipIdx k).map fun p => f p.1) = l.map f := by
  induction l generalizing k with
  | nil => rfl
  | cons a l ih => rw [List.zipIdx_cons, List.map_cons, List.map_cons, ih]

theorem area_still (cells : List (Cell K)) (p : Cell K → Bool) (hp : ∀ c, p (still c) = p c) :
    maskedArea cells (fun _ c => p c) = maskedArea (cells.map still) (fun _ c => p c) := by
  unfold maskedArea
  have e : ∀ cs : List (Cell K), (cs.zipIdx.map fun (c, _) => if p c then c.area else 0) = cs.map fun c => if p c then c.area else 0 :=
    fun cs => zipIdx_fst cs (fun c => if p c then c.area else 0) 0
  rw [e, e, List.map_map]
  congr 1
  apply List.map_congr_left
  intro c _
  show _ = if p (still c) then (still c).area else 0
  rw [hp]
  rfl

theorem volume_still (cells : List (Cell K)) (p : Cell K → Bool) (d : Cell K → Option K) (hp : ∀ c, p (still c) = p c)
    (hd : ∀ c, d (still c) = d c) :
    maskedVolume cells (fun _ c => p c) d = maskedVolume (cells.map still) (fun _ c => p c) d := by
  unfold maskedVolume
  have e : ∀ cs : List (Cell K), (cs.zipIdx.map fun (c, _) => if p c then ((d c).map (c.area * ·)).getD 0 else 0)
      = cs.map fun c => if p c then ((d c).map (c.area * ·)).getD 0 else 0 :=
    fun cs => zipIdx_fst cs (fun c => if p c then ((d c).map (c.area * ·)).getD 0 else 0) 0
  rw [e, e, List.map_map]
  congr 1
  apply List.map_congr_left
  intro c _
  show _ = if p (still c) then ((d (still c)).map ((still c).area * ·)).getD 0 else 0
  rw [hp, hd]
  rfl

theorem resting_still (lake : Nat) (c : Cell K) (t : Nat) : resting lake (still c) t = resting lake c t := by
  induction t with
  | zero => rfl
  | succ t ih => rw [resting, resting, ih]; rfl

theorem wet_still (lake : Nat) (c : Cell K) (t : Nat) : wetNotLake lake (still c) t = wetNotLake lake c t := by
  unfold wetNotLake
  rw [resting_still]
  rfl

/-- The part of the series that does not depend on what conveys. -/
theorem series_still (cfg cfg' : BuildConfig K) (cv cv' : ControlVolume K) (hn : cv'.nMaps = cv.nMaps)
    (hc : cv'.cells.map still = cv.cells.map still) (lake : Nat) (e : Option K) :
    (series2d cfg' cv' lake e).wetArea = (series2d cfg cv lake e).wetArea ∧
    (series2d cfg' cv' lake e).totalVolume = (series2d cfg cv lake e).totalVolume ∧
    (series2d cfg' cv' lake e).flowVolume.length = (series2d cfg cv lake e).flowVolume.length ∧
    (series2d cfg' cv' lake e).flowArea.length = (series2d cfg cv lake e).flowArea.length := by
  unfold series2d
  rw [hn]
  refine ⟨?_, ?_, ?_, ?_⟩
  · apply List.map_congr_left
    intro t _
    rw [area_still cv'.cells _ (fun c => wet_still lake c t), area_still cv.cells _ (fun c => wet_still lake c t), hc]
  · apply List.map_congr_left
    intro t _
    rw [volume_still cv'.cells (fun c => wetNotLake lake c t) (fun c => correctedDepth lake e c t) (fun c => wet_still lake c t) (fun _ => rfl),
      volume_still cv.cells (fun c => wetNotLake lake c t) (fun c => correctedDepth lake e c t) (fun c => wet_still lake c t) (fun _ => rfl), hc]
  · simp only [List.length_map]
  · simp only [List.length_map]

theorem below_still (lake : Nat) (cells cells' : List (Cell K)) (hc : cells'.map still = cells.map still) :
    areaBelow lake cells' = areaBelow lake cells := by
  funext dz
  unfold areaBelow
  have hp : ∀ c : Cell K, (decide (-(1 / 1000) < (((still c).level 0).map (· - (still c).bed)).getD 0 - dz) && wetNotLake lake (still c) 0)
      = (decide (-(1 / 1000) < ((c.level 0).map (· - c.bed)).getD 0 - dz) && wetNotLake lake c 0) := by
    intro c
    rw [wet_still]
    rfl
  rw [area_still cells' _ hp, area_still cells _ hp, hc]

theorem cumTrapz_length (acc : K) (ys xs : List K) (ys' : List K) (h : ys'.length = ys.length) (acc' : K) :
    (cumTrapzFrom acc' ys' xs).length = (cumTrapzFrom acc ys xs).length := by
  induction ys generalizing ys' xs acc acc' with
  | nil =>
    obtain rfl := List.length_eq_zero_iff.1 h
    rfl
  | cons y ys ih =>
    cases ys' with
    | nil => cases h
    | cons y' ys' =>
      have h := Nat.succ.inj h
      cases ys with
      | nil =>
        obtain rfl := List.length_eq_zero_iff.1 h
        rfl
      | cons w ys =>
        cases ys' with
        | nil => cases h
        | cons w' ys' =>
          cases xs with
          | nil => rfl
          | cons a xs =>
            cases xs with
            | nil => rfl
            | cons b xs =>
              rw [cumTrapzFrom, cumTrapzFrom, List.length_cons, List.length_cons]
              exact congrArg Nat.succ (ih _ _ _ h _)

theorem volume1d_length (w w' z : List K) (len : K) (h : w'.length = w.length) : (volume1d w' z len).length = (volume1d w z len).length := by
  unfold volume1d
  simp only [List.length_map, List.length_cons]
  first
  | rw [cumTrapz_length 0 w z w' h 0]
  | simp [cumTrapz_length 0 w z w' h 0]

theorem maskSelect_len {β γ : Type} (mask : List Bool) (r : List β) (r' : List γ) (h : r'.length = r.length) :
    (maskSelect mask r').length = (maskSelect mask r).length := by
  unfold maskSelect
  rw [List.length_map, List.length_map]
  induction mask generalizing r r' with
  | nil => rfl
  | cons b mask ih =>
    cases r with
    | nil => cases r' with
      | nil => rfl
      | cons => cases h
    | cons x r => cases r' with
      | nil => cases h
      | cons x' r' =>
        have := ih r r' (Nat.succ.inj h)
        cases b
        · simpa using this
        · simpa using this

theorem centre_still (n : Nat) (c c' : Cell K) (h : still c' = still c) : centreLevels n c' = centreLevels n c ∧ c'.depth = c.depth := by
  have e1 : c'.level = c.level := congrArg (fun c => c.level) h
  have e2 : c'.depth = c.depth := congrArg (fun c => c.depth) h
  refine ⟨?_, e2⟩
  unfold centreLevels centreBed
  rw [e1, e2]

theorem timeseries_still (skip : Int) (cv cv' : ControlVolume K) (hn : cv'.nMaps = cv.nMaps)
    (hc : cv'.cells.map still = cv.cells.map still) :
    (getTimeseries skip cv').nMaps = (getTimeseries skip cv).nMaps ∧
    (getTimeseries skip cv').cells.map still = (getTimeseries skip cv).cells.map still := by
  unfold getTimeseries
  rw [hn]
  refine ⟨rfl, ?_⟩
  simp only [List.map_map]
  have e : ∀ cells : List (Cell K), cells.map (still ∘ fun c => { c with
        depth := fun t => clean (c.depth (sliceStart cv.nMaps skip + t))
        level := fun t => clean (c.level (sliceStart cv.nMaps skip + t))
        velocity := fun t => clean (c.velocity (sliceStart cv.nMaps skip + t)) })
      = (cells.map still).map fun c => { c with
        depth := fun t => clean (c.depth (sliceStart cv.nMaps skip + t))
        level := fun t => clean (c.level (sliceStart cv.nMaps skip + t)) } := by
    intro cells
    rw [List.map_map]
    rfl
  rw [e, e, hc]

/-- What is built does not depend on what conveys, apart from the conveying part. -/
theorem build_still (cfg cfg' : BuildConfig K) (hs : cfg'.skipMaps = cfg.skipMaps) (hl : cfg'.lakeTimesteps = cfg.lakeTimesteps)
    (len : K) (centre : Nat) (raw raw' : ControlVolume K) (hn : raw'.nMaps = raw.nMaps)
    (hc : raw'.cells.map still = raw.cells.map still) (b b' : Built K) (h : buildGeometry cfg len centre raw = .ok b)
    (h' : buildGeometry cfg' len centre raw' = .ok b') : total b' = total b := by
  obtain ⟨tn, tc⟩ := timeseries_still cfg.skipMaps raw raw' hn hc
  unfold buildGeometry at h h'
  rw [hs, hl] at h'
  simp only at h h'
  generalize getTimeseries cfg.skipMaps raw = cv at h tn tc
  generalize getTimeseries cfg.skipMaps raw' = cv' at h' tn tc
  rw [tn] at h'
  have hcell : (cv'.cells[centre]?).map still = (cv.cells[centre]?).map still := by
    rw [← List.getElem?_map, tc, List.getElem?_map]
  cases hcc : cv.cells[centre]? with
  | none => rw [hcc] at h; cases h
  | some c =>
    cases hcc' : cv'.cells[centre]? with
    | none => rw [hcc'] at h'; cases h'
    | some c' =>
      rw [hcc, hcc'] at hcell
      obtain ⟨c1, c2⟩ := centre_still cv.nMaps c c' (Option.some.inj hcell)
      rw [hcc] at h
      rw [hcc'] at h'
      simp only at h h'
      rw [c1, c2] at h'
      by_cases h0 : cv.nMaps = 0
      · rw [if_pos h0] at h; cases h
      · rw [if_neg h0] at h h'
        cases hp : pyIndex cv.nMaps cfg.lakeTimesteps with
        | error e => rw [hp] at h; cases h
        | ok lake =>
          rw [hp] at h h'
          simp only at h h'
          obtain ⟨s1, s2, s3, s4⟩ := series_still cfg cfg' cv cv' tn tc lake (c.depth 0)
          rw [s1, s2] at h'
          cases ha : allSome (maskSelect (checkMonotonicity (centreLevels cv.nMaps c)) (centreLevels cv.nMaps c)) with
          | none => rw [ha] at h; cases h
          | some z =>
            cases hd : c.depth 0 with
            | none => rw [ha, hd] at h; cases h
            | some d0 =>
              rw [ha, hd] at h h'
              rw [hd] at s3 s4
              obtain rfl := Except.ok.inj h
              obtain rfl := Except.ok.inj h'
              unfold total assemble
              rw [below_still lake cv.cells cv'.cells tc]
              simp only [Total.mk.injEq, true_and, Prod.mk.injEq]
              refine ⟨volume1d_length _ _ _ _ ?_, ?_⟩
              · simp only [List.length_append, List.length_map, backMin_length, maskSelect_len _ _ _ s4]
              · simp only [List.length_append, List.length_map, maskSelect_len _ _ _ s3]

/-! ## The published profile -/

theorem requirements_total (bump : K → K) (w : K) (g g' r r' : Geometry K) (hz : g'.z = g.z) (ht : g'.totalWidth = g.totalWidth)
    (h : checkRequirements bump w g = .ok r) (h' : checkRequirements bump w g' = .ok r') : r'.z = r.z ∧ r'.totalWidth = r.totalWidth := by
  unfold checkRequirements at h h'
  rw [hz, ht] at h'
  cases hf : firstNonzeroIndex g.totalWidth with
  | error e => rw [hf] at h; cases h
  | ok k =>
    rw [hf] at h h'
    obtain rfl := (Except.ok.inj h).symm
    obtain rfl := (Except.ok.inj h').symm
    exact ⟨rfl, rfl⟩

theorem reduce_total (n : Int) (c c' : Css K) (hz : c'.raw.z = c.raw.z) (ht : c'.raw.totalWidth = c.raw.totalWidth)
    (h1 : c'.z = c.z) (h2 : c'.totalWidth = c.totalWidth) :
    (reduceCss n c').z = (reduceCss n c).z ∧ (reduceCss n c').totalWidth = (reduceCss n c).totalWidth := by
  unfold reduceCss reducePoints
  rw [hz, ht]
  simp only
  generalize (if n < (c.raw.totalWidth.length : Int) then
      match buildThresholds (c.raw.z.zip c.raw.totalWidth) with
      | .error _ => some (List.replicate c.raw.totalWidth.length true)
      | .ok th => fromNumberIndex th n
    else some (List.replicate c.raw.totalWidth.length true)) = index
  cases index with
  | none => exact ⟨h1, h2⟩
  | some m => exact ⟨rfl, rfl⟩

/-- The initial values of the correction. -/
theorem initial_total (b b' : Built K) (h : total b' = total b) :
    (sdInitial b').map (fun r => (r.1, r.2.1)) = (sdInitial b).map (fun r => (r.1, r.2.1)) := by
  have e1 : b'.z = b.z := congrArg Total.z h
  have e2 : b'.totalVolume1d = b.totalVolume1d := congrArg Total.totalVolume1d h
  have e3 : b'.totalVolume2d = b.totalVolume2d := congrArg Total.totalVolume2d h
  have e4 : b'.flowVolume1d.length = b.flowVolume1d.length := congrArg (fun t => (Total.flowLengths t).1) h
  have e5 : b'.flowVolume2d.length = b.flowVolume2d.length := congrArg (fun t => (Total.flowLengths t).2) h
  have hl : (volumeDifference b'.flowVolume1d b'.flowVolume2d).length = (volumeDifference b.flowVolume1d b.flowVolume2d).length := by
    unfold volumeDifference
    rw [List.length_zipWith, List.length_zipWith, e4, e5]
  unfold sdInitial
  rw [e1, e2, e3]
  generalize volumeDifference b'.flowVolume1d b'.flowVolume2d = d' at hl ⊢
  generalize volumeDifference b.flowVolume1d b.flowVolume2d = d at hl ⊢
  cases nanargmin (volumeDifference b.totalVolume1d b.totalVolume2d) with
  | error e => rfl
  | ok i =>
    simp only
    cases b.z[i]? with
    | none => rfl
    | some z =>
      cases (volumeDifference b.totalVolume1d b.totalVolume2d).getLast? with
      | none => rfl
      | some t =>
        rcases List.eq_nil_or_concat d with rfl | ⟨l, a, rfl⟩
        · obtain rfl := List.length_eq_zero_iff.1 hl
          rfl
        · rcases List.eq_nil_or_concat d' with rfl | ⟨l', a', rfl⟩
          · simp at hl
          · simp only [List.concat_eq_append, List.getLast?_append, List.getLast?_singleton, Option.some_or]
            rfl

/-- The correction by the total volumes. -/
theorem correction_total (opt : Optimiser K) (hopt : ∀ fl c v, ∃ w, opt.volume fl c v = .ok w) (cfg cfg' : PipelineConfig K)
    (hon : cfg'.sdCorrection = cfg.sdCorrection) (hm : cfg'.sdOptimisationMethod = cfg.sdOptimisationMethod)
    (h1 : cfg.sdOptimisationMethod ≠ 1) (h2 : cfg.sdOptimisationMethod ≠ 2)
    (hh : cfg'.sdTransitionHeight = cfg.sdTransitionHeight) (release : K → K → K → K) (log : Nat → Option PyErr) (len : K)
    (b b' : Built K) (h : total b' = total b) :
    (performCorrection opt cfg' release log (Css.ofBuilt len b')).crestLevel = (performCorrection opt cfg release log (Css.ofBuilt len b)).crestLevel ∧
    (performCorrection opt cfg' release log (Css.ofBuilt len b')).extraTotalArea =
      (performCorrection opt cfg release log (Css.ofBuilt len b)).extraTotalArea := by
  unfold performCorrection
  rw [hon, hm, hh]
  by_cases hs : cfg.sdCorrection = true
  · rw [if_pos hs, if_pos hs, calculateCorrection_eq, calculateCorrection_eq]
    have e2 : b'.totalVolume1d = b.totalVolume1d := congrArg Total.totalVolume1d h
    have key := initial_total b b' h
    show (match sdInitial b' with | .error e => _ | .ok r => _ : Css K × Option PyErr).1.crestLevel = (match sdInitial b with | .error e => _ | .ok r => _ : Css K × Option PyErr).1.crestLevel ∧ _
    have hr' : (Css.ofBuilt len b').raw = b' := rfl
    have hr : (Css.ofBuilt len b).raw = b := rfl
    simp only [hr, hr']
    generalize sdInitial b' = a' at key ⊢
    generalize sdInitial b = a at key ⊢
    cases a with
    | error e => cases a' with
      | error e' => exact ⟨rfl, rfl⟩
      | ok r' => cases key
    | ok r => cases a' with
      | error e' => cases key
      | ok r' =>
        have key : (r'.1, r'.2.1) = (r.1, r.2.1) := Except.ok.inj key
        obtain ⟨k1, k2⟩ := Prod.mk.inj key
        simp only
        cases [0, 1, 2, 3, 4].findSome? log with
        | some e => exact ⟨rfl, rfl⟩
        | none =>
          simp only
          unfold optimizeSdStorage optimiseTotal
          rw [if_neg h1, if_neg h2, if_neg h1, if_neg h2, e2, k1, k2]
          cases opt.crestAndVolume b.totalVolume1d (r.1, r.2.1) with
          | error e => exact ⟨rfl, rfl⟩
          | ok p =>
            obtain ⟨crest, v⟩ := p
            simp only
            obtain ⟨w, hw⟩ := hopt b.flowVolume1d crest r.2.2
            obtain ⟨w', hw'⟩ := hopt b'.flowVolume1d crest r'.2.2
            rw [hw, hw']
            simp only
            cases [5, 6, 7, 8, 9].findSome? log with
            | some e => exact ⟨rfl, rfl⟩
            | none => exact ⟨rfl, rfl⟩
  · rw [if_neg hs, if_neg hs]
    exact ⟨rfl, rfl⟩

/-- The data of a cross-section with other velocities. -/
theorem selection_still (sqrt : K → K) (m m' : Model2d K) (vx vy : List (List (Option K))) (hx : vx.length = m.faces.velocityX.length)
    (hy : vy.length = m.faces.velocityY.length)
    (hf : m'.faces = { m.faces with velocityX := vx, velocityY := vy }) (he : m'.edges = m.edges) (id : Text) :
    ∃ v, v.length = (getSelection sqrt m.faces m.edges id).velocity.length ∧
      getSelection sqrt m'.faces m'.edges id = { getSelection sqrt m.faces m.edges id with velocity := v } := by
  rw [hf, he]
  refine ⟨List.zipWith (List.zipWith (speed sqrt)) (maskSelect (m.faces.sclass.map fun c => decide (c = id)) vx)
    (maskSelect (m.faces.sclass.map fun c => decide (c = id)) vy), ?_, rfl⟩
  show _ = (List.zipWith (List.zipWith (speed sqrt)) _ _).length
  rw [List.length_zipWith, List.length_zipWith, maskSelect_len _ _ _ hx, maskSelect_len _ _ _ hy]

theorem cells_zip {α β γ δ : Type} (a : List α) (b : List β) (c : List γ) (c' : List δ) (h : c'.length = c.length) :
    (a.zip (b.zip c')).map (fun p => (p.1, p.2.1)) = (a.zip (b.zip c)).map fun p => (p.1, p.2.1) := by
  induction a generalizing b c c' with
  | nil => rfl
  | cons x a ih =>
    cases b with
    | nil => rfl
    | cons y b =>
      cases c with
      | nil =>
        obtain rfl := List.length_eq_zero_iff.1 h
        rfl
      | cons z c =>
        cases c' with
        | nil => cases h
        | cons z' c' =>
          simp only [List.zip_cons_cons, List.map_cons]
          rw [ih b c c' (Nat.succ.inj h)]

theorem volume_cells (n : Nat) (s : Selection Text K) (v : List (List (Option K))) (h : v.length = s.velocity.length) :
    (controlVolumeOf n { s with velocity := v }).cells.map still = (controlVolumeOf n s).cells.map still := by
  have e : ∀ u : List (List (Option K)), (controlVolumeOf n { s with velocity := u }).cells.map still =
      ((((s.area.zip s.bedlevel).zip s.waterdepth).zip (s.waterlevel.zip u)).map fun p => (p.1, p.2.1)).map
        fun p => (⟨p.1.1.1, p.1.1.2, mapSeries p.1.2, mapSeries p.2, fun _ => none⟩ : Cell K) := by
    intro u
    unfold controlVolumeOf
    simp only [List.map_map]
    have : ∀ (a : List (K × K)) (b c : List (List (Option K))) (d : List (List (Option K))),
        (a.zip (b.zip (c.zip d))).map (still ∘ fun p => (⟨p.1.1, p.1.2, mapSeries p.2.1, mapSeries p.2.2.1, mapSeries p.2.2.2⟩ : Cell K)) =
        ((a.zip b).zip (c.zip d)).map ((fun p => (⟨p.1.1.1, p.1.1.2, mapSeries p.1.2, mapSeries p.2, fun _ => none⟩ : Cell K)) ∘
          fun p => (p.1, p.2.1)) := by
      intro a
      induction a with
      | nil => intros; rfl
      | cons x a ih =>
        intro b c d
        cases b with
        | nil => rfl
        | cons y b =>
          cases c with
          | nil => rfl
          | cons z c =>
            cases d with
            | nil => rfl
            | cons w d =>
              simp only [List.zip_cons_cons, List.map_cons]
              rw [ih]
              rfl
    exact this _ _ _ _
  have e0 := e s.velocity
  rw [e v, e0, cells_zip _ _ _ _ h]

/-- Two cross-sections that differ in what conveys. -/
theorem css_flow (x : Tools K) (opt : Text → Optimiser K) (log : Text → Nat → Option PyErr) (cfg : RunConfig K) (method : Int)
    (absolute relative : K) (extrapolate : Bool) (m m' : Model2d K) (vx vy : List (List (Option K)))
    (hx : vx.length = m.faces.velocityX.length) (hy : vy.length = m.faces.velocityY.length)
    (hf : m'.faces = { m.faces with velocityX := vx, velocityY := vy }) (he : m'.edges = m.edges) (hn : m'.nMaps = m.nMaps)
    (hb : m'.numbered = m.numbered) (l : Loc K) (c c' : Finished K) (h : buildCss x cfg m l = .ok c)
    (h' : buildCss { x with opt := opt, log := log } (RunConfig.withConveyance method absolute relative extrapolate cfg) m' l = .ok c') :
    bare c'.out = bare c.out ∧ c'.out.z = c.out.z ∧ c'.out.totalWidth = c.out.totalWidth ∧
    (opt = x.opt → log = x.log → (∀ fl c v, ∃ w, (x.opt l.id).volume fl c v = .ok w) → cfg.pipeline.sdOptimisationMethod ≠ 1 →
      cfg.pipeline.sdOptimisationMethod ≠ 2 → c'.out.crestLevel = c.out.crestLevel ∧ c'.out.extraTotalArea = c.out.extraTotalArea ∧
        c'.out.floodplainBase = c.out.floodplainBase) := by
  obtain ⟨g1, g2, d1, d2, d3, d4, g3, g4, g5, g6, g7, g8, -, -⟩ := buildCss_ok x cfg m l c h
  obtain ⟨k1, k2, u1, u2, u3, u4, k3, k4, k5, k6, k7, k8, -, -⟩ := buildCss_ok _ _ m' l c' h'
  obtain ⟨v, hv, hs⟩ := selection_still x.sqrt m m' vx vy hx hy hf he l.id
  obtain ⟨b, g, e1, e2, e3⟩ := geometry_steps _ _ _ _ _ _ _ _ _ g1
  obtain ⟨b', g', f1, f2, f3⟩ := geometry_steps _ _ _ _ _ _ _ _ _ k1
  have f1 : buildGeometry (RunConfig.withConveyance method absolute relative extrapolate cfg).pipeline.build l.length
    (centreOf x.nn (getSelection x.sqrt m'.faces m'.edges l.id) l)
    (controlVolumeOf m'.nMaps (getSelection x.sqrt m'.faces m'.edges l.id)) = .ok b' := f1
  have k2 : assignRoughness (RunConfig.withConveyance method absolute relative extrapolate cfg) m'
    (getSelection x.sqrt m'.faces m'.edges l.id) l.length c'.css = .ok (c'.out.tables, c'.out.widths, c'.out.floodplainBase) := k2
  rw [hs] at f1 k2
  generalize getSelection x.sqrt m.faces m.edges l.id = sel at *
  have hcentre : centreOf x.nn { sel with velocity := v } l = centreOf x.nn sel l := rfl
  rw [hcentre] at f1
  have ht : total b' = total b := build_still cfg.pipeline.build (RunConfig.withConveyance method absolute relative extrapolate cfg).pipeline.build rfl rfl l.length (centreOf x.nn sel l) (controlVolumeOf m.nMaps sel)
    (controlVolumeOf m'.nMaps { sel with velocity := v }) hn (by rw [hn]; exact volume_cells m.nMaps sel v hv) b b' e1 f1
  have t1 : b'.z = b.z := congrArg Total.z ht
  have t2 : b'.totalWidth = b.totalWidth := congrArg Total.totalWidth ht
  have t3 : b'.zRoughness = b.zRoughness := congrArg Total.zRoughness ht
  obtain ⟨r1, r2⟩ := requirements_total x.bump cfg.pipeline.minimumWidth _ _ _ _ t1 t2 e2 f2
  obtain ⟨-, p1, p2, p3⟩ := performCorrection_raw (x.opt l.id) cfg.pipeline x.release (x.log l.id) (Css.ofBuilt l.length b)
  obtain ⟨-, q1, q2, q3⟩ := performCorrection_raw (opt l.id)
    (RunConfig.withConveyance method absolute relative extrapolate cfg).pipeline x.release (log l.id) (Css.ofBuilt l.length b')
  have hprof : c'.css.z = c.css.z ∧ c'.css.totalWidth = c.css.totalWidth := by
    rw [e3, f3]
    exact reduce_total _ _ _ r1 r2 (q1.trans p1.symm) (q2.trans p2.symm)
  have hzr : c'.css.raw.zRoughness = c.css.raw.zRoughness := by
    rw [e3, f3, (reduceCss_rest _ _).1, (reduceCss_rest _ _).1]
    exact t3
  obtain ⟨level, a1, a2, a3, a4⟩ := assignRoughness_ok cfg m _ _ _ _ _ _ g2
  obtain ⟨level', b1, b2, b3, b4⟩ := assignRoughness_ok _ m' _ _ _ _ _ _ k2
  rw [hzr, a1] at b1
  obtain rfl := Option.some.inj b1
  rw [hn] at b2
  have htab : c'.out.tables = c.out.tables := Except.ok.inj (b2.symm.trans a2)
  refine ⟨?_, ?_, ?_, ?_⟩
  · unfold bare
    rw [g3, g4, g5, k3, k4, k5, htab]
  · rw [g6, k6, hprof.1]
  · rw [g8, k8, hprof.2]
  · rintro rfl rfl hopt h1 h2
    have key := correction_total (x.opt l.id) hopt cfg.pipeline
      (RunConfig.withConveyance method absolute relative extrapolate cfg).pipeline rfl rfl h1 h2 rfl x.release (x.log l.id) l.length b b' ht
    have hcrest : c'.css.crestLevel = c.css.crestLevel := by
      rw [e3, f3, (reduceCss_rest _ _).2.1, (reduceCss_rest _ _).2.1]
      exact key.1
    have harea : c'.css.extraTotalArea = c.css.extraTotalArea := by
      rw [e3, f3, (reduceCss_rest _ _).2.2.2.1, (reduceCss_rest _ _).2.2.2.1]
      exact key.2
    refine ⟨Option.some.inj (u1.symm.trans (hcrest.trans d1)), Option.some.inj (u3.symm.trans (harea.trans d3)), ?_⟩
    rw [a4, b4, hcrest, hb]
    rfl

/-- Loading a map with other velocities. -/
theorem load_still (nn : NearestPicker K) (i : Inputs K) (d : MapData K) (hd : i.map = .ok d) (vx vy : List (List (Option K))) :
    setModelData nn { i with map := .ok (MapData.withVelocities d vx vy) } =
      (setModelData nn i).map fun m => { m with faces := { m.faces with velocityX := vx, velocityY := vy } } := by
  unfold setModelData
  rw [hd]
  simp only
  cases i.css with
  | error e => rfl
  | ok css =>
    simp only
    cases readOptional i.regions with
    | error e => rfl
    | ok regions =>
      simp only
      cases readOptional i.sections with
      | error e => rfl
      | ok sections =>
        simp only
        have e1 : assignCss nn (MapData.withVelocities d vx vy) css regions = assignCss nn d css regions := by cases regions <;> rfl
        have e2 : assignSections (MapData.withVelocities d vx vy) sections = assignSections d sections := by cases sections <;> rfl
        rw [e1, e2]
        cases assignCss nn d css regions with
        | error e => rfl
        | ok p =>
          obtain ⟨p, q⟩ := p
          simp only
          cases assignSections d sections with
          | error e => rfl
          | ok r => rfl

/-- The columns of the loaded model. -/
theorem loaded_velocities (nn : NearestPicker K) (i : Inputs K) (d : MapData K) (hd : i.map = .ok d) (m : Model2d K)
    (hm : setModelData nn i = .ok m) : m.faces.velocityX = d.faces.velocityX ∧ m.faces.velocityY = d.faces.velocityY := by
  have h := load_still nn i d hd d.faces.velocityX d.faces.velocityY
  have e : ({ i with map := .ok (MapData.withVelocities d d.faces.velocityX d.faces.velocityY) } : Inputs K) = i := by
    cases i
    simp only at hd
    rw [hd]
    rfl
  rw [e, hm] at h
  have h := Except.ok.inj h
  constructor
  · exact congrArg (fun m : Model2d K => m.faces.velocityX) h
  · exact congrArg (fun m : Model2d K => m.faces.velocityY) h

end Fm2prof.ConveyanceProof

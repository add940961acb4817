import Verif.Spec.Stricter
import Verif.Proofs.Conveyance
import Verif.Proofs.Range

/-!
# Proofs about stricter criteria for the conveying part
-/

set_option linter.unusedSectionVars false

namespace Fm2prof.StricterProof

open Fm2prof Fm2prof.Spec Fm2prof.Props OneSettingProof ConveyanceProof

variable {K : Type} [Field K] [LinearOrder K] [IsStrictOrderedRing K] [FloorRing K]

/-! ## The mask -/

theorem nanmean_nonneg (l : List (Option K)) (h : ∀ v, some v ∈ l → 0 ≤ v) (m : K) (hm : nanmean l = some m) : 0 ≤ m := by
  unfold nanmean at hm
  have hr : ∀ v ∈ l.reduceOption, 0 ≤ v := fun v hv => h v (List.reduceOption_mem_iff.1 hv)
  cases hl : l.reduceOption with
  | nil => rw [hl] at hm; cases hm
  | cons a as =>
    rw [hl] at hm hr
    obtain rfl := Option.some.inj hm
    exact div_nonneg (List.sum_nonneg hr) (Nat.cast_nonneg _)

theorem top3_nonneg (l : List (Option K)) (h : ∀ v, some v ∈ l → 0 ≤ v) (m : K) (hm : top3 l = some m) : 0 ≤ m := by
  unfold top3 at hm
  refine nanmean_nonneg _ (fun v hv => ?_) m hm
  have hv := List.mem_of_mem_drop hv
  unfold sortValues at hv
  rcases List.mem_append.1 hv with hv | hv
  · obtain ⟨w, hw, e⟩ := List.mem_map.1 hv
    obtain rfl := Option.some.inj e
    exact h w (List.reduceOption_mem_iff.1 ((List.perm_insertionSort _ _).mem_iff.1 hw))
  · cases (List.mem_replicate.1 hv).2

theorem smoothed_nonneg (cv : ControlVolume K) (hv : ∀ c ∈ cv.cells, ∀ t v, c.velocity t = some v → 0 ≤ v) (i t : Nat) (m : K)
    (hm : smoothed cv i t = some m) : 0 ≤ m := by
  refine nanmean_nonneg _ (fun v h => ?_) m hm
  obtain ⟨c, hc, e⟩ := List.mem_map.1 (List.mem_of_mem_take (List.mem_of_mem_drop h))
  exact hv c hc t v e

theorem smoothedMean_nonneg (cv : ControlVolume K) (hv : ∀ c ∈ cv.cells, ∀ t v, c.velocity t = some v → 0 ≤ v) (m : K)
    (hm : smoothedMean cv = some m) : 0 ≤ m := by
  refine nanmean_nonneg _ (fun v h => ?_) m hm
  obtain ⟨t, -, h⟩ := List.mem_flatMap.1 h
  obtain ⟨i, -, h⟩ := List.mem_map.1 h
  exact smoothed_nonneg cv hv i t v h

theorem ogt_mono (a : Option K) (b b' : K) (h : b ≤ b') (ha : ogt a b' = true) : ogt a b = true := by
  cases a with
  | none => cases ha
  | some x => exact decide_eq_true (lt_of_le_of_lt h (of_decide_eq_true ha))

/-- With stricter thresholds no more faces convey. -/
theorem mask_stricter (cfg cfg' : BuildConfig K) (hm : cfg'.conveyanceDetectionMethod = cfg.conveyanceDetectionMethod)
    (ha : cfg.absoluteVelocityThreshold ≤ cfg'.absoluteVelocityThreshold) (hr : cfg.relativeVelocityThreshold ≤ cfg'.relativeVelocityThreshold)
    (cv : ControlVolume K) (hv : ∀ c ∈ cv.cells, ∀ t v, c.velocity t = some v → 0 ≤ v) (i : Nat) (c : Cell K) (t : Nat)
    (h : flowMask cfg' cv i c t = true) : flowMask cfg cv i c t = true := by
  unfold flowMask at h ⊢
  rw [hm] at h
  by_cases h0 : cfg.conveyanceDetectionMethod = 0
  · rw [if_pos h0] at h ⊢
    unfold meanVelocityMethod at h ⊢
    cases hs : smoothedMean cv with
    | none => rw [hs] at h; simp at h
    | some m =>
      rw [hs] at h
      simp only [Option.map_some, Bool.and_eq_true] at h ⊢
      have hm := smoothedMean_nonneg cv hv m hs
      exact ⟨⟨h.1.1, ogt_mono _ _ _ ha h.1.2⟩, ogt_mono _ _ _ (mul_le_mul_of_nonneg_right hr hm) h.2⟩
  · rw [if_neg h0] at h ⊢
    unfold maxVelocityMethod at h ⊢
    cases hs : top3 (cv.cells.map fun c => c.velocity t) with
    | none =>
      rw [hs] at h
      simp only [Option.map_none, Bool.and_eq_true, Bool.or_eq_true, Bool.false_eq_true, false_or] at h ⊢
      exact ⟨h.1, ogt_mono _ _ _ ha h.2⟩
    | some m =>
      rw [hs] at h
      simp only [Option.map_some, Bool.and_eq_true, Bool.or_eq_true] at h ⊢
      have hm : 0 ≤ m := by
        refine top3_nonneg _ (fun v hv' => ?_) m hs
        obtain ⟨c, hc, e⟩ := List.mem_map.1 hv'
        exact hv c hc t v e
      exact ⟨h.1, h.2.imp (ogt_mono _ _ _ (mul_le_mul_of_nonneg_left hr hm)) (ogt_mono _ _ _ ha)⟩

theorem area_mono (cells : List (Cell K)) (harea : ∀ c ∈ cells, 0 ≤ c.area) (p q : Nat → Cell K → Bool)
    (h : ∀ i c, p i c = true → q i c = true) : maskedArea cells p ≤ maskedArea cells q := by
  unfold maskedArea
  refine List.sum_le_sum fun ⟨c, i⟩ hc => ?_
  have hc' : c ∈ cells := by
    exact List.fst_mem_of_mem_zipIdx hc
  show (if p i c = true then c.area else 0) ≤ if q i c = true then c.area else 0
  by_cases hp : p i c = true
  · rw [if_pos hp, if_pos (h i c hp)]
  · rw [if_neg hp]
    split
    · exact harea c hc'
    · exact le_refl _

/-! ## Lists -/

theorem forall₂_le_refl (l : List K) : List.Forall₂ (· ≤ ·) l l := List.forall₂_same.2 fun _ _ => le_refl _

theorem select_rel {R : K → K → Prop} (mask : List Bool) (l l' : List K) (h : List.Forall₂ R l l') :
    List.Forall₂ R (maskSelect mask l) (maskSelect mask l') := by
  unfold maskSelect
  induction h generalizing mask with
  | nil => rw [List.zip_nil_right]; exact .nil
  | cons hr _ ih =>
    cases mask with
    | nil => exact .nil
    | cons b mask =>
      cases b
      · exact ih mask
      · exact .cons hr (ih mask)

theorem map_mono (f : K → K) (hf : ∀ x y, x ≤ y → f x ≤ f y) (l l' : List K) (h : List.Forall₂ (· ≤ ·) l l') :
    List.Forall₂ (· ≤ ·) (l.map f) (l'.map f) := by
  rw [List.forall₂_map_left_iff, List.forall₂_map_right_iff]
  exact h.imp fun x y => hf x y

theorem map_mono_same (f g : K → K) (hf : ∀ x, f x ≤ g x) (l : List K) : List.Forall₂ (· ≤ ·) (l.map f) (l.map g) := by
  rw [List.forall₂_map_left_iff, List.forall₂_map_right_iff]
  exact List.forall₂_same.2 fun x _ => hf x

theorem append_rel {R : K → K → Prop} (l l' r r' : List K) (h : List.Forall₂ R l l') (h' : List.Forall₂ R r r') :
    List.Forall₂ R (l ++ r) (l' ++ r') := by
  induction h with
  | nil => exact h'
  | cons hr _ ih => exact .cons hr ih

theorem backMin_mono (l l' : List K) (h : List.Forall₂ (· ≤ ·) l l') : List.Forall₂ (· ≤ ·) (backMin l) (backMin l') := by
  induction h with
  | nil => exact .nil
  | @cons x x' xs xs' hr hrs ih =>
    rw [backMin, backMin]
    generalize backMin xs = a at ih ⊢
    generalize backMin xs' = a' at ih ⊢
    cases ih with
    | nil => exact .cons hr .nil
    | cons h1 h2 => exact .cons (min_le_min hr h1) (.cons h1 h2)

theorem headD_mono (l l' : List K) (h : List.Forall₂ (· ≤ ·) l l') : l.headD 0 ≤ l'.headD 0 := by
  cases h with
  | nil => exact le_refl _
  | cons hr _ => exact hr

/-! ## The geometry -/

theorem timeseries_nonneg (skip : Int) (cv : ControlVolume K) (hv : ∀ c ∈ cv.cells, ∀ t v, c.velocity t = some v → 0 ≤ v)
    (harea : ∀ c ∈ cv.cells, 0 ≤ c.area) :
    (∀ c ∈ (getTimeseries skip cv).cells, ∀ t v, c.velocity t = some v → 0 ≤ v) ∧ ∀ c ∈ (getTimeseries skip cv).cells, 0 ≤ c.area := by
  refine ⟨fun c hc t v h => ?_, fun c hc => ?_⟩
  · obtain ⟨c, hc', rfl⟩ := List.mem_map.1 hc
    have h : clean (c.velocity (sliceStart cv.nMaps skip + t)) = some v := h
    cases hs : c.velocity (sliceStart cv.nMaps skip + t) with
    | none => rw [hs] at h; cases h
    | some w =>
      rw [hs] at h
      unfold clean at h
      split at h
      · rename_i w' e
        obtain rfl := Option.some.inj e
        split at h
        · cases h
        · obtain rfl := Option.some.inj h
          exact hv c hc' _ _ hs
      · cases h
  · obtain ⟨c, hc', rfl⟩ := List.mem_map.1 hc
    exact harea c hc'

/-- With stricter thresholds the flow areas and flow widths are not larger. -/
theorem build_stricter (cfg cfg' : BuildConfig K) (hs : cfg'.skipMaps = cfg.skipMaps) (hl : cfg'.lakeTimesteps = cfg.lakeTimesteps)
    (he : cfg'.extrapolateStorage = cfg.extrapolateStorage) (hm : cfg'.conveyanceDetectionMethod = cfg.conveyanceDetectionMethod)
    (ha : cfg.absoluteVelocityThreshold ≤ cfg'.absoluteVelocityThreshold) (hr : cfg.relativeVelocityThreshold ≤ cfg'.relativeVelocityThreshold)
    (len : K) (hlen : 0 ≤ len) (centre : Nat) (raw : ControlVolume K)
    (hv : ∀ c ∈ raw.cells, ∀ t v, c.velocity t = some v → 0 ≤ v) (harea : ∀ c ∈ raw.cells, 0 ≤ c.area) (b b' : Built K)
    (h : buildGeometry cfg len centre raw = .ok b) (h' : buildGeometry cfg' len centre raw = .ok b') :
    List.Forall₂ (· ≤ ·) b'.flowArea b.flowArea ∧ List.Forall₂ (· ≤ ·) b'.flowWidth b.flowWidth := by
  obtain ⟨tv, ta⟩ := timeseries_nonneg cfg.skipMaps raw hv harea
  unfold buildGeometry at h h'
  rw [hs, hl, he] at h'
  simp only at h h'
  generalize getTimeseries cfg.skipMaps raw = cv at h h' tv ta
  cases hcc : cv.cells[centre]? with
  | none => rw [hcc] at h; cases h
  | some c =>
    rw [hcc] at h h'
    simp only at h h'
    by_cases h0 : cv.nMaps = 0
    · rw [if_pos h0] at h; cases h
    · rw [if_neg h0] at h h'
      cases hp : pyIndex cv.nMaps cfg.lakeTimesteps with
      | error e => rw [hp] at h; cases h
      | ok lake =>
        rw [hp] at h h'
        simp only at h h'
        have hser : ∀ e, List.Forall₂ (· ≤ ·) (series2d cfg' cv lake e).flowArea (series2d cfg cv lake e).flowArea := by
          intro e
          unfold series2d
          rw [List.forall₂_map_left_iff, List.forall₂_map_right_iff]
          refine List.forall₂_same.2 fun t _ => area_mono cv.cells ta _ _ fun i c hi => ?_
          exact mask_stricter cfg cfg' hm ha hr cv tv i c t hi
        cases hal : allSome (maskSelect (checkMonotonicity (centreLevels cv.nMaps c)) (centreLevels cv.nMaps c)) with
        | none => rw [hal] at h; cases h
        | some z =>
          cases hd : c.depth 0 with
          | none => rw [hal, hd] at h; cases h
          | some d0 =>
            rw [hal, hd] at h h'
            have hsel := select_rel (checkMonotonicity (centreLevels cv.nMaps c)) _ _ (hser (some d0))
            obtain rfl := Except.ok.inj h
            obtain rfl := Except.ok.inj h'
            have hbelow : ∀ w : List K, List.Forall₂ (· ≤ ·)
                (w.map (flowAreaBelow cfg.extrapolateStorage ((maskSelect (checkMonotonicity (centreLevels cv.nMaps c))
                  (series2d cfg' cv lake (some d0)).flowArea).headD 0)))
                (w.map (flowAreaBelow cfg.extrapolateStorage ((maskSelect (checkMonotonicity (centreLevels cv.nMaps c))
                  (series2d cfg cv lake (some d0)).flowArea).headD 0))) := by
              intro w
              refine map_mono_same _ _ (fun x => ?_) w
              unfold flowAreaBelow
              split
              · exact min_le_min (le_refl _) (headD_mono _ _ hsel)
              · exact le_refl _
            refine ⟨append_rel _ _ _ _ (hbelow _) hsel, append_rel _ _ _ _ ?_ ?_⟩
            · exact map_mono (· / len) (fun x y hxy => div_le_div_of_nonneg_right hxy hlen) _ _ (hbelow _)
            · exact backMin_mono _ _ (map_mono (· / len) (fun x y hxy => div_le_div_of_nonneg_right hxy hlen) _ _ hsel)

/-! ## The published profile -/

/-- At most `e` larger. -/
def Within (e x y : K) : Prop := x ≤ y + e

theorem increasing_within (bump : K → K) (b : K) (hb0 : 0 ≤ b) (hb : ∀ y, bump y = y + b) (xs xs' : List K)
    (h : List.Forall₂ (· ≤ ·) xs xs') (e : K) (he : 0 ≤ e) (prev prev' : K) (hp : prev ≤ prev' + e) (n : Nat) (hn : xs.length ≤ n) (E : K)
    (hE : e + n * b ≤ E) :
    List.Forall₂ (Within E) (increasingFrom bump prev xs) (increasingFrom bump prev' xs') := by
  induction h generalizing e prev prev' n with
  | nil => exact .nil
  | @cons x x' xs xs' hr _ ih =>
    obtain ⟨k, rfl⟩ : ∃ k, n = k + 1 := by
      cases n with
      | zero => cases hn
      | succ k => exact ⟨k, rfl⟩
    rw [increasingFrom, increasingFrom]
    simp only [hb]
    have hkb : (0 : K) ≤ k * b := mul_nonneg (Nat.cast_nonneg _) hb0
    rw [Nat.cast_succ] at hE
    have hstep : (if x ≤ prev then prev + b else x) ≤ (if x' ≤ prev' then prev' + b else x') + (e + b) := by
      split
      · split
        · linarith
        · rename_i h1 h2
          have := not_le.1 h2
          linarith
      · rename_i h1
        have := not_le.1 h1
        split
        · linarith
        · linarith
    refine .cons ?_ (ih (e + b) (add_nonneg he hb0) _ _ hstep k (Nat.le_of_succ_le_succ hn) (by nlinarith))
    exact le_trans hstep (by have : e + b ≤ E := by nlinarith
                             linarith)

theorem order_within (bump : K → K) (b : K) (hb0 : 0 ≤ b) (hb : ∀ y, bump y = y + b) (xs xs' : List K)
    (h : List.Forall₂ (· ≤ ·) xs xs') (n : Nat) (hn : xs.length ≤ n) :
    List.Forall₂ (Within (n * b)) (checkIncreasingOrder bump xs) (checkIncreasingOrder bump xs') := by
  cases h with
  | nil => exact .nil
  | @cons x x' xs xs' hr h =>
    have hnb : (0 : K) ≤ n * b := mul_nonneg (Nat.cast_nonneg _) hb0
    refine .cons ?_ (increasing_within bump b hb0 hb xs xs' h 0 (le_refl _) x x' (by linarith) n (Nat.le_of_succ_le hn) (n * b)
      (by linarith))
    show x ≤ x' + n * b
    linarith

theorem cap_within (e : K) (he : 0 ≤ e) (t f f' : List K) (h : List.Forall₂ (Within e) f f') :
    List.Forall₂ (Within e) (capFlowWidth t f) (capFlowWidth t f') := by
  unfold capFlowWidth
  induction h generalizing t with
  | nil => rw [List.zipWith_nil_right]; exact .nil
  | @cons a a' f f' hr _ ih =>
    cases t with
    | nil => exact .nil
    | cons t ts =>
      refine .cons ?_ (ih ts)
      have hr : a ≤ a' + e := hr
      show (if t < a then t else a) ≤ (if t < a' then t else a') + e
      split
      · rename_i h1
        split
        · linarith
        · linarith
      · rename_i h1
        have := not_lt.1 h1
        split
        · linarith
        · linarith

theorem requirements_within (bump : K → K) (b : K) (hb0 : 0 ≤ b) (hb : ∀ y, bump y = y + b) (w : K) (g g' r r' : Geometry K)
    (ht : g'.totalWidth = g.totalWidth) (hf : List.Forall₂ (· ≤ ·) g'.flowWidth g.flowWidth) (n : Nat) (hn : g'.flowWidth.length ≤ n)
    (h : checkRequirements bump w g = .ok r) (h' : checkRequirements bump w g' = .ok r') :
    List.Forall₂ (Within (n * b)) r'.flowWidth r.flowWidth := by
  unfold checkRequirements at h h'
  rw [ht] at h'
  cases hfi : firstNonzeroIndex g.totalWidth with
  | error e => rw [hfi] at h; cases h
  | ok k =>
    rw [hfi] at h h'
    obtain rfl := (Except.ok.inj h).symm
    obtain rfl := (Except.ok.inj h').symm
    refine cap_within _ (mul_nonneg (Nat.cast_nonneg _) hb0) _ _ _ (order_within bump b hb0 hb _ _ ?_ n ?_)
    · unfold removeZeroWidths
      refine map_mono _ (fun x y hxy => ?_) _ _ hf
      split
      · split
        · exact le_refl _
        · rename_i h1 h2
          exact not_lt.1 h2
      · rename_i h1
        rw [if_neg (fun h2 => h1 (lt_of_le_of_lt hxy h2))]
        exact hxy
    · unfold removeZeroWidths
      rw [List.length_map]
      exact hn

theorem reduce_within (n : Int) (e : K) (c c' : Css K) (hz : c'.raw.z = c.raw.z) (ht : c'.raw.totalWidth = c.raw.totalWidth)
    (hf : List.Forall₂ (Within e) c'.raw.flowWidth c.raw.flowWidth) (h1 : c'.flowWidth = []) (h2 : c.flowWidth = []) :
    List.Forall₂ (Within e) (reduceCss n c').flowWidth (reduceCss n c).flowWidth := by
  unfold reduceCss reducePoints
  rw [hz, ht]
  simp only
  generalize (if n < (c.raw.totalWidth.length : Int) then
      match buildThresholds (c.raw.z.zip c.raw.totalWidth) with
      | .error _ => some (List.replicate c.raw.totalWidth.length true)
      | .ok th => fromNumberIndex th n
    else some (List.replicate c.raw.totalWidth.length true)) = index
  cases index with
  | none => show List.Forall₂ _ c'.flowWidth c.flowWidth; rw [h1, h2]; exact .nil
  | some m => exact select_rel m _ _ hf

theorem speed_nonneg (sqrt : K → K) (hs : ∀ y, 0 ≤ y → 0 ≤ sqrt y) (a b : List (List (Option K))) (r : List (Option K))
    (hr : r ∈ List.zipWith (List.zipWith (speed sqrt)) a b) (t : Nat) (v : K) (hv : mapSeries r t = some v) : 0 ≤ v := by
  obtain ⟨p, q, rfl⟩ : ∃ p q, r = List.zipWith (speed sqrt) p q := by
    rw [← List.map_uncurry_zip_eq_zipWith] at hr
    obtain ⟨pq, -, e⟩ := List.mem_map.1 hr
    exact ⟨pq.1, pq.2, e.symm⟩
  unfold mapSeries at hv
  cases hg : (List.zipWith (speed sqrt) p q)[t]? with
  | none => rw [hg] at hv; cases hv
  | some o =>
    rw [hg] at hv
    have hv : o = some v := hv
    subst hv
    rw [List.getElem?_zipWith] at hg
    cases hp : p[t]? with
    | none => rw [hp] at hg; cases hg
    | some a =>
      cases hq : q[t]? with
      | none => rw [hp, hq] at hg; cases hg
      | some b =>
        rw [hp, hq] at hg
        have hg : speed sqrt a b = some v := Option.some.inj hg
        unfold speed at hg
        split at hg
        · obtain rfl := Option.some.inj hg
          exact hs _ (add_nonneg (by positivity) (by positivity))
        · cases hg

theorem cells_nonneg (sqrt : K → K) (hs : ∀ y, 0 ≤ y → 0 ≤ sqrt y) (m : Model2d K) (harea : ∀ a ∈ m.faces.area, 0 ≤ a) (id : Text) :
    (∀ c ∈ (controlVolumeOf m.nMaps (getSelection sqrt m.faces m.edges id)).cells, ∀ t v, c.velocity t = some v → 0 ≤ v) ∧
    ∀ c ∈ (controlVolumeOf m.nMaps (getSelection sqrt m.faces m.edges id)).cells, 0 ≤ c.area := by
  refine ⟨fun c hc t v h => ?_, fun c hc => ?_⟩
  · obtain ⟨p, hp, rfl⟩ := List.mem_map.1 hc
    have h1 := (List.of_mem_zip (List.of_mem_zip (List.of_mem_zip hp).2).2).2
    exact speed_nonneg sqrt hs _ _ _ h1 t v h
  · obtain ⟨p, hp, rfl⟩ := List.mem_map.1 hc
    have h1 := (List.of_mem_zip (List.of_mem_zip hp).1).1
    have h1 : p.1.1 ∈ maskSelect (m.faces.sclass.map fun c => decide (c = id)) m.faces.area := h1
    unfold maskSelect at h1
    obtain ⟨q, hq, e⟩ := List.mem_map.1 h1
    have := (List.of_mem_zip (List.mem_filter.1 hq).1).2
    rw [e] at this
    exact harea _ this

/-- Two cross-sections of which one is made with stricter thresholds. -/
theorem css_stricter (x : Tools K) (hs : ∀ y, 0 ≤ y → 0 ≤ x.sqrt y) (b : K) (hb0 : 0 ≤ b) (hb : ∀ y, x.bump y = y + b)
    (opt : Text → Optimiser K) (log : Text → Nat → Option PyErr)
    (cfg : RunConfig K) (absolute relative : K) (ha : cfg.pipeline.build.absoluteVelocityThreshold ≤ absolute)
    (hr : cfg.pipeline.build.relativeVelocityThreshold ≤ relative) (m : Model2d K) (harea : ∀ a ∈ m.faces.area, 0 ≤ a) (l : Loc K)
    (hl : 0 ≤ l.length) (c c' : Finished K) (h : buildCss x cfg m l = .ok c)
    (h' : buildCss { x with opt := opt, log := log } (RunConfig.withThresholds absolute relative cfg) m l = .ok c') :
    List.Forall₂ (Within (((m.nMaps + 10 : Nat) : K) * b)) c'.out.flowWidth c.out.flowWidth ∧
      List.Forall₂ (· ≤ ·) c'.css.raw.flowArea c.css.raw.flowArea := by
  obtain ⟨g1, -, -, -, -, -, -, -, -, -, g7, -, -, -⟩ := buildCss_ok x cfg m l c h
  obtain ⟨k1, -, -, -, -, -, -, -, -, -, k7, -, -, -⟩ := buildCss_ok _ _ m l c' h'
  obtain ⟨bu, g, e1, e2, e3⟩ := geometry_steps _ _ _ _ _ _ _ _ _ g1
  obtain ⟨bu', g', f1, f2, f3⟩ := geometry_steps _ _ _ _ _ _ _ _ _ k1
  have f1 : buildGeometry (RunConfig.withThresholds absolute relative cfg).pipeline.build l.length
    (centreOf x.nn (getSelection x.sqrt m.faces m.edges l.id) l)
    (controlVolumeOf m.nMaps (getSelection x.sqrt m.faces m.edges l.id)) = .ok bu' := f1
  obtain ⟨cv, ca⟩ := cells_nonneg x.sqrt hs m harea l.id
  obtain ⟨q1, q2⟩ := build_stricter cfg.pipeline.build (RunConfig.withThresholds absolute relative cfg).pipeline.build rfl rfl rfl rfl ha hr
    l.length hl _ _ cv ca bu bu' e1 f1
  have ht : total bu' = total bu := build_still cfg.pipeline.build (RunConfig.withThresholds absolute relative cfg).pipeline.build rfl rfl
    l.length _ (controlVolumeOf m.nMaps (getSelection x.sqrt m.faces m.edges l.id))
    (controlVolumeOf m.nMaps (getSelection x.sqrt m.faces m.edges l.id)) rfl rfl bu bu' e1 f1
  have t1 : bu'.z = bu.z := congrArg Total.z ht
  have t2 : bu'.totalWidth = bu.totalWidth := congrArg Total.totalWidth ht
  have hlen : bu'.flowWidth.length ≤ m.nMaps + 10 := by
    obtain ⟨acc, hacc, hl⟩ := Props.C07_arrays_aligned f1
    obtain ⟨c', L, z0, d0, zs, accs, hc', -, hzr, -⟩ := built_parts f1
    have h1 := accepted_length _ _ hacc
    rw [hzr, centreLevels_length] at h1
    have h2 : (getTimeseries (RunConfig.withThresholds absolute relative cfg).pipeline.build.skipMaps
        (controlVolumeOf m.nMaps (getSelection x.sqrt m.faces m.edges l.id))).nMaps ≤ m.nMaps := by
      unfold getTimeseries
      exact Nat.sub_le _ _
    omega
  have hw := requirements_within x.bump b hb0 hb cfg.pipeline.minimumWidth _ _ _ _ t2 q2 (m.nMaps + 10) hlen e2 f2
  obtain ⟨r1, r2⟩ := requirements_total x.bump cfg.pipeline.minimumWidth _ _ _ _ t1 t2 e2 f2
  obtain ⟨-, -, -, p3⟩ := performCorrection_raw (x.opt l.id) cfg.pipeline x.release (x.log l.id) (Css.ofBuilt l.length bu)
  obtain ⟨-, -, -, p3'⟩ := performCorrection_raw (opt l.id)
    (RunConfig.withThresholds absolute relative cfg).pipeline x.release (log l.id) (Css.ofBuilt l.length bu')
  refine ⟨?_, ?_⟩
  · rw [g7, k7, e3, f3]
    exact reduce_within _ _ _ _ r1 r2 hw p3' p3
  · rw [e3, f3, (reduceCss_rest _ _).1, (reduceCss_rest _ _).1]
    exact q1

end Fm2prof.StricterProof

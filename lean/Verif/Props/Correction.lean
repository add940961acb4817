import Mathlib.Algebra.Order.Field.Rat
import Verif.Proofs.Correction
import Verif.Props.Build
import Verif.Props.Simplify

/-!
# Properties of the volume correction and of the whole geometry pipeline: C11, C12, C13, C21, C02, C03
-/

set_option linter.unusedSectionVars false

namespace Fm2prof.Props

open Fm2prof Spec

variable {K : Type} [Field K] [LinearOrder K] [IsStrictOrderedRing K]

section C11

/-- **C11.** Whatever the optimiser answers and whatever the method number, the extra flow volume is between zero and
the extra total volume. -/
theorem C11_volumes_physical (opt : Optimiser K) (method : Int) (total flow : List K) (c0 : K) (t0 f0 : Option K)
    (r : SdResult K) (h : optimizeSdStorage opt method total flow c0 t0 f0 = .ok r) :
    Physical r.totalVolume r.flowVolume := optimizeSdStorage_physical opt method total flow c0 t0 f0 r h

/-- **C11.** A method number other than 0, 1 and 2 counts as 0. -/
theorem C11_unknown_method (opt : Optimiser K) (method : Int) (h : method ≠ 1 ∧ method ≠ 2) (total flow : List K)
    (c0 : K) (t0 f0 : Option K) :
    optimizeSdStorage opt method total flow c0 t0 f0 = optimizeSdStorage opt 0 total flow c0 t0 f0 := by
  unfold optimizeSdStorage
  rw [if_neg h.1, if_neg h.2, if_neg (by decide), if_neg (by decide)]

/-- **C11.** When the optimiser answers with numbers the results are numbers, and both volumes are the fitted ones as
far as these are physical: a non-negative fitted volume is taken over unless the other volume forbids it. -/
theorem C11_fitted_values_kept (opt : Optimiser K) (total flow : List K) (c0 : K) (t0 f0 : Option K) (c v w : K)
    (hv : 0 ≤ v) (hw : 0 ≤ w) :
    (opt.crestAndVolume total (c0, t0) = .ok (some c, some v) → opt.volume flow (some c) f0 = .ok (some w) →
      optimizeSdStorage opt 0 total flow c0 t0 f0 = .ok ⟨some c, some v, some (min w v)⟩) ∧
    (opt.crestAndVolume flow (c0, t0) = .ok (some c, some v) → opt.volume total (some c) f0 = .ok (some w) →
      optimizeSdStorage opt 1 total flow c0 t0 f0 = .ok ⟨some c, some (max w v), some v⟩) ∧
    (opt.both (c0, t0, f0) = .ok (some c, some v, some w) →
      optimizeSdStorage opt 2 total flow c0 t0 f0 = .ok ⟨some c, some v, some (min w v)⟩) := by
  refine ⟨fun h1 h2 => ?_, fun h1 h2 => ?_, fun h1 => ?_⟩
  · simp [optimizeSdStorage, optimiseTotal, h1, h2, omax, omin2, hv, hw]
  · simp [optimizeSdStorage, optimiseFlow, h1, h2, omax, omax2, hv, hw]
  · simp [optimizeSdStorage, optimiseBoth, h1, omax, omin2, hv, hw]

/-- **C11.** The exported extra areas of a cross-section of positive length are physical after the correction step of
the run, whether it succeeds, fails or is switched off, when they were before. -/
theorem C11_exported_areas (opt : Optimiser K) (cfg : PipelineConfig K) (release : K → K → K → K)
    (log : Nat → Option PyErr) (css : Css K) (hl : 0 < css.length)
    (h : Physical css.extraTotalArea css.extraFlowArea) :
    Physical (performCorrection opt cfg release log css).extraTotalArea
      (performCorrection opt cfg release log css).extraFlowArea := by
  unfold performCorrection
  split
  · rcases calculateCorrection_cases opt cfg.sdOptimisationMethod release cfg.sdTransitionHeight log css with
      ⟨e, he⟩ | ⟨c0, t0, f0, sd, css', _, ho, hc, hw⟩
    · rw [he]; exact h
    · rw [hc]
      show Physical css'.extraTotalArea css'.extraFlowArea
      rw [hw.extraTotalArea, hw.extraFlowArea]
      have hp := C11_volumes_physical _ _ _ _ _ _ _ _ ho
      refine ⟨?_, ?_, ?_⟩
      · intro t ht
        obtain ⟨x, hx, rfl⟩ := Option.map_eq_some_iff.1 ht
        exact div_nonneg (hp.1 x hx) hl.le
      · intro t ht
        obtain ⟨x, hx, rfl⟩ := Option.map_eq_some_iff.1 ht
        exact div_nonneg (hp.2.1 x hx) hl.le
      · intro t f ht hf
        obtain ⟨x, hx, rfl⟩ := Option.map_eq_some_iff.1 ht
        obtain ⟨y, hy, rfl⟩ := Option.map_eq_some_iff.1 hf
        exact div_le_div_of_nonneg_right (hp.2.2 x y hx hy) hl.le
  · exact h

/-- An optimiser that answers with a negative total volume and a flow volume above the total. -/
def wildOptimiser : Optimiser ℚ :=
  { crestAndVolume := fun _ p => .ok (some p.1, some 30)
    volume := fun _ _ _ => .ok (some 50)
    both := fun p => .ok (some p.1, some (-3), some 7) }

example : optimizeSdStorage wildOptimiser 0 [] [] 4 (some 1) (some 1) = .ok ⟨some 4, some 30, some 30⟩ := by
  decide +kernel
example : optimizeSdStorage wildOptimiser 1 [] [] 4 (some 1) (some 1) = .ok ⟨some 4, some 50, some 30⟩ := by
  decide +kernel
example : optimizeSdStorage wildOptimiser 2 [] [] 4 (some 1) (some 1) = .ok ⟨some 4, some 0, some 0⟩ := by
  decide +kernel
example : optimizeSdStorage wildOptimiser 7 [] [] 4 (some 1) (some 1) = .ok ⟨some 4, some 30, some 30⟩ := by
  decide +kernel

end C11

section C13

/-- **C13.** If the correction fails, wherever it does, the cross-section is exactly as it was. -/
theorem C13_failure_changes_nothing (opt : Optimiser K) (method : Int) (release : K → K → K → K) (height : K)
    (log : Nat → Option PyErr) (css css' : Css K) (e : PyErr)
    (h : calculateCorrection opt method release height log css = (css', some e)) : css' = css := by
  rcases calculateCorrection_cases opt method release height log css with
    ⟨e', he⟩ | ⟨_, _, _, _, _, _, _, hc, _⟩
  · rw [he] at h; exact (Prod.mk.inj h).1.symm
  · rw [hc] at h; cases h

/-- **C13.** If it succeeds, all attributes come from one result of the optimiser and nothing else changes. -/
theorem C13_success_applies_one_result (opt : Optimiser K) (method : Int) (release : K → K → K → K) (height : K)
    (log : Nat → Option PyErr) (css css' : Css K)
    (h : calculateCorrection opt method release height log css = (css', none)) :
    ∃ c0 t0 f0 sd, sdInitial css.raw = .ok (c0, t0, f0) ∧
      optimizeSdStorage opt method css.raw.totalVolume1d css.raw.flowVolume1d c0 t0 f0 = .ok sd ∧
      CorrectedWith css css' sd.crest sd.totalVolume sd.flowVolume
        (fun z => sd.crest.map fun c => release z c height) height := by
  rcases calculateCorrection_cases opt method release height log css with
    ⟨e', he⟩ | ⟨c0, t0, f0, sd, css'', hi, ho, hc, hw⟩
  · rw [he] at h; cases h
  · rw [hc] at h
    obtain rfl := (Prod.mk.inj h).1
    exact ⟨c0, t0, f0, sd, hi, ho, hw⟩

/-- **C13.** Switched off in the configuration, nothing changes. -/
theorem C13_switched_off (opt : Optimiser K) (cfg : PipelineConfig K) (release : K → K → K → K)
    (log : Nat → Option PyErr) (css : Css K) (h : cfg.sdCorrection = false) :
    performCorrection opt cfg release log css = css := by
  unfold performCorrection
  rw [h]
  rfl

/-- **C13.** Switched on, the cross-section is left as it was if the correction fails, and otherwise gets all
attributes of one result, with the configured transition height. -/
theorem C13_switched_on (opt : Optimiser K) (cfg : PipelineConfig K) (release : K → K → K → K)
    (log : Nat → Option PyErr) (css : Css K) (h : cfg.sdCorrection = true) :
    ((calculateCorrection opt cfg.sdOptimisationMethod release cfg.sdTransitionHeight log css).2.isSome ∧
      performCorrection opt cfg release log css = css) ∨
    ∃ c0 t0 f0 sd, sdInitial css.raw = .ok (c0, t0, f0) ∧
      optimizeSdStorage opt cfg.sdOptimisationMethod css.raw.totalVolume1d css.raw.flowVolume1d c0 t0 f0 = .ok sd ∧
      CorrectedWith css (performCorrection opt cfg release log css) sd.crest sd.totalVolume sd.flowVolume
        (fun z => sd.crest.map fun c => release z c cfg.sdTransitionHeight) cfg.sdTransitionHeight := by
  unfold performCorrection
  rw [h, if_pos rfl]
  rcases hr : calculateCorrection opt cfg.sdOptimisationMethod release cfg.sdTransitionHeight log css with ⟨css', e⟩
  cases e with
  | some e => exact .inl ⟨rfl, C13_failure_changes_nothing _ _ _ _ _ _ _ _ hr⟩
  | none => exact .inr (C13_success_applies_one_result _ _ _ _ _ _ _ hr)

/-- **C13.** The correction fails exactly when there is no point where the volumes can be compared, or the optimiser
fails, or writing one of the log messages fails. -/
theorem C13_fails_iff (opt : Optimiser K) (method : Int) (release : K → K → K → K) (height : K)
    (log : Nat → Option PyErr) (css : Css K) :
    (calculateCorrection opt method release height log css).2.isSome ↔
      (∃ e, sdInitial css.raw = .error e) ∨
      (∃ c0 t0 f0 e, sdInitial css.raw = .ok (c0, t0, f0) ∧
        optimizeSdStorage opt method css.raw.totalVolume1d css.raw.flowVolume1d c0 t0 f0 = .error e) ∨
      ∃ i < 10, (log i).isSome := by
  constructor
  · intro hs
    by_contra hno
    push Not at hno
    obtain ⟨h1, h2, h3⟩ := hno
    have hlog : ∀ i < 10, log i = none := fun i hi => by
      have := h3 i hi
      cases hl : log i with
      | none => rfl
      | some e => rw [hl] at this; exact absurd rfl this
    cases hi : sdInitial css.raw with
    | error e => exact h1 e hi
    | ok r =>
      obtain ⟨c0, t0, f0⟩ := r
      cases ho : optimizeSdStorage opt method css.raw.totalVolume1d css.raw.flowVolume1d c0 t0 f0 with
      | error e => exact h2 c0 t0 f0 e hi ho
      | ok sd =>
        simp [calculateCorrection, correctionProgram, exec, stInitial, hi, stLog, hlog, stOptimise, ho, stFraction,
          stWrite] at hs
  · intro h
    rcases calculateCorrection_cases opt method release height log css with
      ⟨e', he⟩ | ⟨c0, t0, f0, sd, css', hi, ho, hc, hw⟩
    · rw [he]; rfl
    · exfalso
      rcases h with ⟨e, h⟩ | ⟨c1, t1, f1, e, h, h'⟩ | ⟨i, hi10, h⟩
      · rw [hi] at h; cases h
      · rw [hi] at h
        cases h
        rw [ho] at h'; cases h'
      · have : ∀ i < 10, log i = none := by
          simp only [calculateCorrection, correctionProgram, exec, stInitial, hi, stLog, stOptimise] at hc
          cases h0 : log 0 with
          | some e => rw [h0] at hc; cases hc
          | none =>
          cases h1 : log 1 with
          | some e => rw [h0, h1] at hc; cases hc
          | none =>
          cases h2 : log 2 with
          | some e => rw [h0, h1, h2] at hc; cases hc
          | none =>
          cases h3 : log 3 with
          | some e => rw [h0, h1, h2, h3] at hc; cases hc
          | none =>
          cases h4 : log 4 with
          | some e => rw [h0, h1, h2, h3, h4] at hc; cases hc
          | none =>
          simp only [h0, h1, h2, h3, h4, ho] at hc
          cases h5 : log 5 with
          | some e => rw [h5] at hc; cases hc
          | none =>
          cases h6 : log 6 with
          | some e => rw [h5, h6] at hc; cases hc
          | none =>
          cases h7 : log 7 with
          | some e => rw [h5, h6, h7] at hc; cases hc
          | none =>
          cases h8 : log 8 with
          | some e => rw [h5, h6, h7, h8] at hc; cases hc
          | none =>
          cases h9 : log 9 with
          | some e => rw [h5, h6, h7, h8, h9] at hc; cases hc
          | none =>
          intro i hi
          have : i = 0 ∨ i = 1 ∨ i = 2 ∨ i = 3 ∨ i = 4 ∨ i = 5 ∨ i = 6 ∨ i = 7 ∨ i = 8 ∨ i = 9 := by omega
          rcases this with rfl | rfl | rfl | rfl | rfl | rfl | rfl | rfl | rfl | rfl <;> assumption
        rw [this i hi10] at h
        exact absurd h (by simp)

/-- **C13.** The optimiser starts from the level at which the 1D volume falls short of the 2D volume most, and from the
differences at the highest level. -/
theorem C13_initial_values (b : Built K) (c0 : K) (t0 f0 : Option K) (h : sdInitial b = .ok (c0, t0, f0)) :
    ∃ (i : Nat) (v w : K), b.z[i]? = some c0 ∧ b.totalVolume1d[i]? = some v ∧ b.totalVolume2d[i]? = some (some w) ∧
      (∀ (j : Nat) (v' w' : K), b.totalVolume1d[j]? = some v' → b.totalVolume2d[j]? = some (some w') →
        v - w ≤ v' - w') ∧
      (∀ v w : K, b.totalVolume1d.length = b.totalVolume2d.length → b.totalVolume1d.getLast? = some v →
        b.totalVolume2d.getLast? = some (some w) → t0 = some |v - w|) ∧
      (∀ v w : K, b.flowVolume1d.length = b.flowVolume2d.length → b.flowVolume1d.getLast? = some v →
        b.flowVolume2d.getLast? = some (some w) → f0 = some |v - w|) := by
  unfold sdInitial nanargmin at h
  cases hm : nanmin (volumeDifference b.totalVolume1d b.totalVolume2d) with
  | none => rw [hm] at h; cases h
  | some m =>
    rw [hm] at h
    cases hf : (volumeDifference b.totalVolume1d b.totalVolume2d).findIdx? (· = some m) with
    | none => simp only [hf] at h; cases h
    | some i =>
      simp only [hf] at h
      cases hz : b.z[i]? with
      | none => rw [hz] at h; cases h
      | some z =>
        cases ht : (volumeDifference b.totalVolume1d b.totalVolume2d).getLast? with
        | none => rw [hz, ht] at h; cases h
        | some t =>
          cases hfl : (volumeDifference b.flowVolume1d b.flowVolume2d).getLast? with
          | none => rw [hz, ht, hfl] at h; cases h
          | some f =>
            rw [hz, ht, hfl] at h
            simp only [Except.ok.injEq, Prod.mk.injEq] at h
            obtain ⟨rfl, rfl, rfl⟩ := h
            obtain ⟨hlt, hp, _⟩ := List.findIdx?_eq_some_iff_getElem.1 hf
            have hi : (volumeDifference b.totalVolume1d b.totalVolume2d)[i]? = some (some m) := by
              rw [List.getElem?_eq_getElem hlt]
              simpa using hp
            obtain ⟨v, w, hv, hw, hvw⟩ := (volumeDifference_getElem? _ _ i m).1 hi
            refine ⟨i, v, w, hz, hv, hw, ?_, ?_, ?_⟩
            · intro j v' w' hv' hw'
              have hj := (volumeDifference_getElem? _ _ j (v' - w')).2 ⟨v', w', hv', hw', rfl⟩
              rw [← hvw]
              exact nanmin_le _ _ hm _ (List.mem_of_getElem? hj)
            · intro v w hl hv hw
              have := volumeDifference_getLast? _ _ hl v w hv hw
              rw [ht] at this
              rw [Option.some.inj this]; rfl
            · intro v w hl hv hw
              have := volumeDifference_getLast? _ _ hl v w hv hw
              rw [hfl] at this
              rw [Option.some.inj this]; rfl

/-- The river of the profile examples. -/
def riverCss : Css ℚ := Css.ofBuilt 10 riverProfile

/-- A stand-in for the logistic function that is computable. -/
def ramp (z c h : ℚ) : ℚ := if z ≤ c then 0 else if c + h ≤ z then 1 else (z - c) / h

example : (calculateCorrection wildOptimiser 0 ramp (1 / 2) (fun _ => none) riverCss).2 = none ∧
    (calculateCorrection wildOptimiser 0 ramp (1 / 2) (fun _ => none) riverCss).1.extraTotalArea = some 3 := by
  decide +kernel
example : calculateCorrection wildOptimiser 0 ramp (1 / 2) (fun i => if i = 7 then some .valueError else none)
    riverCss = (riverCss, some .valueError) := by decide +kernel

end C13

section C12

/-- **C12.** The released fraction is strictly between zero and one. -/
theorem C12_between_zero_and_one (z c h : ℝ) : 0 < releaseFraction z c h ∧ releaseFraction z c h < 1 :=
  ⟨release_pos z c h, release_lt_one z c h⟩

/-- **C12.** It increases strictly with the level. -/
theorem C12_strictly_increasing (c h : ℝ) (hh : 0 < h) : StrictMono fun z => releaseFraction z c h := by
  intro z z' hzz
  show releaseFraction z c h < releaseFraction z' c h
  rw [release_eq, release_eq]
  refine one_div_lt_one_div_of_lt (by positivity) ?_
  have : Real.exp (Real.log (1 / 100000) / h * (z' - (c + 1 / 2 * h))) <
      Real.exp (Real.log (1 / 100000) / h * (z - (c + 1 / 2 * h))) := by
    rw [Real.exp_lt_exp]
    have hneg : Real.log (1 / 100000) / h < 0 := div_neg_of_neg_of_pos log_delta_neg hh
    nlinarith
  linarith

/-- **C12.** It is one half in the middle of the transition zone. -/
theorem C12_half_in_the_middle (c h : ℝ) : releaseFraction (c + h / 2) c h = 1 / 2 := by
  rw [release_eq]
  have : c + h / 2 - (c + 1 / 2 * h) = 0 := by ring
  rw [this, mul_zero, Real.exp_zero]
  norm_num

/-- `e^(log(1e-5)/2)` is the square root of 1e-5. -/
private theorem exp_half : Real.exp (Real.log (1 / 100000) / 2) = Real.sqrt (1 / 100000) := by
  rw [eq_comm, Real.sqrt_eq_iff_mul_self_eq (by norm_num) (Real.exp_pos _).le, ← Real.exp_add]
  rw [show Real.log (1 / 100000) / 2 + Real.log (1 / 100000) / 2 = Real.log (1 / 100000) by ring,
    Real.exp_log (by norm_num)]

/-- **C12.** At the crest, and hence anywhere below it, at most `sqrt(1e-5) / (1 + sqrt(1e-5))` is released. -/
theorem C12_at_most_below_crest (z c h : ℝ) (hh : 0 < h) (hz : z ≤ c) :
    releaseFraction z c h ≤ Real.sqrt (1 / 100000) / (1 + Real.sqrt (1 / 100000)) := by
  refine ((C12_strictly_increasing c h hh).monotone hz).trans (le_of_eq ?_)
  show releaseFraction c c h = _
  rw [release_eq]
  have : Real.log (1 / 100000) / h * (c - (c + 1 / 2 * h)) = -(Real.log (1 / 100000) / 2) := by
    field_simp; ring
  rw [this, Real.exp_neg, exp_half]
  have hs : 0 < Real.sqrt (1 / 100000) := Real.sqrt_pos.2 (by norm_num)
  field_simp
  ring

/-- **C12.** From the top of the transition zone on, at least `1 / (1 + sqrt(1e-5))` is released. -/
theorem C12_at_least_above_top (z c h : ℝ) (hh : 0 < h) (hz : c + h ≤ z) :
    1 / (1 + Real.sqrt (1 / 100000)) ≤ releaseFraction z c h := by
  refine le_trans (le_of_eq ?_) ((C12_strictly_increasing c h hh).monotone hz)
  show _ = releaseFraction (c + h) c h
  rw [release_eq]
  have : Real.log (1 / 100000) / h * (c + h - (c + 1 / 2 * h)) = Real.log (1 / 100000) / 2 := by
    field_simp; ring
  rw [this, exp_half]

/-- **C12.** The released fraction is the logistic curve whose odds grow by a factor of 100000 over the transition
zone. -/
theorem C12_odds (z c h : ℝ) (hh : 0 < h) :
    releaseFraction z c h / (1 - releaseFraction z c h) = (100000 : ℝ) ^ ((z - (c + h / 2)) / h) := by
  rw [release_eq]
  set x := Real.log (1 / 100000) / h * (z - (c + 1 / 2 * h)) with hx
  have h1 := Real.exp_pos x
  have : 1 / (1 + Real.exp x) / (1 - 1 / (1 + Real.exp x)) = (Real.exp x)⁻¹ := by
    field_simp
    ring
  rw [this, ← Real.exp_neg, Real.rpow_def_of_pos (by norm_num)]
  congr 1
  rw [hx, show (1 : ℝ) / 100000 = (100000 : ℝ)⁻¹ by norm_num, Real.log_inv]
  field_simp

/-- **C12.** When the correction succeeds, corrected volumes are never below uncorrected ones; and if the flow volume
is at most the total volume at every level, so it is after the correction. -/
theorem C12_corrected_volumes (opt : Optimiser ℝ) (method : Int) (height : ℝ) (log : Nat → Option PyErr)
    (css css' : Css ℝ) (h : calculateCorrection opt method releaseFraction height log css = (css', none)) :
    ∃ total flow, css'.totalVolumeCorrected = some total ∧ css'.flowVolumeCorrected = some flow ∧
      (∀ (i : Nat) v v', css.raw.totalVolume1d[i]? = some v → total[i]? = some (some v') → v ≤ v') ∧
      (∀ (i : Nat) v v', css.raw.flowVolume1d[i]? = some v → flow[i]? = some (some v') → v ≤ v') ∧
      (∀ (i : Nat) t f t' f', css.raw.totalVolume1d[i]? = some t → css.raw.flowVolume1d[i]? = some f → f ≤ t →
        total[i]? = some (some t') → flow[i]? = some (some f') → f' ≤ t') := by
  obtain ⟨c0, t0, f0, sd, _, ho, hw⟩ := C13_success_applies_one_result _ _ _ _ _ _ _ h
  have hp := C11_volumes_physical _ _ _ _ _ _ _ _ ho
  refine ⟨_, _, hw.totalVolume, hw.flowVolume, ?_, ?_, ?_⟩
  all_goals
    have key : ∀ (vs : List ℝ) (extra : Option ℝ) (i : Nat) (v v' : ℝ), vs[i]? = some v →
        ((vs.zip css.raw.z).map fun (v, z) => ((sd.crest.map fun c => releaseFraction z c height)).bind fun p =>
          extra.map fun x => v + p * x)[i]? = some (some v') →
        ∃ z c x, css.raw.z[i]? = some z ∧ sd.crest = some c ∧ extra = some x ∧
          v' = v + releaseFraction z c height * x := by
      intro vs extra i v v' hv hv'
      rw [List.getElem?_map, Option.map_eq_some_iff] at hv'
      obtain ⟨⟨a, z⟩, haz, he⟩ := hv'
      have h2 := List.getElem?_zip_eq_some.1 haz
      rw [hv] at h2
      obtain rfl := Option.some.inj h2.1
      cases hc : sd.crest with
      | none => simp [hc] at he
      | some c =>
        cases extra with
        | none => simp [hc] at he
        | some x =>
          simp only [hc, Option.map_some, Option.bind_some] at he
          exact ⟨z, c, x, h2.2, rfl, rfl, (Option.some.inj he).symm⟩
  · intro i v v' hv hv'
    obtain ⟨z, c, x, _, _, hx, rfl⟩ := key _ _ i v v' hv hv'
    have := mul_nonneg (release_pos z c height).le (hp.1 x hx)
    linarith
  · intro i v v' hv hv'
    obtain ⟨z, c, x, _, _, hx, rfl⟩ := key _ _ i v v' hv hv'
    have := mul_nonneg (release_pos z c height).le (hp.2.1 x hx)
    linarith
  · intro i t f t' f' ht hf hle ht' hf'
    obtain ⟨z, c, x, hz, hc, hx, rfl⟩ := key _ _ i t t' ht ht'
    obtain ⟨z', c', y, hz', hc', hy, rfl⟩ := key _ _ i f f' hf hf'
    rw [hz] at hz'; rw [hc] at hc'
    obtain rfl := Option.some.inj hz'
    obtain rfl := Option.some.inj hc'
    have := mul_le_mul_of_nonneg_left (hp.2.2 x y hx hy) (release_pos z c height).le
    linarith

example : releaseFraction (3 + 1 / 4) 3 (1 / 2) = 1 / 2 := by
  have := C12_half_in_the_middle 3 (1 / 2)
  norm_num at this ⊢
  exact this

/-- A small cross-section and an optimiser for it. -/
noncomputable def twoPoints : Css ℝ :=
  Css.ofBuilt 10 ⟨[0, 1], [], [], [], [], [some 0, some 150], [some 0, some 100], [0, 100], [0, 90], []⟩

/-- It finds a crest at 3 and extra volumes of 30 and 7. -/
noncomputable def twoPointsOptimiser : Optimiser ℝ :=
  ⟨fun _ _ => .ok (some 3, some 30), fun _ _ _ => .ok (some 7), fun _ => .error .valueError⟩

/-- The hypothesis of `C12_corrected_volumes` is met. -/
example : ∃ css', calculateCorrection twoPointsOptimiser 0 releaseFraction (1 / 2) (fun _ => none) twoPoints =
    (css', none) := by
  rcases calculateCorrection_cases twoPointsOptimiser 0 releaseFraction (1 / 2) (fun _ => none) twoPoints with
    ⟨e', he⟩ | ⟨c0, t0, f0, sd, css', hi, ho, hc, hw⟩
  · exfalso
    have := (C13_fails_iff twoPointsOptimiser 0 releaseFraction (1 / 2) (fun _ => none) twoPoints).1 (by rw [he]; rfl)
    have hm : (([some 0, some (-50)] : List (Option ℝ)).reduceOption).min? = some (-50) := by
      simp [List.reduceOption, List.min?_cons]
    have hi : sdInitial twoPoints.raw = .ok (1, some 50, some 10) := by
      have hd : volumeDifference twoPoints.raw.totalVolume1d twoPoints.raw.totalVolume2d = [some 0, some (-50)] := by
        simp [volumeDifference, twoPoints, Css.ofBuilt]; norm_num
      have hd' : volumeDifference twoPoints.raw.flowVolume1d twoPoints.raw.flowVolume2d = [some 0, some (-10)] := by
        simp [volumeDifference, twoPoints, Css.ofBuilt]; norm_num
      unfold sdInitial nanargmin nanmin
      rw [hd, hd', hm]
      simp [List.findIdx?_cons, twoPoints, Css.ofBuilt]
    rcases this with ⟨e, h⟩ | ⟨c1, t1, f1, e, h, h'⟩ | ⟨i, _, h⟩
    · rw [hi] at h; cases h
    · simp [optimizeSdStorage, optimiseTotal, twoPointsOptimiser] at h'
    · cases h
  · exact ⟨css', hc⟩

end C12

section C21

/-- **C21.** The cost is the sum of the squared relative differences over the points where both series are present. -/
theorem C21_relative_squared_error (pred meas : List (Option K)) :
    volumeError pred meas = relativeSquaredError
      ((pred.zip meas).filterMap fun (p, m) => p.bind fun p => m.map fun m => (p, m)) := volumeError_eq pred meas

/-- **C21.** It is never negative. -/
theorem C21_nonnegative (pred meas : List (Option K)) : 0 ≤ volumeError pred meas := by
  rw [volumeError_eq]
  refine List.sum_nonneg fun x hx => ?_
  obtain ⟨⟨p, m⟩, _, rfl⟩ := List.mem_map.1 hx
  positivity

/-- **C21.** It is zero if and only if the series agree wherever both are present. -/
theorem C21_zero_iff (pred meas : List (Option K)) :
    volumeError pred meas = 0 ↔
      ∀ (i : Nat) p m, pred[i]? = some (some p) → meas[i]? = some (some m) → p = m := by
  rw [volumeError_eq, relativeSquaredError]
  have hnn : ∀ x ∈ (((pred.zip meas).filterMap fun (p, m) => p.bind fun p => m.map fun m => (p, m)).map
      fun (p, m) => (p - m) ^ 2 / (max m 1) ^ 2), 0 ≤ x := by
    intro x hx
    obtain ⟨⟨p, m⟩, _, rfl⟩ := List.mem_map.1 hx
    positivity
  rw [sum_eq_zero_iff_all _ hnn]
  have hpos : ∀ m : K, 0 < (max m 1) ^ 2 := fun m => by
    have : (0 : K) < max m 1 := lt_of_lt_of_le one_pos (le_max_right _ _)
    positivity
  constructor
  · intro h i p m hp hm
    have hmem : (p, m) ∈ (pred.zip meas).filterMap fun (p, m) => p.bind fun p => m.map fun m => (p, m) := by
      rw [List.mem_filterMap]
      refine ⟨(some p, some m), List.mem_of_getElem? (i := i) ?_, rfl⟩
      rw [List.getElem?_zip_eq_some]
      exact ⟨hp, hm⟩
    have := h _ (List.mem_map_of_mem hmem)
    simp only [div_eq_zero_iff, (hpos m).ne', or_false] at this
    exact sub_eq_zero.1 (pow_eq_zero_iff (by norm_num) |>.1 this)
  · intro h x hx
    obtain ⟨⟨p, m⟩, hmem, rfl⟩ := List.mem_map.1 hx
    obtain ⟨⟨p', m'⟩, hmem', he⟩ := List.mem_filterMap.1 hmem
    obtain ⟨i, hi⟩ := List.mem_iff_getElem?.1 hmem'
    rw [List.getElem?_zip_eq_some] at hi
    cases p' with
    | none => simp at he
    | some p' =>
      cases m' with
      | none => simp at he
      | some m' =>
        simp only [Option.bind_some, Option.map_some, Option.some.injEq, Prod.mk.injEq] at he
        obtain ⟨rfl, rfl⟩ := he
        have := h i p' m' hi.1 hi.2
        subst this
        simp

example : volumeError [some 3, none, some (1 / 2 : ℚ)] [some 2, some 9, some 0] = 1 / 4 + 1 / 4 := by decide +kernel

end C21

section Pipeline

private theorem valid_of_mask (minWidth : K) (g : Geometry K) (hv : ValidProfile minWidth g.z g.totalWidth g.flowWidth)
    (m : List Bool) :
    ValidProfile minWidth (maskSelect m g.z) (maskSelect m g.totalWidth) (maskSelect m g.flowWidth) := by
  have hlen : ∀ a b : List K, a.length = b.length → (maskSelect m a).length = (maskSelect m b).length := by
    intro a b hab
    have : List.Forall₂ (fun _ _ => True) a b := by
      rw [List.forall₂_iff_get]
      exact ⟨hab, fun _ _ _ => trivial⟩
    exact (maskSelect_forall₂ this m).length_eq
  exact ⟨⟨hlen _ _ hv.lengths.1, hlen _ _ hv.lengths.2⟩,
    List.Pairwise.sublist (maskSelect_sublist _ _) hv.levelsUp,
    List.Pairwise.sublist (maskSelect_sublist _ _) hv.totalUp,
    List.Pairwise.sublist (maskSelect_sublist _ _) hv.flowUp,
    maskSelect_forall₂ hv.ordered _,
    fun w hw => hv.minTotal w ((maskSelect_sublist _ _).subset hw),
    fun w hw => hv.minFlow w ((maskSelect_sublist _ _).subset hw)⟩

private theorem reducePoints_valid (minWidth : K) (n : Int) (g g' : Geometry K)
    (hv : ValidProfile minWidth g.z g.totalWidth g.flowWidth) (h : reducePoints n g = .ok g') :
    ValidProfile minWidth g'.z g'.totalWidth g'.flowWidth := by
  unfold reducePoints at h
  simp only at h
  split at h
  · cases h; exact valid_of_mask minWidth g hv _
  · cases h

theorem performCorrection_raw (opt : Optimiser K) (cfg : PipelineConfig K) (release : K → K → K → K)
    (log : Nat → Option PyErr) (css : Css K) :
    (performCorrection opt cfg release log css).raw = css.raw ∧
    (performCorrection opt cfg release log css).z = css.z ∧
    (performCorrection opt cfg release log css).totalWidth = css.totalWidth ∧
    (performCorrection opt cfg release log css).flowWidth = css.flowWidth := by
  unfold performCorrection
  split
  · rcases calculateCorrection_cases opt cfg.sdOptimisationMethod release cfg.sdTransitionHeight log css with
      ⟨e, he⟩ | ⟨c0, t0, f0, sd, css', _, ho, hc, hw⟩
    · rw [he]; exact ⟨rfl, rfl, rfl, rfl⟩
    · rw [hc]
      exact ⟨hw.unchanged.2.1, hw.unchanged.2.2.1, hw.unchanged.2.2.2.1, hw.unchanged.2.2.2.2.1⟩
  · exact ⟨rfl, rfl, rfl, rfl⟩

/-- **C02, C03.** From 2D data to published profile: for every configuration, every 2D data set, every behaviour of the
optimiser and of the log, a cross-section that comes out of the pipeline has a valid published profile. -/
theorem C02_C03_pipeline_valid (opt : Optimiser K) (cfg : PipelineConfig K) (bump : K → K) (hb : ∀ x, x < bump x)
    (release : K → K → K → K) (log : Nat → Option PyErr) (length : K) (centre : Nat) (cv : ControlVolume K)
    (css : Css K)
    (h : buildCrossSectionGeometry opt cfg bump release log length centre cv = .ok css) :
    ValidProfile cfg.minimumWidth css.z css.totalWidth css.flowWidth := by
  unfold buildCrossSectionGeometry at h
  cases hbg : buildGeometry cfg.build length centre cv with
  | error e => rw [hbg] at h; cases h
  | ok b =>
    rw [hbg] at h
    obtain ⟨hraw, hz, ht, hf⟩ := performCorrection_raw opt cfg release log (Css.ofBuilt length b)
    simp only [checkCss, hraw] at h
    cases hcr : checkRequirements bump cfg.minimumWidth
        { z := (Css.ofBuilt length b).raw.z, totalWidth := (Css.ofBuilt length b).raw.totalWidth
          flowWidth := (Css.ofBuilt length b).raw.flowWidth } with
    | error e => rw [hcr] at h; cases h
    | ok g =>
      rw [hcr] at h
      simp only at h
      obtain ⟨acc, _, hl⟩ := C07_arrays_aligned hbg
      obtain ⟨hv, _⟩ := C03_requirements_give_valid_profile bump hb cfg.minimumWidth _ g
        (by simp only [Css.ofBuilt]; omega) hcr
      obtain rfl := Except.ok.inj h
      unfold reduceCss
      split
      · show ValidProfile _ (performCorrection opt cfg release log (Css.ofBuilt length b)).z
          (performCorrection opt cfg release log (Css.ofBuilt length b)).totalWidth
          (performCorrection opt cfg release log (Css.ofBuilt length b)).flowWidth
        rw [hz, ht, hf]
        exact ⟨⟨rfl, rfl⟩, List.Pairwise.nil, List.Pairwise.nil, List.Pairwise.nil, List.Forall₂.nil,
          fun w hw => absurd hw List.not_mem_nil, fun w hw => absurd hw List.not_mem_nil⟩
      · rename_i g' hg'
        exact reducePoints_valid _ _ _ g' hv hg'

/-- **C02, C03, C14.** With at least two points allowed the published profile is not empty: it has at least two and at
most the allowed number of points, and spans the levels of the built profile. -/
theorem C02_C03_C14_pipeline_nonempty (opt : Optimiser K) (cfg : PipelineConfig K) (bump : K → K)
    (hb : ∀ x, x < bump x) (release : K → K → K → K) (log : Nat → Option PyErr) (length : K) (centre : Nat)
    (cv : ControlVolume K) (css : Css K) (hn : 2 ≤ cfg.maximumPoints)
    (h : buildCrossSectionGeometry opt cfg bump release log length centre cv = .ok css) :
    css.isReduced = true ∧ 2 ≤ css.z.length ∧ (css.z.length : Int) ≤ cfg.maximumPoints ∧
      css.z.head? = css.raw.z.head? ∧ css.z.getLast? = css.raw.z.getLast? := by
  unfold buildCrossSectionGeometry at h
  cases hbg : buildGeometry cfg.build length centre cv with
  | error e => rw [hbg] at h; cases h
  | ok b =>
    rw [hbg] at h
    obtain ⟨hraw, hz, ht, hf⟩ := performCorrection_raw opt cfg release log (Css.ofBuilt length b)
    simp only [checkCss, hraw] at h
    cases hcr : checkRequirements bump cfg.minimumWidth
        { z := (Css.ofBuilt length b).raw.z, totalWidth := (Css.ofBuilt length b).raw.totalWidth
          flowWidth := (Css.ofBuilt length b).raw.flowWidth } with
    | error e => rw [hcr] at h; cases h
    | ok g =>
      rw [hcr] at h
      simp only at h
      obtain ⟨acc, hacc, hl⟩ := C07_arrays_aligned hbg
      obtain ⟨hv, hgl⟩ := C03_requirements_give_valid_profile bump hb cfg.minimumWidth _ g
        (by simp only [Css.ofBuilt]; omega) hcr
      obtain rfl := Except.ok.inj h
      obtain ⟨n, hn'⟩ := Int.eq_ofNat_of_zero_le (show 0 ≤ cfg.maximumPoints by omega)
      have h2 : 2 ≤ n := by omega
      obtain ⟨g', keep, hr, hsub⟩ := C14_sub_profile n g hv.lengths
      obtain ⟨e1, e2, _⟩ := C14_endpoints_kept n h2 g g' hv.lengths hr
      have hlen10 : 10 ≤ g.z.length := by
        rw [hgl]; simp only [Css.ofBuilt]; omega
      unfold reduceCss
      simp only [hn', hr]
      refine ⟨trivial, ?_, ?_, e1, e2⟩
      · by_contra hlt
        have hne : g.z ≠ [] := by intro h0; rw [h0] at hlen10; simp at hlen10
        have hhl : g.z.head? ≠ g.z.getLast? := by
          intro heq
          have h0 : 0 < g.z.length := by omega
          have hlast : g.z.length - 1 < g.z.length := by omega
          have := List.pairwise_iff_getElem.1 hv.levelsUp 0 (g.z.length - 1) h0 hlast (by omega)
          rw [List.head?_eq_getElem?, List.getLast?_eq_getElem?, List.getElem?_eq_getElem h0,
            List.getElem?_eq_getElem hlast] at heq
          exact absurd (Option.some.inj heq) this.ne
        rw [← e1, ← e2] at hhl
        rcases hgz : g'.z with _ | ⟨a, _ | ⟨b, l⟩⟩
        · rw [hgz] at hhl; simp at hhl
        · rw [hgz] at hhl; simp at hhl
        · rw [hgz] at hlt; simp at hlt
      · rcases Nat.lt_or_ge n g.z.length with hlt | hge
        · have := C14_at_most n g g' hv.lengths hr hlt
          exact_mod_cast this
        · have := C14_unchanged n g hv.lengths hge
          rw [hr] at this
          obtain rfl := Except.ok.inj this
          exact_mod_cast hge

/-- A run with correction for the river of the profile examples. -/
def riverPipeline : PipelineConfig ℚ :=
  { build := riverConfig, sdCorrection := true, sdOptimisationMethod := 0, sdTransitionHeight := 1 / 2
    minimumWidth := 1 / 2, maximumPoints := 4 }

example : ∃ css, buildCrossSectionGeometry wildOptimiser riverPipeline (· + 1 / 1000) ramp (fun _ => none) 10 0
      riverVolume = .ok css ∧ css.isCorrected = true ∧ css.z.length = 4 := by
  exists (match buildCrossSectionGeometry wildOptimiser riverPipeline (· + 1 / 1000) ramp (fun _ => none) 10 0
      riverVolume with
    | .ok c => c
    | .error _ => riverCss)
  decide +kernel

end Pipeline

end Fm2prof.Props

import Mathlib.Tactic.NormNum
import Verif.Proofs.Fit
import Verif.Proofs.Invariance
import Verif.Props.Correction

/-!
# What the volume correction fits

The search of the library is arbitrary apart from not ending worse than it starts (`Search`). Where a theorem needs
more it says `Exact`: what the search finds is the best there is.
-/

set_option linter.unusedSectionVars false

namespace Fm2prof.Props

open Spec

variable {K : Type} [Field K] [LinearOrder K] [IsStrictOrderedRing K]

section C148

variable {s : Search K} {release : K → K → K → K} {height : K} {method : Int} {log : Nat → Option PyErr} {css css' : Css K}

/-- What a successful correction consists of. -/
theorem correction_parts (opt : Optimiser K) (h : calculateCorrection opt method release height log css = (css', none)) :
    ∃ c0 t0 f0 sd, sdInitial css.raw = .ok (c0, t0, f0) ∧
      optimizeSdStorage opt method css.raw.totalVolume1d css.raw.flowVolume1d c0 t0 f0 = .ok sd ∧
      [0, 1, 2, 3, 4].findSome? log = none ∧ [5, 6, 7, 8, 9].findSome? log = none ∧
      css' = correctedCss release height sd css := by
  rw [calculateCorrection_eq] at h
  split at h
  · cases h
  · next r hr =>
    split at h
    · cases h
    · next hl =>
      split at h
      · cases h
      · next sd hsd =>
        split at h
        · cases h
        · next hl' => exact ⟨r.1, r.2.1, r.2.2, sd, hr, hsd, hl, hl', (Prod.mk.injEq .. ▸ h).1.symm⟩

/-- Method 0 and what it finds. -/
theorem fit_total (hm : method ≠ 1 ∧ method ≠ 2) (total flow : List K) (b : Built K) (c0 : K) (t0 f0 : Option K)
    (sd : SdResult K)
    (h : optimizeSdStorage (fitOptimiser s release height b) method total flow c0 t0 f0 = .ok sd) :
    ∃ (x : Fin 2 → Option K) (y : Fin 1 → Option K),
      s.minimise 2 (fun x => fitCost release height b total (x 0) (x 1)) ![some c0, t0] = .ok x ∧
      s.minimise 1 (fun y => fitCost release height b flow (x 0) (y 0)) ![f0] = .ok y ∧
      sd = ⟨x 0, omax (x 1) 0, omin2 (omax (y 0) 0) (omax (x 1) 0)⟩ := by
  rw [optimizeSdStorage, if_neg hm.1, if_neg hm.2, optimiseTotal] at h
  simp only [fitOptimiser] at h
  cases hx : s.minimise 2 (fun x => fitCost release height b total (x 0) (x 1)) ![some c0, t0] with
  | error e => rw [hx] at h; cases h
  | ok x =>
    rw [hx] at h
    simp only at h
    cases hy : s.minimise 1 (fun y => fitCost release height b flow (x 0) (y 0)) ![f0] with
    | error e => rw [hy] at h; cases h
    | ok y =>
      rw [hy] at h
      exact ⟨x, y, rfl, hy, (Except.ok.inj h).symm⟩

theorem curveMisfit_eq (v m : List (Option K)) : curveMisfit v m = volumeError v m := (volumeError_eq v m).symm

theorem misfit_zero (f g : K → K) (points : List (K × K × K)) : misfit f points 0 = misfit g points 0 := by
  simp [misfit]

theorem missing_curve (v : List K) (fraction : List (Option K)) (extra : Option K) (m : List (Option K))
    (h : (∀ p ∈ fraction, p = none) ∨ extra = none) : volumeError (addExtra v fraction extra) m = 0 := by
  unfold volumeError addExtra
  have hn : ((List.zipWith (fun v p => p.bind fun p => extra.map fun x => v + p * x) v fraction).zip m).filterMap
      (fun (p, m) => p.bind fun p => m.map fun m => ((p - m) / max m 1) * ((p - m) / max m 1)) = [] := by
    rw [List.filterMap_eq_nil_iff]
    rintro ⟨p, m'⟩ hp
    have h1 := (List.of_mem_zip hp).1
    rw [List.mem_iff_getElem?] at h1
    obtain ⟨i, hi⟩ := h1
    rw [List.getElem?_zipWith] at hi
    cases hv : v[i]? with
    | none => rw [hv] at hi; cases hi
    | some a =>
      cases hf : fraction[i]? with
      | none => rw [hv, hf] at hi; cases hi
      | some q =>
        rw [hv, hf] at hi
        have hq : p = none := by
          rw [← Option.some.inj hi]
          rcases h with h | h
          · rw [h q (List.mem_of_getElem? hf)]; rfl
          · rw [h]; cases q <;> rfl
        rw [hq]; rfl
  rw [hn]; rfl

theorem volumeError_nonneg (v m : List (Option K)) : 0 ≤ volumeError v m := C21_nonnegative v m

/-- **C148.** With the default method the total volumes after the correction fit the 2D volumes no worse than the worse
of no correction and the start of the search: crest `c0` and volume `t0` (see `C13_initial_values`). -/
theorem C148_no_worse_than_start (hm : method ≠ 1 ∧ method ≠ 2)
    (h : calculateCorrection (fitOptimiser s release height css.raw) method release height log css = (css', none)) :
    ∃ volumes, css'.totalVolumeCorrected = some volumes ∧
      ∀ c0 t0 f0, sdInitial css.raw = .ok (c0, some t0, f0) →
        curveMisfit volumes css.raw.totalVolume2d ≤
          max (misfit (fun z => release z c0 height) (measured css.raw.z css.raw.totalVolume1d css.raw.totalVolume2d) 0)
            (misfit (fun z => release z c0 height) (measured css.raw.z css.raw.totalVolume1d css.raw.totalVolume2d) t0) := by
  obtain ⟨c0, t0, f0, sd, hi, ho, _, _, rfl⟩ := correction_parts _ h
  obtain ⟨x, y, hx, hy, rfl⟩ := fit_total hm _ _ _ _ _ _ _ ho
  refine ⟨_, rfl, ?_⟩
  intro c0' t0' f0' hi'
  rw [hi] at hi'
  obtain ⟨rfl, rfl, rfl⟩ : c0 = c0' ∧ t0 = some t0' ∧ f0 = f0' := by simpa using hi'
  rw [curveMisfit_eq]
  have hw := s.no_worse _ _ _ _ hx
  simp only [Matrix.cons_val_zero, Matrix.cons_val_one] at hw
  rw [fitCost_eq] at hw
  have hnn : 0 ≤ max (misfit (fun z => release z c0 height)
      (measured css.raw.z css.raw.totalVolume1d css.raw.totalVolume2d) 0) (misfit (fun z => release z c0 height)
      (measured css.raw.z css.raw.totalVolume1d css.raw.totalVolume2d) t0') := by
    rw [← fitCost_eq]
    exact le_trans (volumeError_nonneg _ _) (le_max_left _ _)
  cases hc : x 0 with
  | none =>
    refine le_trans (le_of_eq (missing_curve _ _ _ _ (Or.inl ?_))) hnn
    intro p hp
    obtain ⟨z, _, rfl⟩ := List.mem_map.1 hp
    rfl
  | some c =>
    cases hv : x 1 with
    | none => exact le_trans (le_of_eq (missing_curve _ _ _ _ (Or.inr rfl))) hnn
    | some v =>
      rw [hc, hv] at hw
      show volumeError (addExtra _ _ (some (max v 0))) _ ≤ _
      rcases le_total 0 v with h0 | h0
      · rw [max_eq_left h0]
        exact le_trans hw (le_max_right _ _)
      · rw [max_eq_right h0]
        refine le_trans (le_of_eq ?_) (le_max_left _ _)
        refine (volumeError_addExtra (fun z => release z c height) _ _ _ _).trans ?_
        exact misfit_zero _ _ _

/-- **C148.** When the search is exact the default method never makes the total volumes fit worse than they do without
correction, and where it adds volume no crest level and no volume would fit better. -/
theorem C148_exact (hex : Exact s) (hm : method ≠ 1 ∧ method ≠ 2)
    (h : calculateCorrection (fitOptimiser s release height css.raw) method release height log css = (css', none)) :
    ∃ volumes t, css'.totalVolumeCorrected = some volumes ∧ css'.extraTotalVolume = some t ∧ 0 ≤ t ∧
      curveMisfit volumes css.raw.totalVolume2d ≤ curveMisfit (css.raw.totalVolume1d.zipWith (fun v _ => some v) css.raw.z)
        css.raw.totalVolume2d ∧
      (0 < t → ∀ c v, curveMisfit volumes css.raw.totalVolume2d ≤
        misfit (fun z => release z c height) (measured css.raw.z css.raw.totalVolume1d css.raw.totalVolume2d) v) := by
  obtain ⟨c0, t0, f0, sd, hi, ho, _, _, rfl⟩ := correction_parts _ h
  obtain ⟨x, y, hx, hy, rfl⟩ := fit_total hm _ _ _ _ _ _ _ ho
  obtain ⟨u, rfl, hbest⟩ := hex _ _ _ _ hx
  have hb : ∀ c v, misfit (fun z => release z (u 0) height)
      (measured css.raw.z css.raw.totalVolume1d css.raw.totalVolume2d) (u 1) ≤ misfit (fun z => release z c height)
      (measured css.raw.z css.raw.totalVolume1d css.raw.totalVolume2d) v := by
    intro c v
    have := hbest ![c, v]
    simp only [Matrix.cons_val_zero, Matrix.cons_val_one] at this
    rw [fitCost_eq, fitCost_eq] at this
    exact this
  have hnone : curveMisfit (css.raw.totalVolume1d.zipWith (fun v _ => some v) css.raw.z) css.raw.totalVolume2d =
      misfit (fun z => release z (u 0) height) (measured css.raw.z css.raw.totalVolume1d css.raw.totalVolume2d) 0 := by
    rw [curveMisfit_eq, ← volumeError_addExtra]
    congr 1
    unfold addExtra
    rw [List.zipWith_map_right]
    congr 1
    funext v z
    simp
  have hvol : ∀ e, volumeError (addExtra css.raw.totalVolume1d
      (css.raw.z.map fun z => (some (u 0)).map fun c => release z c height) (some e)) css.raw.totalVolume2d =
      misfit (fun z => release z (u 0) height) (measured css.raw.z css.raw.totalVolume1d css.raw.totalVolume2d) e :=
    fun e => volumeError_addExtra _ _ _ _ _
  refine ⟨_, max (u 1) 0, rfl, rfl, le_max_right _ _, ?_, ?_⟩
  · rw [curveMisfit_eq, hnone]
    refine le_trans (le_of_eq (hvol (max (u 1) 0))) ?_
    rcases le_total 0 (u 1) with h0 | h0
    · rw [max_eq_left h0]; exact hb _ _
    · rw [max_eq_right h0]
  · intro hpos c v
    have h0 : 0 ≤ u 1 := by
      by_contra hlt
      rw [max_eq_right (le_of_not_ge hlt)] at hpos
      exact lt_irrefl _ hpos
    rw [curveMisfit_eq]
    refine le_trans (le_of_eq (hvol (max (u 1) 0))) ?_
    rw [max_eq_left h0]
    exact hb c v

end C148

section C149

variable {s : Search K} {release : K → K → K → K} {height : K} {method : Int} {log : Nat → Option PyErr} {css css' : Css K}

/-- Method 1 and what it finds. -/
theorem fit_flow (total flow : List K) (b : Built K) (c0 : K) (t0 f0 : Option K) (sd : SdResult K)
    (h : optimizeSdStorage (fitOptimiser s release height b) 1 total flow c0 t0 f0 = .ok sd) :
    ∃ (x : Fin 2 → Option K) (y : Fin 1 → Option K),
      s.minimise 2 (fun x => fitCost release height b flow (x 0) (x 1)) ![some c0, t0] = .ok x ∧
      s.minimise 1 (fun y => fitCost release height b total (x 0) (y 0)) ![f0] = .ok y ∧
      sd = ⟨x 0, omax2 (omax (y 0) 0) (omax (x 1) 0), omax (x 1) 0⟩ := by
  rw [optimizeSdStorage, if_pos rfl, optimiseFlow] at h
  simp only [fitOptimiser] at h
  cases hx : s.minimise 2 (fun x => fitCost release height b flow (x 0) (x 1)) ![some c0, t0] with
  | error e => rw [hx] at h; cases h
  | ok x =>
    rw [hx] at h
    simp only at h
    cases hy : s.minimise 1 (fun y => fitCost release height b total (x 0) (y 0)) ![f0] with
    | error e => rw [hy] at h; cases h
    | ok y =>
      rw [hy] at h
      exact ⟨x, y, rfl, hy, (Except.ok.inj h).symm⟩

/-- **C149 is false of the code.** The extra flow volume is fitted to the 2D *total* volumes. So with an exact search and
method 0 or 1 the extra flow volume is the extra total volume, whatever the 2D flow volumes are: all water behind the
summer dike flows and none is stored. -/
theorem C149_no_storage_violated (hex : Exact s) (hm : method ≠ 2) (hr : ∀ z c, 0 < release z c height)
    (hle : List.Forall₂ (· ≤ ·) css.raw.flowVolume1d css.raw.totalVolume1d)
    (hne : measured css.raw.z css.raw.totalVolume1d css.raw.totalVolume2d ≠ [])
    (h : calculateCorrection (fitOptimiser s release height css.raw) method release height log css = (css', none)) :
    ∃ c t, 0 ≤ t ∧ css'.crestLevel = some c ∧ css'.extraTotalVolume = some t ∧ css'.extraFlowVolume = some (some t) ∧
      css'.extraTotalArea = some (t / css.length) ∧ css'.extraFlowArea = some (t / css.length) := by
  obtain ⟨c0, t0, f0, sd, hi, ho, _, _, rfl⟩ := correction_parts _ h
  have hne' : measured css.raw.z css.raw.flowVolume1d css.raw.totalVolume2d ≠ [] := by
    intro hn
    have := measured_length css.raw.z css.raw.totalVolume1d css.raw.flowVolume1d css.raw.totalVolume2d hle.length_eq.symm
    rw [hn] at this
    exact hne (List.length_eq_zero_iff.1 this)
  by_cases hm1 : method = 1
  · subst hm1
    obtain ⟨x, y, hx, hy, rfl⟩ := fit_flow _ _ _ _ _ _ _ ho
    obtain ⟨u, rfl, hb⟩ := hex _ _ _ _ hx
    obtain ⟨w, rfl, hb'⟩ := hex _ _ _ _ hy
    have hwu : w 0 ≤ u 1 := by
      refine best_le (fun z => release z (u 0) height) (fun z => hr z _) _ _ _ _ hle hne _ _ ?_ ?_
      · intro e
        have := hb' ![e]
        simp only [Matrix.cons_val_zero] at this
        rw [fitCost_eq, fitCost_eq] at this
        exact this
      · intro e
        have := hb ![u 0, e]
        simp only [Matrix.cons_val_zero, Matrix.cons_val_one] at this
        rw [fitCost_eq, fitCost_eq] at this
        exact this
    have hmax : max (max (w 0) 0) (max (u 1) 0) = max (u 1) 0 := max_eq_right (max_le_max_right _ hwu)
    refine ⟨u 0, max (u 1) 0, le_max_right _ _, rfl, ?_, rfl, ?_, rfl⟩
    · show some (max (max (w 0) 0) (max (u 1) 0)) = _
      rw [hmax]
    · show some (max (max (w 0) 0) (max (u 1) 0) / css.length) = _
      rw [hmax]
  · obtain ⟨x, y, hx, hy, rfl⟩ := fit_total ⟨hm1, hm⟩ _ _ _ _ _ _ _ ho
    obtain ⟨u, rfl, hb⟩ := hex _ _ _ _ hx
    obtain ⟨w, rfl, hb'⟩ := hex _ _ _ _ hy
    have hwu : u 1 ≤ w 0 := by
      refine best_le (fun z => release z (u 0) height) (fun z => hr z _) _ _ _ _ hle hne _ _ ?_ ?_
      · intro e
        have := hb ![u 0, e]
        simp only [Matrix.cons_val_zero, Matrix.cons_val_one] at this
        rw [fitCost_eq, fitCost_eq] at this
        exact this
      · intro e
        have := hb' ![e]
        simp only [Matrix.cons_val_zero] at this
        rw [fitCost_eq, fitCost_eq] at this
        exact this
    have hmin : min (max (w 0) 0) (max (u 1) 0) = max (u 1) 0 := min_eq_right (max_le_max_right _ hwu)
    refine ⟨u 0, max (u 1) 0, le_max_right _ _, rfl, rfl, ?_, rfl, ?_⟩
    · show some (some (min (max (w 0) 0) (max (u 1) 0))) = _
      rw [hmin]
    · show some (min (max (w 0) 0) (max (u 1) 0) / css.length) = _
      rw [hmin]

/-- **C149 is false of the code.** When the flow volumes of a cross-section already are those of the 2D model and total
volume is missing, the correction spoils the flow volumes. -/
theorem C149_flow_spoiled_violated (hex : Exact s) (hm : method ≠ 2) (hr : ∀ z c, 0 < release z c height)
    (hle : List.Forall₂ (· ≤ ·) css.raw.flowVolume1d css.raw.totalVolume1d)
    (hne : measured css.raw.z css.raw.totalVolume1d css.raw.totalVolume2d ≠ [])
    (hflow : ∀ p ∈ measured css.raw.z css.raw.flowVolume1d css.raw.flowVolume2d, p.2.1 = p.2.2)
    (hsome : measured css.raw.z css.raw.flowVolume1d css.raw.flowVolume2d ≠ [])
    (h : calculateCorrection (fitOptimiser s release height css.raw) method release height log css = (css', none))
    (t : K) (ht : css'.extraTotalVolume = some t) (hpos : 0 < t) :
    curveMisfit (css.raw.flowVolume1d.zipWith (fun v _ => some v) css.raw.z) css.raw.flowVolume2d = 0 ∧
    ∃ volumes, css'.flowVolumeCorrected = some volumes ∧ 0 < curveMisfit volumes css.raw.flowVolume2d := by
  obtain ⟨c, t', _, hc, ht', hf, _, _⟩ := C149_no_storage_violated hex hm hr hle hne h
  obtain rfl : t = t' := Option.some.inj (ht.symm.trans ht')
  obtain ⟨c0, t0, f0, sd, hi, ho, _, _, rfl⟩ := correction_parts _ h
  have hc' : sd.crest = some c := hc
  have hf' : sd.flowVolume = some t := Option.some.inj hf
  have key : ∀ points : List (K × K × K), (∀ p ∈ points, p.2.1 = p.2.2) → ∀ e,
      misfit (fun z => release z c height) points e = e ^ 2 * curvature (fun z => release z c height) points := by
    intro points hp e
    have h0 := misfit_shift (fun z => release z c height) points 0 e
    have h1 : misfit (fun z => release z c height) points 0 = 0 := by
      unfold misfit
      refine List.sum_eq_zero fun y hy => ?_
      obtain ⟨⟨z, v, m⟩, hpm, rfl⟩ := List.mem_map.1 hy
      have : v = m := hp _ hpm
      simp [this]
    have h2 : slope (fun z => release z c height) points 0 = 0 := by
      unfold slope
      refine List.sum_eq_zero fun y hy => ?_
      obtain ⟨⟨z, v, m⟩, hpm, rfl⟩ := List.mem_map.1 hy
      have : v = m := hp _ hpm
      simp [this]
    rw [zero_add, h1, h2] at h0
    rw [h0]; ring
  refine ⟨?_, _, rfl, ?_⟩
  · rw [curveMisfit_eq]
    have : css.raw.flowVolume1d.zipWith (fun v _ => some v) css.raw.z = addExtra css.raw.flowVolume1d
        (css.raw.z.map fun z => some (release z c height)) (some 0) := by
      unfold addExtra
      rw [List.zipWith_map_right]
      congr 1
      funext v z
      simp
    rw [this, volumeError_addExtra, key _ hflow]
    ring
  · rw [curveMisfit_eq]
    show 0 < volumeError (addExtra css.raw.flowVolume1d
      (css.raw.z.map fun z => sd.crest.map fun x => release z x height) sd.flowVolume) css.raw.flowVolume2d
    rw [hc', hf']
    have := volumeError_addExtra (fun z => release z c height) css.raw.z css.raw.flowVolume1d css.raw.flowVolume2d t
    refine lt_of_lt_of_eq ?_ this.symm
    rw [key _ hflow]
    exact mul_pos (pow_pos hpos 2) (curvature_pos _ (fun z => hr z c) _ hsome)

/-- **C149 is false of the code.** Whatever the search, methods 0 and 1 use nothing of the 2D flow volumes but the start
value: change them in any way that keeps the last difference, and the correction stays the same. -/
theorem C149_flow_unused_violated (s : Search K) (release : K → K → K → K) (height : K) (method : Int) (hm : method ≠ 2)
    (log : Nat → Option PyErr) (css : Css K) (other : List (Option K))
    (hlast : (volumeDifference css.raw.flowVolume1d other).getLast? =
      (volumeDifference css.raw.flowVolume1d css.raw.flowVolume2d).getLast?) :
    calculateCorrection (fitOptimiser s release height { css.raw with flowVolume2d := other }) method release height log
        { css with raw := { css.raw with flowVolume2d := other } } =
      ({ (calculateCorrection (fitOptimiser s release height css.raw) method release height log css).1 with
          raw := { css.raw with flowVolume2d := other } },
        (calculateCorrection (fitOptimiser s release height css.raw) method release height log css).2) := by
  rw [calculateCorrection_eq, calculateCorrection_eq]
  have hi : sdInitial { css.raw with flowVolume2d := other } = sdInitial css.raw := by
    unfold sdInitial
    simp only
    rw [hlast]
  simp only
  rw [hi]
  have ho : ∀ c0 t0 f0, optimizeSdStorage (fitOptimiser s release height { css.raw with flowVolume2d := other }) method
      css.raw.totalVolume1d css.raw.flowVolume1d c0 t0 f0 =
      optimizeSdStorage (fitOptimiser s release height css.raw) method css.raw.totalVolume1d css.raw.flowVolume1d
        c0 t0 f0 := by
    intro c0 t0 f0
    unfold optimizeSdStorage
    split
    · rfl
    · first | rfl | (rw [if_neg hm, if_neg hm]; rfl)
  cases sdInitial css.raw with
  | error e => rfl
  | ok r =>
    simp only
    cases [0, 1, 2, 3, 4].findSome? log with
    | some e => rfl
    | none =>
      simp only
      rw [ho]
      cases optimizeSdStorage (fitOptimiser s release height css.raw) method css.raw.totalVolume1d css.raw.flowVolume1d
        r.1 r.2.1 r.2.2 with
      | error e => rfl
      | ok sd =>
        simp only
        cases [5, 6, 7, 8, 9].findSome? log with
        | some e => rfl
        | none => rfl

/-- Method 2 and what it finds. -/
theorem fit_both (total flow : List K) (b : Built K) (c0 : K) (t0 f0 : Option K) (sd : SdResult K)
    (h : optimizeSdStorage (fitOptimiser s release height b) 2 total flow c0 t0 f0 = .ok sd) :
    ∃ x : Fin 3 → Option K,
      s.minimise 3 (fun x => combinedCost release height b (x 0) (x 1) (x 2)) ![some c0, t0, f0] = .ok x ∧
      sd = ⟨x 0, omax (x 1) 0, omin2 (omax (x 2) 0) (omax (x 1) 0)⟩ := by
  rw [optimizeSdStorage, if_neg (by decide), if_pos rfl, optimiseBoth] at h
  simp only [fitOptimiser] at h
  cases hx : s.minimise 3 (fun x => combinedCost release height b (x 0) (x 1) (x 2)) ![some c0, t0, f0] with
  | error e => rw [hx] at h; cases h
  | ok x =>
    rw [hx] at h
    exact ⟨x, rfl, (Except.ok.inj h).symm⟩

/-- Only the sum of the two extra volumes matters to method 2. -/
theorem combinedCost_shift (release : K → K → K → K) (height : K) (b : Built K) (c : Option K) (t f d : K) :
    combinedCost release height b c (some (t + d)) (some (f - d)) =
      combinedCost release height b c (some t) (some f) := by
  unfold combinedCost
  congr 1
  have : ∀ (p q : List K) (r : List (Option K)),
      List.zipWith oadd (addExtra p r (some (t + d))) (addExtra q r (some (f - d))) =
        List.zipWith oadd (addExtra p r (some t)) (addExtra q r (some f)) := by
    intro p
    induction p with
    | nil => intro q r; rfl
    | cons a p ih =>
      intro q r
      cases r with
      | nil => cases q <;> rfl
      | cons x r =>
        cases q with
        | nil => rfl
        | cons e q =>
          have := ih q r
          unfold addExtra at this ⊢
          rw [List.zipWith_cons_cons, List.zipWith_cons_cons, List.zipWith_cons_cons, List.zipWith_cons_cons,
            List.zipWith_cons_cons, List.zipWith_cons_cons, this]
          congr 1
          cases x with
          | none => rfl
          | some x =>
            show some (a + x * (t + d) + (e + x * (f - d))) = some (a + x * t + (e + x * f))
            congr 1
            ring
  exact this _ _ _

/-- **C149 is false of the code.** Method 2 does not determine the result: if an exact search gives extra volumes `t` and
`f`, then for every part `d` of `f` there is another exact search that gives `t + d` and `f - d` from the same data. -/
theorem C149_split_violated (hex : Exact s)
    (h : calculateCorrection (fitOptimiser s release height css.raw) 2 release height log css = (css', none)) (t f : K)
    (ht : css'.extraTotalVolume = some t) (hf : css'.extraFlowVolume = some (some f)) (hpos : 0 < f) (hlt : f < t)
    (d : K) (hd : 0 ≤ d) (hdf : d ≤ f) :
    ∃ (s' : Search K) (css₂ : Css K), Exact s' ∧
      calculateCorrection (fitOptimiser s' release height css.raw) 2 release height log css = (css₂, none) ∧
      css₂.crestLevel = css'.crestLevel ∧ css₂.extraTotalVolume = some (t + d) ∧
      css₂.extraFlowVolume = some (some (f - d)) := by
  classical
  let move : (n : Nat) → (Fin n → Option K) → (Fin n → Option K) := fun n =>
    match n with
    | 3 => fun x => ![x 0, (x 1).map (· + d), (x 2).map (· - d)]
    | _ => fun x => x
  let s' : Search K :=
    { minimise := fun n g x0 =>
        match s.minimise n g x0 with
        | .error e => .error e
        | .ok x => .ok (if g (move n x) = g x then move n x else x)
      no_worse := by
        intro n g x0 x hx
        cases hs : s.minimise n g x0 with
        | error e => simp only [hs] at hx; cases hx
        | ok u =>
          simp only [hs] at hx
          have := s.no_worse n g x0 u hs
          obtain rfl := Except.ok.inj hx
          split
          · next he => rw [he]; exact this
          · exact this }
  have hex' : Exact s' := by
    intro n g x0 x hx
    have hx' : (match s.minimise n g x0 with
        | .error e => .error e
        | .ok x => .ok (if g (move n x) = g x then move n x else x) : Except PyErr (Fin n → Option K)) = .ok x := hx
    cases hs : s.minimise n g x0 with
    | error e => rw [hs] at hx'; cases hx'
    | ok u =>
      rw [hs] at hx'
      obtain ⟨y, rfl, hb⟩ := hex n g x0 u hs
      obtain rfl := Except.ok.inj hx'
      split
      · next he =>
        refine ⟨?_, ?_, fun y' => by rw [he]; exact hb y'⟩
        · exact match n, y with
            | 3, y => ![y 0, y 1 + d, y 2 - d]
            | 0, y => y
            | 1, y => y
            | 2, y => y
            | _ + 4, y => y
        · match n, y with
          | 3, y =>
            funext i
            match i with
            | 0 => rfl
            | 1 => rfl
            | 2 => rfl
          | 0, y => rfl
          | 1, y => rfl
          | 2, y => rfl
          | _ + 4, y => rfl
      · exact ⟨y, rfl, hb⟩
  obtain ⟨c0, t0, f0, sd, hi, ho, hl, hl', rfl⟩ := correction_parts _ h
  obtain ⟨x, hx, rfl⟩ := fit_both _ _ _ _ _ _ _ ho
  obtain ⟨u, rfl, hb⟩ := hex _ _ _ _ hx
  have ht' : max (u 1) 0 = t := Option.some.inj ht
  have hf' : min (max (u 2) 0) (max (u 1) 0) = f := Option.some.inj (Option.some.inj hf)
  have hu1 : u 1 = t := by
    rcases le_total (u 1) 0 with h0 | h0
    · rw [max_eq_right h0] at ht'
      rw [← ht'] at hlt
      exact absurd (lt_trans hpos hlt) (lt_irrefl _)
    · rw [max_eq_left h0] at ht'; exact ht'
  have hu2 : u 2 = f := by
    rw [ht'] at hf'
    rcases min_choice (max (u 2) 0) t with h0 | h0
    · rw [h0] at hf'
      rcases le_total (u 2) 0 with h1 | h1
      · rw [max_eq_right h1] at hf'; rw [← hf'] at hpos; exact absurd hpos (lt_irrefl _)
      · rw [max_eq_left h1] at hf'; exact hf'
    · rw [h0] at hf'; rw [hf'] at hlt; exact absurd hlt (lt_irrefl _)
  have hcost : combinedCost release height css.raw (some (u 0)) (some (u 1 + d)) (some (u 2 - d)) =
      combinedCost release height css.raw (some (u 0)) (some (u 1)) (some (u 2)) := combinedCost_shift _ _ _ _ _ _ _
  have hmin : s'.minimise 3 (fun x => combinedCost release height css.raw (x 0) (x 1) (x 2)) ![some c0, t0, f0] =
      .ok ![some (u 0), some (u 1 + d), some (u 2 - d)] := by
    have hmove : move 3 (fun i => some (u i)) = ![some (u 0), some (u 1 + d), some (u 2 - d)] := rfl
    simp only [s', hx]
    rw [hmove, if_pos]
    exact hcost
  have hsd : optimizeSdStorage (fitOptimiser s' release height css.raw) 2 css.raw.totalVolume1d css.raw.flowVolume1d
      c0 t0 f0 = .ok ⟨some (u 0), some (t + d), some (f - d)⟩ := by
    rw [optimizeSdStorage, if_neg (by decide), if_pos rfl, optimiseBoth]
    simp only [fitOptimiser]
    rw [hmin]
    show Except.ok (⟨some (u 0), some (max (u 1 + d) 0), some (min (max (u 2 - d) 0) (max (u 1 + d) 0))⟩ : SdResult K) = _
    rw [hu1, hu2, max_eq_left (by linarith : (0 : K) ≤ t + d), max_eq_left (by linarith : (0 : K) ≤ f - d),
      min_eq_left (by linarith : f - d ≤ t + d)]
  refine ⟨s', correctedCss release height ⟨some (u 0), some (t + d), some (f - d)⟩ css, hex', ?_, rfl, rfl, rfl⟩
  rw [calculateCorrection_eq, hi]
  simp only
  rw [hl]
  simp only
  rw [hsd]
  simp only
  rw [hl']

/-! A search that is exact: it gives up when it knows no best point. -/

open Classical in
/-- The point `pref n`, if it is a best one. -/
noncomputable def prefSearch (pref : (n : Nat) → Fin n → K) : Search K where
  minimise n f x0 :=
    if (∀ y : Fin n → K, f (fun i => some (pref n i)) ≤ f fun i => some (y i)) ∧ f (fun i => some (pref n i)) ≤ f x0 then
      .ok fun i => some (pref n i)
    else .error .valueError
  no_worse := by
    intro n f x0 x hx
    split at hx
    · next h => rw [← Except.ok.inj hx]; exact h.2
    · cases hx

theorem prefSearch_exact (pref : (n : Nat) → Fin n → K) : Exact (prefSearch pref) := by
  classical
  intro n f x0 x hx
  unfold prefSearch at hx
  simp only at hx
  split at hx
  · next h => exact ⟨pref n, (Except.ok.inj hx).symm, fun y' => by rw [← Except.ok.inj hx]; exact h.1 y'⟩
  · cases hx

theorem prefSearch_finds (pref : (n : Nat) → Fin n → K) (n : Nat) (f : (Fin n → Option K) → K) (x0 : Fin n → Option K)
    (h : f (fun i => some (pref n i)) = 0) (h0 : ∀ x, 0 ≤ f x) :
    (prefSearch pref).minimise n f x0 = .ok fun i => some (pref n i) := by
  classical
  unfold prefSearch
  simp only
  rw [if_pos ⟨fun y => by rw [h]; exact h0 _, by rw [h]; exact h0 _⟩]

/-- A dike between level 1 and 2: the 2D model has 50 more behind it, of which nothing flows. -/
def dike : Css ℚ :=
  Css.ofBuilt 10 ⟨[0, 1, 2], [], [], [], [], [none, some 105, some 250], [none, some 99, some 190], [0, 100, 200],
    [0, 99, 190], []⟩

/-- A tenth of the volume is released below the crest and all of it from there on. -/
def stepRelease (z c _h : ℚ) : ℚ := if c ≤ z then 1 else 1 / 10

/-- The best points for the dike. -/
def dikeBest : (n : Nat) → Fin n → ℚ
  | 1 => ![60]
  | 2 => ![2, 50]
  | 3 => ![2, 40, 10]
  | _ => fun _ => 0

theorem stepRelease_pos (z c : ℚ) : 0 < stepRelease z c (1 / 2) := by
  unfold stepRelease; split <;> norm_num

/-- The correction of the dike with method 0: extra volumes 50 and 50. -/
theorem dike_corrected :
    calculateCorrection (fitOptimiser (prefSearch dikeBest) stepRelease (1 / 2) dike.raw) 0 stepRelease (1 / 2)
      (fun _ => none) dike = (correctedCss stepRelease (1 / 2) ⟨some 2, some 50, some 50⟩ dike, none) := by
  rw [calculateCorrection_eq]
  have hi : sdInitial dike.raw = .ok (2, some 50, some 0) := by decide +kernel
  have h2 := prefSearch_finds dikeBest 2 (fun x => fitCost stepRelease (1 / 2) dike.raw dike.raw.totalVolume1d (x 0) (x 1))
    ![some 2, some 50] (by decide +kernel) (fun x => volumeError_nonneg _ _)
  have h1 := prefSearch_finds dikeBest 1 (fun x => fitCost stepRelease (1 / 2) dike.raw dike.raw.flowVolume1d (some 2) (x 0))
    ![some 0] (by decide +kernel) (fun x => volumeError_nonneg _ _)
  have ho : optimizeSdStorage (fitOptimiser (prefSearch dikeBest) stepRelease (1 / 2) dike.raw) 0 dike.raw.totalVolume1d
      dike.raw.flowVolume1d 2 (some 50) (some 0) = .ok ⟨some 2, some 50, some 50⟩ := by
    rw [optimizeSdStorage, if_neg (by decide), if_neg (by decide), optimiseTotal]
    simp only [fitOptimiser]
    rw [h2]
    have he : dikeBest 2 0 = 2 := rfl
    simp only [he]
    rw [h1]
    decide +kernel
  rw [hi]
  simp only
  rw [ho]
  rfl

/-- The same with method 2: extra volumes 40 and 10. -/
theorem dike_both :
    calculateCorrection (fitOptimiser (prefSearch dikeBest) stepRelease (1 / 2) dike.raw) 2 stepRelease (1 / 2)
      (fun _ => none) dike = (correctedCss stepRelease (1 / 2) ⟨some 2, some 40, some 10⟩ dike, none) := by
  rw [calculateCorrection_eq]
  have hi : sdInitial dike.raw = .ok (2, some 50, some 0) := by decide +kernel
  have h3 := prefSearch_finds dikeBest 3 (fun x => combinedCost stepRelease (1 / 2) dike.raw (x 0) (x 1) (x 2))
    ![some 2, some 50, some 0] (by decide +kernel) (fun x => volumeError_nonneg _ _)
  have ho : optimizeSdStorage (fitOptimiser (prefSearch dikeBest) stepRelease (1 / 2) dike.raw) 2 dike.raw.totalVolume1d
      dike.raw.flowVolume1d 2 (some 50) (some 0) = .ok ⟨some 2, some 40, some 10⟩ := by
    rw [optimizeSdStorage, if_neg (by decide), if_pos rfl, optimiseBoth]
    simp only [fitOptimiser]
    rw [h3]
    decide +kernel
  rw [hi]
  simp only
  rw [ho]
  rfl

/-- The hypotheses of `C148_no_worse_than_start` and `C148_exact` are met, and the volume added is positive. -/
example : Exact (prefSearch dikeBest) ∧ (∃ css', calculateCorrection (fitOptimiser (prefSearch dikeBest) stepRelease (1 / 2)
    dike.raw) 0 stepRelease (1 / 2) (fun _ => none) dike = (css', none) ∧ css'.extraTotalVolume = some 50) ∧
    sdInitial dike.raw = .ok (2, some 50, some 0) :=
  ⟨prefSearch_exact dikeBest, ⟨_, dike_corrected, rfl⟩, by decide +kernel⟩

/-- The logistic function of the code is positive, as `C149_no_storage_violated` asks. -/
example : ∀ z c : ℝ, 0 < releaseFraction z c (1 / 2) := fun z c => (C12_between_zero_and_one z c _).1

example : Exact (prefSearch dikeBest) ∧ List.Forall₂ (· ≤ ·) dike.raw.flowVolume1d dike.raw.totalVolume1d ∧
    measured dike.raw.z dike.raw.totalVolume1d dike.raw.totalVolume2d ≠ [] ∧
    (∀ p ∈ measured dike.raw.z dike.raw.flowVolume1d dike.raw.flowVolume2d, p.2.1 = p.2.2) ∧
    measured dike.raw.z dike.raw.flowVolume1d dike.raw.flowVolume2d ≠ [] :=
  ⟨prefSearch_exact dikeBest, by decide +kernel, by decide +kernel, by decide +kernel, by decide +kernel⟩

/-- The flow volumes of the dike fit before and no longer fit afterwards. -/
example : curveMisfit (dike.raw.flowVolume1d.zipWith (fun v _ => some v) dike.raw.z) dike.raw.flowVolume2d = 0 ∧
    ∃ volumes, (correctedCss stepRelease (1 / 2) ⟨some 2, some 50, some 50⟩ dike).flowVolumeCorrected = some volumes ∧
      0 < curveMisfit volumes dike.raw.flowVolume2d :=
  C149_flow_spoiled_violated (prefSearch_exact dikeBest) (by decide) stepRelease_pos (by decide +kernel)
    (by decide +kernel) (by decide +kernel) (by decide +kernel) dike_corrected 50 rfl (by norm_num)

/-- Other 2D flow volumes with the same last difference. -/
example : (volumeDifference dike.raw.flowVolume1d [none, some 7, some 190]).getLast? =
    (volumeDifference dike.raw.flowVolume1d dike.raw.flowVolume2d).getLast? := by decide +kernel

/-- Another exact search gives 50 and 0 where the first gives 40 and 10. -/
example : ∃ (s' : Search ℚ) (css₂ : Css ℚ), Exact s' ∧
    calculateCorrection (fitOptimiser s' stepRelease (1 / 2) dike.raw) 2 stepRelease (1 / 2) (fun _ => none) dike =
      (css₂, none) ∧
    css₂.crestLevel = some 2 ∧ css₂.extraTotalVolume = some (40 + 10) ∧ css₂.extraFlowVolume = some (some (10 - 10)) :=
  C149_split_violated (prefSearch_exact dikeBest) dike_both 40 10 rfl rfl (by norm_num) (by norm_num) 10 (by norm_num)
    le_rfl

end C149

end Fm2prof.Props

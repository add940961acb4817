import Mathlib.Algebra.Order.Field.Rat
import Mathlib.Tactic.NormNum
import Verif.Proofs.Geometry
import Verif.Proofs.Volumes

/-!
# Properties of the geometry repairs: C01, C04, C05, C08 and the requirement check behind C02 and C03
-/

set_option linter.unusedSectionVars false

namespace Fm2prof.Props

open Fm2prof Fm2prof.Spec

section C01
variable {α : Type} [LinearOrder α]

/-- **C01.** One answer per map; map `i` is accepted exactly when it is the first or its level is present and above
every level at an earlier map. -/
theorem C01_accepted_iff (levels : List (Option α)) (hne : levels ≠ []) :
    (checkMonotonicity levels).length = levels.length ∧
    ∀ i < levels.length, ((checkMonotonicity levels)[i]? = some true ↔ Rising levels i) := by
  have hpos : 0 < levels.length := List.length_pos_iff.2 hne
  have h := mono_invariant levels (levels.length - 1) (by omega)
  exact ⟨by have := h.1; simp only [checkMonotonicity]; omega, fun i hi => h.2.1 i (by omega)⟩

private theorem select_increasing (xs : List α) (m : List Bool) (hlen : m.length = xs.length)
    (h : ∀ i : Nat, m[i]? = some true → ∀ j < i, ∀ x y, xs[j]? = some y → xs[i]? = some x → y < x) :
    StrictlyIncreasing (maskSelect m xs) := by
  induction xs generalizing m with
  | nil => simp [StrictlyIncreasing]
  | cons x xs ih =>
    cases m with
    | nil => simp at hlen
    | cons b m =>
      have ih' := ih m (by simpa using hlen) (fun i hi j hj a c hj' hi' =>
        h (i + 1) (by simpa using hi) (j + 1) (by omega) a c (by simpa using hj') (by simpa using hi'))
      cases b with
      | false => simpa using ih'
      | true =>
        simp only [maskSelect_cons_true, StrictlyIncreasing, List.pairwise_cons]
        refine ⟨?_, ih'⟩
        intro a ha
        -- find the index of `a`
        have : ∃ i : Nat, m[i]? = some true ∧ xs[i]? = some a := by
          simp only [maskSelect, List.mem_map, List.mem_filter] at ha
          obtain ⟨⟨b, a'⟩, ⟨hmem, hb⟩, rfl⟩ := ha
          rw [List.mem_iff_getElem] at hmem
          obtain ⟨i, hi, he⟩ := hmem
          rw [List.getElem_zip] at he
          simp at hi
          simp only [Prod.mk.injEq] at he
          refine ⟨i, ?_, ?_⟩
          · rw [List.getElem?_eq_getElem hi.1, he.1]; simpa using hb
          · rw [List.getElem?_eq_getElem hi.2, he.2]
        obtain ⟨i, hi1, hi2⟩ := this
        exact h (i + 1) (by simpa using hi1) 0 (by omega) a x (by simp) (by simpa using hi2)

/-- **C01.** Without missing values the accepted levels are strictly increasing. -/
theorem C01_kept_levels_increase (levels : List α) (hne : levels ≠ []) :
    StrictlyIncreasing (maskSelect (checkMonotonicity (levels.map some)) levels) := by
  obtain ⟨hlen, hiff⟩ := C01_accepted_iff (levels.map some) (by simpa using hne)
  refine select_increasing _ _ (by simpa using hlen) ?_
  intro i hi j hj x y hy hx
  have hil : i < levels.length := by
    rcases Nat.lt_or_ge i levels.length with h | h
    · exact h
    · rw [List.getElem?_eq_none h] at hx; simp at hx
  rcases (hiff i (by simpa using hil)).1 hi with h | ⟨x', _, hx', _, hall⟩
  · omega
  · have : x' = x := by simp [hx] at hx'; exact hx'.symm
    subst this
    exact hall j hj y (by simp [hy])

/-- **C01.** A rejected map has a level at or below that of an earlier accepted map. -/
theorem C01_rejected_is_below_accepted (levels : List α) (i : Nat) (hi : i < levels.length)
    (hrej : (checkMonotonicity (levels.map some))[i]? ≠ some true) :
    ∃ j, ∃ hj : j < i, (checkMonotonicity (levels.map some))[j]? = some true ∧
      levels[i] ≤ levels[j] := by
  have hne : levels ≠ [] := by rintro rfl; simp at hi
  obtain ⟨_, hiff⟩ := C01_accepted_iff (levels.map some) (by simpa using hne)
  -- strong induction: take the largest earlier value
  have key : ∀ n (hn : n < levels.length), ∃ j, ∃ hj : j ≤ n,
      Rising (levels.map some) j ∧ ∀ k (hk : k ≤ n), levels[k] ≤ levels[j] := by
    intro n hn
    induction n with
    | zero => exact ⟨0, le_rfl, Or.inl rfl, fun k hk => by obtain rfl : k = 0 := by omega
                                                           exact le_rfl⟩
    | succ n ih =>
      obtain ⟨j, hj, hjr, hmax⟩ := ih (by omega)
      rcases lt_or_ge levels[j] levels[n + 1] with h | h
      · refine ⟨n + 1, le_rfl, Or.inr ⟨levels[n + 1], levels[0], by simp [hn], by simp, ?_⟩, ?_⟩
        · intro k hk y hy
          have hkl : k < levels.length := by omega
          simp [hkl] at hy
          rw [← hy]
          exact (hmax k (by omega)).trans_lt h
        · intro k hk
          rcases Nat.lt_or_ge k (n + 1) with h' | h'
          · exact (hmax k (by omega)).trans h.le
          · obtain rfl : k = n + 1 := by omega
            exact le_rfl
      · refine ⟨j, by omega, hjr, ?_⟩
        intro k hk
        rcases Nat.lt_or_ge k (n + 1) with h' | h'
        · exact hmax k (by omega)
        · obtain rfl : k = n + 1 := by omega
          exact h
  obtain ⟨j, hj, hjr, hmax⟩ := key i hi
  have hne' : j ≠ i := by
    rintro rfl
    exact hrej ((hiff j (by simpa using hi)).2 hjr)
  exact ⟨j, by omega, (hiff j (by simp; omega)).2 hjr, hmax i le_rfl⟩

example : checkMonotonicity [some (1 : ℚ), some 3, some 2, none, some 3, some 4] =
    [true, true, false, false, false, true] := by decide +kernel

example : maskSelect (checkMonotonicity ([1, 3, 2, 3, 4].map some)) [1, 3, 2, 3, (4 : ℚ)] = [1, 3, 4] := by
  decide +kernel

end C01

section C04
variable {α : Type} [LinearOrder α] {bump : α → α}

/-- **C04.** The repair makes the list strictly increasing without changing its length or first element, and never
lowers a value. -/
theorem C04_increasing_and_never_lowers (hb : ∀ x, x < bump x) (l : List α) :
    StrictlyIncreasing (checkIncreasingOrder bump l) ∧ PointwiseLE l (checkIncreasingOrder bump l) ∧
      (checkIncreasingOrder bump l).head? = l.head? :=
  ⟨checkIncreasingOrder_pairwise hb l, checkIncreasingOrder_ge hb l, by cases l <;> rfl⟩

/-- **C04.** Strictly increasing lists are left as they are. -/
theorem C04_identity_on_increasing (l : List α) (h : StrictlyIncreasing l) :
    checkIncreasingOrder bump l = l :=
  checkIncreasingOrder_eq_self l h

/-- **C04.** Repairing twice is the same as repairing once. -/
theorem C04_idempotent (hb : ∀ x, x < bump x) (l : List α) :
    checkIncreasingOrder bump (checkIncreasingOrder bump l) = checkIncreasingOrder bump l :=
  checkIncreasingOrder_eq_self _ (checkIncreasingOrder_pairwise hb l)

/-- **C04.** The result is the least list that dominates the input and takes at least one step wherever the input
does not rise above the previous result. -/
theorem C04_least (hmono : Monotone bump) (l s : List α) (hlen : s.length = l.length)
    (hdom : ∀ i (hi : i < s.length), l[i] ≤ s[i])
    (hstep : ∀ i (hi : i + 1 < s.length), l[i + 1] ≤ s[i] → bump s[i] ≤ s[i + 1]) :
    PointwiseLE (checkIncreasingOrder bump l) s := by
  cases l with
  | nil =>
    cases s with
    | nil => exact List.Forall₂.nil
    | cons _ _ => simp at hlen
  | cons x xs =>
    cases s with
    | nil => simp at hlen
    | cons t ts =>
      have h0 : x ≤ t := hdom 0 (by simp)
      refine List.Forall₂.cons h0 ?_
      refine increasingFrom_least hmono x t h0 xs ts (by simpa using hlen) ?_
      intro i hi
      refine ⟨?_, ?_⟩
      · exact hdom (i + 1) (by simpa using hi)
      · exact hstep i (by simpa using hi)

end C04

section C04bound
variable {K : Type} [Field K] [LinearOrder K] [IsStrictOrderedRing K]

/-- **C04.** A repaired value exceeds the largest input value up to that point by at most the number of preceding
points times the step. -/
theorem C04_bounded (step : K) (hstep : 0 < step) (l : List K) (m : K) (i : Nat) (hi : i < l.length)
    (hm : ∀ j (hj : j ≤ i), l[j] ≤ m) (r : K)
    (hr : (checkIncreasingOrder (· + step) l)[i]? = some r) : r ≤ m + i * step := by
  cases l with
  | nil => simp at hi
  | cons x xs =>
    have hx : x ≤ m := by simpa using hm 0 (by omega)
    cases i with
    | zero => simp [checkIncreasingOrder] at hr; subst hr; simpa using hx
    | succ i =>
      simp only [checkIncreasingOrder, List.getElem?_cons_succ] at hr
      have := increasingFrom_bound step hstep x m 0 (by simpa using hx) xs i (by simpa using hi)
        (fun j hj => by have := hm (j + 1) (by omega); simpa using this) hr
      push_cast at this ⊢
      linarith

example : checkIncreasingOrder (· + (1 / 1000 : ℚ)) [1, 1, 0, 5, 4] =
    [1, 1 + 1 / 1000, 1 + 2 / 1000, 5, 5 + 1 / 1000] := by decide +kernel

example : ∀ x : ℚ, x < x + 1 / 1000 := by intro x; linarith

end C04bound

section C02C03
variable {K : Type} [Field K] [LinearOrder K] [IsStrictOrderedRing K]

/-- **C02, C03 (requirement check).** When the check succeeds the profile is valid, whatever it was before. -/
theorem C03_requirements_give_valid_profile (bump : K → K) (hb : ∀ x, x < bump x) (minWidth : K)
    (g g' : Geometry K) (hlen : g.totalWidth.length = g.z.length ∧ g.flowWidth.length = g.z.length)
    (h : checkRequirements bump minWidth g = .ok g') :
    ValidProfile minWidth g'.z g'.totalWidth g'.flowWidth ∧ g'.z.length = g.z.length := by
  unfold checkRequirements at h
  cases hf : firstNonzeroIndex g.totalWidth with
  | error e => rw [hf] at h; cases h
  | ok i =>
    rw [hf] at h
    obtain rfl : _ = g' := Except.ok.inj h
    have htl : (checkIncreasingOrder bump (removeZeroWidths minWidth g.totalWidth)).length = g.z.length := by
      rw [checkIncreasingOrder_length, removeZeroWidths_length, hlen.1]
    have hfl : (checkIncreasingOrder bump (removeZeroWidths minWidth g.flowWidth)).length = g.z.length := by
      rw [checkIncreasingOrder_length, removeZeroWidths_length, hlen.2]
    have hzl : (checkIncreasingOrder bump g.z).length = g.z.length := checkIncreasingOrder_length _
    have hmt : ∀ w ∈ checkIncreasingOrder bump (removeZeroWidths minWidth g.totalWidth), minWidth ≤ w :=
      mem_ge_of_forall₂ (checkIncreasingOrder_ge hb _) (removeZeroWidths_ge _ _)
    have hmf : ∀ w ∈ checkIncreasingOrder bump (removeZeroWidths minWidth g.flowWidth), minWidth ≤ w :=
      mem_ge_of_forall₂ (checkIncreasingOrder_ge hb _) (removeZeroWidths_ge _ _)
    refine ⟨⟨⟨?_, ?_⟩, ?_, ?_, ?_, ?_, hmt, ?_⟩, hzl⟩
    · simp [htl, hzl]
    · simp [capFlowWidth, htl, hfl, hzl]
    · exact checkIncreasingOrder_pairwise hb _
    · exact checkIncreasingOrder_pairwise hb _
    · simp only [capFlowWidth_eq_zipWith_min]
      exact zipWith_min_pairwise (checkIncreasingOrder_pairwise hb _) (checkIncreasingOrder_pairwise hb _)
    · simp only [capFlowWidth_eq_zipWith_min]
      exact zipWith_min_le_left (by rw [htl, hfl])
    · simp only [capFlowWidth_eq_zipWith_min]
      exact zipWith_min_ge hmt hmf

/-- **C03.** The check fails only for a profile without any width, and then with `IndexError`. -/
theorem C03_requirements_fail_iff (bump : K → K) (minWidth : K) (g : Geometry K) (e : PyErr) :
    checkRequirements bump minWidth g = .error e ↔
      e = .indexError ∧ ∀ w ∈ g.totalWidth, w = 0 := by
  unfold checkRequirements firstNonzeroIndex
  cases h : g.totalWidth.findIdx? (· ≠ 0) with
  | none =>
    rw [List.findIdx?_eq_none_iff] at h
    constructor
    · intro he
      refine ⟨(Except.error.inj he).symm, fun w hw => by simpa using h w hw⟩
    · rintro ⟨rfl, _⟩; rfl
  | some i =>
    rw [List.findIdx?_eq_some_iff_getElem] at h
    obtain ⟨hi, hp, _⟩ := h
    constructor
    · intro he; cases he
    · rintro ⟨_, hall⟩
      exact absurd (hall _ (List.getElem_mem hi)) (by simpa using hp)

/-- A profile with a dip in levels and widths, a zero width and crossing curves. -/
def sampleGeometry : Geometry ℚ :=
  { z := [0, 1, 1, 2], totalWidth := [0, 10, 8, 30], flowWidth := [0, 12, 5, 40] }

example : checkRequirements (· + (1 / 1000 : ℚ)) (1 / 2) sampleGeometry = .ok
    { z := [0, 1, 1 + 1 / 1000, 2], totalWidth := [1 / 2, 10, 10 + 1 / 1000, 30]
      flowWidth := [1 / 2, 10, 10 + 1 / 1000, 30] } := by decide +kernel

end C02C03

section C05
variable {α : Type} [LinearOrder α]

/-- **C05.** The corrected flow widths never decrease, are nowhere above the measured ones and equal at the top. -/
theorem C05_nondecreasing_minorant (w : List α) :
    NonDecreasing (backMin w) ∧ PointwiseLE (backMin w) w ∧ (backMin w).getLast? = w.getLast? :=
  ⟨backMin_pairwise w, backMin_le w, backMin_getLast? w⟩

/-- **C05.** Every other non-decreasing curve below the measured one lies below the corrected one. -/
theorem C05_greatest (w v : List α) (hv : NonDecreasing v) (hle : PointwiseLE v w) :
    PointwiseLE v (backMin w) :=
  backMin_greatest w v hv hle

example : backMin [(3 : ℚ), 5, 4, 6, 2, 7] = [2, 2, 2, 2, 2, 7] := by decide +kernel
example : NonDecreasing [(1 : ℚ), 2, 2] := by unfold NonDecreasing; decide +kernel

end C05

section C08
variable {K : Type} [Field K] [LinearOrder K] [IsStrictOrderedRing K]

/-- **C08.** Volume number `i` is the area under the width curve up to level `i`, times the length; the curve has one
value per level. -/
theorem C08_volume_is_area_times_length (w z : List K) (len : K) (h : w.length = z.length) (hz : z ≠ []) :
    (volume1d w z len).length = z.length ∧
    ∀ i < z.length, (volume1d w z len)[i]? =
      some (trapezoidArea (w.take (i + 1)) (z.take (i + 1)) * len) :=
  ⟨volume1d_length w z len h hz, fun i hi => volume1d_getElem? w z len h i hi⟩

/-- **C08.** Volumes start at zero and never decrease. -/
theorem C08_starts_at_zero_and_grows (w z : List K) (len : K) (hlen : 0 ≤ len)
    (hz : NonDecreasing z) (hw : ∀ x ∈ w, 0 ≤ x) :
    (volume1d w z len).head? = some 0 ∧ NonDecreasing (volume1d w z len) := by
  refine ⟨rfl, ?_⟩
  have h := cumTrapzFrom_chain (0 : K) w z hz hw
  have : volume1d w z len = ((0 : K) :: cumTrapzFrom 0 w z).map (· * len) := by simp [volume1d]
  unfold NonDecreasing
  rw [this, List.pairwise_map]
  exact h.imp fun hab => mul_le_mul_of_nonneg_right hab hlen

/-- **C08.** Flow volume never exceeds total volume. -/
theorem C08_flow_le_total (flow total z : List K) (len : K) (hlen : 0 ≤ len)
    (hz : NonDecreasing z) (hft : PointwiseLE flow total) :
    PointwiseLE (volume1d flow z len) (volume1d total z len) := by
  refine List.Forall₂.cons le_rfl ?_
  rw [List.forall₂_map_left_iff, List.forall₂_map_right_iff]
  exact (cumTrapzFrom_mono 0 0 le_rfl flow total z hz hft).imp
    fun _ _ h => mul_le_mul_of_nonneg_right h hlen

example : volume1d [1, 3, 3, (4 : ℚ)] [0, 2, 2, 3] 10 = [0, 40, 40, 75] := by decide +kernel

end C08

end Fm2prof.Props

import Mathlib.Data.Rat.Floor
import Mathlib.Algebra.Order.Field.Rat
import Verif.Proofs.Reduce
import Verif.Props.Geometry

/-!
# Properties of point reduction: C14, C15, C16, and C02, C03 for the exported profile
-/

set_option linter.unusedSectionVars false

namespace Fm2prof.Props

open Fm2prof Fm2prof.Spec

variable {K : Type} [Field K] [LinearOrder K] [IsStrictOrderedRing K]

section C16

/-- **C16.** For every line of at least two points the computation of importance values ends with one value per
point; it is a Visvalingam-Whyatt elimination that removes each interior point exactly once; the ends keep infinite
importance, all others get a finite one, and the importances never decrease along the order of removal. -/
theorem C16_terminates_and_eliminates (pts : List (K × K)) (h : 2 ≤ pts.length) :
    ∃ th order, buildThresholds pts = .ok th ∧ th.length = pts.length ∧
      Elimination (importance pts) (List.range pts.length) (startImportance pts) order (fun i => th.getD i ⊤) ∧
      order.Perm (interior (List.range pts.length)) ∧
      th.head? = some ⊤ ∧ th.getLast? = some ⊤ ∧
      (∀ i, 0 < i → i + 1 < pts.length → ∃ a : K, th[i]? = some (a : WithTop K)) ∧
      (order.map (fun i => th.getD i ⊤)).Pairwise (· ≤ ·) := by
  obtain ⟨th, order, hb, hlen, hE⟩ := buildThresholds_spec pts h
  have hnd : (List.range pts.length).Nodup := List.nodup_range
  have hend : ∀ i, i < pts.length → i ∉ interior (List.range pts.length) → th[i]? = some ⊤ := by
    intro i hi hni
    have := elimination_final_outside hE i hnd hni
    rw [interior_range] at hni
    have hst : startImportance pts i = ⊤ := by
      unfold startImportance
      split
      · rfl
      · have : pts[i + 1]? = none := List.getElem?_eq_none (by omega)
        unfold importance
        rw [this]
        cases pts[i - 1]? <;> cases pts[i]? <;> rfl
    rw [hst] at this
    unfold impOf at this
    rw [List.getElem?_eq_getElem (by omega)]
    rw [List.getD_eq_getElem _ (⊤ : WithTop K) (by omega)] at this
    rw [this]
  refine ⟨th, order, hb, hlen, hE, elimination_perm hE, ?_, ?_, ?_, elimination_sorted hE hnd⟩
  · rw [List.head?_eq_getElem?]
    exact hend 0 (by omega) (by rw [interior_range]; omega)
  · rw [List.getLast?_eq_getElem?, hlen]
    exact hend _ (by omega) (by rw [interior_range]; omega)
  · intro i h0 h1
    have := elimination_final_pred hE (fun w => w ≠ ⊤) (by
        intro a b c ha hb hc
        rw [List.mem_range] at ha hb hc
        rw [← triOf_eq_importance]
        exact triOf_ne_top ha hb hc)
      (by
        intro x hx
        rw [interior_range] at hx
        unfold startImportance
        rw [if_neg (by omega), ← triOf_eq_importance]
        exact triOf_ne_top (by omega) (by omega) (by omega)) hnd i (by rw [interior_range]; omega)
    unfold impOf at this
    rw [List.getD_eq_getElem _ (⊤ : WithTop K) (by omega)] at this
    rw [List.getElem?_eq_getElem (by omega)]
    obtain ⟨a, ha⟩ := WithTop.ne_top_iff_exists.1 this
    exact ⟨a, by rw [ha]⟩

/-- **C16.** Only the empty line is refused; a single point has infinite importance. -/
theorem C16_short_lines (p : K × K) :
    buildThresholds ([] : List (K × K)) = .error .indexError ∧ buildThresholds [p] = .ok [⊤] := by
  refine ⟨rfl, ?_⟩
  simp [buildThresholds, triangleAreas, vwChoose, vwPick, argmin, vwLoop]

/-- A line with a bump, a dip and a straight part. -/
def samplePoints : List (ℚ × ℚ) := [(0, 0), (1, 5), (2, 6), (3, 6), (4, 10), (5, 11)]

example : buildThresholds samplePoints = .ok [⊤, ((7 : ℚ) : WithTop ℚ), ((1 / 2 : ℚ) : WithTop ℚ),
    ((4 : ℚ) : WithTop ℚ), ((3 / 2 : ℚ) : WithTop ℚ), ⊤] := by decide +kernel

end C16

/-- Facts about the values the simplifier uses for a profile with at least two points. -/
private theorem thresholds_facts (pts : List (K × K)) (h : 2 ≤ pts.length) :
    ∃ th, buildThresholds pts = .ok th ∧ th.length = pts.length ∧ th.head? = some ⊤ ∧ th.getLast? = some ⊤ ∧
      ∀ i, 0 < i → i + 1 < pts.length → ∃ a : K, th[i]? = some (a : WithTop K) := by
  obtain ⟨th, _, h1, h2, _, _, h3, h4, h5, _⟩ := C16_terminates_and_eliminates pts h
  exact ⟨th, h1, h2, h3, h4, h5⟩

/-- The mask used for a profile: one answer per point. -/
private theorem reduce_mask (c : Nat) (g : Geometry K)
    (hlen : g.totalWidth.length = g.z.length ∧ g.flowWidth.length = g.z.length) :
    ∃ m : List Bool, m.length = g.z.length ∧
      reducePoints (c : Int) g = .ok ⟨maskSelect m g.z, maskSelect m g.totalWidth, maskSelect m g.flowWidth⟩ ∧
      (g.z.length ≤ c → m = List.replicate g.z.length true) ∧
      (c < g.z.length → 2 ≤ g.z.length → ∃ th, buildThresholds (g.z.zip g.totalWidth) = .ok th ∧
        fromNumberIndex th (c : Int) = some m) ∧
      (c < g.z.length → m.count true ≤ c ∨ g.z.length = 1 ∧ c = 0) := by
  unfold reducePoints
  simp only [hlen.1]
  rcases Nat.lt_or_ge c g.z.length with hc | hc
  · have hc' : (c : Int) < (g.z.length : Int) := by omega
    simp only [hc', if_true]
    have hzl : (g.z.zip g.totalWidth).length = g.z.length := by simp [hlen.1]
    rcases Nat.lt_or_ge g.z.length 2 with h2 | h2
    · -- one point
      obtain ⟨z0, hz0⟩ := List.length_eq_one_iff.1 (show g.z.length = 1 by omega)
      obtain ⟨w0, hw0⟩ := List.length_eq_one_iff.1 (show g.totalWidth.length = 1 by omega)
      have hb : buildThresholds (g.z.zip g.totalWidth) = .ok [⊤] := by
        rw [hz0, hw0]; exact (C16_short_lines (z0, w0)).2
      have hc0 : c = 0 := by omega
      subst hc0
      rw [hb]
      have := fromNumberIndex_nat ([⊤] : List (WithTop K)) 0 (by simp)
      refine ⟨[false], by simp; omega, ?_, by omega, by omega, ?_⟩
      · simp only [Nat.cast_zero] at this ⊢
        rw [this]
        have : ¬ ((orderedThresholds ([⊤] : List (WithTop K)))[0]'(by
            rw [orderedThresholds_length]; simp) < ⊤) := by
          have hs : orderedThresholds ([⊤] : List (WithTop K)) = [⊤] := by simp [orderedThresholds]
          simp [hs]
        simp [this]
      · intro _; left; simp
    · obtain ⟨th, hb, hthl, _⟩ := thresholds_facts (g.z.zip g.totalWidth) (by omega)
      rw [hb]
      have hn := fromNumberIndex_nat th c (by omega)
      simp only [hn]
      refine ⟨_, by simp; omega, rfl, by omega, fun _ _ => ⟨th, rfl, hn⟩, fun _ => Or.inl ?_⟩
      rw [mask_count]
      exact count_gt_le _ (orderedThresholds_sorted th) c (by rw [orderedThresholds_length]; omega)
  · have hc' : ¬ (c : Int) < (g.z.length : Int) := by omega
    simp only [hc', if_false]
    exact ⟨_, by simp, rfl, fun _ => rfl, by omega, by omega⟩

section C14

/-- **C14.** Reduction to any number of points succeeds and selects one subsequence of positions, the same for
levels, total widths and flow widths. -/
theorem C14_sub_profile (n : Nat) (g : Geometry K)
    (hlen : g.totalWidth.length = g.z.length ∧ g.flowWidth.length = g.z.length) :
    ∃ g' keep, reducePoints (n : Int) g = .ok g' ∧
      SubProfile keep g.z g.totalWidth g.flowWidth g'.z g'.totalWidth g'.flowWidth := by
  obtain ⟨m, hm, hr, _⟩ := reduce_mask n g hlen
  refine ⟨_, keepOf m, hr, keepOf_pairwise m, ?_, ?_, ?_⟩
  · exact maskSelect_eq_keepOf m _ (by omega)
  · exact maskSelect_eq_keepOf m _ (by omega)
  · exact maskSelect_eq_keepOf m _ (by omega)

/-- **C14.** A profile with at most `n` points is unchanged. -/
theorem C14_unchanged (n : Nat) (g : Geometry K)
    (hlen : g.totalWidth.length = g.z.length ∧ g.flowWidth.length = g.z.length) (h : g.z.length ≤ n) :
    reducePoints (n : Int) g = .ok g := by
  obtain ⟨m, hm, hr, hid, _⟩ := reduce_mask n g hlen
  rw [hr, hid h]
  have h1 := maskSelect_replicate_true g.z
  have h2 := maskSelect_replicate_true g.totalWidth
  have h3 := maskSelect_replicate_true g.flowWidth
  rw [hlen.1] at h2
  rw [hlen.2] at h3
  rw [h1, h2, h3]

/-- **C14.** At most `n` points remain when there were more. -/
theorem C14_at_most (n : Nat) (g g' : Geometry K)
    (hlen : g.totalWidth.length = g.z.length ∧ g.flowWidth.length = g.z.length)
    (hr : reducePoints (n : Int) g = .ok g') (h : n < g.z.length) : g'.z.length ≤ n := by
  obtain ⟨m, hm, hr', _, hth, hcnt⟩ := reduce_mask n g hlen
  rw [hr'] at hr
  obtain rfl := Except.ok.inj hr
  simp only
  rw [maskSelect_length m g.z hm]
  rcases hcnt h with h' | ⟨h1, h0⟩
  · exact h'
  · -- one point, none requested
    obtain ⟨z0, hz0⟩ := List.length_eq_one_iff.1 h1
    have := reduce_mask 0 g hlen
    obtain ⟨m', hm', hr'', _, _, hcnt'⟩ := this
    subst h0
    rw [hr'] at hr''
    have hz : maskSelect m g.z = maskSelect m' g.z := by
      have := Except.ok.inj hr''
      exact congrArg Geometry.z this
    have hzl := congrArg List.length hz
    rw [maskSelect_length m g.z hm, maskSelect_length m' g.z hm'] at hzl
    obtain ⟨w0, hw0⟩ := List.length_eq_one_iff.1 (show g.totalWidth.length = 1 by omega)
    have hb : buildThresholds (g.z.zip g.totalWidth) = .ok [⊤] := by
      rw [hz0, hw0]; exact (C16_short_lines (z0, w0)).2
    have hred : reducePoints ((0 : Nat) : Int) g = .ok ⟨[], [], []⟩ := by
      obtain ⟨f0, hf0⟩ := List.length_eq_one_iff.1 (show g.flowWidth.length = 1 by omega)
      unfold reducePoints
      simp only [hb]
      have hs : orderedThresholds ([⊤] : List (WithTop K)) = [⊤] := by simp [orderedThresholds]
      simp [hw0, hz0, hf0, fromNumberIndex, pyIndex, hs]
    rw [hred] at hr'
    have := congrArg Geometry.z (Except.ok.inj hr')
    simp only at this
    have := congrArg List.length this
    rw [maskSelect_length m g.z hm] at this
    simp at this
    omega

theorem maskSelect_head? {α : Type} (m : List Bool) (xs : List α) (h : m.head? = some true) :
    (maskSelect m xs).head? = xs.head? := by
  cases m with
  | nil => simp at h
  | cons b m =>
    obtain rfl : b = true := by simpa using h
    cases xs <;> simp

theorem maskSelect_getLast? {α : Type} (m : List Bool) (xs : List α) (hl : m.length = xs.length)
    (h : m.getLast? = some true) : (maskSelect m xs).getLast? = xs.getLast? := by
  have hm : m ≠ [] := by rintro rfl; simp at h
  have hx : xs ≠ [] := by
    rintro rfl
    exact hm (List.length_eq_zero_iff.1 (by simpa using hl))
  have h1 := List.dropLast_append_getLast hm
  have h2 := List.dropLast_append_getLast hx
  have h3 : m.getLast hm = true := by
    rw [List.getLast?_eq_getLast_of_ne_nil hm] at h; simpa using h
  have : maskSelect m xs = maskSelect m.dropLast xs.dropLast ++ [xs.getLast hx] := by
    conv_lhs => rw [← h1, ← h2]
    unfold maskSelect
    rw [List.zip_append (by simp [hl]), h3]
    simp
  rw [this, List.getLast?_eq_getLast_of_ne_nil hx]
  simp

theorem sorted_finite (th : List (WithTop K)) (n : Nat) (hn2 : 2 ≤ n) (hn : n < th.length)
    (hfin : ∀ i, 0 < i → i + 1 < th.length → ∃ a : K, th[i]? = some (a : WithTop K)) :
    (orderedThresholds th)[n]'(by rw [orderedThresholds_length]; exact hn) ≠ ⊤ := by
  intro htop
  have hs := orderedThresholds_sorted th
  have hcount : n + 1 ≤ (orderedThresholds th).count ⊤ := by
    have hall : ∀ a ∈ (orderedThresholds th).take (n + 1), a = ⊤ := by
      intro a ha
      rw [List.mem_iff_getElem] at ha
      obtain ⟨j, hj, rfl⟩ := ha
      simp only [List.length_take, orderedThresholds_length] at hj
      simp only [List.getElem_take]
      rcases Nat.lt_or_ge j n with h | h
      · have := List.pairwise_iff_getElem.1 hs j n (by rw [orderedThresholds_length]; omega)
          (by rw [orderedThresholds_length]; omega) h
        rw [htop, top_le_iff] at this
        exact this
      · have : j = n := by omega
        subst this; exact htop
    have h1 : ((orderedThresholds th).take (n + 1)).count ⊤ = n + 1 := by
      rw [List.count_eq_length.2 (fun b hb => (hall b hb).symm)]
      rw [List.length_take, orderedThresholds_length]; omega
    rw [← h1]
    exact (List.take_sublist _ _).count_le _
  have hperm := (orderedThresholds_perm th).count_eq (⊤ : WithTop K)
  rw [hperm] at hcount
  -- at most two infinite values
  have hmid : th.tail.dropLast.count (⊤ : WithTop K) = 0 := by
    rw [List.count_eq_zero]
    intro hmem
    rw [List.mem_iff_getElem] at hmem
    obtain ⟨j, hj, he⟩ := hmem
    simp only [List.length_dropLast, List.length_tail] at hj
    obtain ⟨a, ha⟩ := hfin (j + 1) (by omega) (by omega)
    rw [List.getElem?_eq_getElem (by omega)] at ha
    simp at he
    rw [he] at ha
    simp at ha
  have hle : th.count (⊤ : WithTop K) ≤ th.tail.dropLast.count (⊤ : WithTop K) + 2 := by
    match th, hn with
    | a :: l, _ =>
      have h1 : (a :: l).count (⊤ : WithTop K) ≤ l.count (⊤ : WithTop K) + 1 := by
        rw [List.count_cons]; split <;> omega
      have h2 : l.count (⊤ : WithTop K) ≤ l.dropLast.count (⊤ : WithTop K) + 1 := by
        rcases List.eq_nil_or_concat l with h | ⟨l', b, h⟩
        · subst h; simp
        · subst h
          simp only [List.concat_eq_append, List.dropLast_concat, List.count_append]
          have := List.count_le_length (a := (⊤ : WithTop K)) (l := [b])
          simp only [List.length_singleton] at this
          omega
      simp only [List.tail_cons]
      omega
  omega

/-- **C14.** For `n` at least two the first and the last point remain. -/
theorem C14_endpoints_kept (n : Nat) (hn : 2 ≤ n) (g g' : Geometry K)
    (hlen : g.totalWidth.length = g.z.length ∧ g.flowWidth.length = g.z.length)
    (hr : reducePoints (n : Int) g = .ok g') :
    g'.z.head? = g.z.head? ∧ g'.z.getLast? = g.z.getLast? ∧
    g'.totalWidth.head? = g.totalWidth.head? ∧ g'.totalWidth.getLast? = g.totalWidth.getLast? ∧
    g'.flowWidth.head? = g.flowWidth.head? ∧ g'.flowWidth.getLast? = g.flowWidth.getLast? := by
  rcases Nat.lt_or_ge n g.z.length with h | h
  · obtain ⟨m, hm, hr', _, hth, _⟩ := reduce_mask n g hlen
    rw [hr'] at hr
    obtain rfl := Except.ok.inj hr
    obtain ⟨th, hb, hf⟩ := hth h (by omega)
    have hzl : (g.z.zip g.totalWidth).length = g.z.length := by simp [hlen.1]
    obtain ⟨th', hb', hthl, hhead, hlast, hfin⟩ := thresholds_facts (g.z.zip g.totalWidth) (by omega)
    rw [hb] at hb'
    obtain rfl := Except.ok.inj hb'
    rw [fromNumberIndex_nat th n (by omega)] at hf
    have hm' := Option.some.inj hf
    have hne := sorted_finite th n hn (by omega) (fun i h0 h1 => hfin i h0 (by omega))
    have hlt := lt_top_iff_ne_top.2 hne
    have h1 : m.head? = some true := by
      rw [← hm', List.head?_map, hhead]; simp [hlt]
    have h2 : m.getLast? = some true := by
      rw [← hm', List.getLast?_map, hlast]; simp [hlt]
    refine ⟨maskSelect_head? m _ h1, maskSelect_getLast? m _ hm h2, maskSelect_head? m _ h1,
      maskSelect_getLast? m _ (by omega) h2, maskSelect_head? m _ h1, maskSelect_getLast? m _ (by omega) h2⟩
  · rw [C14_unchanged n g hlen h] at hr
    obtain rfl := Except.ok.inj hr
    exact ⟨rfl, rfl, rfl, rfl, rfl, rfl⟩

/-- A profile with six points. -/
def sampleProfile : Geometry ℚ :=
  { z := [0, 1, 2, 3, 4, 5], totalWidth := [0, 5, 6, 6, 10, 11], flowWidth := [0, 4, 5, 5, 9, 9] }

example : reducePoints 4 sampleProfile =
    .ok { z := [0, 1, 3, 5], totalWidth := [0, 5, 6, 11], flowWidth := [0, 4, 5, 9] } := by decide +kernel

/-- With `n = 1` the profile becomes empty: the code then raises on the first access to the last point. -/
theorem C14_single_point_empties :
    reducePoints 1 sampleProfile = .ok { z := [], totalWidth := [], flowWidth := [] } := by decide +kernel

end C14

section C15

/-- **C15.** Exactly `n` points remain when the importances of the interior points differ. -/
theorem C15_exact (n : Nat) (hn : 2 ≤ n) (g g' : Geometry K)
    (hlen : g.totalWidth.length = g.z.length ∧ g.flowWidth.length = g.z.length)
    (th : List (WithTop K)) (hth : buildThresholds (g.z.zip g.totalWidth) = .ok th)
    (hdist : (interior (List.range g.z.length)).Pairwise fun i j => th[i]? ≠ th[j]?)
    (hr : reducePoints (n : Int) g = .ok g') (h : n < g.z.length) : g'.z.length = n := by
  obtain ⟨m, hm, hr', _, hth', _⟩ := reduce_mask n g hlen
  rw [hr'] at hr
  obtain rfl := Except.ok.inj hr
  obtain ⟨th', hb, hf⟩ := hth' h (by omega)
  rw [hth] at hb
  obtain rfl := Except.ok.inj hb
  have hzl : (g.z.zip g.totalWidth).length = g.z.length := by simp [hlen.1]
  obtain ⟨th', hb', hthl, hhead, hlast, hfin⟩ := thresholds_facts (g.z.zip g.totalWidth) (by omega)
  rw [hth] at hb'
  obtain rfl := Except.ok.inj hb'
  rw [fromNumberIndex_nat th n (by omega)] at hf
  have hm' := Option.some.inj hf
  simp only
  rw [maskSelect_length m g.z hm, ← hm', mask_count]
  have hs := orderedThresholds_sorted th
  have hol := orderedThresholds_length th
  refine count_gt_eq _ hs n (by omega) ?_
  intro _
  have hne := sorted_finite th n hn (by omega) (fun i h0 h1 => hfin i h0 (by omega))
  rcases Nat.lt_or_ge n 3 with h3 | h3
  · -- position 1 is infinite
    have hn2 : n = 2 := by omega
    subst hn2
    refine lt_of_lt_of_le (lt_top_iff_ne_top.2 hne) ?_
    by_contra hcon
    have hfin1 : (orderedThresholds th)[1]'(by omega) ≠ ⊤ := fun he => hcon (by simp [he])
    -- then at most one infinite value
    have hc : (orderedThresholds th).count ⊤ ≤ 1 := by
      have hsplit := List.take_append_drop 1 (orderedThresholds th)
      rw [← hsplit, List.count_append]
      have h0 : ((orderedThresholds th).drop 1).count ⊤ = 0 := by
        rw [List.count_eq_zero]
        intro hmem
        rw [List.mem_iff_getElem] at hmem
        obtain ⟨j, hj, he⟩ := hmem
        simp only [List.length_drop] at hj
        rw [List.getElem_drop] at he
        rcases Nat.eq_zero_or_pos j with h0 | h0
        · subst h0; exact hfin1 he
        · have := List.pairwise_iff_getElem.1 hs 1 (1 + j) (by omega) (by omega) (by omega)
          rw [he, top_le_iff] at this
          exact hfin1 this
      have h1 := List.count_le_length (a := (⊤ : WithTop K)) (l := (orderedThresholds th).take 1)
      simp only [List.length_take] at h1
      omega
    rw [(orderedThresholds_perm th).count_eq] at hc
    have h2 : 2 ≤ th.count (⊤ : WithTop K) := by
      have hthne : th ≠ [] := by rintro rfl; simp at hhead
      have ha : th.take 1 = [⊤] := by
        cases th with
        | nil => simp at hhead
        | cons a l => simp at hhead; simp [hhead]
      have hd : ⊤ ∈ th.drop 1 := by
        rw [List.getLast?_eq_getElem?] at hlast
        rw [List.mem_iff_getElem?]
        refine ⟨th.length - 2, ?_⟩
        rw [List.getElem?_drop, show 1 + (th.length - 2) = th.length - 1 by omega]
        exact hlast
      rw [← List.take_append_drop 1 th, List.count_append, ha]
      have h1 := List.count_pos_iff.2 hd
      have h2 : ([⊤] : List (WithTop K)).count ⊤ = 1 := by simp
      omega
    omega
  · refine lt_of_le_of_ne (List.pairwise_iff_getElem.1 hs (n - 1) n (by omega) (by omega) (by omega)) ?_
    intro heq
    -- a finite value occurs twice
    have hc : 2 ≤ (orderedThresholds th).count ((orderedThresholds th)[n]'(by omega)) := by
      have h1 : ((orderedThresholds th).drop (n - 1)).take 2 =
          [(orderedThresholds th)[n]'(by omega), (orderedThresholds th)[n]'(by omega)] := by
        rw [List.drop_eq_getElem_cons (by omega), show n - 1 + 1 = n by omega,
          List.drop_eq_getElem_cons (by omega)]
        simp only [List.take_succ_cons, List.take_zero, ← heq]
      have hsub : (((orderedThresholds th).drop (n - 1)).take 2).Sublist (orderedThresholds th) :=
        (List.take_sublist _ _).trans (List.drop_sublist _ _)
      have := hsub.count_le ((orderedThresholds th)[n]'(by omega))
      rw [h1] at this
      simpa using this
    rw [(orderedThresholds_perm th).count_eq] at hc
    set v := (orderedThresholds th)[n]'(by omega) with hv
    -- but finite values sit at distinct interior positions
    have hthmap : th = (List.range th.length).map (fun i => th.getD i ⊤) := (by
      have := areasOf_range th
      unfold areasOf at this
      simp only [List.length_range, Nat.sub_self, List.replicate_zero, List.append_nil] at this
      exact this.symm)
    have h1 : th.count v ≤ ((List.range th.length).filter (fun i => decide (th[i]? = some v))).length := by
      conv_lhs => rw [hthmap]
      rw [List.count_eq_countP, List.countP_map, List.countP_eq_length_filter]
      refine le_of_eq (congrArg List.length (List.filter_congr ?_))
      intro i hi
      rw [List.mem_range] at hi
      simp only [Function.comp, List.getElem?_eq_getElem hi, List.getD_eq_getElem _ (⊤ : WithTop K) hi,
        Option.some.injEq]
      rw [Bool.eq_iff_iff]
      simp
    set F := (List.range th.length).filter (fun i => decide (th[i]? = some v)) with hF
    have hFnd : F.Pairwise (· < ·) := List.pairwise_lt_range.filter _
    have hFlen : 2 ≤ F.length := by omega
    have hlt := List.pairwise_iff_getElem.1 hFnd 0 1 (by omega) (by omega) (by omega)
    have hmem0 : F[0] ∈ F := List.getElem_mem _
    have hmem1 : F[1] ∈ F := List.getElem_mem _
    have hint : ∀ i ∈ F, i ∈ interior (List.range g.z.length) ∧ th[i]? = some v := by
      intro i hi
      rw [hF, List.mem_filter, List.mem_range] at hi
      have hv' : th[i]? = some v := by simpa using hi.2
      refine ⟨?_, hv'⟩
      rw [interior_range]
      refine ⟨?_, ?_⟩
      · rcases Nat.eq_zero_or_pos i with h0 | h0
        · subst h0
          rw [← List.head?_eq_getElem?, hhead] at hv'
          exact absurd (Option.some.inj hv').symm hne
        · exact h0
      · rcases Nat.lt_or_ge (i + 1) g.z.length with h' | h'
        · exact h'
        · have : i = th.length - 1 := by omega
          rw [this, ← List.getLast?_eq_getElem?, hlast] at hv'
          exact absurd (Option.some.inj hv').symm hne
    have hpair : ∀ i ∈ interior (List.range g.z.length), ∀ j ∈ interior (List.range g.z.length),
        i ≠ j → th[i]? ≠ th[j]? := by
      intro i hi j hj hij
      have : Std.Symm (fun i j : Nat => i ≠ j → th[i]? ≠ th[j]?) := ⟨fun i j h hij he => h hij.symm he.symm⟩
      exact List.Pairwise.forall_of_forall (R := fun i j => i ≠ j → th[i]? ≠ th[j]?)
        (fun i _ h => absurd rfl h) (hdist.imp (S := fun i j : Nat => i ≠ j → th[i]? ≠ th[j]?) fun h _ => h) hi hj hij
    exact hpair _ (hint _ hmem0).1 _ (hint _ hmem1).1 (by omega)
      ((hint _ hmem0).2.trans (hint _ hmem1).2.symm)

/-- **C15.** Reductions nest: what remains for fewer points also remains for more. -/
theorem C15_nested (n m : Nat) (hnm : n ≤ m) (g : Geometry K)
    (hlen : g.totalWidth.length = g.z.length ∧ g.flowWidth.length = g.z.length) (h2 : 2 ≤ g.z.length) :
    ∃ gn kn gm km, reducePoints (n : Int) g = .ok gn ∧ reducePoints (m : Int) g = .ok gm ∧
      SubProfile kn g.z g.totalWidth g.flowWidth gn.z gn.totalWidth gn.flowWidth ∧
      SubProfile km g.z g.totalWidth g.flowWidth gm.z gm.totalWidth gm.flowWidth ∧ kn ⊆ km := by
  obtain ⟨mn, hmn, hrn, hidn, hthn, _⟩ := reduce_mask n g hlen
  obtain ⟨mm, hmm, hrm, hidm, hthm, _⟩ := reduce_mask m g hlen
  refine ⟨_, keepOf mn, _, keepOf mm, hrn, hrm,
    ⟨keepOf_pairwise _, maskSelect_eq_keepOf _ _ (by omega), maskSelect_eq_keepOf _ _ (by omega),
      maskSelect_eq_keepOf _ _ (by omega)⟩,
    ⟨keepOf_pairwise _, maskSelect_eq_keepOf _ _ (by omega), maskSelect_eq_keepOf _ _ (by omega),
      maskSelect_eq_keepOf _ _ (by omega)⟩, ?_⟩
  intro i hi
  rw [mem_keepOf] at hi ⊢
  rcases Nat.lt_or_ge m g.z.length with h | h
  · obtain ⟨th, hb, hf⟩ := hthn (by omega) h2
    obtain ⟨th', hb', hf'⟩ := hthm h h2
    rw [hb] at hb'
    obtain rfl := Except.ok.inj hb'
    have hzl : (g.z.zip g.totalWidth).length = g.z.length := by simp [hlen.1]
    obtain ⟨_, hb'', hthl, _⟩ := thresholds_facts (g.z.zip g.totalWidth) (by omega)
    rw [hb] at hb''
    obtain rfl := Except.ok.inj hb''
    rw [fromNumberIndex_nat th n (by omega)] at hf
    rw [fromNumberIndex_nat th m (by omega)] at hf'
    rw [← Option.some.inj hf, List.getElem?_map] at hi
    rw [← Option.some.inj hf', List.getElem?_map]
    cases hti : th[i]? with
    | none => rw [hti] at hi; simp at hi
    | some a =>
      rw [hti] at hi
      simp only [Option.map_some, Option.some.injEq, decide_eq_true_eq] at hi ⊢
      refine lt_of_le_of_lt ?_ hi
      rcases Nat.lt_or_ge n m with h' | h'
      · exact List.pairwise_iff_getElem.1 (orderedThresholds_sorted th) n m
          (by rw [orderedThresholds_length]; omega) (by rw [orderedThresholds_length]; omega) h'
      · obtain rfl : n = m := by omega
        exact le_rfl
  · rw [hidm h]
    have : i < g.z.length := by
      rw [List.getElem?_eq_some_iff] at hi
      obtain ⟨hi, _⟩ := hi
      omega
    simp [this]

/-- **C15.** A point kept is strictly more important than any point dropped, so the points dropped are the first
ones in the order of elimination. -/
theorem C15_kept_more_important (n : Nat) (g : Geometry K)
    (hlen : g.totalWidth.length = g.z.length ∧ g.flowWidth.length = g.z.length) (h2 : 2 ≤ g.z.length)
    (th : List (WithTop K)) (hth : buildThresholds (g.z.zip g.totalWidth) = .ok th) :
    ∃ g' keep, reducePoints (n : Int) g = .ok g' ∧
      SubProfile keep g.z g.totalWidth g.flowWidth g'.z g'.totalWidth g'.flowWidth ∧
      ∀ i ∈ keep, ∀ j < g.z.length, j ∉ keep → th.getD j ⊤ < th.getD i ⊤ := by
  obtain ⟨m, hm, hr, hid, hth', _⟩ := reduce_mask n g hlen
  refine ⟨_, keepOf m, hr,
    ⟨keepOf_pairwise _, maskSelect_eq_keepOf _ _ (by omega), maskSelect_eq_keepOf _ _ (by omega),
      maskSelect_eq_keepOf _ _ (by omega)⟩, ?_⟩
  intro i hi j hj hnj
  rw [mem_keepOf] at hi hnj
  rcases Nat.lt_or_ge n g.z.length with h | h
  · obtain ⟨th', hb, hf⟩ := hth' h h2
    rw [hth] at hb
    obtain rfl := Except.ok.inj hb
    have hzl : (g.z.zip g.totalWidth).length = g.z.length := by simp [hlen.1]
    obtain ⟨_, hb'', hthl, _⟩ := thresholds_facts (g.z.zip g.totalWidth) (by omega)
    rw [hth] at hb''
    obtain rfl := Except.ok.inj hb''
    rw [fromNumberIndex_nat th n (by omega)] at hf
    rw [← Option.some.inj hf, List.getElem?_map] at hi hnj
    have hil : i < th.length := by
      rcases Nat.lt_or_ge i th.length with h' | h'
      · exact h'
      · rw [List.getElem?_eq_none h'] at hi; simp at hi
    rw [List.getElem?_eq_getElem hil] at hi
    rw [List.getElem?_eq_getElem (by omega)] at hnj
    simp only [Option.map_some, Option.some.injEq, decide_eq_true_eq] at hi hnj
    rw [List.getD_eq_getElem _ (⊤ : WithTop K) hil, List.getD_eq_getElem _ (⊤ : WithTop K) (by omega)]
    exact (not_lt.1 hnj).trans_lt hi
  · rw [hid h] at hnj
    simp [hj] at hnj

/-- The profile above meets the hypothesis of `C15_exact`. -/
example : ∃ th : List (WithTop ℚ), buildThresholds (sampleProfile.z.zip sampleProfile.totalWidth) = .ok th ∧
    (interior (List.range sampleProfile.z.length)).Pairwise fun i j => th[i]? ≠ th[j]? :=
  ⟨[⊤, ((7 : ℚ) : WithTop ℚ), ((1 / 2 : ℚ) : WithTop ℚ), ((4 : ℚ) : WithTop ℚ), ((3 / 2 : ℚ) : WithTop ℚ), ⊤],
    by decide +kernel, by decide +kernel⟩

/-- Five points on a straight line: all interior importances are equal. -/
def sampleStraight : Geometry ℚ :=
  { z := [0, 1, 2, 3, 4], totalWidth := [1, 2, 3, 4, 5], flowWidth := [1, 2, 3, 4, 5] }

/-- With equal importances fewer than the requested number of points remain. -/
theorem C15_ties_drop_more :
    ∃ g : Geometry ℚ, g.z.length = 5 ∧ ∃ g', reducePoints 4 g = .ok g' ∧ g'.z.length = 2 :=
  ⟨sampleStraight, rfl, ⟨[0, 4], [1, 5], [1, 5]⟩, by decide +kernel, rfl⟩

end C15

section C02C03

/-- **C02, C03.** After the requirement check and reduction to any number of points the profile is valid: levels
and widths strictly increase, flow width is at most total width, and all widths are at least the minimum. -/
theorem C02_C03_exported_profile_valid (bump : K → K) (hb : ∀ x, x < bump x) (minWidth : K) (n : Nat)
    (g g₁ : Geometry K) (hlen : g.totalWidth.length = g.z.length ∧ g.flowWidth.length = g.z.length)
    (h₁ : checkRequirements bump minWidth g = .ok g₁) :
    ∃ g₂, reducePoints (n : Int) g₁ = .ok g₂ ∧ ValidProfile minWidth g₂.z g₂.totalWidth g₂.flowWidth := by
  obtain ⟨hv, hl⟩ := C03_requirements_give_valid_profile bump hb minWidth g g₁ hlen h₁
  obtain ⟨m, hm, hr, _⟩ := reduce_mask n g₁ hv.lengths
  refine ⟨_, hr, ?_⟩
  refine ⟨⟨?_, ?_⟩, ?_, ?_, ?_, ?_, ?_, ?_⟩
  · simp only
    rw [maskSelect_length _ _ hm, maskSelect_length _ _ (by rw [hv.lengths.1]; exact hm)]
  · simp only
    rw [maskSelect_length _ _ hm, maskSelect_length _ _ (by rw [hv.lengths.2]; exact hm)]
  · exact List.Pairwise.sublist (maskSelect_sublist _ _) hv.levelsUp
  · exact List.Pairwise.sublist (maskSelect_sublist _ _) hv.totalUp
  · exact List.Pairwise.sublist (maskSelect_sublist _ _) hv.flowUp
  · exact maskSelect_forall₂ hv.ordered _
  · exact fun w hw => hv.minTotal w ((maskSelect_sublist _ _).subset hw)
  · exact fun w hw => hv.minFlow w ((maskSelect_sublist _ _).subset hw)

example : ∃ g₁, checkRequirements (· + (1 / 1000 : ℚ)) (1 / 2) sampleGeometry = .ok g₁ ∧
    reducePoints 3 g₁ = .ok
      { z := [0, 1 + 1 / 1000, 2], totalWidth := [1 / 2, 10 + 1 / 1000, 30]
        flowWidth := [1 / 2, 10 + 1 / 1000, 30] } :=
  ⟨{ z := [0, 1, 1 + 1 / 1000, 2], totalWidth := [1 / 2, 10, 10 + 1 / 1000, 30]
     flowWidth := [1 / 2, 10, 10 + 1 / 1000, 30] }, by decide +kernel, by decide +kernel⟩

end C02C03

section C169

variable [FloorRing K]

private theorem fromRatio_ok (pts : List (K × K)) (th : List (WithTop K)) (r : K) (q : List (K × K))
    (h : fromRatio pts th r = .ok q) (hl : th.length = pts.length) :
    0 < r ∧ r ≤ 1 ∧ ∃ n : Nat, n = ⌊r * (pts.length : K)⌋₊ ∧ q = fromNumber pts th (n : Int) := by
  unfold fromRatio at h
  by_cases hr : r ≤ 0 ∨ 1 < r
  · rw [if_pos hr] at h; cases h
  · rw [if_neg hr] at h
    have h0 : 0 < r := not_le.1 fun e => hr (.inl e)
    refine ⟨h0, not_lt.1 fun e => hr (.inr e), _, rfl, ?_⟩
    rw [← Except.ok.inj h, hl, Int.natCast_floor_eq_floor (by positivity)]

/-- **C169, partial.** Simplifying a line to a share `r` of its points gives points of the line, in order, at most that share of them,
and when the share is at least two points the first and the last one remain. Missing: smaller shares, see `C169_empty_violated`. -/
theorem C169_share_partial (pts : List (K × K)) (h2 : 2 ≤ pts.length) (th : List (WithTop K)) (hth : buildThresholds pts = .ok th)
    (r : K) (q : List (K × K)) (h : fromRatio pts th r = .ok q) :
    q.Sublist pts ∧ (q.length : K) ≤ r * pts.length ∧
    (2 ≤ r * pts.length → q.head? = pts.head? ∧ q.getLast? = pts.getLast?) := by
  obtain ⟨th', hb, hl, hhead, hlast, hfin⟩ := thresholds_facts pts h2
  rw [hth] at hb
  obtain rfl := Except.ok.inj hb
  obtain ⟨h0, h1, n, hn, rfl⟩ := fromRatio_ok pts th r q h hl
  have hpos : (0 : K) ≤ r * pts.length := by positivity
  have hfl : (n : K) ≤ r * pts.length := by rw [hn]; exact Nat.floor_le hpos
  unfold fromNumber
  rcases Nat.lt_or_ge n pts.length with hlt | hge
  · rw [fromNumberIndex_nat th n (by omega)]
    simp only
    refine ⟨maskSelect_sublist _ _, ?_, ?_⟩
    · refine le_trans ?_ hfl
      rw [maskSelect_length _ _ (by simp [hl]), mask_count]
      exact_mod_cast count_gt_le _ (orderedThresholds_sorted th) n (by rw [orderedThresholds_length]; omega)
    · intro hr2
      have hn2 : 2 ≤ n := by rw [hn]; exact Nat.le_floor (by exact_mod_cast hr2)
      have hlt' := lt_top_iff_ne_top.2 (sorted_finite th n hn2 (by omega) (fun i h0 h1 => hfin i h0 (by omega)))
      refine ⟨maskSelect_head? _ _ ?_, maskSelect_getLast? _ _ (by simp [hl]) ?_⟩
      · rw [List.head?_map, hhead]; simp [hlt']
      · rw [List.getLast?_map, hlast]; simp [hlt']
  · have e : fromNumberIndex th (n : Int) = none := by
      unfold fromNumberIndex pyIndex
      rw [if_pos (by omega), if_neg (by omega)]
    rw [e]
    refine ⟨List.Sublist.refl _, le_trans (by exact_mod_cast hge) hfl, fun _ => ⟨rfl, rfl⟩⟩

/-- **C169, exact number.** When no two inner points are equally important, exactly the whole number of points in the share remains. -/
theorem C169_exact (pts : List (K × K)) (h2 : 2 ≤ pts.length) (th : List (WithTop K)) (hth : buildThresholds pts = .ok th)
    (hdist : (interior (List.range pts.length)).Pairwise fun i j => th[i]? ≠ th[j]?)
    (r : K) (hr : 2 ≤ r * pts.length) (q : List (K × K)) (h : fromRatio pts th r = .ok q) : q.length = ⌊r * pts.length⌋₊ := by
  obtain ⟨th', hb, hl, -⟩ := thresholds_facts pts h2
  rw [hth] at hb
  obtain rfl := Except.ok.inj hb
  obtain ⟨h0, h1, n, hn, rfl⟩ := fromRatio_ok pts th r q h hl
  have hn2 : 2 ≤ n := by rw [hn]; exact Nat.le_floor (by exact_mod_cast hr)
  rw [← hn]
  have hz : (pts.map Prod.fst).zip (pts.map Prod.snd) = pts := (List.zip_of_prod rfl rfl).symm
  rcases Nat.lt_or_ge n pts.length with hlt | hge
  · obtain ⟨m, hm, hr', -, hth', -⟩ := reduce_mask n (⟨pts.map Prod.fst, pts.map Prod.snd, pts.map Prod.fst⟩ : Geometry K)
      ⟨by simp, by simp⟩
    have hx := C15_exact n hn2 (⟨pts.map Prod.fst, pts.map Prod.snd, pts.map Prod.fst⟩ : Geometry K) _ ⟨by simp, by simp⟩ th
      (by simp only [hz]; exact hth) (by simpa using hdist) hr' (by simpa using hlt)
    obtain ⟨th', hb', hf⟩ := hth' (by simpa using hlt) (by simpa using h2)
    simp only [hz] at hb'
    rw [hth] at hb'
    obtain rfl := Except.ok.inj hb'
    unfold fromNumber
    rw [hf]
    simp only at hx ⊢
    rw [maskSelect_map, List.length_map] at hx
    exact hx
  · have hle : n ≤ pts.length := by
      rw [hn]
      refine Nat.floor_le_of_le ?_
      exact mul_le_of_le_one_left (by positivity) h1
    have e : fromNumberIndex th (n : Int) = none := by
      unfold fromNumberIndex pyIndex
      rw [if_pos (by omega), if_neg (by omega)]
    unfold fromNumber
    rw [e]
    exact le_antisymm hge hle

/-- **C169, refused.** Only a share above zero and up to one is accepted. -/
theorem C169_refused (pts : List (K × K)) (th : List (WithTop K)) (r : K) :
    fromRatio pts th r = .error .valueError ↔ ¬ (0 < r ∧ r ≤ 1) := by
  unfold fromRatio
  by_cases hr : r ≤ 0 ∨ 1 < r
  · rw [if_pos hr]
    refine ⟨fun _ h => ?_, fun _ => rfl⟩
    rcases hr with hr | hr
    · exact absurd h.1 (not_lt.2 hr)
    · exact absurd h.2 (not_le.2 hr)
  · rw [if_neg hr]
    refine ⟨fun h => (by cases h), fun h => absurd ⟨not_le.1 fun e => hr (.inl e), not_lt.1 fun e => hr (.inr e)⟩ h⟩

/-- **C169, violated.** A share of less than two points leaves no points at all, not even the ends of the line. -/
theorem C169_empty_violated (pts : List (K × K)) (h2 : 2 ≤ pts.length) (th : List (WithTop K)) (hth : buildThresholds pts = .ok th)
    (r : K) (h0 : 0 < r) (h1 : r ≤ 1) (hr : r * pts.length < 2) : fromRatio pts th r = .ok [] := by
  obtain ⟨th', hb, hl, hhead, hlast, hfin⟩ := thresholds_facts pts h2
  rw [hth] at hb
  obtain rfl := Except.ok.inj hb
  unfold fromRatio
  rw [if_neg (by rintro (h | h); exact absurd h0 (not_lt.2 h); exact absurd h1 (not_le.2 h)), hl,
    ← Int.natCast_floor_eq_floor (by positivity)]
  have hn : ⌊r * (pts.length : K)⌋₊ < 2 := by
    rw [Nat.floor_lt (by positivity)]
    exact_mod_cast hr
  generalize ⌊r * (pts.length : K)⌋₊ = n at hn
  unfold fromNumber
  rw [fromNumberIndex_nat th n (by omega)]
  simp only
  have htop : (orderedThresholds th)[n]'(by rw [orderedThresholds_length]; omega) = ⊤ := by
    by_contra hne
    -- at least two values are infinite
    have hc : 2 ≤ th.count (⊤ : WithTop K) := by
      match th, hl with
      | [], hl => simp at hl; omega
      | [a], hl => simp at hl; omega
      | a :: b :: l, _ =>
        have ha : a = ⊤ := by simpa using hhead
        have hb : (⊤ : WithTop K) ∈ b :: l := by
          have : (b :: l).getLast? = some ⊤ := by simpa [List.getLast?_cons_cons] using hlast
          exact List.mem_of_getLast? this
        have := List.count_pos_iff.2 hb
        rw [ha, List.count_cons_self]
        omega
    rw [← (orderedThresholds_perm th).count_eq] at hc
    have hs := orderedThresholds_sorted th
    -- behind position `n` there are only smaller values
    have hsplit := List.take_append_drop n (orderedThresholds th)
    have hd : ((orderedThresholds th).drop n).count ⊤ = 0 := by
      rw [List.count_eq_zero]
      intro hm
      rw [List.mem_iff_getElem] at hm
      obtain ⟨j, hj, he⟩ := hm
      rw [List.getElem_drop] at he
      rcases Nat.eq_zero_or_pos j with rfl | hj0
      · exact hne (by simpa using he)
      · have := List.pairwise_iff_getElem.1 hs n (n + j) (by rw [orderedThresholds_length]; omega)
          (by simp at hj; omega) (by omega)
        rw [he, top_le_iff] at this
        exact hne this
    rw [← hsplit, List.count_append, hd] at hc
    have := List.count_le_length (a := (⊤ : WithTop K)) (l := (orderedThresholds th).take n)
    rw [List.length_take] at this
    omega
  rw [htop]
  congr 1
  rw [← List.length_eq_zero_iff, maskSelect_length _ _ (by simp [hl]), List.count_eq_zero]
  simp

/-- A third of six points is two, half of them three, and a tenth none. -/
example : (∃ th, buildThresholds samplePoints = .ok th ∧
    (interior (List.range samplePoints.length)).Pairwise (fun i j => th[i]? ≠ th[j]?) ∧
    (fromRatio samplePoints th (1 / 3)).toOption = some [(0, 0), (5, 11)] ∧
    (fromRatio samplePoints th (1 / 2)).toOption = some [(0, 0), (1, 5), (5, 11)] ∧
    (fromRatio samplePoints th 1).toOption = some samplePoints ∧
    (fromRatio samplePoints th (1 / 10)).toOption = some []) :=
  ⟨[⊤, ((7 : ℚ) : WithTop ℚ), ((1 / 2 : ℚ) : WithTop ℚ), ((4 : ℚ) : WithTop ℚ), ((3 / 2 : ℚ) : WithTop ℚ), ⊤],
    by decide +kernel, by decide +kernel, by decide +kernel, by decide +kernel, by decide +kernel, by decide +kernel⟩

end C169

end Fm2prof.Props

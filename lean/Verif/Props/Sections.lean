import Mathlib.Algebra.Order.Field.Rat
import Mathlib.Data.Rat.Floor
import Verif.Proofs.Build
import Verif.Spec.Sections

/-!
# Properties of sections: C17, C18, C19, C20
-/

set_option linter.unusedSectionVars false

namespace Fm2prof.Props

open Fm2prof Spec

variable {K : Type} [Field K] [LinearOrder K] [IsStrictOrderedRing K]

private theorem sectionArea_eq (faces : List (SectionFace K)) (n : Int) :
    sectionArea faces n = (faces.map fun f => if f.label.is n then f.area else 0).sum := by
  unfold sectionArea
  induction faces with
  | nil => rfl
  | cons f fs ih =>
    rw [List.map_cons, List.sum_cons, ← ih]
    by_cases h : f.label.is n
    · rw [List.filter_cons, if_pos h, List.map_cons, List.sum_cons, if_pos h]
    · rw [List.filter_cons, if_neg h, if_neg h, zero_add]

private theorem floorCm_le [FloorRing K] (x : K) : floorCm x ≤ x := by
  unfold floorCm
  rw [div_le_iff₀ (by norm_num)]
  exact Int.floor_le _

private theorem lt_floorCm [FloorRing K] (x : K) : x < floorCm x + 1 / 100 := by
  unfold floorCm
  have := Int.lt_floor_add_one (x * 100)
  rw [← add_div, lt_div_iff₀ (by norm_num)]
  exact this

/-- The outcome in one formula. -/
private theorem computeSectionWidths_ok [FloorRing K] (length : K) (faces : List (SectionFace K)) (flow raw : List K)
    (w : SectionWidths K) (h : computeSectionWidths length faces flow raw = .ok w) :
    ∃ top bottom w₀ main₁ shift, flow.getLast? = some top ∧ raw.head? = some bottom ∧
      w₀ = initialSectionWidths length faces ∧
      main₁ = w₀.main + max 0 (top - sumOfWidths w₀) ∧ shift = min 0 (floorCm (main₁ - bottom) - 1 / 10) ∧
      w = ⟨main₁ - shift, w₀.floodplain1 + shift, w₀.floodplain2⟩ := by
  unfold computeSectionWidths coverFlowWidth at h
  cases hf : flow.getLast? with
  | none => rw [hf] at h; cases h
  | some top =>
    rw [hf] at h
    simp only at h
    set w₀ := initialSectionWidths length faces with hw₀
    have key : ∀ w₁ : SectionWidths K, w₁ = ⟨w₀.main + max 0 (top - sumOfWidths w₀), w₀.floodplain1, w₀.floodplain2⟩ →
        coverBottom raw w₁ = .ok w →
        ∃ top' bottom w₀' main₁ shift, some top = some top' ∧ raw.head? = some bottom ∧ w₀' = w₀ ∧
          main₁ = w₀'.main + max 0 (top' - sumOfWidths w₀') ∧ shift = min 0 (floorCm (main₁ - bottom) - 1 / 10) ∧
          w = ⟨main₁ - shift, w₀'.floodplain1 + shift, w₀'.floodplain2⟩ := by
      intro w₁ h1 h2
      unfold coverBottom at h2
      cases hr : raw.head? with
      | none => rw [hr] at h2; cases h2
      | some bottom =>
        rw [hr] at h2
        refine ⟨top, bottom, w₀, _, _, rfl, rfl, rfl, rfl, rfl, ?_⟩
        simp only at h2
        split at h2
        · rename_i hlt
          obtain rfl := Except.ok.inj h2
          subst h1
          simp only at hlt ⊢
          rw [min_eq_right hlt.le]
        · rename_i hge
          obtain rfl := Except.ok.inj h2
          subst h1
          simp only at hge ⊢
          rw [min_eq_left (not_lt.1 hge), sub_zero, add_zero]
    by_cases hd : 0 < top - (w₀.main + w₀.floodplain1 + w₀.floodplain2)
    · rw [if_pos hd] at h
      refine key _ ?_ h
      rw [max_eq_right (by unfold sumOfWidths; exact hd.le)]; rfl
    · rw [if_neg hd] at h
      refine key _ ?_ h
      rw [max_eq_left (by unfold sumOfWidths; exact not_lt.1 hd), add_zero]

section C17

/-- **C17.** The section widths add up to the flow width at the top or more, and the main section is at least 10 cm
wider than the flow width at the bottom. -/
theorem C17_sections_cover [FloorRing K] (length : K) (faces : List (SectionFace K)) (flow raw : List K)
    (w : SectionWidths K) (h : computeSectionWidths length faces flow raw = .ok w) :
    ∃ top bottom, flow.getLast? = some top ∧ raw.head? = some bottom ∧
      top ≤ sumOfWidths w ∧ bottom + 1 / 10 ≤ w.main := by
  obtain ⟨top, bottom, w₀, m, s, ht, hb, _, hm, hs, rfl⟩ := computeSectionWidths_ok length faces flow raw w h
  refine ⟨top, bottom, ht, hb, ?_, ?_⟩
  · have := le_max_right 0 (top - sumOfWidths w₀)
    unfold sumOfWidths at this hm ⊢
    simp only
    linarith
  · have h1 := floorCm_le (m - bottom)
    have h2 := min_le_right 0 (floorCm (m - bottom) - 1 / 10)
    simp only
    linarith

/-- **C17.** The sum is exactly what it was before the corrections, or the flow width at the top if that is more; the
second floodplain keeps its width. -/
theorem C17_sum [FloorRing K] (length : K) (faces : List (SectionFace K)) (flow raw : List K)
    (w : SectionWidths K) (h : computeSectionWidths length faces flow raw = .ok w) (top : K)
    (ht : flow.getLast? = some top) :
    sumOfWidths w = max (sumOfWidths (initialSectionWidths length faces)) top ∧
      w.floodplain2 = (initialSectionWidths length faces).floodplain2 := by
  obtain ⟨top', bottom, w₀, m, s, ht', hb, hw, hm, hs, rfl⟩ := computeSectionWidths_ok length faces flow raw w h
  rw [ht] at ht'
  obtain rfl := Option.some.inj ht'
  rw [← hw]
  refine ⟨?_, rfl⟩
  rcases le_total top (sumOfWidths w₀) with hle | hle
  · rw [max_eq_left (sub_nonpos.2 hle), add_zero] at hm
    rw [max_eq_left hle, hm]
    unfold sumOfWidths; simp only; ring
  · rw [max_eq_right (sub_nonneg.2 hle)] at hm
    rw [max_eq_right hle, hm]
    unfold sumOfWidths; simp only; ring

/-- **C17.** No more width than needed is moved: a main section that is wide enough is not touched by the second check,
and one that is not ends up less than 11 cm wider than the bottom. -/
theorem C17_moves_no_more_than_needed [FloorRing K] (raw : List K) (bottom : K) (hb : raw.head? = some bottom)
    (w w' : SectionWidths K) (h : coverBottom raw w = .ok w') :
    (bottom + 1 / 10 ≤ w.main → w' = w) ∧ (w.main < bottom + 1 / 10 → w'.main < bottom + 11 / 100) := by
  unfold coverBottom at h
  rw [hb] at h
  simp only at h
  have h2 := lt_floorCm (w.main - bottom)
  have h1 := floorCm_le (w.main - bottom)
  constructor
  · intro hge
    have : ¬ floorCm (w.main - bottom) - 1 / 10 < 0 := by
      rw [not_lt, sub_nonneg]
      unfold floorCm
      have h10 : (10 : Int) ≤ ⌊(w.main - bottom) * 100⌋ := by
        rw [Int.le_floor]; push_cast; linarith
      have : (10 : K) ≤ (⌊(w.main - bottom) * 100⌋ : K) := by exact_mod_cast h10
      rw [le_div_iff₀ (by norm_num)]
      linarith
    rw [if_neg this] at h
    exact (Except.ok.inj h).symm
  · intro hlt
    have hlt' : floorCm (w.main - bottom) - 1 / 10 < 0 := by linarith
    rw [if_pos hlt'] at h
    obtain rfl := Except.ok.inj h
    simp only
    linarith

/-- **C17.** The widths can be computed exactly when both profiles have points. -/
theorem C17_defined_iff [FloorRing K] (length : K) (faces : List (SectionFace K)) (flow raw : List K) :
    (∃ w, computeSectionWidths length faces flow raw = .ok w) ↔ flow ≠ [] ∧ raw ≠ [] := by
  constructor
  · rintro ⟨w, h⟩
    obtain ⟨top, bottom, ht, hb, _⟩ := C17_sections_cover length faces flow raw w h
    constructor
    · rintro rfl; cases ht
    · rintro rfl; cases hb
  · rintro ⟨hf, hr⟩
    obtain ⟨top, ht⟩ : ∃ top, flow.getLast? = some top := ⟨_, List.getLast?_eq_some_getLast hf⟩
    obtain ⟨bottom, hb⟩ : ∃ b, raw.head? = some b := ⟨_, List.head?_eq_some_head hr⟩
    have h1 : ∃ w, coverFlowWidth flow (initialSectionWidths length faces) = .ok w := by
      unfold coverFlowWidth
      rw [ht]
      simp only
      split
      · exact ⟨_, rfl⟩
      · exact ⟨_, rfl⟩
    obtain ⟨w, hw⟩ := h1
    unfold computeSectionWidths coverBottom
    rw [hw, hb]
    simp only
    split
    · exact ⟨_, rfl⟩
    · exact ⟨_, rfl⟩

/-- A channel with a floodplain. -/
def twoSections : List (SectionFace ℚ) :=
  [⟨100, some 0, .num 1⟩, ⟨50, some 1, .num (-999)⟩, ⟨200, some 3, .num 2⟩, ⟨60, some 5, .num 2⟩]

example : computeSectionWidths 10 twoSections [15, 45] [15, 45] = .ok ⟨19, 26, 0⟩ := by decide +kernel
example : computeSectionWidths 10 twoSections [15, 41] [15 - 1 / 200, 41] =
    .ok ⟨15 + 1 / 10, 26 - 1 / 10, 0⟩ := by decide +kernel

end C17

section C18

/-- **C18 is violated.** A channel without floodplain that is as wide at the bottom as at the top gets a negative
floodplain width. -/
theorem C18_negative_width_violated : ∃ (length : ℚ) (faces : List (SectionFace ℚ)) (flow : List ℚ)
    (w : SectionWidths ℚ), 0 < length ∧ (∀ f ∈ faces, 0 ≤ f.area) ∧ (∀ x ∈ flow, 0 < x) ∧
      computeSectionWidths length faces flow flow = .ok w ∧ w.floodplain1 < 0 := by
  exact ⟨10, [⟨100, some 0, .num 1⟩], [10, 10], ⟨10 + 1 / 10, -1 / 10, 0⟩, by decide +kernel, by decide +kernel,
    by decide +kernel, by decide +kernel, by decide +kernel⟩

/-- **C18 (partial).** Missing: profiles whose main section is too narrow and whose floodplain cannot give it the
missing width. Main and second floodplain are never negative; the first floodplain is not either if main and first
floodplain together exceed the bottom width by 11 cm or main alone by 10 cm. -/
theorem C18_nonnegative_partial [FloorRing K] (length : K) (hl : 0 < length) (faces : List (SectionFace K))
    (hA : ∀ f ∈ faces, 0 ≤ f.area) (flow raw : List K) (hpos : ∀ x ∈ raw, 0 ≤ x) (w : SectionWidths K)
    (h : computeSectionWidths length faces flow raw = .ok w) :
    0 ≤ w.main ∧ 0 ≤ w.floodplain2 ∧
      ∀ bottom, raw.head? = some bottom →
        (bottom + 1 / 10 ≤ (initialSectionWidths length faces).main ∨
          bottom + 11 / 100 ≤ (initialSectionWidths length faces).main +
            (initialSectionWidths length faces).floodplain1) → 0 ≤ w.floodplain1 := by
  have hnn : ∀ n, 0 ≤ sectionArea faces n := by
    intro n
    refine List.sum_nonneg fun x hx => ?_
    obtain ⟨f, hf, rfl⟩ := List.mem_map.1 hx
    exact hA f (List.mem_filter.1 hf).1
  obtain ⟨top, bottom, w₀, m, s, ht, hb, hw, hm, hs, rfl⟩ := computeSectionWidths_ok length faces flow raw w h
  have hm0 : 0 ≤ w₀.main := by rw [hw]; exact div_nonneg (add_nonneg (hnn _) (hnn _)) hl.le
  have hf1 : 0 ≤ w₀.floodplain1 := by rw [hw]; exact div_nonneg (hnn _) hl.le
  have hf2 : 0 ≤ w₀.floodplain2 := by rw [hw]; exact div_nonneg (hnn _) hl.le
  have hmax := le_max_left 0 (top - sumOfWidths w₀)
  have hs0 : s ≤ 0 := by rw [hs]; exact min_le_left _ _
  have hlo := lt_floorCm (m - bottom)
  refine ⟨?_, hf2, ?_⟩
  · simp only; linarith
  · intro b' hb' hor
    rw [hb] at hb'
    obtain rfl := Option.some.inj hb'
    rw [← hw] at hor
    show 0 ≤ w₀.floodplain1 + s
    rcases le_total 0 (floorCm (m - bottom) - 1 / 10) with hc | hc
    · rw [min_eq_left hc] at hs; linarith
    · rw [min_eq_right hc] at hs
      rcases hor with hor | hor
      · have h10 : (10 : Int) ≤ ⌊(m - bottom) * 100⌋ := by
          rw [Int.le_floor]; push_cast; linarith
        have : (10 : K) ≤ (⌊(m - bottom) * 100⌋ : K) := by exact_mod_cast h10
        have : (1 / 10 : K) ≤ floorCm (m - bottom) := by
          unfold floorCm
          rw [le_div_iff₀ (by norm_num)]
          linarith
        linarith
      · linarith

example : (0 : ℚ) < 10 ∧ (∀ f ∈ twoSections, 0 ≤ f.area) ∧
    (15 : ℚ) + 11 / 100 ≤ (initialSectionWidths 10 twoSections).main + (initialSectionWidths 10 twoSections).floodplain1 := by
  decide +kernel

end C18

section C19

private theorem is_iff_num (l : SectionLabel) (n : Int) : l.is n = true ↔ l = .num n := by
  cases l <;> simp [SectionLabel.is]

/-- **C19 (partial).** Missing: named labels. When every face carries one of the numbers 1, 2, 3 and -999, width times
length of every section is the area labelled with it, and the three add up to the whole control volume. -/
theorem C19_areas_partial (length : K) (hl : 0 < length) (faces : List (SectionFace K))
    (hlab : ∀ f ∈ faces, f.label = .num 1 ∨ f.label = .num 2 ∨ f.label = .num 3 ∨ f.label = .num (-999)) :
    (initialSectionWidths length faces).main * length = areaLabelled faces .main ∧
    (initialSectionWidths length faces).floodplain1 * length = areaLabelled faces .floodplain1 ∧
    (initialSectionWidths length faces).floodplain2 * length = areaLabelled faces .floodplain2 ∧
    sumOfWidths (initialSectionWidths length faces) * length = (faces.map (·.area)).sum := by
  have hne := hl.ne'
  have h1 : sectionArea faces 1 + sectionArea faces (-999) = areaLabelled faces .main := by
    rw [sectionArea_eq, sectionArea_eq, areaLabelled, ← List.sum_map_add]
    congr 1
    refine List.map_congr_left fun f hf => ?_
    rcases hlab f hf with h | h | h | h <;> rw [h] <;> simp [SectionLabel.is, meaning]
  have h2 : sectionArea faces 2 = areaLabelled faces .floodplain1 := by
    rw [sectionArea_eq, areaLabelled]
    congr 1
    refine List.map_congr_left fun f hf => ?_
    rcases hlab f hf with h | h | h | h <;> rw [h] <;> simp [SectionLabel.is, meaning]
  have h3 : sectionArea faces 3 = areaLabelled faces .floodplain2 := by
    rw [sectionArea_eq, areaLabelled]
    congr 1
    refine List.map_congr_left fun f hf => ?_
    rcases hlab f hf with h | h | h | h <;> rw [h] <;> simp [SectionLabel.is, meaning]
  unfold initialSectionWidths sumOfWidths
  simp only
  rw [h1, h2, h3]
  refine ⟨div_mul_cancel₀ _ hne, div_mul_cancel₀ _ hne, div_mul_cancel₀ _ hne, ?_⟩
  rw [add_mul, add_mul, div_mul_cancel₀ _ hne, div_mul_cancel₀ _ hne, div_mul_cancel₀ _ hne]
  unfold areaLabelled
  rw [← List.sum_map_add, ← List.sum_map_add]
  congr 1
  refine List.map_congr_left fun f hf => ?_
  rcases hlab f hf with h | h | h | h <;> rw [h] <;> simp [meaning]

/-- **C19.** What happens with named labels, for every control volume: all three widths start at zero and the profile
becomes main section only, whatever the names say. -/
theorem C19_named_labels_ignored [FloorRing K] (length : K) (faces : List (SectionFace K))
    (hlab : ∀ f ∈ faces, ∃ s, f.label = .name s) (flow raw : List K) (w : SectionWidths K) (top bottom : K)
    (ht : flow.getLast? = some top) (hb : raw.head? = some bottom) (hpos : 0 ≤ top) (hwide : bottom + 1 / 10 ≤ top)
    (h : computeSectionWidths length faces flow raw = .ok w) : w = ⟨top, 0, 0⟩ := by
  have hz : ∀ n, sectionArea faces n = 0 := by
    intro n
    rw [sectionArea_eq]
    refine List.sum_eq_zero fun x hx => ?_
    obtain ⟨f, hf, rfl⟩ := List.mem_map.1 hx
    obtain ⟨s, hs⟩ := hlab f hf
    rw [hs]; simp [SectionLabel.is]
  obtain ⟨top', bottom', w₀, m, s, ht', hb', hw, hm, hs, rfl⟩ := computeSectionWidths_ok length faces flow raw w h
  rw [ht] at ht'; rw [hb] at hb'
  obtain rfl := Option.some.inj ht'
  obtain rfl := Option.some.inj hb'
  have hw0 : w₀ = ⟨0, 0, 0⟩ := by
    rw [hw]; unfold initialSectionWidths; simp [hz]
  rw [hw0] at hm
  have hm' : m = top := by rw [hm]; simp [sumOfWidths, hpos]
  have hs' : s = 0 := by
    rw [hs, hm']
    have h10 : (10 : Int) ≤ ⌊(top - bottom) * 100⌋ := by
      rw [Int.le_floor]; push_cast; linarith
    have : (10 : K) ≤ (⌊(top - bottom) * 100⌋ : K) := by exact_mod_cast h10
    have : (1 / 10 : K) ≤ floorCm (top - bottom) := by
      unfold floorCm
      rw [le_div_iff₀ (by norm_num)]
      linarith
    exact min_eq_left (by linarith)
  rw [hw0, hm', hs']
  simp

/-- **C19 is violated.** With named labels, as section polygons give, a floodplain of 200 square metres has no
width. -/
theorem C19_named_labels_violated : ∃ (length : ℚ) (faces : List (SectionFace ℚ)), 0 < length ∧
    areaLabelled faces .floodplain1 = 200 ∧ (initialSectionWidths length faces).floodplain1 = 0 :=
  ⟨10, [⟨100, some 0, .name "main"⟩, ⟨200, some 3, .name "floodplain1"⟩], by decide +kernel⟩

example : ∀ f ∈ twoSections, f.label = .num 1 ∨ f.label = .num 2 ∨ f.label = .num 3 ∨ f.label = .num (-999) := by
  decide +kernel
example : computeSectionWidths (10 : ℚ) [⟨100, some 0, .name "main"⟩, ⟨200, some 3, .name "floodplain1"⟩] [15, 45]
    [15, 45] = .ok ⟨45, 0, 0⟩ := by decide +kernel

end C19

section C20

/-- **C20.** The floodplain base is at most the crest level minus the tolerance. -/
theorem C20_below_crest (crest tol : K) (faces : List (SectionFace K)) (b : K)
    (h : floodplainBase (some crest) tol faces = some b) : b ≤ crest - tol := by
  unfold floodplainBase at h
  simp only [Option.map_some] at h
  split at h
  · exact (Option.some.inj h).symm.le
  · split at h
    · rename_i c m hc hm
      obtain rfl := Option.some.inj hc
      split at h
      · exact (Option.some.inj h).symm.le
      · rename_i hle
        obtain rfl := Option.some.inj h
        exact not_lt.1 hle
    · rename_i hno
      exact absurd h (by intro hm; exact hno _ _ rfl hm)

private theorem floodplain_filter (faces : List (SectionFace K))
    (hlab : ∀ f ∈ faces, ∃ n, f.label = .num n) :
    present ((faces.filter fun f => f.label.is 2).map (·.bed)) = floodplainBeds faces := by
  unfold present floodplainBeds
  induction faces with
  | nil => rfl
  | cons f fs ih =>
    have ih := ih fun g hg => hlab g (List.mem_cons_of_mem _ hg)
    obtain ⟨n, hn⟩ := hlab f (by simp)
    by_cases h2 : n = 2
    · subst h2
      rw [List.filter_cons_of_pos (by rw [hn]; rfl), List.map_cons, List.filterMap_cons, List.filterMap_cons, ih, hn]
      simp [meaning]
    · have hm : meaning (.num n) ≠ some .floodplain1 := by
        unfold meaning
        split <;> simp_all
      rw [List.filter_cons_of_neg (by rw [hn]; simpa [SectionLabel.is] using h2), List.filterMap_cons, ih, hn,
        if_neg hm]

/-- **C20 (partial).** Missing: named labels, and floodplains without any known bed level. With numbered labels the
base is the mean bed level of the floodplain when that is low enough, and the crest minus the tolerance otherwise or
when there is no floodplain. -/
theorem C20_value_partial (crest tol : K) (faces : List (SectionFace K)) (hlab : ∀ f ∈ faces, ∃ n, f.label = .num n) :
    ((∀ f ∈ faces, meaning f.label ≠ some .floodplain1) → floodplainBase (some crest) tol faces = some (crest - tol)) ∧
    (floodplainBeds faces ≠ [] →
      floodplainBase (some crest) tol faces = some (min (mean (floodplainBeds faces)) (crest - tol))) := by
  constructor
  · intro hno
    have : faces.filter (fun f => f.label.is 2) = [] := by
      rw [List.filter_eq_nil_iff]
      intro f hf h2
      rw [is_iff_num] at h2
      exact hno f hf (by rw [h2]; rfl)
    unfold floodplainBase
    rw [this]; rfl
  · intro hne
    unfold floodplainBase
    have hp := floodplain_filter faces hlab
    cases hf : faces.filter (fun f => f.label.is 2) with
    | nil => rw [hf] at hp; exact absurd hp.symm hne
    | cons f fs =>
      rw [hf] at hp
      simp only [Option.map_some]
      rw [nanmean_eq, hp, if_neg hne]
      simp only
      by_cases hlt : crest - tol < mean (floodplainBeds faces)
      · rw [if_pos hlt, min_eq_right hlt.le]
      · rw [if_neg hlt, min_eq_left (not_lt.1 hlt)]

/-- **C20 is violated.** A floodplain labelled by name is not seen: its mean bed level is low enough but not used. -/
theorem C20_named_labels_violated : ∃ (crest tol : ℚ) (faces : List (SectionFace ℚ)),
    floodplainBeds faces ≠ [] ∧ mean (floodplainBeds faces) < crest - tol ∧
      floodplainBase (some crest) tol faces = some (crest - tol) ∧
      floodplainBase (some crest) tol faces ≠ some (mean (floodplainBeds faces)) :=
  ⟨8, 1 / 2, [⟨100, some 0, .name "main"⟩, ⟨200, some 3, .name "floodplain1"⟩], by decide +kernel⟩

/-- **C20 is violated.** Without any known bed level in the floodplain the base is missing altogether. -/
theorem C20_unknown_beds_violated : ∃ (crest tol : ℚ) (faces : List (SectionFace ℚ)),
    floodplainBase (some crest) tol faces = none :=
  ⟨8, 1 / 2, [⟨100, some 0, .num 1⟩, ⟨200, none, .num 2⟩], by decide +kernel⟩

example : floodplainBase (some (9 : ℚ)) (1 / 2) twoSections = some 4 ∧
    floodplainBase (some (4 : ℚ)) (1 / 2) twoSections = some (7 / 2) := by decide +kernel
example : floodplainBeds twoSections = [3, 5] ∧ (∀ f ∈ twoSections, f.label ≠ .name "main") := by decide +kernel

end C20

section C170

variable [FloorRing K]

/-- **C170, partial.** The alluvial width of a cross-section is the width of its main section. Missing: the other width, see
`C170_nonalluvial_violated`. -/
theorem C170_alluvial_partial (w : SectionWidths K) : alluvialWidth w = w.main := rfl

/-- **C170, violated.** The width of the floodplain cannot be asked for: the non-alluvial width is zero for every cross-section, because
the names it looks for are not those of the sections. -/
theorem C170_nonalluvial_violated (length : K) (faces : List (SectionFace K)) (flowWidth rawFlowWidth : List K) (w : SectionWidths K)
    (_ : computeSectionWidths length faces flowWidth rawFlowWidth = .ok w) (hf : w.floodplain1 ≠ 0) :
    nonalluvialWidth w = 0 ∧ nonalluvialWidth w ≠ w.floodplain1 := by
  have h : nonalluvialWidth w = 0 := rfl
  exact ⟨h, fun e => hf (by rw [← e, h])⟩

/-- A cross-section with a floodplain. -/
example : ∃ w, computeSectionWidths (10 : ℚ) twoSections [10, 60] [10, 60] = .ok w ∧ w.floodplain1 ≠ 0 ∧ nonalluvialWidth w = 0 := by
  cases h : computeSectionWidths (10 : ℚ) twoSections [10, 60] [10, 60] with
  | error e =>
    have : (computeSectionWidths (10 : ℚ) twoSections [10, 60] [10, 60]).toOption.isSome = true := by decide +kernel
    rw [h] at this
    cases this
  | ok w =>
    refine ⟨w, rfl, ?_, rfl⟩
    have : (computeSectionWidths (10 : ℚ) twoSections [10, 60] [10, 60]).toOption.map (fun w => decide (w.floodplain1 ≠ 0)) = some true := by
      decide +kernel
    rw [h] at this
    simpa using Option.some.inj this

end C170

end Fm2prof.Props

import Mathlib.Data.List.TakeWhile
import Verif.Props.Simplify

/-!
# C204: simplifying a line by importance
-/

set_option linter.unusedSectionVars false

namespace Fm2prof.Props

open Fm2prof Fm2prof.Spec

variable {K : Type} [Field K] [LinearOrder K] [IsStrictOrderedRing K]

/-- **C204.** Simplifying a line by any threshold gives points of the line in order, and the first and the last point remain. A higher
threshold gives some of the points of a lower one. A threshold that is not above the area of any triangle of the elimination gives the
line itself. -/
theorem C204_points (pts : List (K × K)) (h2 : 2 ≤ pts.length) (th : List (WithTop K)) (hth : buildThresholds pts = .ok th)
    (t : WithTop K) :
    (maskSelect (fromThreshold th t) pts).Sublist pts ∧
    (maskSelect (fromThreshold th t) pts).head? = pts.head? ∧
    (maskSelect (fromThreshold th t) pts).getLast? = pts.getLast? ∧
    (∀ t', t ≤ t' → (maskSelect (fromThreshold th t') pts).Sublist (maskSelect (fromThreshold th t) pts)) ∧
    ((∀ a ∈ th, t ≤ a) → maskSelect (fromThreshold th t) pts = pts) := by
  obtain ⟨th', _, hb, hl, -, -, hhead, hlast, -⟩ := C16_terminates_and_eliminates pts h2
  rw [hth] at hb
  obtain rfl := Except.ok.inj hb
  refine ⟨maskSelect_sublist _ _, maskSelect_head? _ _ ?_, maskSelect_getLast? _ _ ?_ ?_, fun t' ht => ?_, fun h => ?_⟩
  · unfold fromThreshold; rw [List.head?_map, hhead]; simp
  · unfold fromThreshold; rw [List.length_map, hl]
  · unfold fromThreshold; rw [List.getLast?_map, hlast]; simp
  · clear hth hb hl hhead hlast h2
    unfold fromThreshold
    induction th generalizing pts with
    | nil => simp
    | cons a th ih =>
      cases pts with
      | nil => simp
      | cons p pts =>
        rw [List.map_cons, List.map_cons]
        by_cases h1 : t' ≤ a
        · rw [decide_eq_true h1, decide_eq_true (ht.trans h1), maskSelect_cons_true, maskSelect_cons_true]
          exact (ih pts).cons_cons p
        · rw [decide_eq_false h1, maskSelect_cons_false]
          by_cases h3 : t ≤ a
          · rw [decide_eq_true h3, maskSelect_cons_true]; exact (ih pts).cons p
          · rw [decide_eq_false h3, maskSelect_cons_false]; exact ih pts
  · have e : fromThreshold th t = List.replicate pts.length true := by
      unfold fromThreshold
      rw [← hl, List.eq_replicate_iff]
      refine ⟨List.length_map _, fun b hb => ?_⟩
      obtain ⟨a, ha, rfl⟩ := List.mem_map.1 hb
      exact decide_eq_true (h a ha)
    rw [e, maskSelect_replicate_true]

/-- **C204, which points.** The points that disappear are the first ones of a Visvalingam-Whyatt elimination, as long as the importance is
below the threshold. -/
theorem C204_eliminated (pts : List (K × K)) (h2 : 2 ≤ pts.length) (th : List (WithTop K)) (hth : buildThresholds pts = .ok th) :
    ∃ order, Elimination (importance pts) (List.range pts.length) (startImportance pts) order (fun i => th.getD i ⊤) ∧
      ∀ (t : WithTop K) (i : Nat), i < pts.length →
        ((fromThreshold th t)[i]? = some false ↔ i ∈ order.takeWhile fun j => decide (th.getD j ⊤ < t)) := by
  obtain ⟨th', order, hb, hl, hE, hperm, hhead, hlast, -, hsorted⟩ := C16_terminates_and_eliminates pts h2
  rw [hth] at hb
  obtain rfl := Except.ok.inj hb
  refine ⟨order, hE, fun t i hi => ?_⟩
  have hmask : (fromThreshold th t)[i]? = some false ↔ th.getD i ⊤ < t := by
    unfold fromThreshold
    rw [List.getElem?_map, List.getElem?_eq_getElem (by omega), Option.map_some, Option.some_inj, decide_eq_false_iff_not, not_le,
      List.getD_eq_getElem _ _ (by omega)]
  have htake : ∀ (l : List Nat), (l.map fun j => th.getD j ⊤).Pairwise (· ≤ ·) → ∀ j ∈ l, th.getD j ⊤ < t →
      j ∈ l.takeWhile fun j => decide (th.getD j ⊤ < t) := by
    intro l hl
    induction l with
    | nil => intro j hj; cases hj
    | cons a l ih =>
      intro j hj hlt
      rw [List.map_cons, List.pairwise_cons] at hl
      have ha : th.getD a ⊤ < t := by
        rcases List.mem_cons.1 hj with rfl | hj
        · exact hlt
        · exact (hl.1 _ (List.mem_map_of_mem hj)).trans_lt hlt
      rw [List.takeWhile_cons_of_pos (by simpa using ha)]
      rcases List.mem_cons.1 hj with rfl | hj
      · exact List.mem_cons_self
      · exact List.mem_cons_of_mem _ (ih hl.2 j hj hlt)
  rw [hmask]
  constructor
  · intro hlt
    refine htake order hsorted i ?_ hlt
    rw [hperm.mem_iff, interior_range]
    have h0 : i ≠ 0 := by
      rintro rfl
      have : th.getD 0 ⊤ = ⊤ := by
        rw [List.head?_eq_getElem?] at hhead
        rw [List.getD_eq_getElem?_getD, hhead]; rfl
      rw [this] at hlt
      exact not_top_lt hlt
    have h1 : i ≠ pts.length - 1 := by
      rintro rfl
      have : th.getD (pts.length - 1) ⊤ = ⊤ := by
        rw [List.getLast?_eq_getElem?, hl] at hlast
        rw [List.getD_eq_getElem?_getD, hlast]; rfl
      rw [this] at hlt
      exact not_top_lt hlt
    omega
  · intro h
    have := List.mem_takeWhile_imp h
    exact of_decide_eq_true this

/-- **C204, numbers of points.** Simplifying to a number of points, two or more, is simplifying by a threshold. -/
theorem C204_number (pts : List (K × K)) (h2 : 2 ≤ pts.length) (th : List (WithTop K)) (hth : buildThresholds pts = .ok th) (n : Nat)
    (hn : 2 ≤ n) : ∃ t, fromNumber pts th (n : Int) = maskSelect (fromThreshold th t) pts := by
  obtain ⟨th', _, hb, hl, -, -, hhead, hlast, hfin, -⟩ := C16_terminates_and_eliminates pts h2
  rw [hth] at hb
  obtain rfl := Except.ok.inj hb
  have hmin : ∀ (l : List (WithTop K)), l ≠ [] → ∃ t ∈ l, ∀ a ∈ l, t ≤ a := by
    intro l hl
    refine ⟨l.min hl, List.min_mem hl, fun a ha => List.min_le_of_mem ha⟩
  rcases Nat.lt_or_ge n pts.length with hlt | hge
  · unfold fromNumber
    rw [fromNumberIndex_nat th n (by omega)]
    simp only
    have hs := lt_top_iff_ne_top.2 (sorted_finite th n hn (by omega) (fun i h0 h1 => hfin i h0 (by omega)))
    generalize (orderedThresholds th)[n]'(by rw [orderedThresholds_length]; omega) = s at hs
    have htop : (⊤ : WithTop K) ∈ th := List.mem_of_mem_head? hhead
    obtain ⟨t, ht, hle⟩ := hmin (th.filter fun a => decide (s < a)) (List.ne_nil_of_mem (List.mem_filter.2 ⟨htop, by simpa using hs⟩))
    refine ⟨t, congrArg (maskSelect · pts) ?_⟩
    unfold fromThreshold
    refine List.map_congr_left fun a ha => decide_eq_decide.2 ⟨fun h => hle a (List.mem_filter.2 ⟨ha, by simpa using h⟩), fun h => ?_⟩
    exact (of_decide_eq_true (List.mem_filter.1 ht).2).trans_le h
  · have e : fromNumberIndex th (n : Int) = none := by
      unfold fromNumberIndex pyIndex
      rw [if_pos (by omega), if_neg (by omega)]
    obtain ⟨t, -, hle⟩ := hmin th (List.ne_nil_of_length_pos (by omega))
    refine ⟨t, ?_⟩
    unfold fromNumber
    rw [e]
    exact ((C204_points pts h2 th hth t).2.2.2.2 hle).symm

/-- A line of six points, by a threshold of two and by one that only the ends reach. -/
example : ∃ th, 2 ≤ samplePoints.length ∧ buildThresholds samplePoints = .ok th ∧
    maskSelect (fromThreshold th ((2 : ℚ) : WithTop ℚ)) samplePoints = [(0, 0), (1, 5), (3, 6), (5, 11)] ∧
    maskSelect (fromThreshold th ((8 : ℚ) : WithTop ℚ)) samplePoints = [(0, 0), (5, 11)] ∧
    fromNumber samplePoints th 4 = [(0, 0), (1, 5), (3, 6), (5, 11)] :=
  ⟨[⊤, ((7 : ℚ) : WithTop ℚ), ((1 / 2 : ℚ) : WithTop ℚ), ((4 : ℚ) : WithTop ℚ), ((3 / 2 : ℚ) : WithTop ℚ), ⊤],
    by decide, by decide +kernel, by decide +kernel, by decide +kernel, by decide +kernel⟩

end Fm2prof.Props

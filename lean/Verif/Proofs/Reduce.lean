import Mathlib.Data.List.Count
import Mathlib.Order.Lattice
import Mathlib.Data.List.GetD
import Verif.Proofs.Geometry
import Verif.Proofs.Simplify

/-! Selecting points by threshold. -/

set_option linter.unusedSectionVars false

namespace Fm2prof

open Spec

section Mask
variable {α β : Type}

/-- The positions selected by a mask. -/
def keepOf (m : List Bool) : List Nat := maskSelect m (List.range m.length)

theorem maskSelect_replicate_true (xs : List α) : maskSelect (List.replicate xs.length true) xs = xs := by
  induction xs with
  | nil => rfl
  | cons x xs ih => simp [List.replicate_succ, ih]

theorem keepOf_pairwise (m : List Bool) : (keepOf m).Pairwise (· < ·) :=
  List.Pairwise.sublist (maskSelect_sublist _ _) List.pairwise_lt_range

theorem mem_maskSelect_iff (m : List Bool) (xs : List α) (a : α) :
    a ∈ maskSelect m xs ↔ ∃ i : Nat, m[i]? = some true ∧ xs[i]? = some a := by
  simp only [maskSelect, List.mem_map, List.mem_filter]
  constructor
  · rintro ⟨⟨b, a'⟩, ⟨hmem, hb⟩, rfl⟩
    rw [List.mem_iff_getElem] at hmem
    obtain ⟨i, hi, he⟩ := hmem
    rw [List.getElem_zip] at he
    simp at hi
    simp only [Prod.mk.injEq] at he
    refine ⟨i, ?_, ?_⟩
    · rw [List.getElem?_eq_getElem hi.1, he.1]; simpa using hb
    · rw [List.getElem?_eq_getElem hi.2, he.2]
  · rintro ⟨i, h1, h2⟩
    refine ⟨(true, a), ⟨?_, rfl⟩, rfl⟩
    rw [List.mem_iff_getElem?]
    exact ⟨i, by rw [List.getElem?_zip_eq_some]; exact ⟨h1, h2⟩⟩

theorem mem_keepOf (m : List Bool) (i : Nat) : i ∈ keepOf m ↔ m[i]? = some true := by
  unfold keepOf
  rw [mem_maskSelect_iff]
  constructor
  · rintro ⟨j, h1, h2⟩
    rw [List.getElem?_eq_some_iff] at h2
    obtain ⟨_, h2⟩ := h2
    simp at h2
    rwa [h2] at h1
  · intro h
    refine ⟨i, h, ?_⟩
    rw [List.getElem?_eq_some_iff] at h
    obtain ⟨hi, _⟩ := h
    simp [hi]

theorem maskSelect_eq_keepOf (m : List Bool) (xs : List α) (h : m.length = xs.length) :
    (maskSelect m xs).map some = (keepOf m).map (xs[·]?) := by
  have h1 : (List.range m.length).map (xs[·]?) = xs.map some := by
    apply List.ext_getElem?
    intro i
    rw [List.getElem?_map, List.getElem?_map]
    rcases Nat.lt_or_ge i xs.length with hi | hi
    · simp [h, hi]
    · simp [h, hi]
  unfold keepOf
  rw [← maskSelect_map, ← maskSelect_map, h1]

end Mask

section Select
variable {W : Type} [LinearOrder W]

/-- In a descending list the elements above the `k`-th are among the first `k`. -/
theorem count_gt_le (s : List W) (hs : s.Pairwise (fun a b => b ≤ a)) (k : Nat) (hk : k < s.length) :
    (s.filter (fun a => decide (s[k] < a))).length ≤ k := by
  have h : s.filter (fun a => decide (s[k] < a)) = (s.take k).filter (fun a => decide (s[k] < a)) := by
    have hsplit : ∀ p : W → Bool, s.filter p = (s.take k).filter p ++ (s.drop k).filter p := by
      intro p; rw [← List.filter_append, List.take_append_drop]
    rw [hsplit]
    have : (s.drop k).filter (fun a => decide (s[k] < a)) = [] := by
      rw [List.filter_eq_nil_iff]
      intro a ha
      rw [List.mem_iff_getElem] at ha
      obtain ⟨j, hj, rfl⟩ := ha
      simp only [List.getElem_drop, decide_eq_true_eq, not_lt]
      simp only [List.length_drop] at hj
      rcases Nat.eq_zero_or_pos j with h0 | h0
      · subst h0; simp
      · exact List.pairwise_iff_getElem.1 hs k (k + j) hk (by omega) (by omega)
    rw [this]
    simp
  rw [h]
  exact (List.length_filter_le _ _).trans (by simp)

theorem count_gt_eq (s : List W) (hs : s.Pairwise (fun a b => b ≤ a)) (k : Nat) (hk : k < s.length)
    (hlt : ∀ h : 0 < k, s[k] < s[k - 1]) :
    (s.filter (fun a => decide (s[k] < a))).length = k := by
  refine le_antisymm (count_gt_le s hs k hk) ?_
  have hsub : ((s.take k).filter (fun a => decide (s[k] < a))).Sublist
      (s.filter (fun a => decide (s[k] < a))) := (List.take_sublist k s).filter _
  have hall : (s.take k).filter (fun a => decide (s[k] < a)) = s.take k := by
    rw [List.filter_eq_self]
    intro a ha
    rw [List.mem_iff_getElem] at ha
    obtain ⟨j, hj, rfl⟩ := ha
    simp at hj
    simp only [List.getElem_take, decide_eq_true_eq]
    refine (hlt (by omega)).trans_le ?_
    rcases Nat.lt_or_ge j (k - 1) with h | h
    · exact List.pairwise_iff_getElem.1 hs j (k - 1) (by omega) (by omega) h
    · have : j = k - 1 := by omega
      subst this; exact le_rfl
  rw [hall] at hsub
  have := hsub.length_le
  simpa [hk.le] using this

end Select

variable {K : Type} [Field K] [LinearOrder K] [IsStrictOrderedRing K]

theorem orderedThresholds_perm (th : List (WithTop K)) : (orderedThresholds th).Perm th :=
  List.perm_insertionSort _ _

theorem orderedThresholds_sorted (th : List (WithTop K)) :
    (orderedThresholds th).Pairwise (fun a b => b ≤ a) := by
  have : Std.Total (fun a b : WithTop K => b ≤ a) := ⟨fun a b => le_total b a⟩
  have : IsTrans (WithTop K) (fun a b => b ≤ a) := ⟨fun a b c h1 h2 => h2.trans h1⟩
  exact List.pairwise_insertionSort _ th

theorem orderedThresholds_length (th : List (WithTop K)) : (orderedThresholds th).length = th.length :=
  (orderedThresholds_perm th).length_eq

theorem fromNumberIndex_nat (th : List (WithTop K)) (n : Nat) (h : n < th.length) :
    fromNumberIndex th (n : Int) = some (th.map fun a =>
      decide ((orderedThresholds th)[n]'(by rw [orderedThresholds_length]; exact h) < a)) := by
  unfold fromNumberIndex
  have : pyIndex th.length (n : Int) = .ok n := by simp [pyIndex, h]
  rw [this]
  simp only
  rw [List.getElem?_eq_getElem (by rw [orderedThresholds_length]; exact h)]

theorem mask_count (th : List (WithTop K)) (t : WithTop K) :
    (th.map fun a => decide (t < a)).count true =
      ((orderedThresholds th).filter (fun a => decide (t < a))).length := by
  rw [List.Perm.length_eq ((orderedThresholds_perm th).filter _)]
  induction th with
  | nil => rfl
  | cons a l ih => by_cases h : t < a <;> simp [h, ih]

end Fm2prof

import Mathlib.Data.List.Forall2
import Mathlib.Tactic.Linarith
import Verif.Model.Geometry
import Verif.Spec.Geometry

/-! Helper lemmas about the geometry repairs. -/

namespace Fm2prof

open Spec

section Mono
variable {α : Type} [LinearOrder α]

theorem lastTrue_append_true (m : List Bool) : lastTrue (m ++ [true]) = some m.length := by
  simp [lastTrue, List.zipIdx_append]

theorem lastTrue_append_false (m : List Bool) : lastTrue (m ++ [false]) = lastTrue m := by
  simp [lastTrue, List.zipIdx_append]

theorem fgt_some {a b : α} : fgt (some a) (some b) = decide (b < a) := rfl

/-- State of the loop after `n + 1` elements. -/
theorem mono_invariant (arr : List (Option α)) (n : Nat) (hn : n < arr.length) :
    let m := (List.range' 1 n).foldl (monoStep arr) [true]
    m.length = n + 1 ∧ (∀ i ≤ n, (m[i]? = some true ↔ Rising arr i)) ∧
      ∃ j ≤ n, lastTrue m = some j ∧ Rising arr j ∧
        ∀ x₀, arr[0]? = some (some x₀) → ∃ y, arr[j]? = some (some y) ∧
          ∀ k ≤ n, ∀ x, arr[k]? = some (some x) → x ≤ y := by
  induction n with
  | zero =>
    refine ⟨by simp, ?_, 0, le_rfl, by simp [lastTrue], Or.inl rfl, ?_⟩
    · intro i hi
      obtain rfl : i = 0 := by omega
      simp [Rising]
    · intro x₀ h
      refine ⟨x₀, h, ?_⟩
      intro k hk x hx
      obtain rfl : k = 0 := by omega
      rw [h] at hx; simp at hx; exact hx ▸ le_rfl
  | succ n ih =>
    obtain ⟨hlen, hmask, j, hj, hlast, hris, hmax⟩ := ih (by omega)
    have hstep : (List.range' 1 (n + 1)).foldl (monoStep arr) [true] =
        monoStep arr ((List.range' 1 n).foldl (monoStep arr) [true]) (n + 1) := by
      rw [List.range'_concat, List.foldl_append]; simp [Nat.add_comm]
    simp only [hstep]
    set m := (List.range' 1 n).foldl (monoStep arr) [true] with hm
    have hms : monoStep arr m (n + 1) = m ++ [fgt (arr[n + 1]?.join) (arr[j]?.join)] := by
      simp [monoStep, hlast]
    rw [hms]
    -- decision for the new element
    have hdec : fgt (arr[n + 1]?.join) (arr[j]?.join) = true ↔ Rising arr (n + 1) := by
      have hn1 : arr[n + 1]? = some (arr[n + 1]) := List.getElem?_eq_getElem hn
      have h0 : arr[0]? = some (arr[0]'(by omega)) := List.getElem?_eq_getElem _
      constructor
      · intro h
        right
        cases hx : arr[n + 1] with
        | none => rw [hn1, hx] at h; simp [fgt] at h
        | some x =>
          cases hx0 : arr[0]'(by omega) with
          | none =>
            -- the last accepted element is then the first one
            exfalso
            have : j = 0 := by
              rcases hris with h' | ⟨_, x₀, _, h0', _⟩
              · exact h'
              · rw [h0, hx0] at h0'; simp at h0'
            subst this
            rw [h0, hx0] at h
            revert h; rw [hn1, hx]; simp [fgt]
          | some x₀ =>
            obtain ⟨y, hy, hall⟩ := hmax x₀ (by rw [h0, hx0])
            rw [hn1, hx, hy] at h
            simp [fgt] at h
            refine ⟨x, x₀, by rw [hn1, hx], by rw [h0, hx0], ?_⟩
            intro k hk w hw
            exact lt_of_le_of_lt (hall k (by omega) w hw) h
      · intro h
        rcases h with h | ⟨x, x₀, hx, hx0, hall⟩
        · omega
        · obtain ⟨y, hy, _⟩ := hmax x₀ hx0
          rw [hx, hy]
          simp [fgt]
          exact hall j (by omega) y hy
    refine ⟨by simp [hlen], ?_, ?_⟩
    · intro i hi
      rcases Nat.lt_or_ge i (n + 1) with h | h
      · rw [List.getElem?_append_left (by omega)]
        exact hmask i (by omega)
      · obtain rfl : i = n + 1 := by omega
        rw [List.getElem?_append_right (by omega)]
        simp [hlen, hdec]
    · by_cases hb : fgt (arr[n + 1]?.join) (arr[j]?.join) = true
      · rw [hb]
        refine ⟨n + 1, le_rfl, by rw [lastTrue_append_true, hlen], hdec.1 hb, ?_⟩
        intro x₀ hx0
        rcases hdec.1 hb with h | ⟨x, _, hx, _, hall⟩
        · omega
        · refine ⟨x, hx, ?_⟩
          intro k hk w hw
          rcases Nat.lt_or_ge k (n + 1) with h | h
          · exact (hall k h w hw).le
          · obtain rfl : k = n + 1 := by omega
            rw [hx] at hw; simp at hw; exact hw ▸ le_rfl
      · have hb' : fgt (arr[n + 1]?.join) (arr[j]?.join) = false := by simpa using hb
        rw [hb']
        refine ⟨j, by omega, by rw [lastTrue_append_false, hlast], hris, ?_⟩
        intro x₀ hx0
        obtain ⟨y, hy, hall⟩ := hmax x₀ hx0
        refine ⟨y, hy, ?_⟩
        intro k hk w hw
        rcases Nat.lt_or_ge k (n + 1) with h | h
        · exact hall k (by omega) w hw
        · obtain rfl : k = n + 1 := by omega
          rw [hw, hy] at hb'
          simpa [fgt] using hb'

end Mono

section Mask
variable {α β : Type}

theorem maskSelect_sublist (m : List Bool) (xs : List α) : (maskSelect m xs).Sublist xs := by
  unfold maskSelect
  have h1 : (((m.zip xs).filter (·.1)).map (·.2)).Sublist ((m.zip xs).map (·.2)) :=
    List.Sublist.map _ List.filter_sublist
  refine h1.trans ?_
  induction m generalizing xs with
  | nil => simp
  | cons b m ih =>
    cases xs with
    | nil => simp
    | cons x xs =>
      simp only [List.zip_cons_cons, List.map_cons]
      refine List.Sublist.cons_cons _ (ih xs ?_)
      exact List.Sublist.map _ List.filter_sublist

@[simp] theorem maskSelect_nil_left (xs : List α) : maskSelect [] xs = [] := by simp [maskSelect]
@[simp] theorem maskSelect_nil_right (m : List Bool) : maskSelect m ([] : List α) = [] := by
  simp [maskSelect]
@[simp] theorem maskSelect_cons_true (m : List Bool) (x : α) (xs : List α) :
    maskSelect (true :: m) (x :: xs) = x :: maskSelect m xs := by simp [maskSelect]
@[simp] theorem maskSelect_cons_false (m : List Bool) (x : α) (xs : List α) :
    maskSelect (false :: m) (x :: xs) = maskSelect m xs := by simp [maskSelect]

/-- Selection with one mask keeps a pointwise relation between two aligned lists. -/
theorem maskSelect_forall₂ {R : α → β → Prop} {xs : List α} {ys : List β} (h : List.Forall₂ R xs ys)
    (m : List Bool) : List.Forall₂ R (maskSelect m xs) (maskSelect m ys) := by
  induction h generalizing m with
  | nil => simp
  | cons hxy _ ih =>
    cases m with
    | nil => simp
    | cons b m => cases b <;> simp [ih, hxy]

theorem maskSelect_length (m : List Bool) (xs : List α) (h : m.length = xs.length) :
    (maskSelect m xs).length = m.count true := by
  induction m generalizing xs with
  | nil => simp
  | cons b m ih =>
    cases xs with
    | nil => simp at h
    | cons x xs =>
      simp at h
      cases b <;> simp [ih xs h]

theorem maskSelect_map (f : α → β) (m : List Bool) (xs : List α) :
    maskSelect m (xs.map f) = (maskSelect m xs).map f := by
  induction m generalizing xs with
  | nil => simp
  | cons b m ih => cases xs with
    | nil => simp
    | cons x xs => cases b <;> simp [ih]

end Mask

section Increasing
variable {α : Type} [LinearOrder α] {bump : α → α}

theorem increasingFrom_length (prev : α) (l : List α) : (increasingFrom bump prev l).length = l.length := by
  induction l generalizing prev with
  | nil => rfl
  | cons x xs ih => simp [increasingFrom, ih]

theorem checkIncreasingOrder_length (l : List α) : (checkIncreasingOrder bump l).length = l.length := by
  cases l <;> simp [checkIncreasingOrder, increasingFrom_length]

theorem increasingFrom_pairwise (hb : ∀ x, x < bump x) (prev : α) (l : List α) :
    (prev :: increasingFrom bump prev l).Pairwise (· < ·) := by
  induction l generalizing prev with
  | nil => simp [increasingFrom]
  | cons x xs ih =>
    simp only [increasingFrom]
    set x' := if x ≤ prev then bump prev else x with hx'
    have hlt : prev < x' := by
      rw [hx']; split
      · exact hb prev
      · rename_i h; exact lt_of_not_ge h
    have := ih x'
    refine List.Pairwise.cons ?_ this
    intro a ha
    rcases List.mem_cons.1 ha with h | h
    · exact h ▸ hlt
    · exact lt_trans hlt ((List.pairwise_cons.1 this).1 a h)

theorem checkIncreasingOrder_pairwise (hb : ∀ x, x < bump x) (l : List α) :
    (checkIncreasingOrder bump l).Pairwise (· < ·) := by
  cases l with
  | nil => simp [checkIncreasingOrder]
  | cons x xs => exact increasingFrom_pairwise hb x xs

theorem increasingFrom_ge (hb : ∀ x, x < bump x) (prev : α) (l : List α) :
    PointwiseLE l (increasingFrom bump prev l) := by
  induction l generalizing prev with
  | nil => exact List.Forall₂.nil
  | cons x xs ih =>
    simp only [increasingFrom]
    refine List.Forall₂.cons ?_ (ih _)
    split
    · rename_i h; exact h.trans (hb prev).le
    · exact le_rfl

theorem checkIncreasingOrder_ge (hb : ∀ x, x < bump x) (l : List α) :
    PointwiseLE l (checkIncreasingOrder bump l) := by
  cases l with
  | nil => exact List.Forall₂.nil
  | cons x xs => exact List.Forall₂.cons le_rfl (increasingFrom_ge hb x xs)

theorem increasingFrom_eq_self (prev : α) (l : List α) (h : (prev :: l).Pairwise (· < ·)) :
    increasingFrom bump prev l = l := by
  induction l generalizing prev with
  | nil => rfl
  | cons x xs ih =>
    have hlt : prev < x := (List.pairwise_cons.1 h).1 x (by simp)
    simp only [increasingFrom, if_neg (not_le.2 hlt)]
    rw [ih x (List.pairwise_cons.1 h).2]

theorem checkIncreasingOrder_eq_self (l : List α) (h : l.Pairwise (· < ·)) :
    checkIncreasingOrder bump l = l := by
  cases l with
  | nil => rfl
  | cons x xs => simp [checkIncreasingOrder, increasingFrom_eq_self x xs h]

theorem mem_ge_of_forall₂ {l m : List α} {w : α} (h : PointwiseLE l m) (hl : ∀ x ∈ l, w ≤ x) :
    ∀ x ∈ m, w ≤ x := by
  induction h with
  | nil => simp
  | cons hxy _ ih =>
    intro x hx
    simp only [List.mem_cons, forall_eq_or_imp] at hl hx
    rcases hx with rfl | hx
    · exact hl.1.trans hxy
    · exact ih hl.2 x hx

end Increasing

section Cap
variable {α : Type} [LinearOrder α]

theorem capFlowWidth_eq_zipWith_min (t f : List α) : capFlowWidth t f = List.zipWith min t f := by
  unfold capFlowWidth
  congr 1
  funext a b
  rcases lt_or_ge a b with h | h
  · simp [h, h.le]
  · simp [not_lt.2 h, h]

theorem zipWith_min_pairwise {t f : List α} (ht : t.Pairwise (· < ·)) (hf : f.Pairwise (· < ·)) :
    (List.zipWith min t f).Pairwise (· < ·) := by
  induction t generalizing f with
  | nil => simp
  | cons a t ih =>
    cases f with
    | nil => simp
    | cons b f =>
      simp only [List.zipWith_cons_cons]
      rw [List.pairwise_cons] at ht hf ⊢
      refine ⟨?_, ih ht.2 hf.2⟩
      intro c hc
      rw [List.mem_iff_getElem] at hc
      obtain ⟨i, hi, rfl⟩ := hc
      simp only [List.getElem_zipWith]
      exact lt_min ((min_le_left _ _).trans_lt (ht.1 _ (List.getElem_mem _)))
        ((min_le_right _ _).trans_lt (hf.1 _ (List.getElem_mem _)))

theorem zipWith_min_le_left {t f : List α} (h : f.length = t.length) :
    PointwiseLE (List.zipWith min t f) t := by
  induction t generalizing f with
  | nil => cases f <;> simp_all [PointwiseLE]
  | cons a t ih =>
    cases f with
    | nil => simp at h
    | cons b f => exact List.Forall₂.cons (min_le_left _ _) (ih (by simpa using h))

theorem zipWith_min_ge {t f : List α} {w : α} (ht : ∀ x ∈ t, w ≤ x) (hf : ∀ x ∈ f, w ≤ x) :
    ∀ x ∈ List.zipWith min t f, w ≤ x := by
  intro x hx
  rw [List.mem_iff_getElem] at hx
  obtain ⟨i, hi, rfl⟩ := hx
  simp only [List.getElem_zipWith]
  exact le_min (ht _ (List.getElem_mem _)) (hf _ (List.getElem_mem _))

theorem removeZeroWidths_ge (w : α) (l : List α) : ∀ x ∈ removeZeroWidths w l, w ≤ x := by
  intro x hx
  simp only [removeZeroWidths, List.mem_map] at hx
  obtain ⟨y, _, rfl⟩ := hx
  split
  · exact le_rfl
  · rename_i h; exact le_of_not_gt h

theorem removeZeroWidths_length (w : α) (l : List α) : (removeZeroWidths w l).length = l.length := by
  simp [removeZeroWidths]

end Cap

section BackMin
variable {α : Type} [LinearOrder α]

theorem backMin_length (l : List α) : (backMin l).length = l.length := by
  induction l with
  | nil => rfl
  | cons x xs ih =>
    simp only [backMin]
    split
    · rename_i h; rw [h] at ih; simp at ih; simp [← ih]
    · rename_i y ys h; rw [h] at ih; simp at ih ⊢; omega

theorem backMin_cons (x : α) (xs : List α) :
    backMin (x :: xs) = (match backMin xs with | [] => x | y :: _ => min x y) :: backMin xs := by
  simp only [backMin]
  split <;> simp_all

theorem backMin_pairwise (l : List α) : (backMin l).Pairwise (· ≤ ·) := by
  induction l with
  | nil => simp [backMin]
  | cons x xs ih =>
    rw [backMin_cons, List.pairwise_cons]
    refine ⟨?_, ih⟩
    intro a ha
    cases h : backMin xs with
    | nil => simp [h] at ha
    | cons y ys =>
      rw [h] at ha ih
      simp only
      rcases List.mem_cons.1 ha with rfl | h'
      · exact min_le_right _ _
      · exact (min_le_right _ _).trans ((List.pairwise_cons.1 ih).1 a h')

theorem backMin_le (l : List α) : PointwiseLE (backMin l) l := by
  induction l with
  | nil => exact List.Forall₂.nil
  | cons x xs ih =>
    rw [backMin_cons]
    refine List.Forall₂.cons ?_ ih
    split
    · exact le_rfl
    · exact min_le_left _ _

theorem backMin_greatest (l m : List α) (hm : m.Pairwise (· ≤ ·)) (hle : PointwiseLE m l) :
    PointwiseLE m (backMin l) := by
  induction hle with
  | nil => exact List.Forall₂.nil
  | @cons a x m xs hax htl ih =>
    have ih' := ih (List.pairwise_cons.1 hm).2
    rw [backMin_cons]
    refine List.Forall₂.cons ?_ ih'
    cases h : backMin xs with
    | nil => exact hax
    | cons y ys =>
      simp only
      rw [h] at ih'
      cases ih' with
      | cons hby _ => exact le_min hax (((List.pairwise_cons.1 hm).1 _ (by simp)).trans hby)

theorem backMin_getLast? (l : List α) : (backMin l).getLast? = l.getLast? := by
  induction l with
  | nil => rfl
  | cons x xs ih =>
    rw [backMin_cons]
    cases h : backMin xs with
    | nil =>
      have := backMin_length xs
      rw [h] at this
      have : xs = [] := by cases xs <;> simp_all
      subst this; simp
    | cons y ys =>
      rw [h] at ih
      have hx : xs ≠ [] := by rintro rfl; simp [backMin] at h
      rw [List.getLast?_cons_cons, ih]
      cases xs with
      | nil => exact absurd rfl hx
      | cons b bs => rw [List.getLast?_cons_cons]

end BackMin

end Fm2prof

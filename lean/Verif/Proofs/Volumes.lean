import Mathlib.Tactic.Linarith
import Mathlib.Tactic.Positivity
import Mathlib.Tactic.Ring
import Mathlib.Data.List.Forall2
import Verif.Model.Geometry
import Verif.Spec.Geometry

/-! Helper lemmas about cumulative integration and the bounds of the increasing-order repair. -/

set_option linter.unusedSectionVars false

namespace Fm2prof

open Spec

section
variable {K : Type} [Field K] [LinearOrder K] [IsStrictOrderedRing K]

theorem cumTrapzFrom_length (acc : K) (w z : List K) (h : w.length = z.length) :
    (cumTrapzFrom acc w z).length = z.length - 1 := by
  induction w generalizing z acc with
  | nil => cases z <;> simp_all [cumTrapzFrom]
  | cons y ys ih =>
    cases z with
    | nil => simp at h
    | cons x xs =>
      cases ys with
      | nil => cases xs with
        | nil => simp [cumTrapzFrom]
        | cons _ _ => simp at h
      | cons y₁ ys =>
        cases xs with
        | nil => simp at h
        | cons x₁ xs =>
          have h' : (y₁ :: ys).length = (x₁ :: xs).length := by simpa using h
          simp only [cumTrapzFrom, List.length_cons, ih _ (x₁ :: xs) h']
          simp

theorem cumTrapzFrom_getElem? (acc : K) (w z : List K) (h : w.length = z.length) (i : Nat)
    (hi : i + 1 < z.length) :
    (cumTrapzFrom acc w z)[i]? = some (acc + trapezoidArea (w.take (i + 2)) (z.take (i + 2))) := by
  induction w generalizing z acc i with
  | nil => simp at h; rw [← h] at hi; simp at hi
  | cons y ys ih =>
    cases z with
    | nil => simp at h
    | cons x xs =>
      cases ys with
      | nil => cases xs with
        | nil => simp at hi
        | cons _ _ => simp at h
      | cons y₁ ys =>
        cases xs with
        | nil => simp at h
        | cons x₁ xs =>
          have h' : (y₁ :: ys).length = (x₁ :: xs).length := by simpa using h
          cases i with
          | zero =>
            simp [cumTrapzFrom, trapezoidArea]
            ring
          | succ i =>
            simp only [cumTrapzFrom, List.getElem?_cons_succ]
            rw [ih _ (x₁ :: xs) h' i (by simpa using hi)]
            simp only [List.take_succ_cons, trapezoidArea]
            congr 1
            ring

theorem volume1d_getElem? (w z : List K) (len : K) (h : w.length = z.length) (i : Nat)
    (hi : i < z.length) :
    (volume1d w z len)[i]? = some (trapezoidArea (w.take (i + 1)) (z.take (i + 1)) * len) := by
  cases i with
  | zero =>
    cases w with
    | nil => simp at h; simp [← h] at hi
    | cons y ys => cases z with
      | nil => simp at hi
      | cons x xs => simp [volume1d, trapezoidArea]
  | succ i =>
    simp only [volume1d, List.getElem?_cons_succ, List.getElem?_map]
    rw [cumTrapzFrom_getElem? 0 w z h i hi]
    simp

theorem volume1d_length (w z : List K) (len : K) (h : w.length = z.length) (hz : z ≠ []) :
    (volume1d w z len).length = z.length := by
  simp only [volume1d, List.length_cons, List.length_map, cumTrapzFrom_length 0 w z h]
  have := List.length_pos_iff.2 hz
  omega

theorem cumTrapzFrom_chain (acc : K) (w z : List K) (hz : z.Pairwise (· ≤ ·)) (hw : ∀ x ∈ w, 0 ≤ x) :
    (acc :: cumTrapzFrom acc w z).Pairwise (· ≤ ·) := by
  induction w generalizing z acc with
  | nil => simp [cumTrapzFrom]
  | cons y ys ih =>
    match ys, z with
    | [], _ => simp [cumTrapzFrom]
    | _ :: _, [] => simp [cumTrapzFrom]
    | _ :: _, [_] => simp [cumTrapzFrom]
    | y₁ :: ys, x₀ :: x₁ :: xs =>
      simp only [cumTrapzFrom]
      set acc' := acc + (x₁ - x₀) * ((y₁ + y) / 2) with hacc
      have hle : acc ≤ acc' := by
        have h1 : 0 ≤ x₁ - x₀ := sub_nonneg.2 ((List.pairwise_cons.1 hz).1 x₁ (by simp))
        have h2 : 0 ≤ y := hw y (by simp)
        have h3 : 0 ≤ y₁ := hw y₁ (by simp)
        have : 0 ≤ (x₁ - x₀) * ((y₁ + y) / 2) := by positivity
        linarith
      have := ih acc' (x₁ :: xs) (List.pairwise_cons.1 hz).2 (fun a ha => hw a (by simp at ha ⊢; tauto))
      refine List.Pairwise.cons ?_ this
      intro a ha
      rcases List.mem_cons.1 ha with h | h
      · exact h ▸ hle
      · exact hle.trans ((List.pairwise_cons.1 this).1 a h)

theorem cumTrapzFrom_mono (a b : K) (hab : a ≤ b) (f w z : List K) (hz : z.Pairwise (· ≤ ·))
    (hfw : List.Forall₂ (· ≤ ·) f w) :
    List.Forall₂ (· ≤ ·) (cumTrapzFrom a f z) (cumTrapzFrom b w z) := by
  induction hfw generalizing z a b with
  | nil => simp [cumTrapzFrom]
  | @cons f₀ w₀ fs ws h₀ hs ih =>
    cases hs with
    | nil => simp [cumTrapzFrom]
    | @cons f₁ w₁ fs ws h₁ hs =>
      match z with
      | [] => simp [cumTrapzFrom]
      | [_] => simp [cumTrapzFrom]
      | x₀ :: x₁ :: xs =>
        simp only [cumTrapzFrom]
        have h1 : 0 ≤ x₁ - x₀ := sub_nonneg.2 ((List.pairwise_cons.1 hz).1 x₁ (by simp))
        have hle : a + (x₁ - x₀) * ((f₁ + f₀) / 2) ≤ b + (x₁ - x₀) * ((w₁ + w₀) / 2) := by
          have : (x₁ - x₀) * ((f₁ + f₀) / 2) ≤ (x₁ - x₀) * ((w₁ + w₀) / 2) :=
            mul_le_mul_of_nonneg_left (by linarith) h1
          linarith
        exact List.Forall₂.cons hle (ih _ _ hle (x₁ :: xs) (List.pairwise_cons.1 hz).2)

end

section Repair
variable {α : Type} [LinearOrder α] {bump : α → α}

/-- `s` dominates `l` and takes at least one step wherever `l` does not rise above `s`. -/
theorem increasingFrom_least (hmono : Monotone bump) (p q : α) (hpq : p ≤ q) (l s : List α)
    (hlen : s.length = l.length)
    (hs : ∀ i (hi : i < s.length), (l[i]'(hlen ▸ hi) ≤ s[i]) ∧
      (l[i]'(hlen ▸ hi) ≤ (q :: s)[i]'(by simp; omega) → bump ((q :: s)[i]'(by simp; omega)) ≤ s[i])) :
    PointwiseLE (increasingFrom bump p l) s := by
  induction l generalizing p q s with
  | nil =>
    cases s with
    | nil => exact List.Forall₂.nil
    | cons _ _ => simp at hlen
  | cons x xs ih =>
    cases s with
    | nil => simp at hlen
    | cons t ts =>
      simp only [increasingFrom]
      have h0 := hs 0 (by simp)
      simp at h0
      have hle : (if x ≤ p then bump p else x) ≤ t := by
        split
        · rename_i h
          exact (hmono hpq).trans (h0.2 (h.trans hpq))
        · exact h0.1
      refine List.Forall₂.cons hle (ih _ t hle ts (by simpa using hlen) ?_)
      intro i hi
      have := hs (i + 1) (by simpa using hi)
      simpa using this

end Repair

section Bound
variable {K : Type} [Field K] [LinearOrder K] [IsStrictOrderedRing K]

theorem increasingFrom_bound (step : K) (hstep : 0 < step) (p : K) (m : K) (n : Nat)
    (hp : p ≤ m + n * step) (l : List K) (i : Nat) (hi : i < l.length)
    (hm : ∀ j (hj : j ≤ i), l[j]'(by omega) ≤ m) :
    (increasingFrom (· + step) p l)[i]? = some r → r ≤ m + (n + 1 + i) * step := by
  intro hr
  induction l generalizing p n i with
  | nil => simp at hi
  | cons x xs ih =>
    have hx : x ≤ m := by simpa using hm 0 (by omega)
    have hx' : (if x ≤ p then p + step else x) ≤ m + ((n + 1 : ℕ) : K) * step := by
      push_cast
      split
      · linarith
      · have : (0 : K) ≤ n := Nat.cast_nonneg n
        nlinarith
    cases i with
    | zero =>
      simp [increasingFrom] at hr
      rw [hr] at hx'
      push_cast at hx'
      simpa using hx'
    | succ i =>
      simp only [increasingFrom, List.getElem?_cons_succ] at hr
      have := ih _ (n + 1) hx' i (by simpa using hi) (fun j hj => by
        have := hm (j + 1) (by omega); simpa using this) hr
      push_cast at this ⊢
      linarith

end Bound

end Fm2prof

import Verif.Proofs.Volumes

/-!
# Lemmas about the volume of a profile after small changes of its levels and widths
-/

set_option linter.unusedSectionVars false

namespace Fm2prof.BesideProof

open Fm2prof Spec

variable {K : Type} [Field K] [LinearOrder K] [IsStrictOrderedRing K]

/-- The area under the first `j` pieces of a broken line. -/
def areaTo (w z : Nat → K) : Nat → K
  | 0 => 0
  | j + 1 => areaTo w z j + (z (j + 1) - z j) * (w j + w (j + 1)) / 2

theorem trapezoid_next (w z : List K) (j : Nat) (hw : j + 1 < w.length) (hz : j + 1 < z.length) :
    trapezoidArea (w.take (j + 2)) (z.take (j + 2)) =
      trapezoidArea (w.take (j + 1)) (z.take (j + 1)) + (z[j + 1] - z[j]) * (w[j] + w[j + 1]) / 2 := by
  induction j generalizing w z with
  | zero =>
    match w, z with
    | a :: b :: w, c :: d :: z => simp [trapezoidArea]
    | [], _ => simp at hw
    | [_], _ => simp at hw
    | _ :: _ :: _, [] => simp at hz
    | _ :: _ :: _, [_] => simp at hz
  | succ j ih =>
    match w, z with
    | a :: b :: w, c :: d :: z =>
      have := ih (b :: w) (d :: z) (by simpa using hw) (by simpa using hz)
      simp only [List.take_succ_cons, trapezoidArea] at this ⊢
      rw [this]
      simp only [List.getElem_cons_succ]
      ring
    | [], _ => simp at hw
    | [_], _ => simp at hw
    | _ :: _ :: _, [] => simp at hz
    | _ :: _ :: _, [_] => simp at hz

theorem trapezoid_area (w z : List K) (h : w.length = z.length) (j : Nat) (hj : j < z.length) :
    trapezoidArea (w.take (j + 1)) (z.take (j + 1)) = areaTo (fun k => w.getD k 0) (fun k => z.getD k 0) j := by
  induction j with
  | zero =>
    match w, z with
    | [], _ => rfl
    | _ :: _, [] => rfl
    | _ :: _, _ :: _ => rfl
  | succ j ih =>
    rw [trapezoid_next w z j (h ▸ hj) hj, ih (by omega)]
    show _ = areaTo _ _ j + _
    have e : ∀ (l : List K) k (hk : k < l.length), l.getD k 0 = l[k] := fun l k hk => by
      rw [List.getD_eq_getElem?_getD, List.getElem?_eq_getElem hk]; rfl
    beta_reduce
    rw [e w j (by omega), e w (j + 1) (by omega), e z j (by omega), e z (j + 1) (by omega)]

/-- Other widths over the same levels. -/
private theorem area_widths (n : Nat) (step : K) (hstep : 0 ≤ step) (w w' z : Nat → K)
    (hw : ∀ k < n, w k ≤ w' k ∧ w' k ≤ w k + k * step) (hz : ∀ k, k + 1 < n → z k ≤ z (k + 1)) (j : Nat) (hj : j < n) :
    0 ≤ areaTo w' z j - areaTo w z j ∧ areaTo w' z j - areaTo w z j ≤ j * step * (z j - z 0) ∧ 0 ≤ z j - z 0 := by
  induction j with
  | zero => simp [areaTo]
  | succ j ih =>
    obtain ⟨i1, i2, i3⟩ := ih (by omega)
    obtain ⟨a1, a2⟩ := hw j (by omega)
    obtain ⟨b1, b2⟩ := hw (j + 1) hj
    have hd : 0 ≤ z (j + 1) - z j := sub_nonneg.2 (hz j hj)
    have e : areaTo w' z (j + 1) - areaTo w z (j + 1) =
        areaTo w' z j - areaTo w z j + (z (j + 1) - z j) * ((w' j - w j) + (w' (j + 1) - w (j + 1))) / 2 := by
      show areaTo w' z j + _ - (areaTo w z j + _) = _
      ring
    rw [e]
    push_cast at b2 ⊢
    have h1 : 0 ≤ (z (j + 1) - z j) * ((w' j - w j) + (w' (j + 1) - w (j + 1))) :=
      mul_nonneg hd (by linarith)
    have h2 : (z (j + 1) - z j) * ((w' j - w j) + (w' (j + 1) - w (j + 1))) ≤ (z (j + 1) - z j) * (2 * ((j + 1) * step)) :=
      mul_le_mul_of_nonneg_left (by linarith) hd
    have h3 : 0 ≤ step * (z j - z 0) := mul_nonneg hstep i3
    refine ⟨by linarith, ?_, by linarith⟩
    have h4 : (z (j + 1) - z j) * (2 * ((j + 1) * step)) / 2 = (j + 1) * step * (z (j + 1) - z j) := by ring
    have h5 : (j + 1) * step * (z (j + 1) - z 0) = j * step * (z j - z 0) + step * (z j - z 0) + (j + 1) * step * (z (j + 1) - z j) := by ring
    linarith

/-- The same widths over other levels. -/
private theorem area_levels (n : Nat) (step : K) (hstep : 0 ≤ step) (w z z' : Nat → K)
    (hz : ∀ k < n, z k ≤ z' k ∧ z' k ≤ z k + k * step) (hw : ∀ k, k + 1 < n → w k ≤ w (k + 1)) (j : Nat) (hj : j < n) :
    areaTo w z' j - areaTo w z j ≤ (z' j - z j) * w j ∧
      (z' j - z j) * w j - j * step * (w j - w 0) ≤ areaTo w z' j - areaTo w z j ∧ 0 ≤ w j - w 0 := by
  induction j with
  | zero =>
    obtain ⟨a1, a2⟩ := hz 0 hj
    have e : z' 0 = z 0 := le_antisymm (by simpa using a2) a1
    simp [areaTo, e]
  | succ j ih =>
    obtain ⟨i1, i2, i3⟩ := ih (by omega)
    obtain ⟨a1, a2⟩ := hz j (by omega)
    obtain ⟨b1, b2⟩ := hz (j + 1) hj
    have hd : 0 ≤ w (j + 1) - w j := sub_nonneg.2 (hw j hj)
    have e : areaTo w z' (j + 1) - areaTo w z (j + 1) =
        areaTo w z' j - areaTo w z j + ((z' (j + 1) - z (j + 1)) - (z' j - z j)) * (w j + w (j + 1)) / 2 := by
      show areaTo w z' j + _ - (areaTo w z j + _) = _
      ring
    rw [e]
    push_cast at b2 ⊢
    have p1 : 0 ≤ (z' j - z j) * (w (j + 1) - w j) := mul_nonneg (by linarith) hd
    have p2 : 0 ≤ (z' (j + 1) - z (j + 1)) * (w (j + 1) - w j) := mul_nonneg (by linarith) hd
    have p3 : (z' j - z j) * (w (j + 1) - w j) ≤ (j + 1) * step * (w (j + 1) - w j) :=
      mul_le_mul_of_nonneg_right (by linarith) hd
    have p4 : (z' (j + 1) - z (j + 1)) * (w (j + 1) - w j) ≤ (j + 1) * step * (w (j + 1) - w j) :=
      mul_le_mul_of_nonneg_right (by linarith) hd
    have p5 : 0 ≤ step * (w j - w 0) := mul_nonneg hstep i3
    refine ⟨by linarith, by linarith, by linarith⟩

/-- Levels and widths that are raised by at most a step for each point below change the area by at most as many steps times the height
and the width. -/
theorem area_close (n : Nat) (step : K) (hstep : 0 ≤ step) (w w' z z' : Nat → K) (h0 : 0 ≤ w 0)
    (hw : ∀ k < n, w k ≤ w' k ∧ w' k ≤ w k + k * step) (hz : ∀ k < n, z k ≤ z' k ∧ z' k ≤ z k + k * step)
    (hwu : ∀ k, k + 1 < n → w k ≤ w (k + 1)) (hzu : ∀ k, k + 1 < n → z' k ≤ z' (k + 1)) (j : Nat) (hj : j < n) :
    |areaTo w z j - areaTo w' z' j| ≤ j * step * (w' j + (z' j - z' 0)) := by
  obtain ⟨a1, a2, a3⟩ := area_widths n step hstep w w' z' hw hzu j hj
  obtain ⟨b1, b2, b3⟩ := area_levels n step hstep w z z' hz hwu j hj
  obtain ⟨c1, c2⟩ := hw j hj
  obtain ⟨d1, d2⟩ := hz j hj
  have hjs : 0 ≤ (j : K) * step := mul_nonneg (Nat.cast_nonneg j) hstep
  have hwj : 0 ≤ w j := by linarith
  have e1 : (z' j - z j) * w j ≤ j * step * w j := mul_le_mul_of_nonneg_right (by linarith) hwj
  have e2 : 0 ≤ (z' j - z j) * w j := mul_nonneg (by linarith) hwj
  have e3 : (j : K) * step * w j ≤ j * step * w' j := mul_le_mul_of_nonneg_left c1 hjs
  have e4 : (j : K) * step * (w j - w 0) ≤ j * step * w j := mul_le_mul_of_nonneg_left (by linarith) hjs
  have e5 : 0 ≤ (j : K) * step * (z' j - z' 0) := mul_nonneg hjs a3
  have e6 : (j : K) * step * (w' j + (z' j - z' 0)) = j * step * w' j + j * step * (z' j - z' 0) := by ring
  rw [abs_le]
  constructor <;> linarith

end Fm2prof.BesideProof

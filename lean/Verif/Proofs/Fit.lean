import Mathlib.Tactic.Ring
import Mathlib.Tactic.Linarith
import Mathlib.Tactic.FieldSimp
import Mathlib.Tactic.Positivity
import Verif.Spec.Fit
import Verif.Proofs.Correction

set_option linter.unusedSectionVars false

/-! # Lemmas about the fit of the volume correction -/

namespace Fm2prof

open Spec

variable {K : Type} [Field K] [LinearOrder K] [IsStrictOrderedRing K]

theorem volumeError_addExtra (fraction : K → K) (z v : List K) (m : List (Option K)) (e : K) :
    volumeError (addExtra v (z.map fun z => some (fraction z)) (some e)) m = misfit fraction (measured z v m) e := by
  induction z generalizing v m with
  | nil => cases v <;> rfl
  | cons a z ih =>
    cases v with
    | nil => rfl
    | cons b v =>
      cases m with
      | nil => rfl
      | cons c m =>
        have := ih v m
        cases c with
        | none =>
          simp only [volumeError, addExtra, misfit, measured, List.map_cons, List.zipWith_cons_cons, List.zip_cons_cons,
            Option.bind_some, Option.map_some, List.filterMap_cons, Option.map_none] at this ⊢
          exact this
        | some c =>
          simp only [volumeError, addExtra, misfit, measured, List.map_cons, List.zipWith_cons_cons, List.zip_cons_cons,
            Option.bind_some, Option.map_some, List.filterMap_cons, List.sum_cons] at this ⊢
          rw [this]
          congr 1
          ring

theorem fitCost_eq (release : K → K → K → K) (height : K) (b : Built K) (v : List K) (c e : K) :
    fitCost release height b v (some c) (some e) =
      misfit (fun z => release z c height) (measured b.z v b.totalVolume2d) e :=
  volumeError_addExtra _ _ _ _ _

/-- Half the derivative of the misfit. -/
def slope (fraction : K → K) (points : List (K × K × K)) (extra : K) : K :=
  (points.map fun (z, v, m) => fraction z * (v + fraction z * extra - m) / (max m 1) ^ 2).sum

/-- Half the second derivative of the misfit. -/
def curvature (fraction : K → K) (points : List (K × K × K)) : K :=
  (points.map fun (z, _, m) => fraction z ^ 2 / (max m 1) ^ 2).sum

theorem misfit_shift (fraction : K → K) (points : List (K × K × K)) (e t : K) :
    misfit fraction points (e + t) =
      misfit fraction points e + 2 * t * slope fraction points e + t ^ 2 * curvature fraction points := by
  induction points with
  | nil => simp [misfit, slope, curvature]
  | cons p ps ih =>
    obtain ⟨z, v, m⟩ := p
    have hm : max m 1 ≠ 0 := ne_of_gt (lt_of_lt_of_le one_pos (le_max_right _ _))
    simp only [misfit, slope, curvature, List.map_cons, List.sum_cons] at ih ⊢
    rw [ih]
    field_simp
    ring

theorem curvature_nonneg (fraction : K → K) (points : List (K × K × K)) : 0 ≤ curvature fraction points := by
  unfold curvature
  refine List.sum_nonneg fun x hx => ?_
  obtain ⟨⟨z, v, m⟩, _, rfl⟩ := List.mem_map.1 hx
  positivity

theorem curvature_pos (fraction : K → K) (hf : ∀ z, 0 < fraction z) (points : List (K × K × K)) (hne : points ≠ []) :
    0 < curvature fraction points := by
  cases points with
  | nil => exact absurd rfl hne
  | cons p ps =>
    obtain ⟨z, v, m⟩ := p
    have h1 := curvature_nonneg fraction ps
    have hm : 0 < max m 1 := lt_of_lt_of_le one_pos (le_max_right _ _)
    have h2 : 0 < fraction z ^ 2 / max m 1 ^ 2 := div_pos (pow_pos (hf z) 2) (pow_pos hm 2)
    simp only [curvature, List.map_cons, List.sum_cons] at h1 ⊢
    linarith

/-- At the best extra volume the slope vanishes. -/
theorem slope_zero (fraction : K → K) (points : List (K × K × K)) (e : K) (hc : 0 < curvature fraction points)
    (hb : ∀ e', misfit fraction points e ≤ misfit fraction points e') : slope fraction points e = 0 := by
  have h := hb (e + -(slope fraction points e / curvature fraction points))
  rw [misfit_shift] at h
  generalize slope fraction points e = s at *
  generalize curvature fraction points = c at *
  have hs : 2 * -(s / c) * s + (-(s / c)) ^ 2 * c = -(s ^ 2 / c) := by field_simp; ring
  have h0 : s ^ 2 / c ≤ 0 := by linarith
  have h1 : 0 ≤ s ^ 2 / c := div_nonneg (sq_nonneg _) hc.le
  have h2 : s ^ 2 / c = 0 := le_antisymm h0 h1
  rcases div_eq_zero_iff.1 h2 with h3 | h3
  · exact pow_eq_zero_iff (two_ne_zero) |>.1 h3
  · exact absurd h3 hc.ne'

theorem measured_length (z p q : List K) (m : List (Option K)) (h : p.length = q.length) :
    (measured z p m).length = (measured z q m).length := by
  induction z generalizing p q m with
  | nil => rfl
  | cons a z ih =>
    cases p with
    | nil => cases q with
      | nil => rfl
      | cons => cases h
    | cons b p =>
      cases q with
      | nil => cases h
      | cons c q =>
        cases m with
        | nil => rfl
        | cons d m =>
          have := ih p q m (Nat.succ.inj h)
          cases d <;> simpa [measured] using this

theorem slope_le (fraction : K → K) (hf : ∀ z, 0 ≤ fraction z) (z p q : List K) (m : List (Option K))
    (hpq : List.Forall₂ (· ≤ ·) q p) (v w : K) :
    slope fraction (measured z q m) w ≤
      slope fraction (measured z p m) v + (w - v) * curvature fraction (measured z p m) := by
  induction hpq generalizing z m with
  | nil => cases z <;> cases m <;> simp [measured, slope, curvature]
  | @cons c b q p hcb hpq ih =>
    cases z with
    | nil => simp [measured, slope, curvature]
    | cons a z =>
      cases m with
      | nil => simp [measured, slope, curvature]
      | cons d m =>
        have := ih z m
        cases d with
        | none =>
          simp only [measured, List.zip_cons_cons, List.filterMap_cons, Option.map_none] at this ⊢
          exact this
        | some d =>
          simp only [measured, slope, curvature, List.zip_cons_cons, List.filterMap_cons, Option.map_some, List.map_cons,
            List.sum_cons] at this ⊢
          have hm : 0 < max d 1 := lt_of_lt_of_le one_pos (le_max_right _ _)
          have h1 : fraction a * (c + fraction a * w - d) / max d 1 ^ 2 ≤
              fraction a * (b + fraction a * v - d) / max d 1 ^ 2 + (w - v) * (fraction a ^ 2 / max d 1 ^ 2) := by
            have h2 : fraction a * (b + fraction a * v - d) / max d 1 ^ 2 + (w - v) * (fraction a ^ 2 / max d 1 ^ 2) -
                fraction a * (c + fraction a * w - d) / max d 1 ^ 2 = fraction a * (b - c) / max d 1 ^ 2 := by
              field_simp; ring
            have h3 : 0 ≤ fraction a * (b - c) / max d 1 ^ 2 :=
              div_nonneg (mul_nonneg (hf a) (sub_nonneg.2 hcb)) (pow_pos hm 2).le
            linarith
          linarith

/-- The curve with the smaller volumes needs the larger extra volume to fit the same 2D volumes. -/
theorem best_le (fraction : K → K) (hf : ∀ z, 0 < fraction z) (z p q : List K) (m : List (Option K))
    (hpq : List.Forall₂ (· ≤ ·) q p) (hne : measured z p m ≠ []) (v w : K)
    (hv : ∀ e, misfit fraction (measured z p m) v ≤ misfit fraction (measured z p m) e)
    (hw : ∀ e, misfit fraction (measured z q m) w ≤ misfit fraction (measured z q m) e) : v ≤ w := by
  have hc := curvature_pos fraction hf _ hne
  have hne' : measured z q m ≠ [] := by
    intro hn
    have := measured_length z p q m hpq.length_eq.symm
    rw [hn] at this
    exact hne (List.length_eq_zero_iff.1 this)
  have hc' := curvature_pos fraction hf _ hne'
  have h := slope_le fraction (fun z => (hf z).le) z p q m hpq v w
  rw [slope_zero fraction _ v hc hv, slope_zero fraction _ w hc' hw] at h
  by_contra hlt
  have : (w - v) * curvature fraction (measured z p m) < 0 := mul_neg_of_neg_of_pos (by linarith) hc
  linarith

end Fm2prof

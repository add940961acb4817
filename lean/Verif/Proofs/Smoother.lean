import Verif.Spec.Smoother
import Verif.Props.Pipeline

/-!
# Lemmas about runs on maps with a larger roughness coefficient
-/

set_option linter.unusedSectionVars false

namespace Fm2prof.SmootherProof

open Fm2prof Spec Props

variable {K : Type} [Field K] [LinearOrder K] [IsStrictOrderedRing K]

/-! ## Means -/

theorem sum_le_of_forall₂ {as bs : List K} (h : List.Forall₂ (· ≤ ·) as bs) : as.sum ≤ bs.sum := by
  induction h with
  | nil => exact le_refl _
  | cons h _ ih => rw [List.sum_cons, List.sum_cons]; exact add_le_add h ih

theorem wet_le {as bs : List (Option K)} (h : List.Forall₂ NotRougher as bs) :
    List.Forall₂ (· ≤ ·) (wetValues as) (wetValues bs) := by
  unfold wetValues present
  induction h with
  | nil => exact .nil
  | cons h _ ih =>
    cases h with
    | missing => exact ih
    | dry =>
      simp only [List.filterMap_cons, id_eq]
      rw [List.filter_cons_of_neg (by simp), List.filter_cons_of_neg (by simp)]
      exact ih
    | wet a b ha hb hab =>
      simp only [List.filterMap_cons, id_eq]
      rw [List.filter_cons_of_pos (by simpa using ha), List.filter_cons_of_pos (by simpa using hb)]
      exact .cons hab ih

theorem meanWet_le {as bs : List (Option K)} (h : List.Forall₂ NotRougher as bs) : meanWet as ≤ meanWet bs := by
  have hw := wet_le h
  have hl := hw.length_eq
  have hs := sum_le_of_forall₂ hw
  unfold meanWet
  by_cases he : wetValues as = []
  · have hb : wetValues bs = [] := by rw [he] at hl; exact List.length_eq_zero_iff.1 hl.symm
    rw [if_pos he, if_pos hb]
  · have hb : wetValues bs ≠ [] := by
      intro hb; rw [hb] at hl; exact he (List.length_eq_zero_iff.1 hl)
    rw [if_neg he, if_neg hb]
    unfold mean
    rw [hl]
    exact div_le_div_of_nonneg_right hs (Nat.cast_nonneg _)

theorem edge_le (m : Model2d K) (chezy : List (List (Option K))) (h : NowhereRougher m.edges.chezy chezy) (l : Loc K) (sect : Text) (t : Nat) :
    List.Forall₂ NotRougher (edgeRoughness m l sect t) (edgeRoughness { m with edges := { m.edges with chezy := chezy } } l sect t) := by
  unfold edgeRoughness
  show List.Forall₂ NotRougher ((edgesIn m l sect).map _) ((edgesIn m l sect).map _)
  generalize edgesIn m l sect = es
  have key : ∀ e : Nat, NotRougher (m.edges.chezy[e]?.bind fun r => r[t]?.join) (chezy[e]?.bind fun r => r[t]?.join) := by
    intro e
    have hlen := List.Forall₂.length_eq h
    by_cases he : e < m.edges.chezy.length
    · have he' : e < chezy.length := by omega
      rw [List.getElem?_eq_getElem he, List.getElem?_eq_getElem he']
      simp only [Option.bind_some]
      have hr := (List.forall₂_iff_get.1 h).2 e he he'
      simp only [List.get_eq_getElem] at hr
      have hl2 := hr.length_eq
      by_cases ht : t < m.edges.chezy[e].length
      · have ht' : t < chezy[e].length := by omega
        rw [List.getElem?_eq_getElem ht, List.getElem?_eq_getElem ht']
        exact (List.forall₂_iff_get.1 hr).2 t ht ht'
      · rw [List.getElem?_eq_none (by omega), List.getElem?_eq_none (by omega)]
        exact .missing
    · rw [List.getElem?_eq_none (by omega), List.getElem?_eq_none (by omega)]
      exact .missing
  induction es with
  | nil => exact .nil
  | cons e es ih => exact .cons (key e) ih

/-! ## Reading a table -/

/-- The interval found has the level in it. -/
theorem interpSearch_spec (x : K) (as : List K) (i : Nat) :
    i ≤ interpSearch x as i ∧ (∀ k a, as[k]? = some a → i + k < interpSearch x as i → a ≤ x) ∧
      ∀ k a, as[k]? = some a → i + k = interpSearch x as i → x < a := by
  induction as generalizing i with
  | nil => exact ⟨le_refl _, fun k a h => (by cases h), fun k a h => (by cases h)⟩
  | cons b as ih =>
    unfold interpSearch
    by_cases hb : b ≤ x
    · rw [if_pos hb]
      obtain ⟨h1, h2, h3⟩ := ih (i + 1)
      refine ⟨by omega, fun k a hk hlt => ?_, fun k a hk he => ?_⟩
      · cases k with
        | zero => rw [List.getElem?_cons_zero] at hk; exact Option.some.inj hk ▸ hb
        | succ k => rw [List.getElem?_cons_succ] at hk; exact h2 k a hk (by omega)
      · cases k with
        | zero => omega
        | succ k => rw [List.getElem?_cons_succ] at hk; exact h3 k a hk (by omega)
    · rw [if_neg hb]
      refine ⟨le_refl _, fun k a hk hlt => by omega, fun k a hk he => ?_⟩
      obtain rfl : k = 0 := by omega
      rw [List.getElem?_cons_zero] at hk
      exact Option.some.inj hk ▸ not_le.1 hb

theorem get_le {as bs : List K} (h : List.Forall₂ (· ≤ ·) as bs) (k : Nat) (a b : K) (ha : as[k]? = some a) (hb : bs[k]? = some b) :
    a ≤ b := by
  obtain ⟨h1, rfl⟩ := List.getElem?_eq_some_iff.1 ha
  obtain ⟨h2, rfl⟩ := List.getElem?_eq_some_iff.1 hb
  exact (List.forall₂_iff_get.1 h).2 k h1 h2

theorem interp1_le (xp fp fp' : List K) (h : List.Forall₂ (· ≤ ·) fp fp') (x v v' : K) (hv : interp1 xp fp x = some v)
    (hv' : interp1 xp fp' x = some v') : v ≤ v' := by
  have hlen := h.length_eq
  unfold interp1 at hv hv'
  cases h0 : xp.head? with
  | none => rw [h0] at hv; simp at hv
  | some x₀ =>
  cases h1 : xp.getLast? with
  | none => rw [h0, h1] at hv; simp at hv
  | some x₁ =>
  cases f0 : fp.head? with
  | none => rw [h0, h1, f0] at hv; simp at hv
  | some f₀ =>
  cases f1 : fp.getLast? with
  | none => rw [h0, h1, f0, f1] at hv; simp at hv
  | some f₁ =>
  cases g0 : fp'.head? with
  | none => rw [h0, h1, g0] at hv'; simp at hv'
  | some g₀ =>
  cases g1 : fp'.getLast? with
  | none => rw [h0, h1, g0, g1] at hv'; simp at hv'
  | some g₁ =>
  rw [h0, h1, f0, f1] at hv
  rw [h0, h1, g0, g1] at hv'
  simp only at hv hv'
  by_cases c1 : x₁ < x
  · rw [if_pos c1] at hv hv'
    obtain rfl := Option.some.inj hv
    obtain rfl := Option.some.inj hv'
    rw [List.getLast?_eq_getElem?] at f1 g1
    rw [← hlen] at g1
    exact get_le h _ _ _ f1 g1
  rw [if_neg c1] at hv hv'
  by_cases c2 : x < x₀
  · rw [if_pos c2] at hv hv'
    obtain rfl := Option.some.inj hv
    obtain rfl := Option.some.inj hv'
    rw [List.head?_eq_getElem?] at f0 g0
    exact get_le h _ _ _ f0 g0
  rw [if_neg c2] at hv hv'
  obtain ⟨s1, s2, s3⟩ := interpSearch_spec x xp.tail 0
  generalize hj : interpSearch x xp.tail 0 = j at hv hv' s1 s2 s3
  cases ha : xp[j]? with
  | none => rw [ha] at hv; simp at hv
  | some a =>
  cases hfa : fp[j]? with
  | none => rw [ha, hfa] at hv; simp at hv
  | some fa =>
  cases hga : fp'[j]? with
  | none => rw [ha, hga] at hv'; simp at hv'
  | some ga =>
  rw [ha, hfa] at hv
  rw [ha, hga] at hv'
  simp only at hv hv'
  have hle := get_le h j _ _ hfa hga
  have hnone : ∀ k : Nat, fp[k]? = none ↔ fp'[k]? = none := by
    intro k; rw [List.getElem?_eq_none_iff, List.getElem?_eq_none_iff, hlen]
  cases hb : xp[j + 1]? with
  | none =>
    rw [hb] at hv hv'
    simp only at hv hv'
    obtain rfl := Option.some.inj hv
    obtain rfl := Option.some.inj hv'
    exact hle
  | some b =>
  cases hfb : fp[j + 1]? with
  | none =>
    have hgb := (hnone _).1 hfb
    rw [hb, hfb] at hv
    rw [hb, hgb] at hv'
    simp only at hv hv'
    obtain rfl := Option.some.inj hv
    obtain rfl := Option.some.inj hv'
    exact hle
  | some fb =>
  cases hgb : fp'[j + 1]? with
  | none => rw [(hnone _).2 hgb] at hfb; cases hfb
  | some gb =>
  rw [hb, hfb] at hv
  rw [hb, hgb] at hv'
  simp only at hv hv'
  by_cases c3 : a = x
  · rw [if_pos c3] at hv hv'
    obtain rfl := Option.some.inj hv
    obtain rfl := Option.some.inj hv'
    exact hle
  rw [if_neg c3] at hv hv'
  obtain rfl := Option.some.inj hv
  obtain rfl := Option.some.inj hv'
  have hle' := get_le h (j + 1) _ _ hfb hgb
  have hax : a ≤ x := by
    cases j with
    | zero =>
      rw [← List.head?_eq_getElem?, h0] at ha
      exact Option.some.inj ha ▸ not_lt.1 c2
    | succ j => exact s2 j a (by rw [List.getElem?_tail]; exact ha) (by omega)
  have hxb : x < b := s3 j b (by rw [List.getElem?_tail]; exact hb) (by omega)
  have hd : 0 < b - a := by linarith
  have e : ∀ p q : K, (q - p) / (b - a) * (x - a) + p = (p * (b - x) + q * (x - a)) / (b - a) := by
    intro p q; field_simp; ring
  rw [e, e]
  refine div_le_div_of_nonneg_right ?_ hd.le
  exact add_le_add (mul_le_mul_of_nonneg_right hle (by linarith)) (mul_le_mul_of_nonneg_right hle' (by linarith))

theorem interpolate_le (level fr fr' grid vs vs' : List K) (h : List.Forall₂ (· ≤ ·) fr fr')
    (hv : FrictionTable.interpolate ⟨level, fr⟩ grid = .ok ⟨grid, vs⟩) (hv' : FrictionTable.interpolate ⟨level, fr'⟩ grid = .ok ⟨grid, vs'⟩) :
    List.Forall₂ (· ≤ ·) vs vs' := by
  unfold FrictionTable.interpolate at hv hv'
  simp only at hv hv'
  cases h1 : allSome (grid.map (interp1 level fr)) with
  | none => rw [h1] at hv; cases hv
  | some ws =>
  cases h2 : allSome (grid.map (interp1 level fr')) with
  | none => rw [h2] at hv'; cases hv'
  | some ws' =>
  rw [h1] at hv
  rw [h2] at hv'
  simp only [Except.ok.injEq, FrictionTable.mk.injEq, true_and] at hv hv'
  subst hv hv'
  have e1 := (allSome_eq _ _).1 h1
  have e2 := (allSome_eq _ _).1 h2
  have l1 := congrArg List.length e1
  have l2 := congrArg List.length e2
  simp only [List.length_map] at l1 l2
  refine List.forall₂_iff_get.2 ⟨by omega, fun k k1 k2 => ?_⟩
  have g1 := congrArg (·[k]?) e1
  have g2 := congrArg (·[k]?) e2
  have hk : k < grid.length := by omega
  simp only [List.getElem?_map, List.getElem?_eq_getElem hk, List.getElem?_eq_getElem k1, List.getElem?_eq_getElem k2, Option.map_some,
    Option.some.injEq] at g1 g2
  exact interp1_le level fr fr' h _ _ _ g1 g2

/-! ## The levels -/

theorem levelRange_congr {σ : Type} [LinearOrder σ] (s : σ) (as bs : List (Tables σ K))
    (h : List.Forall₂ (fun a b => (Tables.get a s).map (·.level) = (Tables.get b s).map (·.level)) as bs) (r : K × K) :
    levelRange s as r = levelRange s bs r := by
  induction h generalizing r with
  | nil => rfl
  | @cons a b as bs h _ ih =>
    unfold levelRange
    cases ha : Tables.get a s with
    | none =>
      rw [ha] at h
      cases hb : Tables.get b s with
      | none => exact ih r
      | some t => rw [hb] at h; cases h
    | some t =>
      rw [ha] at h
      cases hb : Tables.get b s with
      | none => rw [hb] at h; cases h
      | some t' =>
        rw [hb] at h
        have h : t.level = t'.level := Option.some.inj h
        simp only
        rw [h]
        cases t'.level.min? with
        | none => rfl
        | some lo =>
          cases t'.level.max? with
          | none => rfl
          | some hi => exact ih _

theorem gridOf_congr [FloorRing K] {σ : Type} [LinearOrder σ] (s : σ) (as bs : List (Tables σ K))
    (h : List.Forall₂ (fun a b => (Tables.get a s).map (·.level) = (Tables.get b s).map (·.level)) as bs) :
    gridOf s as = gridOf s bs := by
  unfold gridOf
  rw [levelRange_congr s as bs h]

end Fm2prof.SmootherProof

import Verif.Spec.Wider
import Verif.Proofs.OneSetting

/-!
# Lemmas for profiles with a larger smallest width
-/

set_option linter.unusedSectionVars false

namespace Fm2prof.WiderProof

open Fm2prof Spec OneSettingProof

variable {K : Type} [Field K] [LinearOrder K] [IsStrictOrderedRing K]

/-- The relation between two widths with `b` the bound. -/
private def Step (b a a' : K) : Prop := a ≤ a' ∧ (a' = a ∨ a' ≤ b)

/-- Two lists of widths, pointwise, from position `j` on. -/
private inductive Steps (bump : K → K) : K → List K → List K → Prop
  | nil (b : K) : Steps bump b [] []
  | cons (b a a' : K) (as as' : List K) (h : Step b a a') (hs : Steps bump (bump b) as as') : Steps bump b (a :: as) (a' :: as')

private theorem steps_increasing (bump : K → K) (hb : ∀ y, y < bump y) (hmono : Monotone bump) (lo w : K) (hlo : lo ≤ w) (u : List K)
    (b p p' : K) (hp : Step b p p') (hw : w ≤ p') :
    Steps bump (bump b) (increasingFrom bump p (removeZeroWidths lo u)) (increasingFrom bump p' (removeZeroWidths w u)) := by
  induction u generalizing b p p' with
  | nil => exact .nil _
  | cons y u ih =>
    have hx : (if y < lo then lo else y) ≤ if y < w then w else y := by
      split <;> split
      · exact hlo
      · rename_i h1 h2; exact hlo.trans (not_lt.1 h2)
      · rename_i h1 h2; exact h2.le
      · exact le_rfl
    have hstep : Step (bump b) (if (if y < lo then lo else y) ≤ p then bump p else if y < lo then lo else y)
          (if (if y < w then w else y) ≤ p' then bump p' else if y < w then w else y) ∧
        w ≤ if (if y < w then w else y) ≤ p' then bump p' else if y < w then w else y := by
      by_cases h1 : (if y < w then w else y) ≤ p'
      · rw [if_pos h1]
        refine ⟨?_, hw.trans (hb p').le⟩
        by_cases h2 : (if y < lo then lo else y) ≤ p
        · rw [if_pos h2]
          refine ⟨hmono hp.1, ?_⟩
          rcases hp.2 with e | e
          · left; rw [e]
          · right; exact hmono e
        · rw [if_neg h2]
          refine ⟨(hx.trans h1).trans (hb p').le, .inr ?_⟩
          rcases hp.2 with e | e
          · exact absurd (e ▸ hx.trans h1) h2
          · exact hmono e
      · rw [if_neg h1]
        have hy : ¬ y < w := fun hy => h1 (by rw [if_pos hy]; exact hw)
        have hy' : ¬ y < lo := fun h => hy (h.trans_le hlo)
        rw [if_neg hy] at h1 ⊢
        rw [if_neg hy']
        have h2 : ¬ y ≤ p := fun h => h1 (h.trans hp.1)
        rw [if_neg h2]
        exact ⟨⟨le_rfl, .inl rfl⟩, not_lt.1 hy⟩
    exact .cons _ _ _ _ _ hstep.1 (ih _ _ _ hstep.1 hstep.2)

private theorem steps_widths (bump : K → K) (hb : ∀ y, y < bump y) (hmono : Monotone bump) (lo w : K) (hlo : lo ≤ w) (u : List K) :
    Steps bump w (checkIncreasingOrder bump (removeZeroWidths lo u)) (checkIncreasingOrder bump (removeZeroWidths w u)) := by
  cases u with
  | nil => exact .nil _
  | cons y u =>
    have h : Step w (if y < lo then lo else y) (if y < w then w else y) ∧ w ≤ if y < w then w else y := by
      by_cases hy : y < w
      · rw [if_pos hy]
        refine ⟨⟨?_, .inr le_rfl⟩, le_rfl⟩
        split
        · exact hlo
        · exact hy.le
      · have hy' : ¬ y < lo := fun h => hy (h.trans_le hlo)
        rw [if_neg hy, if_neg hy']
        exact ⟨⟨le_rfl, .inl rfl⟩, not_lt.1 hy⟩
    exact .cons _ _ _ _ _ h.1 (steps_increasing bump hb hmono lo w hlo u _ _ _ h.1 h.2)

private theorem steps_cap (bump : K → K) (b : K) (t t' f f' : List K) (ht : Steps bump b t t') (hf : Steps bump b f f') :
    Steps bump b (capFlowWidth t f) (capFlowWidth t' f') := by
  induction ht generalizing f f' with
  | nil b => exact .nil _
  | cons b a a' as as' h hs ih =>
    cases hf with
    | nil => exact .nil _
    | cons _ c c' cs cs' k ks =>
      refine .cons _ _ _ _ _ ?_ (ih _ _ ks)
      have e : ∀ s g : K, (if s < g then s else g) = min s g := fun s g => by
        split
        · rename_i h; exact (min_eq_left h.le).symm
        · rename_i h; exact (min_eq_right (not_lt.1 h)).symm
      show Step b (if a < c then a else c) (if a' < c' then a' else c')
      rw [e, e]
      refine ⟨min_le_min h.1 k.1, ?_⟩
      rcases h.2 with h2 | h2
      · rcases k.2 with k2 | k2
        · left; rw [h2, k2]
        · right; exact (min_le_right _ _).trans k2
      · right; exact (min_le_left _ _).trans h2

private theorem steps_raised (bump : K → K) (b : K) (as as' : List K) (h : Steps bump b as as') : RaisedTo bump b as as' := by
  induction h with
  | nil b => exact ⟨rfl, fun j a a' h => by cases h⟩
  | cons b a a' as as' h hs ih =>
    refine ⟨congrArg (· + 1) ih.1, fun j c c' hc hc' => ?_⟩
    cases j with
    | zero =>
      obtain rfl := Option.some.inj hc
      obtain rfl := Option.some.inj hc'
      rcases h.2 with e | e
      · exact .inl e
      · rcases h.1.eq_or_lt with e' | e'
        · exact .inl e'.symm
        · exact .inr ⟨e', e⟩
    | succ j => exact ih.2 j c c' hc hc'

/-- The repairs of a profile with a larger smallest width. -/
theorem repairs_wider (bump : K → K) (hb : ∀ y, y < bump y) (hmono : Monotone bump) (lo w : K) (hlo : lo ≤ w) (g r r' : Geometry K)
    (h : checkRequirements bump lo g = .ok r) (h' : checkRequirements bump w g = .ok r') :
    r'.z = r.z ∧ RaisedTo bump w r.totalWidth r'.totalWidth ∧ RaisedTo bump w r.flowWidth r'.flowWidth := by
  unfold checkRequirements at h h'
  cases hf : firstNonzeroIndex g.totalWidth with
  | error e => rw [hf] at h; cases h
  | ok k =>
    rw [hf] at h h'
    obtain rfl := (Except.ok.inj h).symm
    obtain rfl := (Except.ok.inj h').symm
    exact ⟨rfl, steps_raised _ _ _ _ (steps_widths bump hb hmono lo w hlo _),
      steps_raised _ _ _ _ (steps_cap _ _ _ _ _ _ (steps_widths bump hb hmono lo w hlo _) (steps_widths bump hb hmono lo w hlo _))⟩

/-- The table of a cross-section with a larger smallest width. -/
theorem table_wider [FloorRing K] (x : Tools K) (hb : ∀ y, y < x.bump y) (hmono : Monotone x.bump) (cfg : RunConfig K) (w : K)
    (hlo : cfg.pipeline.minimumWidth ≤ w) (m : Model2d K) (l : Loc K) (c c' : Finished K) (h : buildCss x cfg m l = .ok c)
    (h' : buildCss x (RunConfig.withMinimumWidth w cfg) m l = .ok c') :
    { volumeTableOf c'.css with tw1d := (volumeTableOf c.css).tw1d, fw1d := (volumeTableOf c.css).fw1d } = volumeTableOf c.css ∧
      RaisedTo x.bump w c.css.raw.totalWidth c'.css.raw.totalWidth ∧ RaisedTo x.bump w c.css.raw.flowWidth c'.css.raw.flowWidth := by
  obtain ⟨g1, -⟩ := buildCss_ok x cfg m l c h
  obtain ⟨k1, -⟩ := buildCss_ok _ _ m l c' h'
  obtain ⟨b, g, e1, e2, e3⟩ := geometry_steps _ _ _ _ _ _ _ _ _ g1
  obtain ⟨b', g', f1, f2, f3⟩ := geometry_steps _ _ _ _ _ _ _ _ _ k1
  have f1 : buildGeometry cfg.pipeline.build l.length (centreOf x.nn (getSelection x.sqrt m.faces m.edges l.id) l)
    (controlVolumeOf m.nMaps (getSelection x.sqrt m.faces m.edges l.id)) = .ok b' := f1
  rw [e1] at f1
  obtain rfl := Except.ok.inj f1
  have hpc : performCorrection (x.opt l.id) (RunConfig.withMinimumWidth w cfg).pipeline x.release (x.log l.id) (Css.ofBuilt l.length b) =
    performCorrection (x.opt l.id) cfg.pipeline x.release (x.log l.id) (Css.ofBuilt l.length b) := rfl
  rw [hpc] at f3
  obtain ⟨r1, -, -, -, -, r6, r7⟩ := reduceCss_rest cfg.pipeline.maximumPoints
    { performCorrection (x.opt l.id) cfg.pipeline x.release (x.log l.id) (Css.ofBuilt l.length b) with
      raw := { b with z := g.z, totalWidth := g.totalWidth, flowWidth := g.flowWidth } }
  obtain ⟨s1, -, -, -, -, s6, s7⟩ := reduceCss_rest (RunConfig.withMinimumWidth w cfg).pipeline.maximumPoints
    { performCorrection (x.opt l.id) cfg.pipeline x.release (x.log l.id) (Css.ofBuilt l.length b) with
      raw := { b with z := g'.z, totalWidth := g'.totalWidth, flowWidth := g'.flowWidth } }
  rw [← e3] at r1 r6 r7
  rw [← f3] at s1 s6 s7
  obtain ⟨q1, q2, q3⟩ := repairs_wider x.bump hb hmono _ w hlo _ g g' e2 f2
  refine ⟨?_, by rw [r1, s1]; exact q2, by rw [r1, s1]; exact q3⟩
  unfold volumeTableOf
  rw [r1, s1, r6, r7, s6, s7, q1]

end Fm2prof.WiderProof

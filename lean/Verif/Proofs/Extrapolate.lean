import Verif.Proofs.Stricter
import Verif.Spec.Extrapolate

/-!
# Profiles with and without storage below the first level
-/

set_option linter.unusedSectionVars false

namespace Fm2prof.ExtrapolateProof

open Fm2prof Spec Props OneSettingProof ConveyanceProof StricterProof

variable {K : Type} [Field K] [LinearOrder K] [IsStrictOrderedRing K] [FloorRing K]

theorem ten_below (d : K) : (linspace10 d).reverse.length = 10 := by
  unfold linspace10
  rw [List.length_reverse, List.length_map, List.length_range]

theorem take_ten {α : Type} (a b : List α) (h : a.length = 10) : (a ++ b).take 10 = a ∧ (a ++ b).drop 10 = b := by
  rw [← h]
  exact ⟨List.take_left, List.drop_left⟩

/-- The two profiles. -/
theorem build_extrapolate (cfg : BuildConfig K) (len : K) (hlen : 0 ≤ len) (centre : Nat) (raw : ControlVolume K) (b b' : Built K)
    (h : buildGeometry { cfg with extrapolateStorage := true } len centre raw = .ok b)
    (h' : buildGeometry { cfg with extrapolateStorage := false } len centre raw = .ok b') :
    b'.flowVolume2d = b.flowVolume2d ∧ b'.flowArea.drop 10 = b.flowArea.drop 10 ∧ b'.flowWidth.drop 10 = b.flowWidth.drop 10 ∧
      b'.flowArea.take 10 = b'.wetArea.take 10 ∧ b'.flowWidth.take 10 = b'.totalWidth.take 10 ∧
      List.Forall₂ (· ≤ ·) b.flowArea b'.flowArea ∧ List.Forall₂ (· ≤ ·) b.flowWidth b'.flowWidth ∧
      ∀ f0, b.flowArea[10]? = some f0 → b.flowArea.take 10 = (b'.flowArea.take 10).map (min · f0) := by
  obtain ⟨c, L, z, d0, h1, h2, h3, h4, h5, rfl⟩ := buildGeometry_ok h
  obtain ⟨c', L', z', d0', k1, k2, k3, k4, k5, rfl⟩ := buildGeometry_ok h'
  have k1 : (getTimeseries cfg.skipMaps raw).cells[centre]? = some c' := k1
  have h1 : (getTimeseries cfg.skipMaps raw).cells[centre]? = some c := h1
  obtain rfl : c = c' := Option.some.inj (h1.symm.trans k1)
  have k3 : pyIndex (getTimeseries cfg.skipMaps raw).nMaps cfg.lakeTimesteps = .ok L' := k3
  have h3 : pyIndex (getTimeseries cfg.skipMaps raw).nMaps cfg.lakeTimesteps = .ok L := h3
  obtain rfl : L = L' := Except.ok.inj (h3.symm.trans k3)
  obtain rfl : d0 = d0' := Option.some.inj (h5.symm.trans k5)
  have hz : z = z' := by
    have : z.map some = z'.map some := h4.symm.trans k4
    exact List.map_injective_iff.2 (Option.some_injective K) this
  subst hz
  have hf1 : (series2d { cfg with extrapolateStorage := true } (getTimeseries cfg.skipMaps raw) L (c.depth 0)) =
    series2d cfg (getTimeseries cfg.skipMaps raw) L (c.depth 0) := rfl
  have hf2 : (series2d { cfg with extrapolateStorage := false } (getTimeseries cfg.skipMaps raw) L (c.depth 0)) =
    series2d cfg (getTimeseries cfg.skipMaps raw) L (c.depth 0) := rfl
  show _ ∧ _ ∧ _ ∧ _ ∧ _ ∧ _ ∧ _ ∧ _
  rw [hf1, hf2]
  simp only
  generalize maskSelect (checkMonotonicity (centreLevels (getTimeseries cfg.skipMaps raw).nMaps c))
    (series2d cfg (getTimeseries cfg.skipMaps raw) L (c.depth 0)).flowArea = fa
  generalize (getTimeseries cfg.skipMaps raw).cells = cells
  unfold assemble
  simp only
  have hw : ((linspace10 d0).reverse.map (areaBelow L cells)).length = 10 := by rw [List.length_map, ten_below]
  generalize (linspace10 d0).reverse.map (areaBelow L cells) = w at hw
  have hwf : ∀ e f, (w.map (flowAreaBelow e f)).length = 10 := fun e f => by rw [List.length_map, hw]
  have hwd : (w.map (· / len)).length = 10 := by rw [List.length_map, hw]
  have hwfd : ∀ e f, ((w.map (flowAreaBelow e f)).map (· / len)).length = 10 := fun e f => by rw [List.length_map, hwf]
  have hoff : ∀ f, w.map (flowAreaBelow false f) = w := fun f => by
    conv_rhs => rw [← List.map_id w]
    exact List.map_congr_left fun a _ => rfl
  have hmin : List.Forall₂ (· ≤ ·) (w.map (flowAreaBelow true (fa.headD 0))) (w.map (flowAreaBelow false (fa.headD 0))) :=
    map_mono_same _ _ (fun x => min_le_left _ _) w
  refine ⟨trivial, ?_, ?_, ?_, ?_, ?_, ?_, ?_⟩
  · rw [(take_ten _ _ (hwf _ _)).2, (take_ten _ _ (hwf _ _)).2]
  · rw [(take_ten _ _ (hwfd _ _)).2, (take_ten _ _ (hwfd _ _)).2]
  · rw [(take_ten _ _ (hwf _ _)).1, (take_ten _ _ hw).1, hoff]
  · rw [(take_ten _ _ (hwfd _ _)).1, (take_ten _ _ hwd).1, hoff]
  · exact append_rel _ _ _ _ hmin (List.forall₂_refl _)
  · exact append_rel _ _ _ _ (map_mono (· / len) (fun x y hxy => div_le_div_of_nonneg_right hxy hlen) _ _ hmin) (List.forall₂_refl _)
  · intro f0 hf0
    rw [(take_ten _ _ (hwf _ _)).1, (take_ten _ _ (hwf _ _)).1, hoff]
    rw [List.getElem?_append_right (le_of_eq (hwf _ _)), hwf] at hf0
    refine List.map_congr_left fun a _ => ?_
    cases fa with
    | nil => cases hf0
    | cons y ys =>
      obtain rfl : y = f0 := Option.some.inj hf0
      rfl

/-- The levels and the total part do not depend on it. -/
theorem total_extrapolate (cfg : BuildConfig K) (len : K) (centre : Nat) (raw : ControlVolume K) (b b' : Built K)
    (h : buildGeometry { cfg with extrapolateStorage := true } len centre raw = .ok b)
    (h' : buildGeometry { cfg with extrapolateStorage := false } len centre raw = .ok b') : total b' = total b :=
  build_still { cfg with extrapolateStorage := true } { cfg with extrapolateStorage := false } rfl rfl len centre raw raw rfl rfl b b' h h'

/-- The published flow widths. -/
theorem css_extrapolate (x : Tools K) (b : K) (hb0 : 0 ≤ b) (hb : ∀ y, x.bump y = y + b)
    (opt : Text → Optimiser K) (log : Text → Nat → Option PyErr) (cfg : RunConfig K) (m : Model2d K) (l : Loc K)
    (hl : 0 ≤ l.length) (c c' : Finished K) (h : buildCss x (RunConfig.withExtrapolation true cfg) m l = .ok c)
    (h' : buildCss { x with opt := opt, log := log } (RunConfig.withExtrapolation false cfg) m l = .ok c') :
    List.Forall₂ (Within (((m.nMaps + 10 : Nat) : K) * b)) c.out.flowWidth c'.out.flowWidth := by
  obtain ⟨g1, -, -, -, -, -, -, -, -, -, g7, -, -, -⟩ := buildCss_ok _ _ m l c h
  obtain ⟨k1, -, -, -, -, -, -, -, -, -, k7, -, -, -⟩ := buildCss_ok _ _ m l c' h'
  obtain ⟨bu, g, e1, e2, e3⟩ := geometry_steps _ _ _ _ _ _ _ _ _ g1
  obtain ⟨bu', g', f1, f2, f3⟩ := geometry_steps _ _ _ _ _ _ _ _ _ k1
  have e1 : buildGeometry { cfg.pipeline.build with extrapolateStorage := true } l.length
    (centreOf x.nn (getSelection x.sqrt m.faces m.edges l.id) l)
    (controlVolumeOf m.nMaps (getSelection x.sqrt m.faces m.edges l.id)) = .ok bu := e1
  have f1 : buildGeometry { cfg.pipeline.build with extrapolateStorage := false } l.length
    (centreOf x.nn (getSelection x.sqrt m.faces m.edges l.id) l)
    (controlVolumeOf m.nMaps (getSelection x.sqrt m.faces m.edges l.id)) = .ok bu' := f1
  obtain ⟨-, -, -, -, -, -, q2, -⟩ := build_extrapolate cfg.pipeline.build l.length hl _ _ bu bu' e1 f1
  have ht := total_extrapolate _ _ _ _ _ _ e1 f1
  have t1 : bu.z = bu'.z := (congrArg Total.z ht).symm
  have t2 : bu.totalWidth = bu'.totalWidth := (congrArg Total.totalWidth ht).symm
  have hlen : bu.flowWidth.length ≤ m.nMaps + 10 := by
    obtain ⟨acc, hacc, hl⟩ := Props.C07_arrays_aligned e1
    obtain ⟨c', L, z0, d0, zs, accs, hc', -, hzr, -⟩ := built_parts e1
    have h1 := accepted_length _ _ hacc
    rw [hzr, centreLevels_length] at h1
    have h2 : (getTimeseries cfg.pipeline.build.skipMaps
        (controlVolumeOf m.nMaps (getSelection x.sqrt m.faces m.edges l.id))).nMaps ≤ m.nMaps := by
      unfold getTimeseries
      exact Nat.sub_le _ _
    have h1 : acc.length ≤ (getTimeseries cfg.pipeline.build.skipMaps
        (controlVolumeOf m.nMaps (getSelection x.sqrt m.faces m.edges l.id))).nMaps := h1
    omega
  have hw := requirements_within x.bump b hb0 hb cfg.pipeline.minimumWidth _ _ _ _ t2 q2 (m.nMaps + 10) hlen f2 e2
  obtain ⟨r1, r2⟩ := requirements_total x.bump cfg.pipeline.minimumWidth _ _ _ _ t1 t2 f2 e2
  obtain ⟨-, -, -, p3⟩ := performCorrection_raw (x.opt l.id) (RunConfig.withExtrapolation true cfg).pipeline x.release (x.log l.id)
    (Css.ofBuilt l.length bu)
  obtain ⟨-, -, -, p3'⟩ := performCorrection_raw (opt l.id)
    (RunConfig.withExtrapolation false cfg).pipeline x.release (log l.id) (Css.ofBuilt l.length bu')
  rw [g7, k7, e3, f3]
  exact reduce_within _ _ _ _ r1 r2 hw p3 p3'

end Fm2prof.ExtrapolateProof

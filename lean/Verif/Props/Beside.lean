import Verif.Proofs.Beside
import Verif.Proofs.OneSetting
import Verif.Props.Refined

/-!
# Properties of the volumes beside a profile in the volume file

C203: the total 1D volumes in the volume file against those of the levels and total widths in the same rows.
-/

set_option linter.unusedSectionVars false

namespace Fm2prof.Props

open Fm2prof Spec OneSettingProof BesideProof

variable {K : Type} [Field K] [LinearOrder K] [IsStrictOrderedRing K] [FloorRing K]

private theorem table_columns (x : Tools K) (cfg : RunConfig K) (m : Model2d K) (l : Loc K) (c : Finished K) (h : buildCss x cfg m l = .ok c) :
    ∃ b g, buildGeometry cfg.pipeline.build l.length (centreOf x.nn (getSelection x.sqrt m.faces m.edges l.id) l)
        (controlVolumeOf m.nMaps (getSelection x.sqrt m.faces m.edges l.id)) = .ok b ∧
      checkRequirements x.bump cfg.pipeline.minimumWidth { z := b.z, totalWidth := b.totalWidth, flowWidth := b.flowWidth } = .ok g ∧
      (volumeTableOf c.css).z = g.z.map some ∧ (volumeTableOf c.css).tw1d = g.totalWidth.map some ∧
      (volumeTableOf c.css).wa2d = b.wetArea.map some ∧ (volumeTableOf c.css).tv1d = b.totalVolume1d.map some := by
  obtain ⟨g1, -⟩ := buildCss_ok x cfg m l c h
  obtain ⟨b, g, e1, e2, e3⟩ := geometry_steps _ _ _ _ _ _ _ _ _ g1
  have hraw : c.css.raw = { b with z := g.z, totalWidth := g.totalWidth, flowWidth := g.flowWidth } := by
    rw [e3, (reduceCss_rest _ _).1]
  refine ⟨b, g, e1, e2, ?_, ?_, ?_, ?_⟩ <;> unfold volumeTableOf <;> rw [hraw]

/-- The tenth and the eleventh point are built at the same level. -/
private theorem double_level {cfg : BuildConfig K} {len : K} {centre : Nat} {raw : ControlVolume K} {b : Built K}
    (h : buildGeometry cfg len centre raw = .ok b) : ∃ z0, b.z[9]? = some z0 ∧ b.z[10]? = some z0 := by
  obtain ⟨c, L, z0, d0, zs, accs, -, -, -, -, -, -, -, hz, -⟩ := built_parts h
  refine ⟨z0, ?_, ?_⟩
  · rw [hz]
    have hr : List.range 10 = [0, 1, 2, 3, 4, 5, 6, 7, 8, 9] := rfl
    simp [linspace10, hr]
  · rw [hz]
    simp [linspace10]

private theorem valid_parts (x : Tools K) (hb : ∀ y, y < x.bump y) (w : K) {cfg : BuildConfig K} {len : K} {centre : Nat}
    {raw : ControlVolume K} {b : Built K} (h : buildGeometry cfg len centre raw = .ok b) (g : Geometry K)
    (hg : checkRequirements x.bump w { z := b.z, totalWidth := b.totalWidth, flowWidth := b.flowWidth } = .ok g) :
    ValidProfile w g.z g.totalWidth g.flowWidth ∧ g.z.length = b.z.length ∧ b.totalWidth.length = b.z.length ∧ 10 < b.z.length := by
  obtain ⟨acc, -, a1, a2, a3, -⟩ := C07_arrays_aligned h
  obtain ⟨z0, h9, h10⟩ := double_level h
  obtain ⟨v, e⟩ := C03_requirements_give_valid_profile x.bump hb w _ g ⟨a2.trans a1.symm, a3.trans a1.symm⟩ hg
  exact ⟨v, e, a2.trans a1.symm, (List.getElem?_eq_some_iff.1 h10).1⟩

/-- **C203 is violated by every run**, for every cross-section with a positive length when the smallest width is positive: the volumes
in the volume file are not those of the levels and total widths beside them. The tenth and the eleventh row have different levels and
positive widths, but the same volume. -/
theorem C203_volumes_violated (x : Tools K) (hb : ∀ y, y < x.bump y) (cfg : RunConfig K) (hmin : 0 < cfg.pipeline.minimumWidth)
    (i : Inputs K) (hi : Consistent i) (o : Surroundings) (hdir : o.dirExists = true) (hw : ∀ f, IsResult f → Sound o.faults f)
    (overwrite : Bool) (s : Store) (h : (run (jobOf x cfg i o) overwrite s).2 = .ok true) (m : Model2d K)
    (hm : setModelData x.nn i = .ok m) (xs : List (Loc K)) (hx : Requested cfg.cssSelection m.stations xs)
    (hn : ∀ l ∈ xs, CsvName l.id ∧ l.id ≠ "id".toList) (hd : (xs.map (·.id)).Nodup)
    (hfloat : ∀ l ∈ xs, ∀ c, buildCss x cfg m l = .ok c → VolumeTable.Floats x.ft (volumeTableOf c.css))
    (l : Loc K) (hl : l ∈ xs) (hu : Usable m l) (hlen : 0 < l.length) :
    ∃ text v, ∃ z w : List K, (run (jobOf x cfg i o) overwrite s).1 "volumes.csv".toList = some text ∧
      readVolumes x.ft text l.id = .ok v ∧ v.z = z.map some ∧ v.tw1d = w.map some ∧ v.tv1d.length = z.length ∧
      v.tv1d[10]? = v.tv1d[9]? ∧
      ¬ ∀ j < z.length, v.tv1d[j]? = some (some (trapezoidArea (w.take (j + 1)) (z.take (j + 1)) * l.length)) := by
  obtain ⟨text, c, t1, t2, t3⟩ := run_volumes x hb cfg i hi o hdir hw overwrite s h m hm xs hx hn hd hfloat l hl hu
  obtain ⟨b, g, hbg, hg, e1, e2, -, e3⟩ := table_columns x cfg m l c t3
  obtain ⟨hv, hgl, hbl, h10⟩ := valid_parts x hb _ hbg g hg
  have h10' : 10 < g.z.length := hgl ▸ h10
  obtain ⟨z0, z9, z10⟩ := double_level hbg
  have hvol := C08_built hbg
  have hsame : b.totalVolume1d[10]? = b.totalVolume1d[9]? := by
    rw [(hvol 10 h10).1, (hvol 9 (by omega)).1, trapezoid_next b.totalWidth b.z 9 (by omega) h10,
      (List.getElem?_eq_some_iff.1 z9).2, (List.getElem?_eq_some_iff.1 z10).2]
    congr 2
    ring
  have hsame' : (volumeTableOf c.css).tv1d[10]? = (volumeTableOf c.css).tv1d[9]? := by
    rw [e3, List.getElem?_map, List.getElem?_map, hsame]
  refine ⟨text, volumeTableOf c.css, g.z, g.totalWidth, t1, t2, e1, e2, ?_, hsame', fun hall => ?_⟩
  · obtain ⟨acc, -, a1, -, -, -, -, -, -, a2, -⟩ := C07_arrays_aligned hbg
    rw [e3, List.length_map, a2, hgl, a1]
  · have p9 := hall 9 (by omega)
    have p10 := hall 10 h10'
    rw [hsame', p9, trapezoid_next g.totalWidth g.z 9 (by rw [hv.lengths.1]; exact h10') h10'] at p10
    have p := Option.some.inj (Option.some.inj p10)
    have hup : g.z[9] < g.z[9 + 1] := List.pairwise_iff_getElem.1 hv.levelsUp 9 10 (by omega) h10' (by omega)
    have l9 : 9 < g.totalWidth.length := by rw [hv.lengths.1]; omega
    have l10 : 9 + 1 < g.totalWidth.length := by rw [hv.lengths.1]; exact h10'
    have w9 : (0 : K) < g.totalWidth[9] := hmin.trans_le (hv.minTotal _ (List.getElem_mem l9))
    have w10 : (0 : K) < g.totalWidth[9 + 1] := hmin.trans_le (hv.minTotal _ (List.getElem_mem l10))
    have p1 : (0 : K) < (g.z[9 + 1] - g.z[9]) * (g.totalWidth[9] + g.totalWidth[9 + 1]) := mul_pos (sub_pos.2 hup) (add_pos w9 w10)
    have p2 : (0 : K) < (g.z[9 + 1] - g.z[9]) * (g.totalWidth[9] + g.totalWidth[9 + 1]) / 2 * l.length := mul_pos (half_pos p1) hlen
    rw [add_mul] at p
    exact absurd p (ne_of_lt (lt_add_of_pos_right _ p2))

private theorem centre_depths (m : Model2d K) (hdepth : ∀ ds ∈ m.faces.waterdepth, ∀ d, some d ∈ ds → 0 ≤ d) (sqrt : K → K) (r : Nat) (c : Cell K)
    (h3 : gridCell sqrt m.faces r = some c) (t : Nat) (d : K) (hd : c.depth t = some d) : 0 ≤ d := by
  unfold gridCell at h3
  cases g1 : m.faces.area[r]? <;> rw [g1] at h3
  · cases h3
  cases g2 : m.faces.bedlevel[r]? <;> rw [g2] at h3
  · cases h3
  cases g3 : m.faces.waterdepth[r]? with
  | none => rw [g3] at h3; cases h3
  | some ds =>
    rw [g3] at h3
    cases g4 : m.faces.waterlevel[r]? <;> rw [g4] at h3
    · cases h3
    cases g5 : m.faces.velocityX[r]? <;> rw [g5] at h3
    · cases h3
    cases g6 : m.faces.velocityY[r]? <;> rw [g6] at h3
    · cases h3
    obtain rfl := Option.some.inj h3
    have hd : ds[t]?.join = some d := hd
    refine hdepth ds (List.mem_of_getElem? g3) d ?_
    exact List.mem_of_getElem? (Option.join_eq_some_iff.1 hd)

private theorem levels_up (cfg : BuildConfig K) (len : K) (centre : Nat) (raw : ControlVolume K) (b : Built K)
    (h : buildGeometry cfg len centre raw = .ok b) (c : Cell K) (hc : raw.cells[centre]? = some c)
    (hd : ∀ t d, c.depth t = some d → 0 ≤ d) : NonDecreasing b.z := by
  refine (C02_built_levels h fun d hdd x hx => ?_).1
  unfold getTimeseries at hdd
  rw [List.getElem?_map, hc] at hdd
  obtain rfl := Option.some.inj hdd
  have hx : clean (c.depth (sliceStart raw.nMaps cfg.skipMaps + 0)) = some x := hx
  cases hq : c.depth (sliceStart raw.nMaps cfg.skipMaps + 0) with
  | none => rw [hq] at hx; cases hx
  | some y =>
    rw [hq] at hx
    unfold clean at hx
    simp only at hx
    split at hx
    · cases hx
    · obtain rfl := Option.some.inj hx
      exact hd _ _ hq

private theorem getD_of {l : List K} {k : Nat} (hk : k < l.length) : l.getD k 0 = l[k] := by
  rw [List.getD_eq_getElem?_getD, List.getElem?_eq_getElem hk]; rfl

/-- The repair of a list that does not decrease raises each element by at most a step for each element before it. -/
private theorem repair_close (step : K) (hstep : 0 < step) (l : List K) (hl : NonDecreasing l) (k : Nat) (hk : k < l.length) :
    l.getD k 0 ≤ (checkIncreasingOrder (· + step) l).getD k 0 ∧
      (checkIncreasingOrder (· + step) l).getD k 0 ≤ l.getD k 0 + k * step := by
  have hb : ∀ y : K, y < y + step := fun y => lt_add_of_pos_right y hstep
  have hk' : k < (checkIncreasingOrder (· + step) l).length := by rw [checkIncreasingOrder_length]; exact hk
  rw [getD_of hk, getD_of hk']
  refine ⟨(List.forall₂_iff_get.1 (checkIncreasingOrder_ge (bump := (· + step)) hb l)).2 k hk hk', ?_⟩
  refine C04_bounded step hstep l l[k] k hk (fun j hj => ?_) _ (List.getElem?_eq_getElem hk')
  rcases Nat.lt_or_eq_of_le hj with h | h
  · exact List.pairwise_iff_getElem.1 hl j k _ hk h
  · subst h; exact le_rfl

private theorem up_of {l : List K} (h : NonDecreasing l) (k : Nat) (hk : k + 1 < l.length) : l.getD k 0 ≤ l.getD (k + 1) 0 := by
  rw [getD_of (by omega), getD_of hk]
  exact List.pairwise_iff_getElem.1 h k (k + 1) (by omega) hk (by omega)

/-- **C203, partial.** When the wet area of the 2D model does not decrease from one row to the next, and is that of the smallest width or
more, the volume in each row is that of the levels and total widths in the rows up to it, but for one step of the repairs (a millimetre)
in level and in width for each row below. Missing: that they are equal, see `C203_volumes_violated`; and narrower or shrinking profiles,
for which the difference is as large as the change of the widths. -/
theorem C203_close_partial (x : Tools K) (step : K) (hstep : 0 < step) (hb : x.bump = (· + step)) (cfg : RunConfig K)
    (hmin : 0 ≤ cfg.pipeline.minimumWidth) (i : Inputs K) (hi : Consistent i) (o : Surroundings) (hdir : o.dirExists = true)
    (hw : ∀ f, IsResult f → Sound o.faults f) (overwrite : Bool) (s : Store) (h : (run (jobOf x cfg i o) overwrite s).2 = .ok true)
    (m : Model2d K) (hm : setModelData x.nn i = .ok m) (hdepth : ∀ ds ∈ m.faces.waterdepth, ∀ d, some d ∈ ds → 0 ≤ d)
    (xs : List (Loc K)) (hx : Requested cfg.cssSelection m.stations xs)
    (hn : ∀ l ∈ xs, CsvName l.id ∧ l.id ≠ "id".toList) (hd : (xs.map (·.id)).Nodup)
    (hfloat : ∀ l ∈ xs, ∀ c, buildCss x cfg m l = .ok c → VolumeTable.Floats x.ft (volumeTableOf c.css))
    (l : Loc K) (hl : l ∈ xs) (hu : Usable m l) (hlen : 0 < l.length) :
    ∃ text v, ∃ z w a : List K, (run (jobOf x cfg i o) overwrite s).1 "volumes.csv".toList = some text ∧
      readVolumes x.ft text l.id = .ok v ∧ v.z = z.map some ∧ v.tw1d = w.map some ∧ v.wa2d = a.map some ∧ 10 < z.length ∧
      (NonDecreasing a → (∀ y ∈ a, cfg.pipeline.minimumWidth * l.length ≤ y) → ∀ j < z.length, ∃ vol zj z0 wj,
        v.tv1d[j]? = some (some vol) ∧ z[j]? = some zj ∧ z[0]? = some z0 ∧ w[j]? = some wj ∧
        |vol - trapezoidArea (w.take (j + 1)) (z.take (j + 1)) * l.length| ≤ j * step * (wj + (zj - z0)) * l.length) := by
  have hb' : ∀ y, y < x.bump y := fun y => by rw [hb]; exact lt_add_of_pos_right y hstep
  obtain ⟨text, c, t1, t2, t3⟩ := run_volumes x hb' cfg i hi o hdir hw overwrite s h m hm xs hx hn hd hfloat l hl hu
  obtain ⟨b, g, hbg, hg, e1, e2, e3, e4⟩ := table_columns x cfg m l c t3
  obtain ⟨hv, hgl, hbl, h10⟩ := valid_parts x hb' _ hbg g hg
  refine ⟨text, volumeTableOf c.css, g.z, g.totalWidth, b.wetArea, t1, t2, e1, e2, e3, by omega, fun ha hmina j hj => ?_⟩
  have hjb : j < b.z.length := hgl ▸ hj
  have hl2 := loaded2d x.nn i hi m hm
  obtain ⟨r, cell, h1, h2, h3⟩ := centre_cell x cfg m hl2 l b hbg
  have hzup := levels_up _ _ _ _ _ hbg cell h1 (centre_depths m hdepth _ r cell h3)
  have hwid : b.totalWidth = b.wetArea.map (· / l.length) := by
    obtain ⟨-, -, -, -, -, -, -, -, -, -, -, -, -, -, -, -, e, -⟩ := built_parts hbg
    exact e
  have hwup : NonDecreasing b.totalWidth := by
    rw [hwid]
    exact List.pairwise_map.2 (ha.imp fun h => div_le_div_of_nonneg_right h hlen.le)
  have hwmin : ∀ y ∈ b.totalWidth, cfg.pipeline.minimumWidth ≤ y := by
    intro y hy
    rw [hwid] at hy
    obtain ⟨q, hq, rfl⟩ := List.mem_map.1 hy
    exact (le_div_iff₀ hlen).2 (hmina q hq)
  have hrem : removeZeroWidths cfg.pipeline.minimumWidth b.totalWidth = b.totalWidth := by
    unfold removeZeroWidths
    refine (List.map_congr_left fun y hy => ?_).trans (List.map_id _)
    exact if_neg (not_lt.2 (hwmin y hy))
  have hgz : g.z = checkIncreasingOrder (· + step) b.z ∧ g.totalWidth = checkIncreasingOrder (· + step) b.totalWidth := by
    unfold checkRequirements at hg
    cases hf : firstNonzeroIndex b.totalWidth with
    | error e => simp only [hf] at hg; cases hg
    | ok k =>
      simp only [hf] at hg
      obtain rfl := (Except.ok.inj hg).symm
      rw [hb]
      exact ⟨rfl, by show checkIncreasingOrder _ (removeZeroWidths _ _) = _; rw [hrem]⟩
  have hclose := area_close b.z.length step hstep.le (fun k => b.totalWidth.getD k 0) (fun k => g.totalWidth.getD k 0)
    (fun k => b.z.getD k 0) (fun k => g.z.getD k 0)
    (by
      beta_reduce
      rw [getD_of (by omega)]
      exact hmin.trans (hwmin _ (List.getElem_mem _)))
    (fun k hk => by rw [hgz.2]; exact repair_close step hstep _ hwup k (by omega))
    (fun k hk => by rw [hgz.1]; exact repair_close step hstep _ hzup k hk)
    (fun k hk => up_of hwup k (by omega))
    (fun k hk => up_of (hv.levelsUp.imp le_of_lt) k (by omega)) j hjb
  have hwl : j < g.totalWidth.length := by rw [hv.lengths.1]; exact hj
  rw [← trapezoid_area b.totalWidth b.z hbl j hjb, ← trapezoid_area g.totalWidth g.z hv.lengths.1 j hj, getD_of hj, getD_of hwl,
    getD_of (by omega)] at hclose
  refine ⟨_, g.z[j], g.z[0], g.totalWidth[j], by rw [e4, List.getElem?_map, (C08_built hbg j hjb).1]; rfl, List.getElem?_eq_getElem hj,
    List.getElem?_eq_getElem (by omega), List.getElem?_eq_getElem hwl, ?_⟩
  rw [← sub_mul, abs_mul, abs_of_pos hlen]
  exact mul_le_mul_of_nonneg_right hclose hlen.le

/-- The sample run, in which the wet areas do not decrease. -/
example : (0 : ℚ) < 1 / 1000 ∧ idleTools.bump = (· + 1 / 1000) ∧ 0 < sampleRunConfig.pipeline.minimumWidth ∧
    Consistent sampleSectionInputs ∧ sampleSurroundings.dirExists = true ∧ (∀ f, IsResult f → Sound sampleSurroundings.faults f) ∧
    (run (jobOf idleTools sampleRunConfig sampleSectionInputs sampleSurroundings) false noFiles).2 = .ok true ∧
    ∃ m, setModelData idleTools.nn sampleSectionInputs = .ok m ∧ (∀ ds ∈ m.faces.waterdepth, ∀ d, some d ∈ ds → 0 ≤ d) ∧
      Requested sampleRunConfig.cssSelection m.stations m.stations ∧
      (∀ l ∈ m.stations, CsvName l.id ∧ l.id ≠ "id".toList) ∧ (m.stations.map (·.id)).Nodup ∧
      (∀ l ∈ m.stations, ∀ c, buildCss idleTools sampleRunConfig m l = .ok c → VolumeTable.Floats idleTools.ft (volumeTableOf c.css)) ∧
      ∃ l ∈ m.stations, Usable m l ∧ 0 < l.length ∧
        (((buildCss idleTools sampleRunConfig m l).toOption.map fun c => c.css.raw.wetArea).any fun a =>
          decide (a.Pairwise (· ≤ ·) ∧ ∀ y ∈ a, sampleRunConfig.pipeline.minimumWidth * l.length ≤ y)) = true := by
  have hd : ∀ ds ∈ (sampleLoaded sampleSectionInputs).faces.waterdepth, (ds.all fun d => d.all fun d => decide (0 ≤ d)) = true := by
    decide +kernel
  refine ⟨by norm_num, rfl, by decide +kernel, sampleSectionInputs_consistent, rfl, fun _ _ => ⟨rfl, rfl⟩, ok_of₆ (by decide +kernel),
    sampleLoaded sampleSectionInputs, loaded_of₆ _ (by decide +kernel), fun ds hds d hdd => ?_, .inl ⟨rfl, rfl⟩, by decide +kernel,
    by decide +kernel, floats_of₆ _ (by decide +kernel), loc₆, by decide +kernel, by decide +kernel, by decide +kernel, ?_⟩
  · exact of_decide_eq_true (p := 0 ≤ d) (List.all_eq_true.1 (hd ds hds) _ hdd)
  · decide +kernel

end Fm2prof.Props

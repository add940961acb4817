import Verif.Proofs.Horizontal
import Verif.Proofs.Range
import Verif.Props.Simplify

/-! Lemmas about a run over a horizontal water surface. -/

set_option linter.unusedSectionVars false

namespace Fm2prof.HorizontalProof

open Fm2prof Spec Props

variable {K : Type} [Field K] [LinearOrder K] [IsStrictOrderedRing K]

theorem increasingFrom_close (step : K) (hs : 0 ≤ step) : ∀ (l : List K) (a prev : K) (k : Nat), NonDecreasing (a :: l) → prev ≤ a + k * step →
    ∀ i x y, l[i]? = some x → (increasingFrom (· + step) prev l)[i]? = some y → x ≤ y ∧ y ≤ x + ((k + 1 + i : Nat) : K) * step
  | [], _, _, _, _, _ => fun i x y h _ => by simp at h
  | b :: l, a, prev, k, hn, hp => by
    have hab : a ≤ b := (List.pairwise_cons.1 hn).1 b (List.mem_cons_self ..)
    have hk : (0 : K) ≤ (k : K) * step := mul_nonneg (Nat.cast_nonneg _) hs
    have hb : (if b ≤ prev then prev + step else b) ≤ b + ((k + 1 : Nat) : K) * step := by
      push_cast
      split <;> linarith
    have hlow : b ≤ (if b ≤ prev then prev + step else b) := by
      split
      · rename_i h; linarith
      · exact le_rfl
    intro i x y hx hy
    rw [increasingFrom] at hy
    cases i with
    | zero =>
      obtain rfl := Option.some.inj hx
      obtain rfl := Option.some.inj hy
      exact ⟨hlow, hb⟩
    | succ i =>
      have := increasingFrom_close step hs l b _ (k + 1) (List.pairwise_cons.1 hn).2 hb i x y hx hy
      refine ⟨this.1, ?_⟩
      rw [show k + 1 + (i + 1) = k + 1 + 1 + i by omega]
      exact this.2

/-- The repair of a list that does not decrease raises each value by one step for each place before it, at most. -/
theorem repair_close (step : K) (hs : 0 ≤ step) (l : List K) (hn : NonDecreasing l) (i : Nat) (x y : K) (hx : l[i]? = some x)
    (hy : (checkIncreasingOrder (· + step) l)[i]? = some y) : x ≤ y ∧ y ≤ x + (i : K) * step := by
  cases l with
  | nil => simp at hx
  | cons a l =>
    rw [checkIncreasingOrder] at hy
    cases i with
    | zero =>
      obtain rfl := Option.some.inj hx
      obtain rfl := Option.some.inj hy
      exact ⟨le_rfl, by simp⟩
    | succ i =>
      have := increasingFrom_close step hs l a a 0 hn (by simp) i x y hx hy
      rwa [show 0 + 1 + i = i + 1 by omega] at this

theorem maskSelect_zip {α β : Type} : ∀ (m : List Bool) (xs : List α) (ys : List β), xs.length = ys.length →
    (maskSelect m xs).zip (maskSelect m ys) = maskSelect m (xs.zip ys)
  | [], _, _, _ => rfl
  | _ :: _, [], [], _ => rfl
  | b :: m, x :: xs, y :: ys, h => by
    have ih := maskSelect_zip m xs ys (Nat.succ.inj h)
    unfold maskSelect at ih ⊢
    cases b
    · exact ih
    · exact congrArg ((x, y) :: ·) ih

/-- The published profile consists of points of the repaired profile. -/
theorem geometry_points (opt : Optimiser K) (cfg : PipelineConfig K) (bump : K → K) (release : K → K → K → K)
    (log : Nat → Option PyErr) (len : K) (centre : Nat) (cv : ControlVolume K) (css : Css K)
    (h : buildCrossSectionGeometry opt cfg bump release log len centre cv = .ok css) :
    ∃ b g, buildGeometry cfg.build len centre cv = .ok b ∧
      checkRequirements bump cfg.minimumWidth { z := b.z, totalWidth := b.totalWidth, flowWidth := b.flowWidth } = .ok g ∧
      css.z.length = css.totalWidth.length ∧ ∀ p ∈ css.z.zip css.totalWidth, p ∈ g.z.zip g.totalWidth := by
  unfold buildCrossSectionGeometry at h
  cases hbg : buildGeometry cfg.build len centre cv with
  | error e => rw [hbg] at h; cases h
  | ok b =>
    rw [hbg] at h
    obtain ⟨hraw, hz, ht, hf⟩ := performCorrection_raw opt cfg release log (Css.ofBuilt len b)
    simp only [checkCss, hraw] at h
    cases hcr : checkRequirements bump cfg.minimumWidth
        { z := (Css.ofBuilt len b).raw.z, totalWidth := (Css.ofBuilt len b).raw.totalWidth
          flowWidth := (Css.ofBuilt len b).raw.flowWidth } with
    | error e => rw [hcr] at h; cases h
    | ok g =>
      rw [hcr] at h
      simp only at h
      refine ⟨b, g, rfl, hcr, ?_⟩
      have hgl : g.z.length = g.totalWidth.length := by
        obtain ⟨acc, -, a1, a2, -⟩ := C07_arrays_aligned hbg
        unfold checkRequirements at hcr
        cases hi : firstNonzeroIndex (Css.ofBuilt len b).raw.totalWidth with
        | error e => simp only [hi] at hcr; cases hcr
        | ok j =>
          simp only [hi] at hcr
          obtain rfl := Except.ok.inj hcr
          show (checkIncreasingOrder _ b.z).length = (checkIncreasingOrder _ (removeZeroWidths _ b.totalWidth)).length
          rw [checkIncreasingOrder_length, checkIncreasingOrder_length]
          unfold removeZeroWidths
          rw [List.length_map]
          omega
      obtain rfl := Except.ok.inj h
      unfold reduceCss
      split
      · show ((performCorrection opt cfg release log (Css.ofBuilt len b)).z).length = _ ∧
          ∀ p ∈ ((performCorrection opt cfg release log (Css.ofBuilt len b)).z).zip
            (performCorrection opt cfg release log (Css.ofBuilt len b)).totalWidth, _
        rw [hz, ht]
        exact ⟨rfl, fun x hx => absurd hx List.not_mem_nil⟩
      · rename_i g' hg'
        unfold reducePoints at hg'
        simp only at hg'
        split at hg'
        · obtain rfl := Except.ok.inj hg'
          have hlen : ∀ (m : List Bool), (maskSelect m g.z).length = (maskSelect m g.totalWidth).length := by
            intro m
            have aux : ∀ (m : List Bool) (xs ys : List K), xs.length = ys.length → (maskSelect m xs).length = (maskSelect m ys).length := by
              intro m
              induction m with
              | nil => intro xs ys _; rfl
              | cons b m ih =>
                intro xs ys h
                cases xs with
                | nil => cases ys with
                  | nil => rfl
                  | cons y ys => cases h
                | cons x xs => cases ys with
                  | nil => cases h
                  | cons y ys =>
                    have := ih xs ys (Nat.succ.inj h)
                    unfold maskSelect at this ⊢
                    cases b
                    · exact this
                    · exact congrArg (· + 1) this
            exact aux m _ _ hgl
          refine ⟨hlen _, fun p hp => ?_⟩
          change p ∈ (maskSelect _ g.z).zip (maskSelect _ g.totalWidth) at hp
          rw [maskSelect_zip _ _ _ hgl] at hp
          exact (maskSelect_sublist _ _).subset hp
        · cases hg'

/-- Over horizontal water the points of the repaired profile lie on the curve of the bed. -/
theorem repaired_points (cfg : BuildConfig K) (len : K) (hlen : 0 < len) (centre s l : Nat) (raw : ControlVolume K) (h : Nat → K) (c : Cell K)
    (hh : HorizontalWater raw h) (hs : cfg.skipMaps = (s : Int)) (hl : cfg.lakeTimesteps = (l : Int)) (hn : s + l < raw.nMaps)
    (hrise : h s + 1 / 100 < h (s + l)) (hc : raw.cells[centre]? = some c) (hwet : c.bed < h s) (hA : ∀ c ∈ raw.cells, 0 ≤ c.area)
    (minW : K) (b : Built K) (g : Geometry K) (hb : buildGeometry cfg len centre raw = .ok b)
    (hg : checkRequirements (· + 1 / 1000) minW { z := b.z, totalWidth := b.totalWidth, flowWidth := b.flowWidth } = .ok g) :
    ∀ p ∈ g.z.zip g.totalWidth, OnBedCurve raw.cells len minW (((9 + raw.nMaps : Nat) : K) * (1 / 1000)) p := by
  obtain ⟨b', hb', hcv, hnm, h1, h2, h3, -⟩ := profile cfg len centre s l raw h c hh hs hl hn hrise hc hwet
  rw [hb] at hb'
  obtain rfl := Except.ok.inj hb'
  have hcA : ∀ d ∈ (getTimeseries (s : Int) raw).cells, 0 ≤ d.area := by
    intro d hd
    obtain ⟨d', hd', rfl⟩ := List.mem_map.1 hd
    exact hA d' hd'
  have hwh := sub_pos.2 hwet
  -- the points, with what is under water there
  let pts : List (K × (Cell K → Prop)) := (equidistant 9 c.bed (h s)).map (fun z => (z, fun c => c.bed < z + 1 / 1000 ∧ c.bed < h s)) ++
    (List.range (raw.nMaps - s)).map (fun t => (h (s + t), fun c => Counts c.depth l t))
  have hz : b.z = pts.map (·.1) := by
    rw [h1, List.map_append, List.map_map, List.map_map]
    exact congrArg (· ++ _) (List.map_id _).symm
  have hw : b.totalWidth = pts.map fun q => areaOf q.2 (getTimeseries (s : Int) raw).cells / len := by
    rw [h3, h2, List.map_append, List.map_append, List.map_map, List.map_map, List.map_map, List.map_map]
    rfl
  have hpair : pts.Pairwise fun p q => p.1 ≤ q.1 ∧ ∀ d ∈ (getTimeseries (s : Int) raw).cells, p.2 d → q.2 d := by
    refine List.pairwise_append.2 ⟨?_, ?_, ?_⟩
    · refine List.pairwise_map.2 ?_
      unfold equidistant
      refine List.pairwise_map.2 (List.Pairwise.imp_of_mem ?_ List.pairwise_lt_range)
      intro i j _ _ hij
      have hij' : (i : K) * (h s - c.bed) / ((9 : Nat) : K) ≤ (j : K) * (h s - c.bed) / ((9 : Nat) : K) :=
        div_le_div_of_nonneg_right (mul_le_mul_of_nonneg_right (by exact_mod_cast hij.le) hwh.le) (by norm_num)
      exact ⟨by show c.bed + _ ≤ c.bed + _; linarith, fun d _ hd => ⟨by linarith [hd.1], hd.2⟩⟩
    · refine List.pairwise_map.2 (List.Pairwise.imp_of_mem ?_ List.pairwise_lt_range)
      intro i j _ hj hij
      have hj := List.mem_range.1 hj
      exact ⟨level_le hcv i j hij.le (by omega), fun d hd hc => counts_mono hcv l d hd i j hij.le (by omega) hc⟩
    · intro p hp q hq
      obtain ⟨z, hz', rfl⟩ := List.mem_map.1 hp
      obtain ⟨t, ht, rfl⟩ := List.mem_map.1 hq
      obtain ⟨k, hk, rfl⟩ := List.mem_map.1 hz'
      have hk := List.mem_range.1 hk
      have ht := List.mem_range.1 ht
      have h9 : (k : K) ≤ 9 := by exact_mod_cast (by omega : k ≤ 9)
      have hle := level_le hcv 0 t (by omega) (by omega)
      have : (k : K) * (h s - c.bed) / ((9 : Nat) : K) ≤ h s - c.bed := by
        rw [div_le_iff₀ (by norm_num)]
        push_cast
        nlinarith
      refine ⟨?_, fun d hd hwd => ?_⟩
      · show c.bed + _ ≤ h (s + t)
        have hle : h s ≤ h (s + t) := hle
        linarith
      · exact counts_mono hcv l d hd 0 t (by omega) (by omega) ((counts_first hcv l (by omega) hrise d hd).2 hwd.2)
  have hwn : NonDecreasing (removeZeroWidths minW b.totalWidth) := by
    unfold NonDecreasing removeZeroWidths
    rw [hw, List.map_map]
    refine List.pairwise_map.2 (hpair.imp fun {p q} hpq => ?_)
    have : areaOf p.2 (getTimeseries (s : Int) raw).cells / len ≤ areaOf q.2 (getTimeseries (s : Int) raw).cells / len :=
      div_le_div_of_nonneg_right (C66_wet_area_ge_part _ hcA _ _ hpq.2) hlen.le
    show (if areaOf p.2 _ / len < minW then minW else _) ≤ if areaOf q.2 _ / len < minW then minW else _
    split <;> split
    · exact le_rfl
    · rename_i _ h5; exact not_lt.1 h5
    · rename_i h5 h6; exact absurd (lt_of_le_of_lt this h6) h5
    · exact this
  have hzn : NonDecreasing b.z := by
    unfold NonDecreasing
    rw [hz]
    exact List.pairwise_map.2 (hpair.imp fun {p q} hpq => hpq.1)
  have hlenp : pts.length = 10 + (raw.nMaps - s) := by
    simp [pts, equidistant]
  unfold checkRequirements at hg
  cases hi : firstNonzeroIndex b.totalWidth with
  | error e => simp only [hi] at hg; cases hg
  | ok j =>
    simp only [hi] at hg
    obtain rfl := Except.ok.inj hg
    intro p hp
    obtain ⟨i, hi⟩ := List.getElem?_of_mem hp
    obtain ⟨e1, e2⟩ := List.getElem?_zip_eq_some.1 hi
    have hip : i < pts.length := by
      have := (List.getElem?_eq_some_iff.1 e1).1
      change i < (checkIncreasingOrder _ b.z).length at this
      rwa [checkIncreasingOrder_length, hz, List.length_map] at this
    have f1 := repair_close (1 / 1000) (by norm_num) b.z hzn i pts[i].1 p.1
      (by rw [hz, List.getElem?_map, List.getElem?_eq_getElem hip]; rfl) e1
    have f2 := repair_close (1 / 1000) (by norm_num) (removeZeroWidths minW b.totalWidth) hwn i
      (if areaOf pts[i].2 (getTimeseries (s : Int) raw).cells / len < minW then minW else
        areaOf pts[i].2 (getTimeseries (s : Int) raw).cells / len) p.2
      (by
        unfold removeZeroWidths
        rw [hw, List.getElem?_map, List.getElem?_map, List.getElem?_eq_getElem hip]
        rfl) e2
    have hiN : (i : K) * (1 / 1000) ≤ ((9 + raw.nMaps : Nat) : K) * (1 / 1000) :=
      mul_le_mul_of_nonneg_right (by exact_mod_cast (by omega)) (by norm_num)
    have hmem : pts[i] ∈ pts := List.getElem_mem hip
    -- what is under water at a point, up to a millimetre
    have hclose : ∀ q ∈ pts, ∀ d ∈ (getTimeseries (s : Int) raw).cells, (d.bed < q.1 - 1 / 1000 → q.2 d) ∧ (q.2 d → d.bed < q.1 + 1 / 1000) := by
      intro q hq d hd
      rcases List.mem_append.1 hq with hq | hq
      · obtain ⟨z, hz', rfl⟩ := List.mem_map.1 hq
        obtain ⟨k, hk, rfl⟩ := List.mem_map.1 hz'
        have hk := List.mem_range.1 hk
        have h9 : (k : K) ≤ 9 := by exact_mod_cast (by omega : k ≤ 9)
        have : (k : K) * (h s - c.bed) / ((9 : Nat) : K) ≤ h s - c.bed := by
          rw [div_le_iff₀ (by norm_num)]
          push_cast
          nlinarith
        refine ⟨fun hlt => ?_, fun hw => hw.1⟩
        have hlt : d.bed < c.bed + (k : K) * (h s - c.bed) / ((9 : Nat) : K) - 1 / 1000 := hlt
        have h0 : (0 : K) < 1 / 1000 := by norm_num
        exact ⟨by show d.bed < c.bed + (k : K) * (h s - c.bed) / ((9 : Nat) : K) + 1 / 1000; linarith, by linarith⟩
      · obtain ⟨t, ht, rfl⟩ := List.mem_map.1 hq
        have ht := List.mem_range.1 ht
        refine ⟨fun hlt => ?_, fun hw => ?_⟩
        · by_contra hcount
          have := not_counts hcv l (by omega) hrise d hd t (by omega) hcount
          have hlt : d.bed < h (s + t) - 1 / 1000 := hlt
          have this : h (s + t) ≤ d.bed + 1 / 1000 := this
          linarith
        · have := (wet_iff hcv d hd t (by omega)).1 hw.1
          show d.bed < h (s + t) + 1 / 1000
          have this : d.bed < h (s + t) := this
          linarith [show (0 : K) < 1 / 1000 by norm_num]
    have hlow : areaOf (fun c => c.bed < pts[i].1 - 1 / 1000) raw.cells / len ≤ areaOf pts[i].2 (getTimeseries (s : Int) raw).cells / len := by
      rw [← area_used (s : Int) raw fun bed => bed < pts[i].1 - 1 / 1000]
      exact div_le_div_of_nonneg_right (C66_wet_area_ge_part _ hcA _ _ fun d hd => (hclose _ hmem d hd).1) hlen.le
    have hup : areaOf pts[i].2 (getTimeseries (s : Int) raw).cells / len ≤ areaOf (fun c => c.bed < pts[i].1 + 1 / 1000) raw.cells / len := by
      rw [← area_used (s : Int) raw fun bed => bed < pts[i].1 + 1 / 1000]
      exact div_le_div_of_nonneg_right (C66_wet_area_ge_part _ hcA _ _ fun d hd => (hclose _ hmem d hd).2) hlen.le
    refine ⟨pts[i].1, f1.1, by linarith [f1.2], ?_, ?_⟩
    · refine hlow.trans (le_trans ?_ f2.1)
      split
      · rename_i h5; exact h5.le
      · exact le_rfl
    · have hm : (if areaOf pts[i].2 (getTimeseries (s : Int) raw).cells / len < minW then minW else
          areaOf pts[i].2 (getTimeseries (s : Int) raw).cells / len) ≤ max minW (areaOf (fun c => c.bed < pts[i].1 + 1 / 1000) raw.cells / len) := by
        split
        · exact le_max_left _ _
        · exact hup.trans (le_max_right _ _)
      linarith [f2.2]

end Fm2prof.HorizontalProof

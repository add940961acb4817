import Verif.Proofs.Horizontal
import Mathlib.Tactic.IntervalCases

/-!
# A river with a horizontal water surface: C175, C176
-/

set_option linter.unusedSectionVars false

namespace Fm2prof.Props

open Fm2prof Spec HorizontalProof

variable {K : Type} [Field K] [LinearOrder K] [IsStrictOrderedRing K]

/-! ## C175: the widths are those of the wet faces -/

/-- **C175, partial.** Over horizontal water the profile has a point at each level, and ten equidistant points from the bed of the centre to
the first level. At each level the total width times the length is the area of the faces that are below it, and at the ten points that of
the faces that are below the point, to within a millimetre, and below the first level. The 2D volume is that of the water above the bed of
the centre. What is missing: faces that are under water by a millimetre or less, see `C175_shallow_violated`. -/
theorem C175_widths_partial (cfg : BuildConfig K) (len : K) (centre s l : Nat) (raw : ControlVolume K) (h : Nat → K) (c : Cell K)
    (hh : HorizontalWater raw h) (hs : cfg.skipMaps = (s : Int)) (hl : cfg.lakeTimesteps = (l : Int)) (hn : s + l < raw.nMaps)
    (hrise : h s + 1 / 100 < h (s + l)) (hc : raw.cells[centre]? = some c) (hwet : c.bed < h s)
    (hclear : ∀ c ∈ raw.cells, ∀ t, s ≤ t → t < raw.nMaps → c.bed < h t → c.bed + 1 / 1000 < h t) :
    ∃ b, buildGeometry cfg len centre raw = .ok b ∧
      b.z = equidistant 9 c.bed (h s) ++ (List.range' s (raw.nMaps - s)).map h ∧
      b.totalWidth = (equidistant 9 c.bed (h s)).map (fun z => areaOf (fun c => c.bed < z + 1 / 1000 ∧ c.bed < h s) raw.cells / len) ++
        (List.range' s (raw.nMaps - s)).map (fun t => areaOf (fun c => c.bed < h t) raw.cells / len) ∧
      b.totalVolume2d.drop 10 = (List.range' s (raw.nMaps - s)).map (fun t => some (storage c.bed (h t) raw.cells)) := by
  obtain ⟨b, hb, hcv, hnm, h1, h2, h3, h4⟩ := profile cfg len centre s l raw h c hh hs hl hn hrise hc hwet
  have hclear' : ∀ c ∈ (getTimeseries (s : Int) raw).cells, ∀ t < (getTimeseries (s : Int) raw).nMaps,
      c.bed < h (s + t) → c.bed + 1 / 1000 < h (s + t) := by
    intro c hc t ht
    obtain ⟨c', hc', rfl⟩ := List.mem_map.1 hc
    exact hclear c' hc' (s + t) (by omega) (by omega)
  have hrange : ∀ {β : Type} (f : Nat → β), (List.range' s (raw.nMaps - s)).map f = (List.range (raw.nMaps - s)).map fun t => f (s + t) := by
    intro β f
    rw [List.range'_eq_map_range, List.map_map]
    rfl
  refine ⟨b, hb, by rw [h1, hrange], ?_, ?_⟩
  · rw [h3, h2, List.map_append, List.map_map, List.map_map, hrange]
    congr 1
    · refine List.map_congr_left fun z _ => ?_
      show areaOf _ _ / len = _
      rw [area_used (s : Int) raw fun bed => bed < z + 1 / 1000 ∧ bed < h s]
    · refine List.map_congr_left fun t ht => ?_
      have ht := List.mem_range.1 ht
      show areaOf _ _ / len = _
      rw [areaOf_congr _ (fun c => c.bed < h (s + t)) _ fun c' hc' => counts_iff hcv l (by omega) hrise c' hc' (hclear' c' hc') t
        (by omega), area_used (s : Int) raw fun bed => bed < h (s + t)]
  · rw [h4, hrange]
    refine List.map_congr_left fun t ht => ?_
    have ht := List.mem_range.1 ht
    classical
    rw [volumeOf_sum, ← storage_used (s : Int) raw]
    unfold storage
    refine congrArg some (congrArg List.sum (List.map_congr_left fun c' hc' => ?_))
    have hiff := counts_iff hcv l (by omega) hrise c' hc' (hclear' c' hc') t (by omega)
    have h0t := level_le hcv 0 t (by omega) (by omega)
    simp only [add_zero] at h0t
    by_cases hw : c'.bed < h (s + t)
    · rw [if_pos (hiff.2 hw), Option.getD_some, max_eq_right (sub_nonneg.2 (max_le hw.le (by linarith)))]
    · rw [if_neg fun hcount => hw (hiff.1 hcount), max_eq_left, mul_zero]
      have : c'.bed ≤ max c'.bed c.bed := le_max_left _ _
      have := not_lt.1 hw
      linarith

/-- **C175, flow.** When the velocity in all faces under water is above the absolute threshold, all of the width is flow width and all of
the volume flow volume. -/
theorem C175_flow_partial (cfg : BuildConfig K) (len : K) (hlen : 0 < len) (centre s l : Nat) (raw : ControlVolume K) (h : Nat → K)
    (c : Cell K) (hh : HorizontalWater raw h) (hs : cfg.skipMaps = (s : Int)) (hl : cfg.lakeTimesteps = (l : Int))
    (hn : s + l < raw.nMaps) (hrise : h s + 1 / 100 < h (s + l)) (hc : raw.cells[centre]? = some c) (hwet : c.bed < h s)
    (hclear : ∀ c ∈ raw.cells, ∀ t, s ≤ t → t < raw.nMaps → c.bed < h t → c.bed + 1 / 1000 < h t)
    (hA : ∀ c ∈ raw.cells, 0 ≤ c.area) (hm : cfg.conveyanceDetectionMethod ≠ 0)
    (hv : ∀ c ∈ raw.cells, ∀ t, s ≤ t → t < raw.nMaps → c.bed < h t →
      ∃ v, c.velocity t = some v ∧ cfg.absoluteVelocityThreshold < v ∧ v ≠ -999) :
    ∃ b, buildGeometry cfg len centre raw = .ok b ∧ b.flowWidth = b.totalWidth ∧ b.flowVolume1d = b.totalVolume1d ∧
      b.flowVolume2d = b.totalVolume2d := by
  obtain ⟨b, hb, hcv, hnm, h1, h2, h3, -⟩ := profile cfg len centre s l raw h c hh hs hl hn hrise hc hwet
  refine ⟨b, hb, ?_⟩
  obtain ⟨c1, L, z0, d0, zs, accs, k1, k2, k3, k4, k5, k6, k7, k8, k9, k10, k11, k12, k13, k14, k15, k16⟩ := built_parts hb
  rw [hs] at k1 k2 k3 k9 k10 k13 k14
  have hss : sliceStart raw.nMaps (s : Int) = s := by
    unfold sliceStart
    rw [if_pos (by omega), Int.toNat_natCast]
    omega
  obtain rfl : l = L := by
    have : pyIndex (getTimeseries (s : Int) raw).nMaps cfg.lakeTimesteps = .ok l := by
      rw [hl]
      unfold pyIndex
      rw [if_pos (by omega), Int.toNat_natCast, if_pos (by rw [hnm]; omega)]
    rw [this] at k2
    exact Except.ok.inj k2
  have haccs : ∀ t ∈ 0 :: accs, t < raw.nMaps - s := by
    intro t ht
    have := ((k4.2 t).1 ht).1
    rw [k3] at this
    unfold centreLevels at this
    rw [List.length_map, List.length_range, hnm] at this
    exact this
  -- every face that counts conveys
  have hmask : ∀ t ∈ 0 :: accs, ∀ i, ∀ d ∈ (getTimeseries (s : Int) raw).cells,
      flowMask cfg (getTimeseries (s : Int) raw) i d t = wetNotLake l d t := by
    intro t ht i d hd
    have htn := haccs t ht
    have hcl : ∀ t < (getTimeseries (s : Int) raw).nMaps, d.bed < h (s + t) → d.bed + 1 / 1000 < h (s + t) := by
      intro t ht
      obtain ⟨d', hd', rfl⟩ := List.mem_map.1 hd
      exact hclear d' hd' (s + t) (by omega) (by omega)
    have hcount := counts_iff hcv l (by omega) hrise d hd hcl t (by omega)
    have hw := wet_iff hcv d hd t (by omega)
    obtain ⟨top, -, hflow⟩ := C10_default_method_missing cfg (getTimeseries (s : Int) raw) i t d hm
    rw [Bool.eq_iff_iff, hflow, wetNotLake_iff, hcount, hw]
    refine ⟨fun hx => hx.1, fun hx => ⟨hx, ?_⟩⟩
    obtain ⟨d', hd', rfl⟩ := List.mem_map.1 hd
    obtain ⟨v, v1, v2, v3⟩ := hv d' hd' (s + t) (by omega) (by omega) hx
    refine ⟨v, ?_, .inl v2⟩
    show clean (d'.velocity (sliceStart raw.nMaps (s : Int) + t)) = some v
    rw [hss, v1]
    exact if_neg v3
  have harea : ∀ t ∈ 0 :: accs, (maskedArea (getTimeseries (s : Int) raw).cells fun i c =>
      flowMask cfg (getTimeseries (s : Int) raw) i c t) = maskedArea (getTimeseries (s : Int) raw).cells fun _ c => wetNotLake l c t := by
    intro t ht
    unfold maskedArea
    refine congrArg List.sum (List.map_congr_left fun q hq => ?_)
    obtain ⟨d, i⟩ := q
    show (if flowMask _ _ i d t then _ else _) = _
    rw [hmask t ht i d (List.fst_mem_of_mem_zipIdx hq)]
  have hvol : ∀ t ∈ 0 :: accs, ∀ f : Cell K → Option K, maskedVolume (getTimeseries (s : Int) raw).cells (fun i c =>
      flowMask cfg (getTimeseries (s : Int) raw) i c t) f = maskedVolume (getTimeseries (s : Int) raw).cells (fun _ c => wetNotLake l c t) f := by
    intro t ht f
    unfold maskedVolume
    refine congrArg List.sum (List.map_congr_left fun q hq => ?_)
    obtain ⟨d, i⟩ := q
    show (if flowMask _ _ i d t then _ else _) = _
    rw [hmask t ht i d (List.fst_mem_of_mem_zipIdx hq)]
  have hcA : ∀ d ∈ (getTimeseries (s : Int) raw).cells, 0 ≤ d.area := by
    intro d hd
    obtain ⟨d', hd', rfl⟩ := List.mem_map.1 hd
    exact hA d' hd'
  have hflow : b.flowArea = b.wetArea := by
    rw [k10, k9]
    congr 1
    · rw [List.map_map]
      refine List.map_congr_left fun x hx => ?_
      show flowAreaBelow _ _ (areaBelow l _ x) = areaBelow l _ x
      unfold flowAreaBelow
      split
      · rw [harea 0 (List.mem_cons_self ..)]
        refine min_eq_left ?_
        unfold areaBelow
        refine maskedArea_mono _ _ _ hcA fun d _ i hd => ?_
        exact (Bool.and_eq_true_iff.1 hd).2
      · rfl
    · exact List.map_congr_left fun t ht => harea t ht
  have hfw : b.flowWidth = b.totalWidth := by
    rw [k12, hflow, h3]
    have hmono : NonDecreasing ((b.wetArea.drop 10).map (· / len)) := by
      have hd10 : b.wetArea.drop 10 = (List.range (raw.nMaps - s)).map fun t => areaOf (fun c => Counts c.depth l t)
          (getTimeseries (s : Int) raw).cells := by
        rw [h2, List.drop_append_of_le_length (by simp [equidistant]), List.drop_of_length_le (by simp [equidistant]), List.nil_append]
      rw [hd10, List.map_map]
      unfold NonDecreasing
      refine List.pairwise_map.2 (List.Pairwise.imp_of_mem ?_ List.pairwise_lt_range)
      intro t u _ hu htu
      have hu := List.mem_range.1 hu
      refine div_le_div_of_nonneg_right (C66_wet_area_ge_part _ hcA _ _ fun d hd hc => ?_) hlen.le
      exact counts_mono hcv l d hd t u htu.le (by omega) hc
    have heq : backMin ((b.wetArea.drop 10).map (· / len)) = (b.wetArea.drop 10).map (· / len) := by
      have e1 := (C05_nondecreasing_minorant ((b.wetArea.drop 10).map (· / len))).2.1
      have e2 := C05_greatest _ _ hmono (List.forall₂_refl _)
      unfold PointwiseLE at e1 e2
      refine List.ext_getElem e1.length_eq fun i hi hi' => le_antisymm ?_ ?_
      · exact (List.forall₂_iff_get.1 e1).2 i hi hi'
      · exact (List.forall₂_iff_get.1 e2).2 i hi' hi
    rw [heq, ← List.map_append, List.take_append_drop]
  refine ⟨hfw, by rw [k15, k16, hfw], ?_⟩
  rw [k14, k13]
  exact congrArg (_ ++ ·) (List.map_congr_left fun t ht => congrArg some (hvol t ht _))

/-- **C175, violated.** A face that gets wet after the first map, by a millimetre or less, and that is still under water by one centimetre or
less in map `LakeTimesteps`, is taken for a lake: the width at that level is too small. -/
theorem C175_shallow_violated (cfg : BuildConfig K) (len : K) (hlen : 0 < len) (centre s l : Nat) (raw : ControlVolume K) (h : Nat → K)
    (c : Cell K) (hh : HorizontalWater raw h) (hs : cfg.skipMaps = (s : Int)) (hl : cfg.lakeTimesteps = (l : Int))
    (hn : s + l < raw.nMaps) (hrise : h s + 1 / 100 < h (s + l)) (hc : raw.cells[centre]? = some c) (hwet : c.bed < h s)
    (hA : ∀ c ∈ raw.cells, 0 ≤ c.area) (c' : Cell K) (hc' : c' ∈ raw.cells) (hpos : 0 < c'.area) (t : Nat) (ht : 0 < t) (htl : t ≤ l)
    (hshallow : c'.bed < h (s + t) ∧ h (s + t) ≤ c'.bed + 1 / 1000) (hlake : h (s + l) ≤ c'.bed + 1 / 100) :
    ∃ b w, buildGeometry cfg len centre raw = .ok b ∧ b.totalWidth[10 + t]? = some w ∧
      w < areaOf (fun c => c.bed < h (s + t)) raw.cells / len := by
  obtain ⟨b, hb, hcv, hnm, h1, h2, h3, -⟩ := profile cfg len centre s l raw h c hh hs hl hn hrise hc hwet
  refine ⟨b, areaOf (fun c => Counts c.depth l t) (getTimeseries (s : Int) raw).cells / len, hb, ?_, ?_⟩
  · rw [h3, h2, List.getElem?_map, List.getElem?_append_right (by simp [equidistant])]
    have : 10 + t - ((equidistant 9 c.bed (h s)).map fun z => areaOf (fun c => c.bed < z + 1 / 1000 ∧ c.bed < h s)
        (getTimeseries (s : Int) raw).cells).length = t := by simp [equidistant]
    rw [this, List.getElem?_map, List.getElem?_range (by omega)]
    rfl
  · refine div_lt_div_of_pos_right ?_ hlen
    rw [← area_used (s : Int) raw fun bed => bed < h (s + t)]
    classical
    rw [areaOf_sum, areaOf_sum]
    obtain ⟨i, hi⟩ := List.getElem?_of_mem hc'
    refine List.sum_lt_sum _ _ (fun d hd => ?_) ?_
    · have hdA : 0 ≤ d.area := by
        obtain ⟨d', hd', rfl⟩ := List.mem_map.1 hd
        exact hA d' hd'
      by_cases hcount : Counts d.depth l t
      · rw [if_pos hcount, if_pos ((wet_iff hcv d hd t (by omega)).1 hcount.1)]
      · rw [if_neg hcount]
        split
        · exact hdA
        · exact le_rfl
    · have hmem : ∀ f : Cell K → Cell K, f c' ∈ raw.cells.map f := fun f => List.mem_map.2 ⟨c', hc', rfl⟩
      refine ⟨_, hmem _, ?_⟩
      have hbed : ∀ d ∈ (getTimeseries (s : Int) raw).cells, d.bed = c'.bed → ¬ Counts d.depth l t := by
        intro d hd hdb hcount
        have hlast : ∀ u, u < t → h (s + u) ≤ d.bed := by
          intro u hu
          have e1 := level_le hcv u (t - 1) (by omega) (by omega)
          have e2 := hcv.rises (t - 1) (by omega)
          beta_reduce at e1 e2
          rw [show s + (t - 1 + 1) = s + t by omega] at e2
          rw [hdb]
          linarith [hshallow.2]
        have hisl : IsLake d.depth l := by
          refine ⟨_, _, hcv.depth d hd l (by omega), hcv.depth d hd 0 (by omega), ?_, ?_⟩
          · have e3 := level_le hcv t l htl (by omega)
            beta_reduce at e3
            rw [max_eq_left (by rw [hdb]; linarith [hshallow.1])]
            rw [hdb]
            linarith [hshallow.1]
          · have e3 := level_le hcv t l htl (by omega)
            beta_reduce at e3
            rw [max_eq_left (by rw [hdb]; linarith [hshallow.1]), max_eq_right (hlast 0 ht), sub_self, sub_zero, abs_le]
            rw [hdb]
            constructor <;> linarith [hshallow.1, show (0 : K) < 1 / 100 by norm_num]
        obtain ⟨u, hu, hr⟩ := hcount.2 hisl
        have := hr _ _ (hcv.depth d hd u (by omega)) (hcv.depth d hd (u + 1) (by omega))
        rw [max_eq_right (hlast u hu)] at this
        rcases Nat.lt_or_ge (u + 1) t with h5 | h5
        · rw [max_eq_right (hlast (u + 1) h5)] at this
          linarith [show (0 : K) < 1 / 1000 by norm_num]
        · obtain rfl : u + 1 = t := by omega
          rw [max_eq_left (by rw [hdb]; exact hshallow.1.le), hdb] at this
          linarith [hshallow.2]
      rw [if_neg (hbed _ (hmem _) rfl), if_pos hshallow.1]
      exact hpos

/-! ## C176: volumes -/

/-- **C176.** Over horizontal water the volume of the profile differs from the 2D volume, at each level, by no more than half of the largest
step between levels plus one millimetre, times the area of the faces that are below the level and above the bed of the centre. -/
theorem C176_volumes (cfg : BuildConfig K) (len : K) (hlen : 0 < len) (centre s l : Nat) (raw : ControlVolume K) (h : Nat → K)
    (c : Cell K) (hh : HorizontalWater raw h) (hs : cfg.skipMaps = (s : Int)) (hl : cfg.lakeTimesteps = (l : Int))
    (hn : s + l < raw.nMaps) (hrise : h s + 1 / 100 < h (s + l)) (hc : raw.cells[centre]? = some c) (hwet : c.bed < h s)
    (hA : ∀ c ∈ raw.cells, 0 ≤ c.area) :
    ∃ b, buildGeometry cfg len centre raw = .ok b ∧
      ∀ (t : Nat) (D : K), s + t < raw.nMaps → h s - c.bed ≤ 9 * D → (∀ u < t, h (s + u + 1) - h (s + u) ≤ D) →
        ∃ v1 v2, b.totalVolume1d[10 + t]? = some v1 ∧ b.totalVolume2d[10 + t]? = some (some v2) ∧
          |v1 - v2| ≤ (D / 2 + 1 / 1000) * areaOf (fun c' => c.bed < c'.bed ∧ c'.bed < h (s + t)) raw.cells := by
  obtain ⟨b, hb, hcv, hnm, h1, h2, h3, h4⟩ := profile cfg len centre s l raw h c hh hs hl hn hrise hc hwet
  refine ⟨b, hb, fun t D ht hD0 hD => ?_⟩
  have hD9 : (h s - c.bed) / 9 ≤ D := by rw [div_le_iff₀ (by norm_num)]; linarith
  have hDpos : 0 ≤ D := by
    have : 0 < (h s - c.bed) / 9 := div_pos (sub_pos.2 hwet) (by norm_num)
    linarith
  -- the points up to this level
  classical
  let wet : Cell K → K ⊕ Nat → Bool := fun c' q => match q with
    | .inl z => decide (c'.bed < z + 1 / 1000 ∧ c'.bed < h s)
    | .inr t => decide (Counts c'.depth l t)
  let lev : K ⊕ Nat → K := fun q => match q with
    | .inl z => z
    | .inr t => h (s + t)
  let cells := (getTimeseries (s : Int) raw).cells
  let pts : List (K ⊕ Nat) := (equidistant 9 c.bed (h s)).map .inl ++ (List.range (t + 1)).map .inr
  have hlen10 : (equidistant 9 c.bed (h s)).length = 10 := by simp [equidistant]
  have htake : ∀ {β : Type} (f : Nat → β), ((List.range (raw.nMaps - s)).map f).take (t + 1) = (List.range (t + 1)).map f := by
    intro β f
    rw [← List.map_take, List.take_range, min_eq_left (by omega)]
  have hz : b.z.take (10 + t + 1) = pts.map lev := by
    rw [h1, List.take_append, hlen10, List.take_of_length_le (by rw [hlen10]; omega), show 10 + t + 1 - 10 = t + 1 by omega, htake,
      List.map_append, List.map_map, List.map_map]
    exact congrArg (· ++ _) (List.map_id _).symm
  have hw : b.totalWidth.take (10 + t + 1) = pts.map fun q => (1 / len) * (cells.map fun c => c.area * ind (wet c q)).sum := by
    have hsum : ∀ (P : Cell K → Prop) (f : Cell K → Bool), (∀ c, f c = true ↔ P c) →
        areaOf P cells / len = (1 / len) * (cells.map fun c => c.area * ind (f c)).sum := by
      intro P f hf
      rw [areaOf_sum, div_eq_inv_mul, one_div]
      refine congrArg (len⁻¹ * List.sum ·) (List.map_congr_left fun c _ => ?_)
      by_cases hp : P c
      · rw [if_pos hp, (hf c).2 hp]; exact (mul_one _).symm
      · rw [if_neg hp, Bool.eq_false_iff.2 fun h => hp ((hf c).1 h)]; exact (mul_zero _).symm
    rw [h3, h2, List.map_append, List.map_map, List.map_map, List.take_append, List.length_map, hlen10,
      List.take_of_length_le (by rw [List.length_map, hlen10]; omega), show 10 + t + 1 - 10 = t + 1 by omega, htake,
      List.map_append, List.map_map, List.map_map]
    congr 1
    · exact List.map_congr_left fun z _ => hsum _ _ fun c => decide_eq_true_iff
    · exact List.map_congr_left fun u _ => hsum _ _ fun c => decide_eq_true_iff
  obtain ⟨p, rest, hpts, hp⟩ : ∃ p rest, pts = p :: rest ∧ lev p = c.bed := by
    refine ⟨.inl (c.bed + ((0 : Nat) : K) * (h s - c.bed) / ((9 : Nat) : K)), _, rfl, ?_⟩
    show c.bed + ((0 : Nat) : K) * (h s - c.bed) / ((9 : Nat) : K) = c.bed
    rw [Nat.cast_zero, zero_mul, zero_div, add_zero]
  have hlast : (p :: rest).getLast (List.cons_ne_nil _ _) = .inr t := by
    have hr : pts = ((equidistant 9 c.bed (h s)).map .inl ++ (List.range t).map .inr) ++ [.inr t] := by
      show _ ++ (List.range (t + 1)).map _ = _
      rw [List.range_succ, List.map_append, List.append_assoc]
      rfl
    have : ∀ (l : List (K ⊕ Nat)) (hne : l ≠ []), l = pts → l.getLast hne = .inr t := by
      intro l hne hl
      subst hl
      have : ∀ (l l' : List (K ⊕ Nat)) (hne : l ≠ []), l = l' ++ [.inr t] → l.getLast hne = .inr t := by
        intro l l' hne hl
        subst hl
        exact List.getLast_append_singleton _
      exact this _ _ hne hr
    exact this _ _ hpts.symm
  have hpm : ∀ q ∈ pts, (∃ z, q = .inl z ∧ z ≤ h s ∧ c.bed ≤ z) ∨ ∃ u ≤ t, q = .inr u := by
    intro q hq
    rcases List.mem_append.1 hq with hq | hq
    · obtain ⟨z, hz', rfl⟩ := List.mem_map.1 hq
      obtain ⟨k, hk, rfl⟩ := List.mem_map.1 hz'
      have hk := List.mem_range.1 hk
      have h9 : (k : K) ≤ 9 := by exact_mod_cast (by omega : k ≤ 9)
      have h0 : (0 : K) ≤ (k : K) := Nat.cast_nonneg k
      have hw' := sub_pos.2 hwet
      refine .inl ⟨_, rfl, ?_, ?_⟩
      · have : (k : K) * (h s - c.bed) / ((9 : Nat) : K) ≤ h s - c.bed := by
          rw [div_le_iff₀ (by norm_num)]
          push_cast
          nlinarith
        linarith
      · have : 0 ≤ (k : K) * (h s - c.bed) / ((9 : Nat) : K) := div_nonneg (mul_nonneg h0 hw'.le) (by norm_num)
        linarith
    · obtain ⟨u, hu, rfl⟩ := List.mem_map.1 hq
      exact .inr ⟨u, by have := List.mem_range.1 hu; omega, rfl⟩
  have hbound := volume_error wet lev D (1 / 1000) hDpos (by norm_num) p (.inr t) rest hlast cells
    (fun d hd => by
      obtain ⟨d', hd', rfl⟩ := List.mem_map.1 hd
      exact hA d' hd')
    (fun d hd => by
      rw [← hpts, List.isChain_map]
      refine List.isChain_append.2 ⟨?_, ?_, ?_⟩
      · refine (List.isChain_map _).2 ?_
        refine (List.isChain_map _).2 ?_
        rw [List.isChain_range]
        intro k hk
        have hstep : c.bed + ((k + 1 : Nat) : K) * (h s - c.bed) / ((9 : Nat) : K) - (c.bed + (k : K) * (h s - c.bed) / ((9 : Nat) : K)) =
            (h s - c.bed) / 9 := by
          push_cast
          ring
        have hpos : 0 < (h s - c.bed) / 9 := div_pos (sub_pos.2 hwet) (by norm_num)
        refine ⟨by show c.bed + _ ≤ c.bed + _; linarith, by show c.bed + _ - (c.bed + _) ≤ D; rw [hstep]; exact hD9, fun hwd => ?_⟩
        have hwd := of_decide_eq_true hwd
        exact decide_eq_true ⟨by linarith [hwd.1], hwd.2⟩
      · refine (List.isChain_map _).2 ?_
        rw [List.isChain_range]
        intro u hu
        have hr := hcv.rises u (by omega)
        refine ⟨?_, hD u (by omega), fun hwd => ?_⟩
        · show h (s + u) ≤ h (s + (u + 1))
          linarith [show (0 : K) < 1 / 1000 by norm_num]
        · exact decide_eq_true (counts_mono hcv l d hd u (u + 1) (by omega) (by omega) (of_decide_eq_true hwd))
      · intro x hx y hy
        have hx' : x = .inl (h s) := by
          have e : ((equidistant 9 c.bed (h s)).map (Sum.inl (β := Nat))).getLast? = some (.inl (h s)) := by
            show some (Sum.inl (c.bed + ((9 : Nat) : K) * (h s - c.bed) / ((9 : Nat) : K))) = _
            rw [mul_div_cancel_left₀ _ (by norm_num), add_sub_cancel]
          rw [e] at hx
          exact (Option.some.inj hx).symm
        have hy' : y = .inr 0 := by
          have e : ((List.range (t + 1)).map (Sum.inr (α := K))).head? = some (.inr 0) := by
            rw [List.range_succ_eq_map]; rfl
          rw [e] at hy
          exact (Option.some.inj hy).symm
        subst hx' hy'
        refine ⟨le_rfl, by show h (s + 0) - h s ≤ D; rw [add_zero, sub_self]; exact hDpos, fun hwd => ?_⟩
        have hwd := of_decide_eq_true hwd
        exact decide_eq_true ((counts_first hcv l (by omega) hrise d hd).2 hwd.2))
    (fun d hd q hq => by
      rw [← hpts] at hq
      rcases hpm q hq with ⟨z, rfl, hzs, -⟩ | ⟨u, hu, rfl⟩
      · refine ⟨fun hf => ?_, fun ht' => (of_decide_eq_true ht').1⟩
        have hf := of_decide_eq_false hf
        show z ≤ d.bed + 1 / 1000
        rcases not_and_or.1 hf with h5 | h5
        · linarith [not_lt.1 h5, show (0 : K) < 1 / 1000 by norm_num]
        · linarith [not_lt.1 h5, show (0 : K) < 1 / 1000 by norm_num]
      · refine ⟨fun hf => not_counts hcv l (by omega) hrise d hd u (by omega) (of_decide_eq_false hf), fun ht' => ?_⟩
        have := (wet_iff hcv d hd u (by omega)).1 (of_decide_eq_true ht').1
        show d.bed < h (s + u) + 1 / 1000
        linarith [show (0 : K) < 1 / 1000 by norm_num])
    (fun d hd hle => by
      obtain ⟨q, hq⟩ : ∃ z, p = .inl z := ⟨_, (List.cons.inj hpts).1.symm⟩
      subst hq
      have hq : q = c.bed := hp
      rw [hp] at hle
      refine decide_eq_true ⟨?_, by linarith⟩
      rw [hq]
      linarith [show (0 : K) < 1 / 1000 by norm_num])
  rw [← hpts, hp] at hbound
  refine ⟨_, volumeOf (fun c => Counts c.depth l t) (fun c' => some (h (s + t) - max c'.bed c.bed)) cells, (C08_built hb (10 + t) (by rw [h1, List.length_append, hlen10, List.length_map, List.length_range]; omega)).1, ?_, ?_⟩
  · have := congrArg (·[t]?) h4
    simp only [List.getElem?_drop, List.getElem?_map] at this
    rw [this, List.getElem?_range (by omega)]
    rfl
  · rw [hz, hw, trapezoid_mul, mul_comm (1 / len), mul_assoc, one_div, inv_mul_cancel₀ (ne_of_gt hlen), mul_one]
    have hv : volumeOf (fun c => Counts c.depth l t) (fun c' => some (h (s + t) - max c'.bed c.bed)) cells =
        (cells.map fun c' => c'.area * (ind (wet c' (.inr t)) * (lev (.inr t) - max c'.bed c.bed))).sum := by
      rw [volumeOf_sum]
      refine congrArg List.sum (List.map_congr_left fun c' _ => ?_)
      by_cases hcount : Counts c'.depth l t
      · rw [if_pos hcount]
        show _ = c'.area * (ind (decide (Counts c'.depth l t)) * _)
        rw [decide_eq_true hcount]
        show c'.area * (h (s + t) - max c'.bed c.bed) = c'.area * (1 * (h (s + t) - max c'.bed c.bed))
        rw [one_mul]
      · rw [if_neg hcount]
        show _ = c'.area * (ind (decide (Counts c'.depth l t)) * _)
        rw [decide_eq_false hcount]
        show 0 = c'.area * (0 * _)
        rw [zero_mul, mul_zero]
    rw [hv]
    refine hbound.trans (mul_le_mul_of_nonneg_left ?_ (by positivity))
    rw [← area_used (s : Int) raw fun bed => c.bed < bed ∧ bed < h (s + t), areaOf_sum]
    refine List.sum_le_sum fun d hd => ?_
    have hdA : 0 ≤ d.area := by
      obtain ⟨d', hd', rfl⟩ := List.mem_map.1 hd
      exact hA d' hd'
    by_cases h5 : c.bed < d.bed ∧ wet d (.inr t) = true
    · rw [if_pos h5, if_pos ⟨h5.1, (wet_iff hcv d hd t (by omega)).1 (of_decide_eq_true h5.2).1⟩]
    · rw [if_neg h5]
      split
      · exact hdA
      · exact le_rfl

/-- **C176, flat beds.** When no face is higher than the centre, the volumes are equal. -/
theorem C176_flat (cfg : BuildConfig K) (len : K) (hlen : 0 < len) (centre s l : Nat) (raw : ControlVolume K) (h : Nat → K)
    (c : Cell K) (hh : HorizontalWater raw h) (hs : cfg.skipMaps = (s : Int)) (hl : cfg.lakeTimesteps = (l : Int))
    (hn : s + l < raw.nMaps) (hrise : h s + 1 / 100 < h (s + l)) (hc : raw.cells[centre]? = some c) (hwet : c.bed < h s)
    (hA : ∀ c ∈ raw.cells, 0 ≤ c.area) (hflat : ∀ c' ∈ raw.cells, c'.bed ≤ c.bed) :
    ∃ b, buildGeometry cfg len centre raw = .ok b ∧ (b.totalVolume1d.drop 10).map some = b.totalVolume2d.drop 10 := by
  obtain ⟨b, hb, h1⟩ := C176_volumes cfg len hlen centre s l raw h c hh hs hl hn hrise hc hwet hA
  obtain ⟨b', hb', -, -, h2, -⟩ := profile cfg len centre s l raw h c hh hs hl hn hrise hc hwet
  rw [hb] at hb'
  obtain rfl := Except.ok.inj hb'
  refine ⟨b, hb, ?_⟩
  obtain ⟨acc, -, e1, -, -, -, -, e6, -, e8, -⟩ := C07_arrays_aligned hb
  have hacc : acc.length = raw.nMaps - s := by
    have := congrArg List.length h2
    rw [e1, List.length_append, List.length_map, List.length_range] at this
    simp only [equidistant, List.length_map, List.length_range] at this
    omega
  apply List.ext_getElem?
  intro t
  rw [List.getElem?_map, List.getElem?_drop, List.getElem?_drop]
  rcases Nat.lt_or_ge t acc.length with ht | ht
  · -- a step that is large enough
    obtain ⟨D, hD0, hD⟩ : ∃ D : K, h s - c.bed ≤ 9 * D ∧ ∀ u < t, h (s + u + 1) - h (s + u) ≤ D := by
      have hex : ∀ t : Nat, ∃ D : K, h s - c.bed ≤ 9 * D ∧ ∀ u < t, h (s + u + 1) - h (s + u) ≤ D := by
        intro t
        induction t with
        | zero => exact ⟨(h s - c.bed) / 9, by rw [mul_div_cancel₀ _ (by norm_num)], fun u hu => by omega⟩
        | succ t ih =>
          obtain ⟨D, d1, d2⟩ := ih
          refine ⟨max D (h (s + t + 1) - h (s + t)), ?_, fun u hu => ?_⟩
          · have := le_max_left D (h (s + t + 1) - h (s + t))
            linarith
          · rcases Nat.lt_or_ge u t with h3 | h3
            · exact (d2 u h3).trans (le_max_left _ _)
            · obtain rfl : u = t := by omega
              exact le_max_right _ _
      exact hex t
    obtain ⟨v1, v2, q1, q2, q3⟩ := h1 t D (by omega) hD0 hD
    have hzero : areaOf (fun c' => c.bed < c'.bed ∧ c'.bed < h (s + t)) raw.cells = 0 := by
      classical
      rw [areaOf_sum]
      refine List.sum_eq_zero fun x hx => ?_
      obtain ⟨d, hd, rfl⟩ := List.mem_map.1 hx
      exact if_neg fun h => absurd h.1 (not_lt.2 (hflat d hd))
    rw [hzero, mul_zero] at q3
    have := sub_eq_zero.1 (abs_eq_zero.1 (le_antisymm q3 (abs_nonneg _)))
    rw [q1, q2, this]
    rfl
  · rw [List.getElem?_eq_none (by omega), List.getElem?_eq_none (by omega)]
    rfl

/-! ## Examples -/

/-- A river of which faces have areas and bed levels as given, under a horizontal water surface. -/
def levelRiver (n : Nat) (h : Nat → ℚ) (faces : List (ℚ × ℚ)) : ControlVolume ℚ :=
  { nMaps := n
    cells := faces.map fun f =>
      { area := f.1, bed := f.2, depth := fun t => some (max (h t) f.2 - f.2), level := fun t => if f.2 < h t then some (h t) else none
        velocity := fun _ => some 1 } }

theorem levelRiver_horizontal (n : Nat) (h : Nat → ℚ) (faces : List (ℚ × ℚ)) (h1 : ∀ t, t + 1 < n → h t + 1 / 1000 < h (t + 1))
    (h2 : ∀ t < n, -999 < h t) : HorizontalWater (levelRiver n h faces) h where
  level := by
    intro c hc t _ hw
    obtain ⟨f, -, rfl⟩ := List.mem_map.1 hc
    exact if_pos hw
  depth := by
    intro c hc t _
    obtain ⟨f, -, rfl⟩ := List.mem_map.1 hc
    rfl
  rises := h1
  known := h2

/-- Settings with which the first map is skipped. -/
def levelConfig : BuildConfig ℚ :=
  { skipMaps := 1, lakeTimesteps := 2, absoluteVelocityThreshold := 1 / 100, relativeVelocityThreshold := 3 / 100
    conveyanceDetectionMethod := 1, extrapolateStorage := true }

/-- The levels of the water. -/
def levelOf (t : Nat) : ℚ := 1 / 2 + (t : ℚ) * 3 / 4

/-- A bed with banks. -/
def banks : List (ℚ × ℚ) := [(100, 0), (50, 1), (200, 2), (300, 30)]

private theorem bank_rises : ∀ t, t + 1 < 5 → levelOf t + 1 / 1000 < levelOf (t + 1) := by
  intro t ht
  have ht : t < 4 := by omega
  interval_cases t <;> decide +kernel

private theorem bank_known : ∀ t < 5, -999 < levelOf t := by
  intro t ht
  interval_cases t <;> decide +kernel

private theorem bank_clear : ∀ c ∈ (levelRiver 5 levelOf banks).cells, ∀ t, 1 ≤ t → t < 5 → c.bed < levelOf t →
    c.bed + 1 / 1000 < levelOf t := by
  intro c hc t h1 h5
  obtain ⟨f, hf, rfl⟩ := List.mem_map.1 hc
  have : f = (100, 0) ∨ f = (50, 1) ∨ f = (200, 2) ∨ f = (300, 30) := by simpa [banks] using hf
  rcases this with rfl | rfl | rfl | rfl <;> interval_cases t <;> decide +kernel

private theorem bank_area : ∀ c ∈ (levelRiver 5 levelOf banks).cells, 0 ≤ c.area := by
  intro c hc
  obtain ⟨f, hf, rfl⟩ := List.mem_map.1 hc
  have : f = (100, 0) ∨ f = (50, 1) ∨ f = (200, 2) ∨ f = (300, 30) := by simpa [banks] using hf
  rcases this with rfl | rfl | rfl | rfl <;> decide +kernel

/-- The profile of the river with banks: with 10 m length the width is 15 m, then 35 m when the higher bank is under water. -/
example : ∃ b, buildGeometry levelConfig 10 0 (levelRiver 5 levelOf banks) = .ok b ∧
    b.totalWidth = (equidistant 9 0 (levelOf 1)).map (fun z => areaOf (fun c => c.bed < z + 1 / 1000 ∧ c.bed < levelOf 1)
      (levelRiver 5 levelOf banks).cells / 10) ++
      (List.range' 1 4).map (fun t => areaOf (fun c => c.bed < levelOf t) (levelRiver 5 levelOf banks).cells / 10) := by
  obtain ⟨b, h1, -, h2, -⟩ := C175_widths_partial levelConfig 10 0 1 2 (levelRiver 5 levelOf banks) levelOf _
    (levelRiver_horizontal 5 levelOf banks bank_rises bank_known) rfl rfl (by decide) (by decide +kernel) rfl (by decide +kernel) bank_clear
  exact ⟨b, h1, h2⟩

example : ((buildGeometry levelConfig 10 0 (levelRiver 5 levelOf banks)).toOption.map fun b =>
    (b.totalWidth.drop 10, b.totalVolume2d.drop 10, b.totalVolume1d.drop 10)) =
    some ([15, 15, 35, 35], [some (275 / 2), some 250, some (1025 / 2), some 775], [1625 / 12, 2975 / 12, 5225 / 12, 8375 / 12]) := by
  decide +kernel

example : ∃ b, buildGeometry levelConfig 10 0 (levelRiver 5 levelOf banks) = .ok b ∧ b.flowWidth = b.totalWidth := by
  obtain ⟨b, h1, h2, -⟩ := C175_flow_partial levelConfig 10 (by norm_num) 0 1 2 (levelRiver 5 levelOf banks) levelOf _
    (levelRiver_horizontal 5 levelOf banks bank_rises bank_known) rfl rfl (by decide) (by decide +kernel) rfl (by decide +kernel) bank_clear
    bank_area (by decide) (by
      intro c hc t _ _ _
      obtain ⟨f, -, rfl⟩ := List.mem_map.1 hc
      exact ⟨1, rfl, by decide +kernel, by decide +kernel⟩)
  exact ⟨b, h1, h2⟩

example : ∃ b v1 v2, buildGeometry levelConfig 10 0 (levelRiver 5 levelOf banks) = .ok b ∧ b.totalVolume1d[13]? = some v1 ∧
    b.totalVolume2d[13]? = some (some v2) ∧
    |v1 - v2| ≤ (3 / 4 / 2 + 1 / 1000) * areaOf (fun c => 0 < c.bed ∧ c.bed < levelOf 4) (levelRiver 5 levelOf banks).cells := by
  obtain ⟨b, h1, h2⟩ := C176_volumes levelConfig 10 (by norm_num) 0 1 2 (levelRiver 5 levelOf banks) levelOf _
    (levelRiver_horizontal 5 levelOf banks bank_rises bank_known) rfl rfl (by decide) (by decide +kernel) rfl (by decide +kernel) bank_area
  obtain ⟨v1, v2, h3, h4, h5⟩ := h2 3 (3 / 4) (by decide) (by decide +kernel) (by
    intro u hu
    interval_cases u <;> decide +kernel)
  exact ⟨b, v1, v2, h1, h3, h4, h5⟩

/-- The water rises slowly over a face that lies 1.007 m high. -/
def slowLevel (t : Nat) : ℚ := 1 + (t : ℚ) * 76 / 10000

example : ∃ b w, buildGeometry { levelConfig with skipMaps := 0 } 10 0 (levelRiver 3 slowLevel [(100, 0), (50, 1007 / 1000)]) = .ok b ∧
    b.totalWidth[11]? = some w ∧
    w < areaOf (fun c => c.bed < slowLevel 1) (levelRiver 3 slowLevel [(100, 0), (50, 1007 / 1000)]).cells / 10 := by
  have hmem : ∀ c ∈ (levelRiver 3 slowLevel [(100, 0), (50, 1007 / 1000)]).cells, 0 ≤ c.area := by
    intro c hc
    obtain ⟨f, hf, rfl⟩ := List.mem_map.1 hc
    have : f = (100, 0) ∨ f = (50, 1007 / 1000) := by simpa using hf
    rcases this with rfl | rfl <;> decide +kernel
  obtain ⟨b, w, h1, h2, h3⟩ := C175_shallow_violated { levelConfig with skipMaps := 0 } 10 (by norm_num) 0 0 2
    (levelRiver 3 slowLevel [(100, 0), (50, 1007 / 1000)]) slowLevel _
    (levelRiver_horizontal 3 slowLevel [(100, 0), (50, 1007 / 1000)] (by
        intro t ht
        have ht : t < 2 := by omega
        interval_cases t <;> decide +kernel)
      (by intro t ht; interval_cases t <;> decide +kernel)) rfl rfl (by decide) (by decide +kernel) rfl (by decide +kernel) hmem _
    (List.mem_of_getElem? (i := 1) rfl) (by decide +kernel) 1 (by decide) (by decide) (by decide +kernel) (by decide +kernel)
  exact ⟨b, w, h1, h2, h3⟩

/-- A flat bed with a pit. -/
example : ∃ b, buildGeometry levelConfig 10 0 (levelRiver 5 levelOf [(100, 0), (70, 0), (30, -3)]) = .ok b ∧
    (b.totalVolume1d.drop 10).map some = b.totalVolume2d.drop 10 := by
  have hmem : ∀ c ∈ (levelRiver 5 levelOf [(100, 0), (70, 0), (30, -3)]).cells, 0 ≤ c.area ∧ c.bed ≤ 0 := by
    intro c hc
    obtain ⟨f, hf, rfl⟩ := List.mem_map.1 hc
    have : f = (100, 0) ∨ f = (70, 0) ∨ f = (30, -3) := by simpa using hf
    rcases this with rfl | rfl | rfl <;> decide +kernel
  exact C176_flat levelConfig 10 (by norm_num) 0 1 2 (levelRiver 5 levelOf [(100, 0), (70, 0), (30, -3)]) levelOf _
    (levelRiver_horizontal 5 levelOf _ bank_rises bank_known) rfl rfl (by decide) (by decide +kernel) rfl (by decide +kernel)
    (fun c hc => (hmem c hc).1) (fun c hc => (hmem c hc).2)

end Fm2prof.Props

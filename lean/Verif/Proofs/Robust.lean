import Verif.Spec.Robust
import Verif.Proofs.Reorder
import Verif.Proofs.Build
import Verif.Props.Geometry

/-!
# Lemmas about maps that are left out and cells that are divided
-/

set_option linter.unusedSectionVars false

namespace Fm2prof

open Spec

/-! ## Masks -/

theorem maskSelect_erase {α : Type} (m : List Bool) (xs : List α) (i : Nat) (hm : m[i]? = some false) :
    maskSelect (m.eraseIdx i) (xs.eraseIdx i) = maskSelect m xs := by
  unfold maskSelect
  induction m generalizing xs i with
  | nil => cases hm
  | cons b m ih =>
    cases xs with
    | nil => cases i <;> simp
    | cons x xs =>
      cases i with
      | zero =>
        rw [List.getElem?_cons_zero] at hm
        obtain rfl := Option.some.inj hm
        simp
      | succ i =>
        rw [List.getElem?_cons_succ] at hm
        simp only [List.eraseIdx_cons_succ, List.zip_cons_cons, List.filter_cons]
        have := ih xs i hm
        cases b
        · simpa using this
        · simpa using this

theorem rising_erase {α : Type} [LinearOrder α] (l : List (Option α)) (i : Nat) (hi : 1 ≤ i)
    (hn : ∀ y, l[i]? = some (some y) → ∃ j < i, ∃ z, l[j]? = some (some z) ∧ y ≤ z) (k : Nat) :
    Rising (l.eraseIdx i) k ↔ Rising l (if k < i then k else k + 1) := by
  have hg : ∀ j, (l.eraseIdx i)[j]? = l[if j < i then j else j + 1]? := by
    intro j
    rw [List.getElem?_eraseIdx]
    split <;> rfl
  unfold Rising
  rw [hg 0, if_pos (by omega), hg k]
  constructor
  · rintro (rfl | ⟨x, x0, h1, h2, h3⟩)
    · left; rw [if_pos (by omega)]
    · right
      refine ⟨x, x0, h1, h2, fun j hj y hy => ?_⟩
      rcases lt_trichotomy j i with hji | rfl | hji
      · refine h3 j (by split at hj <;> omega) y ?_
        rw [hg j, if_pos hji]; exact hy
      · obtain ⟨j', hj', z, hz, hyz⟩ := hn y hy
        refine lt_of_le_of_lt hyz (h3 j' (by split at hj <;> omega) z ?_)
        rw [hg j', if_pos hj']; exact hz
      · refine h3 (j - 1) (by split at hj <;> omega) y ?_
        rw [hg (j - 1), if_neg (by omega)]
        have : j - 1 + 1 = j := by omega
        rw [this]; exact hy
  · rintro (h0 | ⟨x, x0, h1, h2, h3⟩)
    · left; split at h0 <;> omega
    · right
      refine ⟨x, x0, h1, h2, fun j hj y hy => ?_⟩
      rw [hg j] at hy
      refine h3 _ ?_ y hy
      split <;> split <;> omega

theorem mono_erase {α : Type} [LinearOrder α] (l : List (Option α)) (i : Nat) (hi : 1 ≤ i) (hl : i < l.length)
    (hn : ∀ y, l[i]? = some (some y) → ∃ j < i, ∃ z, l[j]? = some (some z) ∧ y ≤ z) :
    (checkMonotonicity l)[i]? = some false ∧ checkMonotonicity (l.eraseIdx i) = (checkMonotonicity l).eraseIdx i := by
  have hne : l ≠ [] := by rintro rfl; simp at hl
  have hlen : (l.eraseIdx i).length = l.length - 1 := List.length_eraseIdx_of_lt hl
  have hne' : l.eraseIdx i ≠ [] := by
    intro h
    rw [h] at hlen
    simp at hlen
    omega
  obtain ⟨a1, a2⟩ := Props.C01_accepted_iff l hne
  obtain ⟨b1, b2⟩ := Props.C01_accepted_iff (l.eraseIdx i) hne'
  have hnot : ¬ Rising l i := by
    rintro (h | ⟨x, x0, h1, _, h3⟩)
    · omega
    · obtain ⟨j, hj, z, hz, hyz⟩ := hn x h1
      exact absurd (h3 j hj z hz) (not_lt.2 hyz)
  have hb : ∀ (m : List Bool) (k : Nat), k < m.length → m[k]? = some true ∨ m[k]? = some false := by
    intro m k hk
    rw [List.getElem?_eq_getElem hk]
    cases m[k] <;> simp
  constructor
  · rcases hb (checkMonotonicity l) i (by omega) with h | h
    · exact absurd ((a2 i hl).1 h) hnot
    · exact h
  · apply List.ext_getElem?
    intro k
    have hg : ((checkMonotonicity l).eraseIdx i)[k]? = (checkMonotonicity l)[if k < i then k else k + 1]? := by
      rw [List.getElem?_eraseIdx]
      split <;> rfl
    rw [hg]
    by_cases hk : k < l.length - 1
    · have e : (checkMonotonicity (l.eraseIdx i))[k]? = some true ↔
          (checkMonotonicity l)[if k < i then k else k + 1]? = some true := by
        rw [b2 k (by omega), a2 _ (by split <;> omega), rising_erase l i hi hn k]
      rcases hb (checkMonotonicity (l.eraseIdx i)) k (by omega) with h | h
      · rw [h, e.1 h]
      · rcases hb (checkMonotonicity l) (if k < i then k else k + 1) (by split <;> omega) with h' | h'
        · rw [e.2 h'] at h
          cases h
        · rw [h, h']
    · rw [List.getElem?_eq_none (by omega), List.getElem?_eq_none (by split <;> omega)]

theorem map_range_erase {α : Type} (f g : Nat → α) (n q : Nat) (hq : q < n)
    (h : ∀ t < n - 1, g t = f (if t < q then t else t + 1)) :
    (List.range (n - 1)).map g = ((List.range n).map f).eraseIdx q := by
  apply List.ext_getElem?
  intro k
  rw [List.getElem?_eraseIdx]
  by_cases hk : k < n - 1
  · rw [List.getElem?_map, List.getElem?_range hk, Option.map_some, h k hk]
    split
    · rw [List.getElem?_map, List.getElem?_range (by omega)]; rfl
    · rw [List.getElem?_map, List.getElem?_range (by omega)]; rfl
  · rw [List.getElem?_eq_none (by rw [List.length_map, List.length_range]; omega)]
    split
    · omega
    · rw [List.getElem?_eq_none (by rw [List.length_map, List.length_range]; omega)]

variable {K : Type} [Field K] [LinearOrder K] [IsStrictOrderedRing K]

/-! ## Leaving out a map -/

theorem without_lt {α : Type} (p : Nat) (f : Nat → α) (t : Nat) (h : t < p) : Spec.without p f t = f t := if_pos h

theorem without_ge {α : Type} (p : Nat) (f : Nat → α) (t : Nat) (h : p ≤ t) : Spec.without p f t = f (t + 1) := if_neg (by omega)

theorem getTimeseries_without (s p : Nat) (raw : ControlVolume K) (hs : s ≤ p) (hp : p < raw.nMaps) :
    getTimeseries (s : Int) (ControlVolume.without p raw) = ControlVolume.without (p - s) (getTimeseries (s : Int) raw) := by
  have h1 : sliceStart raw.nMaps (s : Int) = s := by
    unfold sliceStart
    rw [if_pos (Int.natCast_nonneg s), Int.toNat_natCast]; omega
  have h2 : sliceStart (raw.nMaps - 1) (s : Int) = s := by
    unfold sliceStart
    rw [if_pos (Int.natCast_nonneg s), Int.toNat_natCast]; omega
  unfold getTimeseries ControlVolume.without
  simp only
  rw [h1, h2, List.map_map, List.map_map]
  congr 1
  · omega
  · refine List.map_congr_left fun c _ => ?_
    have : ∀ f : Nat → Option K, (fun t => clean (Spec.without p f (s + t))) = Spec.without (p - s) fun t => clean (f (s + t)) := by
      intro f
      funext t
      unfold Spec.without
      by_cases h : s + t < p
      · rw [if_pos h, if_pos (by omega)]
      · rw [if_neg h, if_neg (by omega)]; rfl
    unfold Cell.without
    simp only [Function.comp_apply]
    rw [this, this, this]

theorem isLake_without (L q : Nat) (h : L < q) (c : Cell K) : isLake L (Cell.without q c) = isLake L c := by
  unfold isLake Cell.without
  simp only
  rw [without_lt q c.depth L h, without_lt q c.depth 0 (by omega)]

theorem resting_noLake (L : Nat) (c : Cell K) (h : isLake L c = false) (t : Nat) : resting L c t = false := by
  induction t with
  | zero => exact h
  | succ t ih => unfold resting; rw [ih, Bool.and_false]

theorem resting_without_lt (L q : Nat) (h : L < q) (c : Cell K) (t : Nat) (ht : t < q) :
    resting L (Cell.without q c) t = resting L c t := by
  induction t with
  | zero => exact isLake_without L q h c
  | succ t ih =>
    unfold resting
    rw [ih (by omega)]
    have e : (Cell.without q c).depth = Spec.without q c.depth := rfl
    rw [e, without_lt q _ _ ht, without_lt q _ t (by omega)]

theorem resting_repeat (L q : Nat) (h0 : 0 < q) (c : Cell K) (hr : c.depth q = c.depth (q - 1)) :
    resting L c q = resting L c (q - 1) := by
  obtain ⟨k, rfl⟩ : ∃ k, q = k + 1 := ⟨q - 1, by omega⟩
  rw [Nat.add_sub_cancel] at hr ⊢
  have e : resting L c (k + 1) = (ole (osub (c.depth (k + 1)) (c.depth k)) (1 / 1000) && resting L c k) := rfl
  rw [e, hr]
  cases hd : c.depth k with
  | some d =>
    have : ole (osub (some d) (some d)) (1 / 1000 : K) = true := by
      simp [ole, osub]
    rw [this, Bool.true_and]
  | none =>
    have e1 : ole (osub (none : Option K) none) (1 / 1000 : K) = false := rfl
    rw [e1, Bool.false_and]
    symm
    cases k with
    | zero =>
      show isLake L c = false
      unfold isLake
      rw [hd]
      cases c.depth L <;> simp [osub, ole]
    | succ k =>
      unfold resting
      rw [hd]
      have e2 : ole (osub (none : Option K) (c.depth k)) (1 / 1000 : K) = false := rfl
      rw [e2, Bool.false_and]

/-- The maps between which a lake starts to rise stay the same. -/
theorem resting_without (L q n : Nat) (h : L < q) (c : Cell K)
    (hl : q + 1 = n ∨ c.depth q = c.depth (q - 1) ∨ isLake L c = false) (t : Nat) (ht : t < n - 1) :
    resting L (Cell.without q c) t = resting L c (if t < q then t else t + 1) := by
  by_cases htq : t < q
  · rw [if_pos htq]
    exact resting_without_lt L q h c t htq
  · rw [if_neg htq]
    rcases hl with hl | hl | hl
    · omega
    · have e : (Cell.without q c).depth = Spec.without q c.depth := rfl
      have main : ∀ k, resting L (Cell.without q c) (q + k) = resting L c (q + k + 1) := by
        intro k
        induction k with
        | zero =>
          obtain ⟨j, rfl⟩ : ∃ j, q = j + 1 := ⟨q - 1, by omega⟩
          have a1 : resting L (Cell.without (j + 1) c) (j + 1) =
              (ole (osub ((Cell.without (j + 1) c).depth (j + 1)) ((Cell.without (j + 1) c).depth j)) (1 / 1000) &&
                resting L (Cell.without (j + 1) c) j) := rfl
          have a2 : resting L c (j + 1 + 1) = (ole (osub (c.depth (j + 1 + 1)) (c.depth (j + 1))) (1 / 1000) && resting L c (j + 1)) := rfl
          rw [Nat.add_zero, a1, a2, resting_without_lt L (j + 1) h c j (by omega), e, without_ge _ _ (j + 1) (le_refl _),
            without_lt _ _ j (by omega), resting_repeat L (j + 1) (by omega) c hl, hl]
          rfl
        | succ k ih =>
          have a1 : resting L (Cell.without q c) (q + (k + 1)) =
              (ole (osub ((Cell.without q c).depth (q + k + 1)) ((Cell.without q c).depth (q + k))) (1 / 1000) &&
                resting L (Cell.without q c) (q + k)) := rfl
          have a2 : resting L c (q + (k + 1) + 1) =
              (ole (osub (c.depth (q + k + 1 + 1)) (c.depth (q + k + 1))) (1 / 1000) && resting L c (q + k + 1)) := rfl
          rw [a1, a2, ih, e, without_ge _ _ (q + k + 1) (by omega), without_ge _ _ (q + k) (by omega)]
      have := main (t - q)
      rw [show q + (t - q) = t by omega] at this
      exact this
    · rw [resting_noLake L c hl, resting_noLake]
      rw [isLake_without L q h c]
      exact hl

theorem depth_without (q : Nat) (c : Cell K) (t : Nat) : (Cell.without q c).depth t = c.depth (if t < q then t else t + 1) := by
  show Spec.without q c.depth t = _
  unfold Spec.without
  split <;> rfl

theorem velocity_without (q : Nat) (c : Cell K) (t : Nat) :
    (Cell.without q c).velocity t = c.velocity (if t < q then t else t + 1) := by
  show Spec.without q c.velocity t = _
  unfold Spec.without
  split <;> rfl

theorem level_without (q : Nat) (c : Cell K) (t : Nat) : (Cell.without q c).level t = c.level (if t < q then t else t + 1) := by
  show Spec.without q c.level t = _
  unfold Spec.without
  split <;> rfl

theorem wetNotLake_without (L q n : Nat) (h : L < q) (c : Cell K)
    (hl : q + 1 = n ∨ c.depth q = c.depth (q - 1) ∨ isLake L c = false) (t : Nat) (ht : t < n - 1) :
    wetNotLake L (Cell.without q c) t = wetNotLake L c (if t < q then t else t + 1) := by
  unfold wetNotLake
  rw [resting_without L q n h c hl t ht, depth_without]

theorem lakeDepth_without (L q : Nat) (h : L < q) (c : Cell K) (t : Nat) :
    lakeDepth L (Cell.without q c) t = lakeDepth L c (if t < q then t else t + 1) := by
  unfold lakeDepth lakeCorrection
  rw [depth_without, isLake_without L q h c, depth_without, if_pos (show 0 < q by omega)]

theorem correctedDepth_without (L q : Nat) (h : L < q) (e : Option K) (c : Cell K) (t : Nat) :
    correctedDepth L e (Cell.without q c) t = correctedDepth L e c (if t < q then t else t + 1) := by
  unfold correctedDepth
  rw [lakeDepth_without L q h, lakeDepth_without L q h, if_pos (show 0 < q by omega)]

theorem maskedArea_image (g : Cell K → Cell K) (hg : ∀ c, (g c).area = c.area) (cells : List (Cell K)) (m m' : Cell K → Bool)
    (hm : ∀ c ∈ cells, m' (g c) = m c) : maskedArea (cells.map g) (fun _ c => m' c) = maskedArea cells fun _ c => m c := by
  rw [maskedArea_const, maskedArea_const, List.map_map]
  congr 1
  refine List.map_congr_left fun c hc => ?_
  simp only [Function.comp_apply]
  rw [hm c hc, hg c]

theorem maskedVolume_image (g : Cell K → Cell K) (hg : ∀ c, (g c).area = c.area) (cells : List (Cell K)) (m m' : Cell K → Bool)
    (d d' : Cell K → Option K) (hm : ∀ c ∈ cells, m' (g c) = m c) (hd : ∀ c ∈ cells, d' (g c) = d c) :
    maskedVolume (cells.map g) (fun _ c => m' c) d' = maskedVolume cells (fun _ c => m c) d := by
  rw [maskedVolume_const, maskedVolume_const, List.map_map]
  congr 1
  refine List.map_congr_left fun c hc => ?_
  simp only [Function.comp_apply]
  rw [hm c hc, hg c, hd c hc]

theorem series2d_without (cfg : BuildConfig K) (hm : cfg.conveyanceDetectionMethod ≠ 0) (cv : ControlVolume K) (L q : Nat) (h : L < q)
    (hq : q < cv.nMaps) (hl : ∀ c ∈ cv.cells, q + 1 = cv.nMaps ∨ c.depth q = c.depth (q - 1) ∨ isLake L c = false) (e : Option K) :
    (series2d cfg (ControlVolume.without q cv) L e).wetArea = (series2d cfg cv L e).wetArea.eraseIdx q ∧
    (series2d cfg (ControlVolume.without q cv) L e).flowArea = (series2d cfg cv L e).flowArea.eraseIdx q ∧
    (series2d cfg (ControlVolume.without q cv) L e).totalVolume = (series2d cfg cv L e).totalVolume.eraseIdx q ∧
    (series2d cfg (ControlVolume.without q cv) L e).flowVolume = (series2d cfg cv L e).flowVolume.eraseIdx q := by
  have hwet : ∀ t < cv.nMaps - 1, ∀ c ∈ cv.cells,
      wetNotLake L (Cell.without q c) t = wetNotLake L c (if t < q then t else t + 1) :=
    fun t ht c hc => wetNotLake_without L q cv.nMaps h c (hl c hc) t ht
  have htop : ∀ t, top3 ((cv.cells.map (Cell.without q)).map fun c => c.velocity t) =
      top3 (cv.cells.map fun c => c.velocity (if t < q then t else t + 1)) := by
    intro t
    rw [List.map_map]
    congr 1
    exact List.map_congr_left fun c _ => velocity_without q c t
  have hflow : ∀ t (c : Cell K) top, flowMask1 cfg top (Cell.without q c) t = flowMask1 cfg top c (if t < q then t else t + 1) := by
    intro t c top
    unfold flowMask1
    rw [depth_without, velocity_without]
  unfold series2d ControlVolume.without
  simp only [flowMask_default cfg hm]
  refine ⟨?_, ?_, ?_, ?_⟩
  · exact map_range_erase _ _ _ q hq fun t ht => maskedArea_image (Cell.without q) (fun _ => rfl) _ _ _ (hwet t ht)
  · refine map_range_erase _ _ _ q hq fun t _ => ?_
    rw [htop t]
    exact maskedArea_image (Cell.without q) (fun _ => rfl) _ _ _ fun c _ => hflow t c _
  · exact map_range_erase _ _ _ q hq fun t ht => maskedVolume_image (Cell.without q) (fun _ => rfl) _ _ _ _ _ (hwet t ht)
      fun c _ => correctedDepth_without L q h e c t
  · refine map_range_erase _ _ _ q hq fun t _ => ?_
    rw [htop t]
    exact maskedVolume_image (Cell.without q) (fun _ => rfl) _ _ _ _ _ (fun c _ => hflow t c _) fun c _ => correctedDepth_without L q h e c t

theorem assemble_without (extrapolate : Bool) (length : K) (cells : List (Cell K)) (L q : Nat) (h : L < q) (depth0 : K)
    (z wa fa tv fv : List K) (zr zr' : List (Option K)) :
    { assemble extrapolate length (cells.map (Cell.without q)) L depth0 z wa fa tv fv zr' with zRoughness := [] } =
      { assemble extrapolate length cells L depth0 z wa fa tv fv zr with zRoughness := [] } := by
  have hb : areaBelow L (cells.map (Cell.without q)) = areaBelow L cells := by
    funext dz
    unfold areaBelow
    refine maskedArea_image (Cell.without q) (fun _ => rfl) _ _ _ fun c _ => ?_
    rw [level_without, if_pos (show 0 < q by omega), show (Cell.without q c).bed = c.bed from rfl]
    congr 1
    unfold wetNotLake
    rw [depth_without, if_pos (show 0 < q by omega), resting_without_lt L q h c 0 (by omega)]
  unfold assemble
  rw [hb]

/-- Geometry with and without the map, apart from the levels of all maps. -/
theorem buildGeometry_without (cfg : BuildConfig K) (hm : cfg.conveyanceDetectionMethod ≠ 0) (s L : Nat) (hs : cfg.skipMaps = (s : Int))
    (hL : cfg.lakeTimesteps = (L : Int)) (len : K) (centre : Nat) (raw : ControlVolume K) (p : Nat) (hp : s + L < p)
    (hn : p < raw.nMaps) (c : Cell K) (hc : raw.cells[centre]? = some c)
    (hpres : ∀ t, s ≤ t → t < raw.nMaps → ∃ x, c.level t = some x ∧ x ≠ -999)
    (hlow : ∃ j, s ≤ j ∧ j < p ∧ ∃ x y, c.level p = some x ∧ c.level j = some y ∧ x ≤ y)
    (hl : ∀ k ∈ (getTimeseries (s : Int) raw).cells, p + 1 = raw.nMaps ∨ k.depth (p - s) = k.depth (p - s - 1) ∨ isLake L k = false) :
    (buildGeometry cfg len centre (ControlVolume.without p raw)).map (fun b => { b with zRoughness := [] }) =
      (buildGeometry cfg len centre raw).map fun b => { b with zRoughness := [] } := by
  have hts := getTimeseries_without s p raw (by omega) hn
  have hslice : sliceStart raw.nMaps (s : Int) = s := by
    unfold sliceStart
    rw [if_pos (Int.natCast_nonneg s), Int.toNat_natCast]; omega
  have hcv : (getTimeseries (s : Int) raw).nMaps = raw.nMaps - s := by
    show raw.nMaps - sliceStart raw.nMaps (s : Int) = _
    rw [hslice]
  unfold buildGeometry
  rw [hs, hts]
  have hcell : ∃ c', (getTimeseries (s : Int) raw).cells[centre]? = some c' ∧ ∀ t, c'.level t = clean (c.level (s + t)) := by
    unfold getTimeseries
    rw [List.getElem?_map, hc]
    exact ⟨_, rfl, fun t => by rw [hslice]⟩
  obtain ⟨c', hc', hlev⟩ := hcell
  have hclean : ∀ t, t < raw.nMaps - s → ∃ x, c'.level t = some x ∧ c.level (s + t) = some x := by
    intro t ht
    obtain ⟨x, hx, hx9⟩ := hpres (s + t) (by omega) (by omega)
    refine ⟨x, ?_, hx⟩
    rw [hlev, hx]
    unfold clean
    simp only
    rw [if_neg hx9]
  clear hts hslice hlev hc
  revert hl hcv hc'
  generalize getTimeseries (s : Int) raw = cv
  intro hl hcv hc'
  have hq : p - s < cv.nMaps := by omega
  have hcw : (ControlVolume.without (p - s) cv).cells[centre]? = some (Cell.without (p - s) c') := by
    show (cv.cells.map (Cell.without (p - s)))[centre]? = _
    rw [List.getElem?_map, hc']
    rfl
  have hnw : (ControlVolume.without (p - s) cv).nMaps = cv.nMaps - 1 := rfl
  simp only [hc', hcw]
  rw [if_neg (by omega), if_neg (by omega)]
  have hidx : ∀ n : Nat, L < n → pyIndex n cfg.lakeTimesteps = .ok L := by
    intro n hn
    unfold pyIndex
    rw [hL, if_pos (Int.natCast_nonneg L), Int.toNat_natCast, if_pos hn]
  rw [hidx _ (by omega), hidx cv.nMaps (by omega)]
  simp only
  have hlevels : ∀ t < cv.nMaps, ((c'.level t).orElse fun _ => centreBed cv.nMaps c') = c'.level t := by
    intro t ht
    obtain ⟨x, hx, _⟩ := hclean t (by omega)
    rw [hx]
    rfl
  have e1 : centreLevels cv.nMaps c' = (List.range cv.nMaps).map c'.level := by
    unfold centreLevels
    exact List.map_congr_left fun t ht => hlevels t (List.mem_range.1 ht)
  have e2 : centreLevels (ControlVolume.without (p - s) cv).nMaps (Cell.without (p - s) c') = (centreLevels cv.nMaps c').eraseIdx (p - s) := by
    rw [e1, hnw]
    unfold centreLevels
    refine map_range_erase _ _ _ (p - s) hq fun t ht => ?_
    rw [level_without]
    obtain ⟨x, hx, _⟩ := hclean (if t < p - s then t else t + 1) (by split <;> omega)
    rw [hx]
    rfl
  have hmono := mono_erase (centreLevels cv.nMaps c') (p - s) (by omega) (by
    rw [e1, List.length_map, List.length_range]; exact hq) (by
    intro y hy
    rw [e1, List.getElem?_map, List.getElem?_range hq, Option.map_some] at hy
    obtain ⟨j, hj1, hj2, x, z, hx, hz, hxz⟩ := hlow
    obtain ⟨x', hx', hx''⟩ := hclean (p - s) (by omega)
    obtain ⟨z', hz', hz''⟩ := hclean (j - s) (by omega)
    rw [show s + (p - s) = p by omega, hx] at hx''
    rw [show s + (j - s) = j by omega, hz] at hz''
    obtain rfl := Option.some.inj hx''
    obtain rfl := Option.some.inj hz''
    refine ⟨j - s, by omega, z, ?_, ?_⟩
    · rw [e1, List.getElem?_map, List.getElem?_range (by omega), Option.map_some, hz']
    · rw [hx'] at hy
      rw [← Option.some.inj (Option.some.inj hy)]
      exact hxz)
  obtain ⟨hfalse, hm2⟩ := hmono
  have hd0 : (Cell.without (p - s) c').depth 0 = c'.depth 0 := by
    rw [depth_without, if_pos (show 0 < p - s by omega)]
  obtain ⟨s1, s2, s3, s4⟩ := series2d_without cfg hm cv L (p - s) (by omega) hq (fun k hk => by
    rcases hl k hk with h | h | h
    · exact Or.inl (by omega)
    · exact Or.inr (Or.inl h)
    · exact Or.inr (Or.inr h)) (c'.depth 0)
  rw [e2, hm2, hd0, s1, s2, s3, s4, maskSelect_erase _ _ _ hfalse, maskSelect_erase _ _ _ hfalse, maskSelect_erase _ _ _ hfalse,
    maskSelect_erase _ _ _ hfalse, maskSelect_erase _ _ _ hfalse]
  cases allSome (maskSelect (checkMonotonicity (centreLevels cv.nMaps c')) (centreLevels cv.nMaps c')) with
  | none => rfl
  | some z =>
    cases c'.depth 0 with
    | none => rfl
    | some d0 =>
      show Except.ok _ = Except.ok _
      congr 1
      exact assemble_without _ _ _ _ _ (by omega) _ _ _ _ _ _ _ _

/-! ## The levels of all maps are not used for the profile -/

/-- A cross-section with another list of the levels of all maps. -/
def Css.withLevels (zr : List (Option K)) (c : Css K) : Css K := { c with raw := { c.raw with zRoughness := zr } }

theorem performCorrection_levels (opt : Optimiser K) (cfg : PipelineConfig K) (release : K → K → K → K) (log : Nat → Option PyErr)
    (zr : List (Option K)) (c : Css K) :
    performCorrection opt cfg release log (Css.withLevels zr c) = Css.withLevels zr (performCorrection opt cfg release log c) := by
  unfold performCorrection
  split
  · rw [calculateCorrection_eq, calculateCorrection_eq]
    have h1 : sdInitial (Css.withLevels zr c).raw = sdInitial c.raw := rfl
    have h2 : (Css.withLevels zr c).raw.totalVolume1d = c.raw.totalVolume1d := rfl
    have h3 : (Css.withLevels zr c).raw.flowVolume1d = c.raw.flowVolume1d := rfl
    rw [h1, h2, h3]
    cases sdInitial c.raw with
    | error e => rfl
    | ok r =>
      simp only
      cases [0, 1, 2, 3, 4].findSome? log with
      | some e => rfl
      | none =>
        simp only
        cases optimizeSdStorage opt cfg.sdOptimisationMethod c.raw.totalVolume1d c.raw.flowVolume1d r.1 r.2.1 r.2.2 with
        | error e => rfl
        | ok sd =>
          simp only
          cases [5, 6, 7, 8, 9].findSome? log with
          | some e => rfl
          | none => rfl
  · rfl

theorem checkCss_levels (bump : K → K) (w : K) (zr : List (Option K)) (c : Css K) :
    checkCss bump w (Css.withLevels zr c) = (checkCss bump w c).map (Css.withLevels zr) := by
  unfold checkCss
  have h : (⟨(Css.withLevels zr c).raw.z, (Css.withLevels zr c).raw.totalWidth, (Css.withLevels zr c).raw.flowWidth⟩ : Geometry K) =
      ⟨c.raw.z, c.raw.totalWidth, c.raw.flowWidth⟩ := rfl
  rw [h]
  cases checkRequirements bump w { z := c.raw.z, totalWidth := c.raw.totalWidth, flowWidth := c.raw.flowWidth } with
  | error e => rfl
  | ok g => rfl

theorem reduceCss_levels (n : Int) (zr : List (Option K)) (c : Css K) :
    reduceCss n (Css.withLevels zr c) = Css.withLevels zr (reduceCss n c) := by
  unfold reduceCss
  have h : (⟨(Css.withLevels zr c).raw.z, (Css.withLevels zr c).raw.totalWidth, (Css.withLevels zr c).raw.flowWidth⟩ : Geometry K) =
      ⟨c.raw.z, c.raw.totalWidth, c.raw.flowWidth⟩ := rfl
  rw [h]
  cases reducePoints n { z := c.raw.z, totalWidth := c.raw.totalWidth, flowWidth := c.raw.flowWidth } with
  | error e => rfl
  | ok g => rfl

/-- If two control volumes give the same geometry apart from the levels of all maps, they give the same cross-section apart from them. -/
theorem geometry_eq_levels (opt : Optimiser K) (cfg : PipelineConfig K) (bump : K → K) (release : K → K → K → K)
    (log : Nat → Option PyErr) (len : K) (centre centre' : Nat) (cv cv' : ControlVolume K)
    (h : (buildGeometry cfg.build len centre cv).map (fun b => { b with zRoughness := [] }) =
      (buildGeometry cfg.build len centre' cv').map fun b => { b with zRoughness := [] }) :
    (buildCrossSectionGeometry opt cfg bump release log len centre cv).map profileOf =
      (buildCrossSectionGeometry opt cfg bump release log len centre' cv').map profileOf := by
  have key : ∀ (cen : Nat) (v : ControlVolume K), (buildCrossSectionGeometry opt cfg bump release log len cen v).map profileOf =
      match (buildGeometry cfg.build len cen v).map (fun b => { b with zRoughness := [] }) with
      | .error e => .error e
      | .ok b =>
        match checkCss bump cfg.minimumWidth (performCorrection opt cfg release log (Css.ofBuilt len b)) with
        | .error e => .error e
        | .ok css => .ok (reduceCss cfg.maximumPoints css) := by
    intro cen v
    unfold buildCrossSectionGeometry
    cases buildGeometry cfg.build len cen v with
    | error e => rfl
    | ok b =>
      have hb : Css.ofBuilt len { b with zRoughness := [] } = Css.withLevels [] (Css.ofBuilt len b) := rfl
      simp only [Except.map]
      rw [hb, performCorrection_levels, checkCss_levels]
      cases checkCss bump cfg.minimumWidth (performCorrection opt cfg release log (Css.ofBuilt len b)) with
      | error e => rfl
      | ok css =>
        simp only [Except.map]
        rw [reduceCss_levels]
        rfl
  rw [key, key, h]

/-! ## Divided cells -/

theorem divided_sum {cells cells' : List (Cell K)} (h : Divided cells cells') (g : Cell K → K)
    (hg : ∀ (c : Cell K) (a : K), g { c with area := a } = g c) :
    (cells'.map fun c => c.area * g c).sum = (cells.map fun c => c.area * g c).sum := by
  induction h with
  | nil => rfl
  | @cons c cells parts rest hd ha _ ih =>
    rw [List.map_append, List.sum_append, ih, List.map_cons, List.sum_cons, ← ha]
    congr 1
    have : ∀ p ∈ parts, p.area * g p = p.area * g c := by
      intro p hp
      obtain ⟨h1, h2, h3, h4⟩ := hd p hp
      have : g p = g c := by
        rw [← hg c p.area]
        congr 1
        cases p
        simp only at h1 h2 h3 h4
        subst h1; subst h2; subst h3; subst h4
        rfl
      rw [this]
    rw [List.map_congr_left this, List.sum_map_mul_right]

theorem maskedArea_divided {cells cells' : List (Cell K)} (h : Divided cells cells') (m : Cell K → Bool)
    (hm : ∀ (c : Cell K) (a : K), m { c with area := a } = m c) :
    maskedArea cells' (fun _ c => m c) = maskedArea cells fun _ c => m c := by
  rw [maskedArea_const, maskedArea_const]
  have : ∀ c : Cell K, (if m c then c.area else 0) = c.area * (if m c then 1 else 0) := by
    intro c
    cases m c
    · simp
    · simp
  simp only [this]
  exact divided_sum h (fun c => if m c then 1 else 0) fun c a => by simp only [hm c a]

theorem maskedVolume_divided {cells cells' : List (Cell K)} (h : Divided cells cells') (m : Cell K → Bool) (dep : Cell K → Option K)
    (hm : ∀ (c : Cell K) (a : K), m { c with area := a } = m c) (hd : ∀ (c : Cell K) (a : K), dep { c with area := a } = dep c) :
    maskedVolume cells' (fun _ c => m c) dep = maskedVolume cells (fun _ c => m c) dep := by
  rw [maskedVolume_const, maskedVolume_const]
  have : ∀ c : Cell K, (if m c then ((dep c).map (c.area * ·)).getD 0 else 0) = c.area * (if m c then (dep c).getD 0 else 0) := by
    intro c
    cases m c
    · simp
    · cases dep c <;> simp
  simp only [this]
  exact divided_sum h (fun c => if m c then (dep c).getD 0 else 0) fun c a => by simp only [hm c a, hd c a]

theorem getTimeseries_divided (skip : Int) {raw raw' : ControlVolume K} (hn : raw'.nMaps = raw.nMaps) (h : Divided raw.cells raw'.cells) :
    Divided (getTimeseries skip raw).cells (getTimeseries skip raw').cells := by
  unfold getTimeseries
  simp only [hn]
  revert h
  generalize raw.cells = cells
  generalize raw'.cells = cells'
  intro h
  induction h with
  | nil => exact Divided.nil
  | @cons c cells parts rest hd ha _ ih =>
    rw [List.map_append, List.map_cons]
    refine Divided.cons ?_ ?_ ih
    · intro p hp
      obtain ⟨q, hq, rfl⟩ := List.mem_map.1 hp
      obtain ⟨h1, h2, h3, h4⟩ := hd q hq
      refine ⟨h1, ?_, ?_, ?_⟩
      · simp only [h2]
      · simp only [h3]
      · simp only [h4]
    · rw [List.map_map, ← ha]
      rfl

theorem getTimeseries_nMaps (skip : Int) {raw raw' : ControlVolume K} (hn : raw'.nMaps = raw.nMaps) :
    (getTimeseries skip raw').nMaps = (getTimeseries skip raw).nMaps := by
  unfold getTimeseries
  simp only [hn]

theorem isLake_area (L : Nat) (c : Cell K) (a : K) : isLake L { c with area := a } = isLake L c := rfl

theorem resting_area (L : Nat) (c : Cell K) (a : K) (t : Nat) : resting L { c with area := a } t = resting L c t := by
  induction t with
  | zero => rfl
  | succ t ih =>
    show (ole (osub (c.depth (t + 1)) (c.depth t)) (1 / 1000) && resting L { c with area := a } t) = (_ && resting L c t)
    rw [ih]

theorem wetNotLake_area (L t : Nat) (c : Cell K) (a : K) : wetNotLake L { c with area := a } t = wetNotLake L c t := by
  unfold wetNotLake
  rw [resting_area]

theorem lakeDepth_area (L t : Nat) (c : Cell K) (a : K) : lakeDepth L { c with area := a } t = lakeDepth L c t := rfl

theorem correctedDepth_area (L t : Nat) (e : Option K) (c : Cell K) (a : K) :
    correctedDepth L e { c with area := a } t = correctedDepth L e c t := by
  unfold correctedDepth
  simp only [lakeDepth_area]

theorem flowMask1_area (cfg : BuildConfig K) (top : Option K) (t : Nat) (c : Cell K) (a : K) :
    flowMask1 cfg top { c with area := a } t = flowMask1 cfg top c t := by
  unfold flowMask1
  rfl

theorem wetArea_divided (cfg : BuildConfig K) {cv cv' : ControlVolume K} (hn : cv'.nMaps = cv.nMaps) (h : Divided cv.cells cv'.cells)
    (L : Nat) (e : Option K) : (series2d cfg cv' L e).wetArea = (series2d cfg cv L e).wetArea := by
  unfold series2d
  simp only [hn]
  exact List.map_congr_left fun t _ => maskedArea_divided h (fun c => wetNotLake L c t) (wetNotLake_area L t)

theorem totalVolume_divided (cfg : BuildConfig K) {cv cv' : ControlVolume K} (hn : cv'.nMaps = cv.nMaps) (h : Divided cv.cells cv'.cells)
    (L : Nat) (e : Option K) : (series2d cfg cv' L e).totalVolume = (series2d cfg cv L e).totalVolume := by
  unfold series2d
  simp only [hn]
  exact List.map_congr_left fun t _ =>
    maskedVolume_divided h (fun c => wetNotLake L c t) (fun c => correctedDepth L e c t) (wetNotLake_area L t) (correctedDepth_area L t e)

theorem flowArea_divided (cfg : BuildConfig K) (hm : cfg.conveyanceDetectionMethod ≠ 0) {cv cv' : ControlVolume K}
    (hn : cv'.nMaps = cv.nMaps) (h : Divided cv.cells cv'.cells)
    (ht : ∀ t < cv.nMaps, top3 (cv'.cells.map fun c => c.velocity t) = top3 (cv.cells.map fun c => c.velocity t))
    (L : Nat) (e : Option K) : (series2d cfg cv' L e).flowArea = (series2d cfg cv L e).flowArea := by
  show (List.range cv'.nMaps).map (fun t => maskedArea cv'.cells fun i c => flowMask cfg cv' i c t) =
    (List.range cv.nMaps).map (fun t => maskedArea cv.cells fun i c => flowMask cfg cv i c t)
  rw [hn]
  refine List.map_congr_left fun t h' => ?_
  have e1 : (fun i c => flowMask cfg cv' i c t) = fun (_ : Nat) c => flowMask1 cfg (top3 (cv.cells.map fun c => c.velocity t)) c t := by
    funext i c
    rw [flowMask_default cfg hm, ht t (List.mem_range.1 h')]
  have e2 : (fun i c => flowMask cfg cv i c t) = fun (_ : Nat) c => flowMask1 cfg (top3 (cv.cells.map fun c => c.velocity t)) c t := by
    funext i c
    rw [flowMask_default cfg hm]
  rw [e1, e2]
  generalize top3 (cv.cells.map fun c => c.velocity t) = top
  exact maskedArea_divided h (fun c => flowMask1 cfg top c t) (flowMask1_area cfg top t)

theorem flowVolume_divided (cfg : BuildConfig K) (hm : cfg.conveyanceDetectionMethod ≠ 0) {cv cv' : ControlVolume K}
    (hn : cv'.nMaps = cv.nMaps) (h : Divided cv.cells cv'.cells)
    (ht : ∀ t < cv.nMaps, top3 (cv'.cells.map fun c => c.velocity t) = top3 (cv.cells.map fun c => c.velocity t))
    (L : Nat) (e : Option K) : (series2d cfg cv' L e).flowVolume = (series2d cfg cv L e).flowVolume := by
  show (List.range cv'.nMaps).map (fun t => maskedVolume cv'.cells (fun i c => flowMask cfg cv' i c t) fun c => correctedDepth L e c t) =
    (List.range cv.nMaps).map (fun t => maskedVolume cv.cells (fun i c => flowMask cfg cv i c t) fun c => correctedDepth L e c t)
  rw [hn]
  refine List.map_congr_left fun t h' => ?_
  have e1 : (fun i c => flowMask cfg cv' i c t) = fun (_ : Nat) c => flowMask1 cfg (top3 (cv.cells.map fun c => c.velocity t)) c t := by
    funext i c
    rw [flowMask_default cfg hm, ht t (List.mem_range.1 h')]
  have e2 : (fun i c => flowMask cfg cv i c t) = fun (_ : Nat) c => flowMask1 cfg (top3 (cv.cells.map fun c => c.velocity t)) c t := by
    funext i c
    rw [flowMask_default cfg hm]
  rw [e1, e2]
  generalize top3 (cv.cells.map fun c => c.velocity t) = top
  exact maskedVolume_divided h (fun c => flowMask1 cfg top c t) (fun c => correctedDepth L e c t) (flowMask1_area cfg top t)
    (correctedDepth_area L t e)

theorem areaBelow_divided {cells cells' : List (Cell K)} (h : Divided cells cells') (L : Nat) : areaBelow L cells' = areaBelow L cells := by
  funext dz
  unfold areaBelow
  exact maskedArea_divided h
    (fun c => decide (-(1 / 1000) < ((c.level 0).map (· - c.bed)).getD 0 - dz) && wetNotLake L c 0)
    fun c a => by rw [wetNotLake_area]

/-- The water of the centre in the two grids. -/
theorem centre_divided (skip : Int) {raw raw' : ControlVolume K} (hn : raw'.nMaps = raw.nMaps) {centre centre' : Nat} {c c' : Cell K}
    (hc : raw.cells[centre]? = some c) (hc' : raw'.cells[centre']? = some c') (hs : SameWater c c') :
    ∃ d d', (getTimeseries skip raw).cells[centre]? = some d ∧ (getTimeseries skip raw').cells[centre']? = some d' ∧
      d'.bed = d.bed ∧ d'.depth = d.depth ∧ d'.level = d.level ∧ d'.velocity = d.velocity := by
  obtain ⟨h1, h2, h3, h4⟩ := hs
  unfold getTimeseries
  simp only [List.getElem?_map, hc, hc', Option.map_some, hn]
  exact ⟨_, _, rfl, rfl, h1, by simp only [h2], by simp only [h3], by simp only [h4]⟩

theorem centreLevels_same (n : Nat) {d d' : Cell K} (h1 : d'.bed = d.bed) (h2 : d'.depth = d.depth) (h3 : d'.level = d.level) :
    centreLevels n d' = centreLevels n d := by
  cases d
  cases d'
  simp only at h1 h2 h3
  subst h1; subst h2; subst h3
  rfl

theorem buildGeometry_totals (cfg : BuildConfig K) (len : K) (centre centre' : Nat) (raw raw' : ControlVolume K)
    (hn : raw'.nMaps = raw.nMaps) (h : Divided raw.cells raw'.cells) (c c' : Cell K)
    (hc : raw.cells[centre]? = some c) (hc' : raw'.cells[centre']? = some c') (hs : SameWater c c') :
    (buildGeometry cfg len centre' raw').map totalsOf = (buildGeometry cfg len centre raw).map totalsOf := by
  obtain ⟨d, d', hd, hd', h1, h2, h3, _⟩ := centre_divided cfg.skipMaps hn hc hc' hs
  have hnm := getTimeseries_nMaps cfg.skipMaps hn
  have hdiv := getTimeseries_divided cfg.skipMaps hn h
  unfold buildGeometry
  revert hd hd' hnm hdiv
  generalize getTimeseries cfg.skipMaps raw = cv
  generalize getTimeseries cfg.skipMaps raw' = cv'
  intro hd hd' hnm hdiv
  simp only [hd, hd', hnm, centreLevels_same cv.nMaps h1 h2 h3, h2]
  split
  · rfl
  · cases pyIndex cv.nMaps cfg.lakeTimesteps with
    | error e => rfl
    | ok L =>
      simp only [wetArea_divided cfg hnm hdiv, totalVolume_divided cfg hnm hdiv]
      cases allSome (maskSelect (checkMonotonicity (centreLevels cv.nMaps d)) (centreLevels cv.nMaps d)) with
      | none => rfl
      | some z =>
        cases d.depth 0 with
        | none => rfl
        | some d0 =>
          show Except.ok _ = Except.ok _
          unfold assemble totalsOf
          simp only [areaBelow_divided hdiv]

theorem buildGeometry_divided (cfg : BuildConfig K) (hm : cfg.conveyanceDetectionMethod ≠ 0) (len : K) (centre centre' : Nat)
    (raw raw' : ControlVolume K) (hn : raw'.nMaps = raw.nMaps) (h : Divided raw.cells raw'.cells) (c c' : Cell K)
    (hc : raw.cells[centre]? = some c) (hc' : raw'.cells[centre']? = some c') (hs : SameWater c c')
    (ht : ∀ t < (getTimeseries cfg.skipMaps raw).nMaps, top3 ((getTimeseries cfg.skipMaps raw').cells.map fun c => c.velocity t) =
      top3 ((getTimeseries cfg.skipMaps raw).cells.map fun c => c.velocity t)) :
    buildGeometry cfg len centre' raw' = buildGeometry cfg len centre raw := by
  obtain ⟨d, d', hd, hd', h1, h2, h3, _⟩ := centre_divided cfg.skipMaps hn hc hc' hs
  have hnm := getTimeseries_nMaps cfg.skipMaps hn
  have hdiv := getTimeseries_divided cfg.skipMaps hn h
  unfold buildGeometry
  revert hd hd' hnm hdiv ht
  generalize getTimeseries cfg.skipMaps raw = cv
  generalize getTimeseries cfg.skipMaps raw' = cv'
  intro ht hd hd' hnm hdiv
  simp only [hd, hd', hnm, centreLevels_same cv.nMaps h1 h2 h3, h2]
  split
  · rfl
  · cases pyIndex cv.nMaps cfg.lakeTimesteps with
    | error e => rfl
    | ok L =>
      simp only [wetArea_divided cfg hnm hdiv, totalVolume_divided cfg hnm hdiv, flowArea_divided cfg hm hnm hdiv ht,
        flowVolume_divided cfg hm hnm hdiv ht]
      cases allSome (maskSelect (checkMonotonicity (centreLevels cv.nMaps d)) (centreLevels cv.nMaps d)) with
      | none => rfl
      | some z =>
        cases d.depth 0 with
        | none => rfl
        | some d0 =>
          show Except.ok _ = Except.ok _
          unfold assemble
          simp only [areaBelow_divided hdiv]

theorem clean_present {vs : List K} (h : -999 ∉ vs) {l : List (Option K)} (hl : l = vs.map some) : l.map clean = vs.map some := by
  subst hl
  rw [List.map_map]
  refine List.map_congr_left fun v hv => ?_
  show clean (some v) = some v
  unfold clean
  simp only
  rw [if_neg]
  intro h'
  subst h'
  exact h hv

theorem top3_fastest {cells cells' : List (Cell K)} {t : Nat} (hne : cells.length = 0 ↔ cells'.length = 0) (h : SameFastest cells cells' t) :
    top3 (cells'.map fun c => clean (c.velocity t)) = top3 (cells.map fun c => clean (c.velocity t)) := by
  obtain ⟨vs, vs', h1, h2, h3, h4, h5⟩ := h
  have e1 : cells.map (fun c => clean (c.velocity t)) = vs.map some := by
    rw [← clean_present h3 h1, List.map_map]; rfl
  have e2 : cells'.map (fun c => clean (c.velocity t)) = vs'.map some := by
    rw [← clean_present h4 h2, List.map_map]; rfl
  rw [e1, e2]
  have hlen : vs.length = cells.length := by simpa using (congrArg List.length e1).symm
  have hlen' : vs'.length = cells'.length := by simpa using (congrArg List.length e2).symm
  obtain ⟨top, hl, ht⟩ := top3_largest (vs.map some)
  obtain ⟨top', hl', ht'⟩ := top3_largest (vs'.map some)
  rw [present_map_some, List.length_map, Nat.sub_self, Nat.sub_zero] at hl hl'
  rw [ht, ht', h5 top top' hl hl']
  have z1 : top = [] ↔ cells.length = 0 := by
    obtain ⟨_, _, hq, _⟩ := hl
    rw [← List.length_eq_zero_iff, hq]; omega
  have z2 : top' = [] ↔ cells'.length = 0 := by
    obtain ⟨_, _, hq, _⟩ := hl'
    rw [← List.length_eq_zero_iff, hq]; omega
  by_cases h0 : top = []
  · rw [if_pos h0, if_pos (z2.2 (hne.1 (z1.1 h0)))]
  · rw [if_neg h0, if_neg fun h' => h0 (z1.2 (hne.2 (z2.1 h')))]

end Fm2prof

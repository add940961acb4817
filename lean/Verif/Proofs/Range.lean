import Verif.Spec.Range
import Verif.Props.Correction
import Verif.Proofs.Pipeline

/-!
# Lemmas on the range of the results of a run
-/

set_option linter.unusedSectionVars false

namespace Fm2prof

open Spec Props

variable {K : Type} [Field K] [LinearOrder K] [IsStrictOrderedRing K]

theorem increasingFrom_le (step B : K) (hs : 0 ≤ step) (l : List K) (hl : ∀ x ∈ l, x ≤ B) (prev : K) (k : Nat)
    (hp : prev ≤ B + k * step) : ∀ x ∈ increasingFrom (· + step) prev l, x ≤ B + ((k + l.length : Nat) : K) * step := by
  induction l generalizing prev k with
  | nil => intro x hx; cases hx
  | cons a l ih =>
    intro x hx
    rw [increasingFrom] at hx
    have ha : (if a ≤ prev then prev + step else a) ≤ B + ((k + 1 : Nat) : K) * step := by
      split
      · push_cast; linarith
      · have := hl a List.mem_cons_self
        have : 0 ≤ ((k + 1 : Nat) : K) * step := mul_nonneg (Nat.cast_nonneg _) hs
        linarith
    rcases List.mem_cons.1 hx with rfl | hx
    · refine ha.trans ?_
      have : ((k + 1 : Nat) : K) ≤ ((k + (a :: l).length : Nat) : K) := by
        rw [List.length_cons]
        exact_mod_cast (by omega)
      have := mul_le_mul_of_nonneg_right this hs
      linarith
    · have := ih (fun x hx => hl x (List.mem_cons_of_mem _ hx)) _ (k + 1) ha x hx
      rw [List.length_cons, show k + (l.length + 1) = k + 1 + l.length from by omega]
      exact this

theorem checkIncreasing_le (step B : K) (hs : 0 ≤ step) (l : List K) (n : Nat) (hn : l.length ≤ n + 1) (hl : ∀ x ∈ l, x ≤ B) :
    ∀ x ∈ checkIncreasingOrder (· + step) l, x ≤ B + (n : K) * step := by
  cases l with
  | nil => intro x hx; cases hx
  | cons a l =>
    intro x hx
    rw [checkIncreasingOrder] at hx
    have hB : B ≤ B + (n : K) * step := by
      have : 0 ≤ (n : K) * step := mul_nonneg (Nat.cast_nonneg _) hs
      linarith
    rcases List.mem_cons.1 hx with rfl | hx
    · exact (hl _ List.mem_cons_self).trans hB
    · have := increasingFrom_le step B hs l (fun x hx => hl x (List.mem_cons_of_mem _ hx)) a 0
        (by simpa using hl a List.mem_cons_self) x hx
      refine this.trans ?_
      rw [Nat.zero_add]
      have : (l.length : K) ≤ (n : K) := by
        rw [List.length_cons] at hn
        exact_mod_cast (by omega)
      have := mul_le_mul_of_nonneg_right this hs
      linarith

theorem increasingFrom_lower (step B : K) (hs : 0 ≤ step) (l : List K) (hl : ∀ x ∈ l, B ≤ x) (prev : K) (hp : B ≤ prev) :
    ∀ x ∈ increasingFrom (· + step) prev l, B ≤ x := by
  induction l generalizing prev with
  | nil => intro x hx; cases hx
  | cons a l ih =>
    intro x hx
    rw [increasingFrom] at hx
    have ha : B ≤ (if a ≤ prev then prev + step else a) := by
      split
      · linarith
      · exact hl a List.mem_cons_self
    rcases List.mem_cons.1 hx with rfl | hx
    · exact ha
    · exact ih (fun x hx => hl x (List.mem_cons_of_mem _ hx)) _ ha x hx

theorem checkIncreasing_ge (step B : K) (hs : 0 ≤ step) (l : List K) (hl : ∀ x ∈ l, B ≤ x) :
    ∀ x ∈ checkIncreasingOrder (· + step) l, B ≤ x := by
  cases l with
  | nil => intro x hx; cases hx
  | cons a l =>
    intro x hx
    rw [checkIncreasingOrder] at hx
    rcases List.mem_cons.1 hx with rfl | hx
    · exact hl _ List.mem_cons_self
    · exact increasingFrom_lower step B hs l (fun x hx => hl x (List.mem_cons_of_mem _ hx)) a (hl a List.mem_cons_self) x hx

theorem capFlow_le {B : K} (total flow : List K) (h : ∀ x ∈ flow, x ≤ B) : ∀ x ∈ capFlowWidth total flow, x ≤ B := by
  intro x hx
  unfold capFlowWidth at hx
  induction total generalizing flow with
  | nil => cases hx
  | cons t ts ih =>
    cases flow with
    | nil => cases hx
    | cons f fs =>
      rw [List.zipWith_cons_cons] at hx
      rcases List.mem_cons.1 hx with rfl | hx
      · have := h f List.mem_cons_self
        split
        · next hlt => exact hlt.le.trans this
        · exact this
      · exact ih fs (fun x hx => h x (List.mem_cons_of_mem _ hx)) hx

/-- What the repairs leave stays within the range of what they get, up to the steps. -/
theorem requirements_range (step minW zlo zhi W : K) (hs : 0 ≤ step) (n : Nat) (g g' : Geometry K)
    (h : checkRequirements (· + step) minW g = .ok g') (hz : g.z.length ≤ n + 1) (ht : g.totalWidth.length ≤ n + 1)
    (hf : g.flowWidth.length ≤ n + 1) (hzlo : ∀ x ∈ g.z, zlo ≤ x) (hzhi : ∀ x ∈ g.z, x ≤ zhi) (htw : ∀ x ∈ g.totalWidth, x ≤ W)
    (hfw : ∀ x ∈ g.flowWidth, x ≤ W) :
    (∀ x ∈ g'.z, zlo ≤ x ∧ x ≤ zhi + n * step) ∧ (∀ x ∈ g'.totalWidth, x ≤ max minW W + n * step) ∧
      ∀ x ∈ g'.flowWidth, x ≤ max minW W + n * step := by
  unfold checkRequirements at h
  cases hi : firstNonzeroIndex g.totalWidth with
  | error e => rw [hi] at h; cases h
  | ok j =>
    rw [hi] at h
    obtain rfl := Except.ok.inj h
    have hrem : ∀ l : List K, (∀ x ∈ l, x ≤ W) → ∀ x ∈ removeZeroWidths minW l, x ≤ max minW W := by
      intro l hl x hx
      unfold removeZeroWidths at hx
      obtain ⟨y, hy, rfl⟩ := List.mem_map.1 hx
      split
      · exact le_max_left _ _
      · exact (hl y hy).trans (le_max_right _ _)
    have hlen : ∀ l : List K, (removeZeroWidths minW l).length = l.length := fun l => by unfold removeZeroWidths; exact List.length_map _
    refine ⟨fun x hx => ⟨checkIncreasing_ge step zlo hs _ hzlo x hx, checkIncreasing_le step zhi hs _ n hz hzhi x hx⟩, ?_, ?_⟩
    · exact checkIncreasing_le step _ hs _ n (by rw [hlen]; exact ht) (hrem _ htw)
    · exact capFlow_le _ _ (checkIncreasing_le step _ hs _ n (by rw [hlen]; exact hf) (hrem _ hfw))

theorem maskedArea_le (cells : List (Cell K)) (hc : ∀ c ∈ cells, 0 ≤ c.area) (m : Nat → Cell K → Bool) :
    maskedArea cells m ≤ (cells.map (·.area)).sum := by
  have : (cells.map (·.area)) = cells.zipIdx.map fun p => p.1.area := by
    rw [show (fun p : Cell K × Nat => p.1.area) = (fun c : Cell K => c.area) ∘ Prod.fst from rfl, ← List.map_map,
      List.zipIdx_map_fst]
  unfold maskedArea
  rw [this]
  refine List.sum_le_sum fun p hp => ?_
  have hm : p.1 ∈ cells := (List.mem_zipIdx_iff_getElem?.1 hp) |> List.mem_of_getElem?
  show (if m p.2 p.1 then p.1.area else 0) ≤ p.1.area
  split
  · exact le_rfl
  · exact hc _ hm

theorem backMin_upper (l : List K) (B : K) (h : ∀ x ∈ l, x ≤ B) : ∀ x ∈ backMin l, x ≤ B := by
  have := backMin_le l
  intro x hx
  obtain ⟨i, hi, rfl⟩ := List.getElem_of_mem hx
  have hi' : i < l.length := by rw [← backMin_length]; exact hi
  exact (this.get hi hi').trans (h _ (List.getElem_mem hi'))

theorem accepted_length (levels : List (Option K)) (acc : List Nat) (h : AcceptedMaps levels acc) :
    acc.length ≤ levels.length := by
  have hn : acc.Nodup := h.1.imp fun {a b} hab => hab.ne
  have := (List.subperm_of_subset hn (l₂ := List.range levels.length) fun i hi => List.mem_range.2 ((h.2 i).1 hi).1).length_le
  simpa using this

theorem linspace_mem (h x : K) (h0 : 0 ≤ h) (hx : x ∈ linspace10 h) : 0 ≤ x ∧ x ≤ h := by
  unfold linspace10 at hx
  obtain ⟨i, hi, rfl⟩ := List.mem_map.1 hx
  have hi := List.mem_range.1 hi
  have h1 : (i : K) ≤ 9 := by exact_mod_cast (by omega : i ≤ 9)
  have h2 : (0 : K) ≤ i := Nat.cast_nonneg _
  constructor
  · positivity
  · rw [div_le_iff₀ (by norm_num)]
    nlinarith

/-- The widths before the repairs are at most the area over the length. -/
theorem built_widths {cfg : BuildConfig K} {len : K} {centre : Nat} {raw : ControlVolume K} {b : Built K}
    (h : buildGeometry cfg len centre raw = .ok b) (hlen : 0 < len) (ha : ∀ c ∈ raw.cells, 0 ≤ c.area) :
    (∀ w ∈ b.totalWidth, w ≤ (raw.cells.map (·.area)).sum / len) ∧
      ∀ w ∈ b.flowWidth, w ≤ (raw.cells.map (·.area)).sum / len := by
  obtain ⟨c, L, z0, d0, zs, accs, hc, hL, hzr, hacc, hd, hz0, hzs, hz, hwa, hfa, htw, hfw, _⟩ := built_parts h
  have hsum : ((getTimeseries cfg.skipMaps raw).cells.map (·.area)).sum = (raw.cells.map (·.area)).sum := by
    unfold getTimeseries
    rw [List.map_map]
    rfl
  have ha' : ∀ c ∈ (getTimeseries cfg.skipMaps raw).cells, 0 ≤ c.area := by
    intro c hc
    unfold getTimeseries at hc
    obtain ⟨c', hc', rfl⟩ := List.mem_map.1 hc
    exact ha c' hc'
  have hm : ∀ mask, maskedArea (getTimeseries cfg.skipMaps raw).cells mask ≤ (raw.cells.map (·.area)).sum := by
    intro mask
    rw [← hsum]
    exact maskedArea_le _ ha' mask
  have hw : ∀ w ∈ b.wetArea, w ≤ (raw.cells.map (·.area)).sum := by
    intro w hw
    rw [hwa] at hw
    rcases List.mem_append.1 hw with hw | hw
    · obtain ⟨y, _, rfl⟩ := List.mem_map.1 hw
      exact hm _
    · obtain ⟨y, _, rfl⟩ := List.mem_map.1 hw
      exact hm _
  have hf : ∀ w ∈ b.flowArea, w ≤ (raw.cells.map (·.area)).sum := by
    intro w hw
    rw [hfa] at hw
    rcases List.mem_append.1 hw with hw | hw
    · obtain ⟨y, hy, rfl⟩ := List.mem_map.1 hw
      obtain ⟨u, _, rfl⟩ := List.mem_map.1 hy
      unfold flowAreaBelow
      split
      · exact (min_le_left _ _).trans (hm _)
      · exact hm _
    · obtain ⟨y, _, rfl⟩ := List.mem_map.1 hw
      exact hm _
  have hdiv : ∀ l : List K, (∀ w ∈ l, w ≤ (raw.cells.map (·.area)).sum) → ∀ w ∈ l.map (· / len),
      w ≤ (raw.cells.map (·.area)).sum / len := by
    intro l hl w hw
    obtain ⟨y, hy, rfl⟩ := List.mem_map.1 hw
    exact div_le_div_of_nonneg_right (hl y hy) hlen.le
  refine ⟨?_, ?_⟩
  · rw [htw]; exact hdiv _ hw
  · intro w hwm
    rw [hfw] at hwm
    rcases List.mem_append.1 hwm with h1 | h1
    · exact hdiv _ (fun w hw => hf w (List.mem_of_mem_take hw)) w h1
    · exact backMin_upper _ _ (hdiv _ fun w hw => hf w (List.mem_of_mem_drop hw)) w h1

theorem clean_valueAt (f : Nat → Option K) (t : Nat) : clean (f t) = valueAt f t := by
  unfold valueAt
  cases f t with
  | none => rfl
  | some x => by_cases hx : x = -999 <;> simp [clean, hx, Option.filter]

/-- The levels before the repairs are within the range of the face at the centre. -/
theorem built_levels {cfg : BuildConfig K} {len : K} {centre : Nat} {raw : ControlVolume K} {b : Built K}
    (h : buildGeometry cfg len centre raw = .ok b) (s : Nat) (hs : cfg.skipMaps = (s : Int)) (c : Cell K)
    (hc : raw.cells[centre]? = some c) (hp : PhysicalSeries s raw.nMaps c) (bed top : K) (hb : SeriesBetween s raw.nMaps c bed top) :
    ∀ z ∈ b.z, bed ≤ z ∧ z ≤ top := by
  obtain ⟨c', L, z0, d0, zs, accs, hc', hL, hzr, hacc, hd, hz0, hzs, hz, _⟩ := built_parts h
  have hn : (getTimeseries cfg.skipMaps raw).nMaps = raw.nMaps - s := by
    unfold getTimeseries sliceStart
    rw [hs, if_pos (by omega)]
    simp only [Int.toNat_natCast]
    omega
  have h0 : 0 < raw.nMaps - s := by
    have := (List.getElem?_eq_some_iff.1 hz0).1
    rw [hzr, centreLevels_length, hn] at this
    exact this
  have hst : sliceStart raw.nMaps cfg.skipMaps = s := by
    unfold sliceStart
    rw [hs, if_pos (by omega)]
    simp only [Int.toNat_natCast]
    omega
  have hd' : ∀ t, c'.depth t = valueAt c.depth (s + t) := by
    intro t
    simp only [getTimeseries, List.getElem?_map, hc, Option.map_some, hst] at hc'
    obtain rfl := Option.some.inj hc'
    exact clean_valueAt _ _
  have hl' : ∀ t, c'.level t = valueAt c.level (s + t) := by
    intro t
    simp only [getTimeseries, List.getElem?_map, hc, Option.map_some, hst] at hc'
    obtain rfl := Option.some.inj hc'
    exact clean_valueAt _ _
  have hu : ∀ t < raw.nMaps - s, UsedMap s raw.nMaps (s + t) := fun t ht => ⟨by omega, by omega⟩
  rw [hn] at hzr
  -- the bed level of the face
  have hbed : ∀ y, centreBed (raw.nMaps - s) c' = some y → bed ≤ y ∧ y ≤ top := by
    intro y hy
    obtain ⟨⟨t, ht, x, d, e1, e2, rfl⟩, _⟩ := (centreBed_some _ _ _).1 hy
    rw [hl'] at e1
    rw [hd'] at e2
    have h1 := hb.bed _ (hu t ht) x d e1 e2
    have h2 := hb.top _ (hu t ht) x e1
    have h3 := hp.depth _ (hu t ht) d e2
    exact ⟨h1, by linarith⟩
  -- a level is never above the top
  have htop : ∀ (t : Nat) (y : K), b.zRoughness[t]? = some (some y) → y ≤ top := by
    intro t y hy
    have ht := (List.getElem?_eq_some_iff.1 hy).1
    rw [hzr, centreLevels_length] at ht
    rw [hzr, centreLevels_getElem? _ _ _ ht] at hy
    have hy := Option.some.inj hy
    cases hl : c'.level t with
    | some x =>
      rw [hl] at hy
      obtain rfl := Option.some.inj hy
      rw [hl'] at hl
      exact hb.top _ (hu t ht) _ hl
    | none =>
      rw [hl] at hy
      exact (hbed y hy).2
  -- the first level
  have hfirst : bed ≤ z0 - d0 ∧ 0 ≤ d0 := by
    have hd0 : valueAt c.depth (s + 0) = some d0 := by rw [← hd']; exact hd
    refine ⟨?_, hp.depth _ (hu 0 h0) d0 hd0⟩
    have hy := hz0
    rw [hzr, centreLevels_getElem? _ _ _ h0] at hy
    have hy := Option.some.inj hy
    cases hl : c'.level 0 with
    | some x =>
      rw [hl] at hy
      obtain rfl := Option.some.inj hy
      rw [hl'] at hl
      exact hb.bed _ (hu 0 h0) _ _ hl hd0
    | none =>
      rw [hl] at hy
      have h1 := (hbed z0 hy).1
      rw [hl'] at hl
      rw [hp.dry _ (hu 0 h0) hl d0 hd0]
      linarith
  intro z hzm
  rw [hz] at hzm
  rcases List.mem_append.1 hzm with hm | hm
  · obtain ⟨y, hy, rfl⟩ := List.mem_map.1 hm
    have hy := linspace_mem d0 y hfirst.2 (List.mem_reverse.1 hy)
    have := htop 0 z0 hz0
    constructor
    · linarith [hfirst.1]
    · linarith
  · have hmem : some z ∈ (z0 :: zs).map some := List.mem_map.2 ⟨z, hm, rfl⟩
    rw [hzs] at hmem
    obtain ⟨t, ht, htz⟩ := List.mem_map.1 hmem
    have hget : b.zRoughness[t]? = some (some z) := by
      cases hg : b.zRoughness[t]? with
      | none => rw [hg] at htz; cases htz
      | some o => rw [hg] at htz; exact congrArg some htz
    refine ⟨?_, htop t z hget⟩
    rcases ((hacc.2 t).1 ht).2 with rfl | ⟨x, x0, e1, e2, e3⟩
    · rw [hz0] at hget
      obtain rfl := Option.some.inj (Option.some.inj hget)
      linarith [hfirst.1, hfirst.2]
    · rw [hget] at e1
      obtain rfl := Option.some.inj (Option.some.inj e1)
      by_cases h00 : t = 0
      · subst h00
        rw [hz0] at hget
        obtain rfl := Option.some.inj (Option.some.inj hget)
        linarith [hfirst.1, hfirst.2]
      · have := e3 0 (by omega) z0 hz0
        linarith [hfirst.1, hfirst.2]

theorem reducePoints_subset (n : Int) (g g' : Geometry K) (h : reducePoints n g = .ok g') :
    (∀ x ∈ g'.z, x ∈ g.z) ∧ (∀ x ∈ g'.totalWidth, x ∈ g.totalWidth) ∧ ∀ x ∈ g'.flowWidth, x ∈ g.flowWidth := by
  unfold reducePoints at h
  simp only at h
  split at h
  · obtain rfl := Except.ok.inj h
    exact ⟨fun x hx => (maskSelect_sublist _ _).subset hx, fun x hx => (maskSelect_sublist _ _).subset hx,
      fun x hx => (maskSelect_sublist _ _).subset hx⟩
  · cases h

/-- The published profile: a part of the profile after the repairs. -/
theorem geometry_subset (opt : Optimiser K) (cfg : PipelineConfig K) (bump : K → K) (release : K → K → K → K)
    (log : Nat → Option PyErr) (len : K) (centre : Nat) (cv : ControlVolume K) (css : Css K)
    (h : buildCrossSectionGeometry opt cfg bump release log len centre cv = .ok css) :
    ∃ b g, buildGeometry cfg.build len centre cv = .ok b ∧
      checkRequirements bump cfg.minimumWidth { z := b.z, totalWidth := b.totalWidth, flowWidth := b.flowWidth } = .ok g ∧
      (∀ x ∈ css.z, x ∈ g.z) ∧ (∀ x ∈ css.totalWidth, x ∈ g.totalWidth) ∧ ∀ x ∈ css.flowWidth, x ∈ g.flowWidth := by
  unfold buildCrossSectionGeometry at h
  cases hbg : buildGeometry cfg.build len centre cv with
  | error e => rw [hbg] at h; cases h
  | ok b =>
    rw [hbg] at h
    obtain ⟨hraw, hz, ht, hf⟩ := performCorrection_raw opt cfg release log (Css.ofBuilt len b)
    simp only [checkCss, hraw] at h
    cases hcr : checkRequirements bump cfg.minimumWidth
        { z := (Css.ofBuilt len b).raw.z, totalWidth := (Css.ofBuilt len b).raw.totalWidth
          flowWidth := (Css.ofBuilt len b).raw.flowWidth } with
    | error e => rw [hcr] at h; cases h
    | ok g =>
      rw [hcr] at h
      simp only at h
      refine ⟨b, g, rfl, hcr, ?_⟩
      obtain rfl := Except.ok.inj h
      unfold reduceCss
      split
      · show (∀ x ∈ (performCorrection opt cfg release log (Css.ofBuilt len b)).z, _) ∧
          (∀ x ∈ (performCorrection opt cfg release log (Css.ofBuilt len b)).totalWidth, _) ∧
          ∀ x ∈ (performCorrection opt cfg release log (Css.ofBuilt len b)).flowWidth, _
        rw [hz, ht, hf]
        exact ⟨fun x hx => absurd hx List.not_mem_nil, fun x hx => absurd hx List.not_mem_nil,
          fun x hx => absurd hx List.not_mem_nil⟩
      · rename_i g' hg'
        exact reducePoints_subset _ _ _ hg'

/-- How many points there are before the reduction. -/
theorem built_count {cfg : BuildConfig K} {len : K} {centre : Nat} {raw : ControlVolume K} {b : Built K}
    (h : buildGeometry cfg len centre raw = .ok b) :
    b.z.length ≤ 9 + raw.nMaps + 1 ∧ b.totalWidth.length ≤ 9 + raw.nMaps + 1 ∧ b.flowWidth.length ≤ 9 + raw.nMaps + 1 := by
  obtain ⟨acc, hacc, h1, h2, h3, _⟩ := C07_arrays_aligned h
  obtain ⟨c, L, z0, d0, zs, accs, hc, hL, hzr, _⟩ := built_parts h
  have := accepted_length _ _ hacc
  rw [hzr, centreLevels_length] at this
  have hn : (getTimeseries cfg.skipMaps raw).nMaps ≤ raw.nMaps := Nat.sub_le _ _
  omega

variable [FloorRing K]

/-- The area of the cells of a control volume. -/
theorem controlVolume_area (x : Tools K) (m : Model2d K) (hm : Loaded2d m) (n : Nat) (l : Loc K) :
    ((controlVolumeOf n (getSelection x.sqrt m.faces m.edges l.id)).cells.map (·.area)).sum = faceArea m l := by
  rw [controlVolume_cells x m hm n l.id]
  unfold faceArea
  congr 1
  have hlt := rowsOf_lt m.faces.sclass l.id
  generalize rowsOf m.faces.sclass l.id = rows at hlt
  induction rows with
  | nil => rfl
  | cons r rs ih =>
    have hr := hlt r List.mem_cons_self
    obtain ⟨c, hc, ha⟩ : ∃ c, gridCell x.sqrt m.faces r = some c ∧ c.area = (m.faces.area[r]?).getD 0 := by
      unfold gridCell
      rw [List.getElem?_eq_getElem (l := m.faces.area) (i := r) (by rw [hm.area]; exact hr),
        List.getElem?_eq_getElem (l := m.faces.bedlevel) (i := r) (by rw [hm.bedlevel]; exact hr),
        List.getElem?_eq_getElem (l := m.faces.waterdepth) (i := r) (by rw [hm.waterdepth]; exact hr),
        List.getElem?_eq_getElem (l := m.faces.waterlevel) (i := r) (by rw [hm.waterlevel]; exact hr),
        List.getElem?_eq_getElem (l := m.faces.velocityX) (i := r) (by rw [hm.velocityX]; exact hr),
        List.getElem?_eq_getElem (l := m.faces.velocityY) (i := r) (by rw [hm.velocityY]; exact hr)]
      exact ⟨_, rfl, rfl⟩
    rw [List.filterMap_cons, hc, List.map_cons, List.map_cons, ih fun r hr => hlt r (List.mem_cons_of_mem _ hr), ha]

/-- The cells of a control volume are faces, in the order of the rows. -/
theorem controlVolume_at (x : Tools K) (m : Model2d K) (hm : Loaded2d m) (n : Nat) (id : Text) (k : Nat) (c : Cell K)
    (h : (controlVolumeOf n (getSelection x.sqrt m.faces m.edges id)).cells[k]? = some c) :
    ∃ r, (rowsOf m.faces.sclass id)[k]? = some r ∧ gridCell x.sqrt m.faces r = some c := by
  rw [controlVolume_cells x m hm n id] at h
  have hlt := rowsOf_lt m.faces.sclass id
  generalize rowsOf m.faces.sclass id = rows at hlt h
  induction rows generalizing k with
  | nil => cases h
  | cons r rs ih =>
    have hr := hlt r List.mem_cons_self
    obtain ⟨c', hc⟩ : ∃ c, gridCell x.sqrt m.faces r = some c := by
      unfold gridCell
      rw [List.getElem?_eq_getElem (l := m.faces.area) (i := r) (by rw [hm.area]; exact hr),
        List.getElem?_eq_getElem (l := m.faces.bedlevel) (i := r) (by rw [hm.bedlevel]; exact hr),
        List.getElem?_eq_getElem (l := m.faces.waterdepth) (i := r) (by rw [hm.waterdepth]; exact hr),
        List.getElem?_eq_getElem (l := m.faces.waterlevel) (i := r) (by rw [hm.waterlevel]; exact hr),
        List.getElem?_eq_getElem (l := m.faces.velocityX) (i := r) (by rw [hm.velocityX]; exact hr),
        List.getElem?_eq_getElem (l := m.faces.velocityY) (i := r) (by rw [hm.velocityY]; exact hr)]
      exact ⟨_, rfl⟩
    rw [List.filterMap_cons, hc] at h
    cases k with
    | zero =>
      obtain rfl := Option.some.inj h
      exact ⟨r, rfl, hc⟩
    | succ k => exact ih k (fun r hr => hlt r (List.mem_cons_of_mem _ hr)) h

/-- The face at the centre is one nearest to the location. -/
theorem centre_nearest (x : Tools K) (m : Model2d K) (hm : Loaded2d m) (l : Loc K) (r : Nat)
    (h : (rowsOf m.faces.sclass l.id)[centreOf x.nn (getSelection x.sqrt m.faces m.edges l.id) l]? = some r) :
    IsNearest m l r := by
  have hlt := rowsOf_lt m.faces.sclass l.id
  have hsel : (getSelection x.sqrt m.faces m.edges l.id).x.zip (getSelection x.sqrt m.faces m.edges l.id).y =
      (rowsOf m.faces.sclass l.id).map fun r => ((m.faces.x[r]?).getD 0, (m.faces.y[r]?).getD 0) := by
    show (maskSelect (m.faces.sclass.map fun c => decide (c = l.id)) m.faces.x).zip
      (maskSelect (m.faces.sclass.map fun c => decide (c = l.id)) m.faces.y) = _
    rw [maskSelect_rows _ _ _ hm.x, maskSelect_rows _ _ _ hm.y, atRows_map 0 _ _ (by rw [hm.x]; exact hlt),
      atRows_map 0 _ _ (by rw [hm.y]; exact hlt), List.zip_map', ]
  refine ⟨List.mem_of_getElem? h, ?_⟩
  intro r' hr' a b a' b' ha hb ha' hb'
  have h1 : ((getSelection x.sqrt m.faces m.edges l.id).x.zip (getSelection x.sqrt m.faces m.edges l.id).y)[
      x.nn.pick ((getSelection x.sqrt m.faces m.edges l.id).x.zip (getSelection x.sqrt m.faces m.edges l.id).y) (l.x, l.y)]? =
      some (a, b) := by
    have h := h
    unfold centreOf at h
    generalize x.nn.pick _ _ = k at h
    rw [hsel, List.getElem?_map, h, Option.map_some, ha, hb]
    rfl
  have h2 : (a', b') ∈ (getSelection x.sqrt m.faces m.edges l.id).x.zip (getSelection x.sqrt m.faces m.edges l.id).y := by
    rw [hsel]
    exact List.mem_map.2 ⟨r', hr', by rw [ha', hb']; rfl⟩
  exact x.nn.pick_nearest _ _ _ _ h1 h2

end Fm2prof

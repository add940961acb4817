import Verif.Spec.Horizontal
import Verif.Props.Build

/-! Lemmas about a horizontal water surface. -/

set_option linter.unusedSectionVars false

namespace Fm2prof.HorizontalProof

open Fm2prof Spec Props

variable {K : Type} [Field K] [LinearOrder K] [IsStrictOrderedRing K]

/-- Horizontal water in the maps after the skipped ones. -/
theorem used_maps {cv : ControlVolume K} {h : Nat → K} (hh : HorizontalWater cv h) (s : Nat) (hs : s < cv.nMaps) :
    HorizontalWater (getTimeseries (s : Int) cv) (fun t => h (s + t)) ∧ (getTimeseries (s : Int) cv).nMaps = cv.nMaps - s := by
  have h1 : sliceStart cv.nMaps (s : Int) = s := by
    unfold sliceStart
    rw [if_pos (by omega)]
    simp only [Int.toNat_natCast]
    omega
  have hn : (getTimeseries (s : Int) cv).nMaps = cv.nMaps - s := by
    show cv.nMaps - sliceStart cv.nMaps (s : Int) = _
    rw [h1]
  have hclean : ∀ x : K, x ≠ -999 → clean (some x) = some x := fun x hx => if_neg hx
  refine ⟨⟨?_, ?_, ?_, ?_⟩, hn⟩
  · intro c hc t ht hw
    obtain ⟨c', hc', rfl⟩ := List.mem_map.1 hc
    rw [hn] at ht
    show clean (c'.level (sliceStart cv.nMaps (s : Int) + t)) = _
    rw [h1, hh.level c' hc' (s + t) (by omega) hw]
    exact hclean _ (ne_of_gt (hh.known (s + t) (by omega)))
  · intro c hc t ht
    obtain ⟨c', hc', rfl⟩ := List.mem_map.1 hc
    rw [hn] at ht
    show clean (c'.depth (sliceStart cv.nMaps (s : Int) + t)) = _
    rw [h1, hh.depth c' hc' (s + t) (by omega)]
    refine hclean _ (ne_of_gt ?_)
    have : c'.bed ≤ max (h (s + t)) c'.bed := le_max_right _ _
    linarith
  · intro t ht
    rw [hn] at ht
    exact hh.rises (s + t) (by omega)
  · intro t ht
    rw [hn] at ht
    exact hh.known (s + t) (by omega)

theorem level_lt {cv : ControlVolume K} {h : Nat → K} (hh : HorizontalWater cv h) :
    ∀ j < cv.nMaps, ∀ i < j, h i < h j := by
  intro j
  induction j with
  | zero => intro _ i hi; omega
  | succ j ih =>
    intro hj i hi
    have := hh.rises j hj
    rcases Nat.lt_or_ge i j with hij | hij
    · have := ih (by omega) i hij
      linarith
    · obtain rfl : i = j := by omega
      linarith

theorem level_le {cv : ControlVolume K} {h : Nat → K} (hh : HorizontalWater cv h) (i j : Nat) (hij : i ≤ j) (hj : j < cv.nMaps) :
    h i ≤ h j := by
  rcases Nat.lt_or_ge i j with hlt | hge
  · exact (level_lt hh j hj i hlt).le
  · obtain rfl : i = j := by omega
    exact le_rfl

/-- A face is wet when its bed is below the water. -/
theorem wet_iff {cv : ControlVolume K} {h : Nat → K} (hh : HorizontalWater cv h) (c : Cell K) (hc : c ∈ cv.cells) (t : Nat)
    (ht : t < cv.nMaps) : Wet c.depth t ↔ c.bed < h t := by
  constructor
  · rintro ⟨d, hd, hpos⟩
    rw [hh.depth c hc t ht] at hd
    have hd := Option.some.inj hd
    rcases le_or_gt (h t) c.bed with hle | hlt
    · rw [max_eq_right hle] at hd; linarith
    · exact hlt
  · intro hlt
    exact ⟨_, hh.depth c hc t ht, by rw [max_eq_left hlt.le]; linarith⟩

/-- A lake is dry in the first map. -/
theorem lake_dry {cv : ControlVolume K} {h : Nat → K} (hh : HorizontalWater cv h) (L : Nat) (hL : L < cv.nMaps)
    (hrise : h 0 + 1 / 100 < h L) (c : Cell K) (hc : c ∈ cv.cells) (hl : IsLake c.depth L) : h 0 ≤ c.bed := by
  obtain ⟨dL, d0, e1, e2, hpos, habs⟩ := hl
  rw [hh.depth c hc L hL] at e1
  rw [hh.depth c hc 0 (by omega)] at e2
  have e1 := Option.some.inj e1
  have e2 := Option.some.inj e2
  by_contra hlt
  have hlt := not_le.1 hlt
  rw [max_eq_left hlt.le] at e2
  rw [max_eq_left (by linarith)] at e1
  have := (abs_le.1 habs).2
  linarith

/-- Faces that are clearly wet count. -/
theorem counts_iff {cv : ControlVolume K} {h : Nat → K} (hh : HorizontalWater cv h) (L : Nat) (hL : L < cv.nMaps)
    (hrise : h 0 + 1 / 100 < h L) (c : Cell K) (hc : c ∈ cv.cells)
    (hclear : ∀ t < cv.nMaps, c.bed < h t → c.bed + 1 / 1000 < h t) (t : Nat) (ht : t < cv.nMaps) :
    Counts c.depth L t ↔ c.bed < h t := by
  constructor
  · exact fun hcount => (wet_iff hh c hc t ht).1 hcount.1
  · intro hlt
    refine ⟨(wet_iff hh c hc t ht).2 hlt, fun hl => ?_⟩
    have hdry := lake_dry hh L hL hrise c hc hl
    -- the first map in which the face is wet
    classical
    have hex : ∃ u, c.bed < h u := ⟨t, hlt⟩
    have hu := Nat.find_spec hex
    have hut : Nat.find hex ≤ t := Nat.find_min' hex hlt
    have hmin : ∀ v, v < Nat.find hex → ¬ c.bed < h v := fun v hv => Nat.find_min hex hv
    generalize Nat.find hex = u at hu hut hmin
    cases u with
    | zero => exact absurd hdry (not_le.2 hu)
    | succ v =>
      refine ⟨v, by omega, fun a b ha hb => ?_⟩
      rw [hh.depth c hc v (by omega), max_eq_right (not_lt.1 (hmin v (by omega)))] at ha
      rw [hh.depth c hc (v + 1) (by omega), max_eq_left hu.le] at hb
      have ha := Option.some.inj ha
      have hb := Option.some.inj hb
      have := hclear (v + 1) (by omega) hu
      linarith

/-- In the first map all wet faces count. -/
theorem counts_first {cv : ControlVolume K} {h : Nat → K} (hh : HorizontalWater cv h) (L : Nat) (hL : L < cv.nMaps)
    (hrise : h 0 + 1 / 100 < h L) (c : Cell K) (hc : c ∈ cv.cells) : Counts c.depth L 0 ↔ c.bed < h 0 := by
  constructor
  · exact fun hcount => (wet_iff hh c hc 0 (by omega)).1 hcount.1
  · exact fun hlt => ⟨(wet_iff hh c hc 0 (by omega)).2 hlt, fun hl => absurd hlt (not_lt.2 (lake_dry hh L hL hrise c hc hl))⟩

/-- A face that does not count is under water by a millimetre at most. -/
theorem not_counts {cv : ControlVolume K} {h : Nat → K} (hh : HorizontalWater cv h) (L : Nat) (hL : L < cv.nMaps)
    (hrise : h 0 + 1 / 100 < h L) (c : Cell K) (hc : c ∈ cv.cells) (t : Nat) (ht : t < cv.nMaps) (hn : ¬ Counts c.depth L t) :
    h t ≤ c.bed + 1 / 1000 := by
  by_contra hlt
  have hlt := not_le.1 hlt
  have hwet : c.bed < h t := by linarith [show (0 : K) < 1 / 1000 by norm_num]
  cases t with
  | zero => exact hn ((counts_first hh L hL hrise c hc).2 hwet)
  | succ v =>
    refine hn ⟨(wet_iff hh c hc (v + 1) ht).2 hwet, fun _ => ⟨v, by omega, fun a b ha hb => ?_⟩⟩
    rw [hh.depth c hc v (by omega)] at ha
    rw [hh.depth c hc (v + 1) ht, max_eq_left hwet.le] at hb
    have ha := Option.some.inj ha
    have hb := Option.some.inj hb
    have := hh.rises v ht
    rcases le_total (h v) c.bed with h1 | h1
    · rw [max_eq_right h1] at ha; linarith
    · rw [max_eq_left h1] at ha; linarith

/-- Faces go on counting. -/
theorem counts_mono {cv : ControlVolume K} {h : Nat → K} (hh : HorizontalWater cv h) (L : Nat) (c : Cell K) (hc : c ∈ cv.cells)
    (t u : Nat) (htu : t ≤ u) (hu : u < cv.nMaps) (hn : Counts c.depth L t) : Counts c.depth L u := by
  have hwet := (wet_iff hh c hc t (by omega)).1 hn.1
  refine ⟨(wet_iff hh c hc u hu).2 (lt_of_lt_of_le hwet (level_le hh t u htu hu)), fun hl => ?_⟩
  obtain ⟨v, hv, hr⟩ := hn.2 hl
  exact ⟨v, by omega, hr⟩

/-- The depth that is used for volumes. -/
theorem net_depth {cv : ControlVolume K} {h : Nat → K} (hh : HorizontalWater cv h) (L : Nat) (hL : L < cv.nMaps)
    (hrise : h 0 + 1 / 100 < h L) (c : Cell K) (hc : c ∈ cv.cells) (base : K) (hbase : base < h 0) (t : Nat) (ht : t < cv.nMaps)
    (hwet : c.bed < h t) : netDepth c.depth L (h 0 - base) t = some (h t - max c.bed base) := by
  classical
  have hrest : ∀ u < cv.nMaps, aboveRest c.depth L u = some (max (h u) c.bed - c.bed) := by
    intro u hu
    unfold aboveRest
    rw [hh.depth c hc u hu, hh.depth c hc 0 (by omega)]
    have hz : (if IsLake c.depth L then (some (max (h 0) c.bed - c.bed)).getD 0 else 0) = 0 := by
      by_cases hl : IsLake c.depth L
      · rw [if_pos hl, max_eq_right (lake_dry hh L hL hrise c hc hl)]
        exact sub_self _
      · rw [if_neg hl]
    rw [Option.bind_some, hz, if_pos (sub_nonneg.2 (le_max_right _ _)), sub_zero]
  unfold netDepth
  rw [hrest t ht, hrest 0 (by omega), Option.map_some, max_eq_left hwet.le]
  refine congrArg some ?_
  by_cases hdeep : c.bed < base
  · rw [if_pos ⟨_, rfl, by rw [max_eq_left (by linarith)]; linarith⟩, max_eq_left (by linarith), max_eq_right hdeep.le]
    show h t - c.bed - (h 0 - c.bed - (h 0 - base)) = _
    ring
  · have hdeep := not_lt.1 hdeep
    rw [if_neg, max_eq_left hdeep]
    rintro ⟨d, hd, hlt⟩
    have hd := Option.some.inj hd
    rcases le_or_gt (h 0) c.bed with hle | hgt
    · rw [max_eq_right hle] at hd; linarith
    · rw [max_eq_left hgt.le] at hd; linarith

/-- All maps are accepted. -/
theorem accepted {n : Nat} (h : Nat → K) (hlt : ∀ j < n, ∀ i < j, h i < h j) :
    AcceptedMaps ((List.range n).map fun t => some (h t)) (List.range n) := by
  have hget : ∀ i < n, ((List.range n).map fun t => some (h t))[i]? = some (some (h i)) := by
    intro i hi
    rw [List.getElem?_map, List.getElem?_range hi]; rfl
  refine ⟨List.pairwise_lt_range, fun i => ?_⟩
  rw [List.mem_range, List.length_map, List.length_range]
  refine ⟨fun hi => ⟨hi, ?_⟩, fun hi => hi.1⟩
  right
  refine ⟨h i, h 0, hget i hi, hget 0 (by omega), fun j hj y hy => ?_⟩
  rw [hget j (by omega)] at hy
  rw [← Option.some.inj (Option.some.inj hy)]
  exact hlt i hi j hj

theorem centre_levels {cv : ControlVolume K} {h : Nat → K} (hh : HorizontalWater cv h) (c : Cell K) (hc : c ∈ cv.cells)
    (hwet : c.bed < h 0) : centreLevels cv.nMaps c = (List.range cv.nMaps).map fun t => some (h t) := by
  unfold centreLevels
  refine List.map_congr_left fun t ht => ?_
  have ht := List.mem_range.1 ht
  have := level_le hh 0 t (by omega) ht
  rw [hh.level c hc t ht (by linarith)]
  rfl

/-- A profile is built. -/
theorem build_exists (cfg : BuildConfig K) (len : K) (centre : Nat) (raw : ControlVolume K) (h : Nat → K) (c : Cell K) (L : Nat)
    (hh : HorizontalWater (getTimeseries cfg.skipMaps raw) h) (hc : (getTimeseries cfg.skipMaps raw).cells[centre]? = some c)
    (hwet : c.bed < h 0) (hL : pyIndex (getTimeseries cfg.skipMaps raw).nMaps cfg.lakeTimesteps = .ok L)
    (hpos : 0 < (getTimeseries cfg.skipMaps raw).nMaps) : ∃ b, buildGeometry cfg len centre raw = .ok b := by
  unfold buildGeometry
  generalize getTimeseries cfg.skipMaps raw = cv at *
  have hmem := List.mem_of_getElem? hc
  simp only [hc, hL]
  rw [if_neg (by omega), centre_levels hh c hmem hwet, hh.depth c hmem 0 hpos]
  have hall : allSome (maskSelect (checkMonotonicity ((List.range cv.nMaps).map fun t => some (h t)))
      ((List.range cv.nMaps).map fun t => some (h t))) = some (maskSelect (checkMonotonicity ((List.range cv.nMaps).map fun t => some (h t)))
      ((List.range cv.nMaps).map h)) := by
    rw [allSome_eq, ← maskSelect_map, List.map_map]
    rfl
  rw [hall]
  exact ⟨_, rfl⟩

/-- Sums over faces of areas with a property. -/
theorem areaOf_sum (P : Cell K → Prop) [DecidablePred P] (cells : List (Cell K)) :
    areaOf P cells = (cells.map fun c => if P c then c.area else 0).sum := by
  classical
  unfold areaOf
  induction cells with
  | nil => rfl
  | cons c cs ih =>
    by_cases hp : P c
    · rw [List.filter_cons_of_pos (by simpa using hp), List.map_cons, List.sum_cons, List.map_cons, List.sum_cons, ih, if_pos hp]
    · rw [List.filter_cons_of_neg (by simpa using hp), List.map_cons, List.sum_cons, ih, if_neg hp, zero_add]

theorem areaOf_congr (P Q : Cell K → Prop) (cells : List (Cell K)) (hpq : ∀ c ∈ cells, P c ↔ Q c) : areaOf P cells = areaOf Q cells := by
  classical
  rw [areaOf_sum, areaOf_sum]
  refine congrArg List.sum (List.map_congr_left fun c hc => ?_)
  simp only [hpq c hc]

theorem volumeOf_sum (P : Cell K → Prop) [DecidablePred P] (net : Cell K → Option K) (cells : List (Cell K)) :
    volumeOf P net cells = (cells.map fun c => if P c then c.area * (net c).getD 0 else 0).sum := by
  classical
  unfold volumeOf
  induction cells with
  | nil => rfl
  | cons c cs ih =>
    by_cases hp : P c
    · rw [List.filter_cons_of_pos (by simpa using hp), List.map_cons, List.sum_cons, List.map_cons, List.sum_cons, ih, if_pos hp]
    · rw [List.filter_cons_of_neg (by simpa using hp), List.map_cons, List.sum_cons, ih, if_neg hp, zero_add]

/-- Areas over the faces of a control volume depend on beds and areas only. -/
theorem area_used (s : Int) (raw : ControlVolume K) (P : K → Prop) :
    areaOf (fun c => P c.bed) (getTimeseries s raw).cells = areaOf (fun c => P c.bed) raw.cells := by
  classical
  rw [areaOf_sum, areaOf_sum]
  unfold getTimeseries
  simp only [List.map_map]
  rfl

theorem storage_used (s : Int) (raw : ControlVolume K) (base level : K) :
    storage base level (getTimeseries s raw).cells = storage base level raw.cells := by
  unfold storage getTimeseries
  simp only [List.map_map]
  rfl

/-- The profile over horizontal water. -/
theorem horizontal_profile (cfg : BuildConfig K) (len : K) (centre : Nat) (raw : ControlVolume K) (h : Nat → K) (c : Cell K) (L : Nat)
    (b : Built K) (hh : HorizontalWater (getTimeseries cfg.skipMaps raw) h)
    (hc : (getTimeseries cfg.skipMaps raw).cells[centre]? = some c)
    (hwet : c.bed < h 0) (hL : pyIndex (getTimeseries cfg.skipMaps raw).nMaps cfg.lakeTimesteps = .ok L)
    (hLn : L < (getTimeseries cfg.skipMaps raw).nMaps) (hrise : h 0 + 1 / 100 < h L)
    (hb : buildGeometry cfg len centre raw = .ok b) :
    let n := (getTimeseries cfg.skipMaps raw).nMaps
    let cells := (getTimeseries cfg.skipMaps raw).cells
    b.z = equidistant 9 c.bed (h 0) ++ (List.range n).map h ∧
    b.wetArea = (equidistant 9 c.bed (h 0)).map (fun z => areaOf (fun c => c.bed < z + 1 / 1000 ∧ c.bed < h 0) cells) ++
      (List.range n).map (fun t => areaOf (fun c => Counts c.depth L t) cells) ∧
    b.totalWidth = b.wetArea.map (· / len) ∧
    b.totalVolume2d.drop 10 = (List.range n).map (fun t => some (volumeOf (fun c => Counts c.depth L t)
      (fun c' => some (h t - max c'.bed c.bed)) cells)) := by
  intro n cells
  have hmem := List.mem_of_getElem? hc
  have hn0 : 0 < n := by show 0 < (getTimeseries cfg.skipMaps raw).nMaps; omega
  have hdepth0 : c.depth 0 = some (h 0 - c.bed) := by rw [hh.depth c hmem 0 hn0, max_eq_left hwet.le]
  obtain ⟨acc, hacc, l1, -, -, l4, -, -, -, -, -, l10, -, -⟩ := C07_arrays_aligned hb
  obtain ⟨c', L', z0, d0, p1, p2, p3, p4, p5, p6, p7, p8, -, -⟩ := C06_points_below_first_level hb
  obtain ⟨c'', L'', d0', q1, q2, q3, q4, q5, q6⟩ := C66_areas_and_volumes hb acc hacc
  rw [hc] at p1 q1
  obtain rfl := Option.some.inj p1
  obtain rfl := Option.some.inj q1
  rw [hL] at p3 q3
  obtain rfl := Except.ok.inj p3
  obtain rfl := Except.ok.inj q3
  rw [hdepth0] at p2 q2
  obtain rfl := Option.some.inj p2
  obtain rfl := Option.some.inj q2
  obtain ⟨_, _, _, _, _, _, r1, _, r3, _⟩ := built_parts hb
  rw [hc] at r1
  obtain rfl := Option.some.inj r1
  rw [centre_levels hh c hmem hwet] at r3
  rw [r3] at hacc p4 l10
  obtain rfl := acceptedMaps_unique _ _ _ hacc (accepted h (level_lt hh))
  have hget : ∀ i < n, ((List.range n).map fun t => some (h t))[i]? = some (some (h i)) := by
    intro i hi
    rw [List.getElem?_map, List.getElem?_range hi]; rfl
  rw [hget 0 hn0] at p4
  obtain rfl := Option.some.inj (Option.some.inj p4)
  rw [sub_sub_cancel] at p5
  have hz : b.z = equidistant 9 c.bed (h 0) ++ (List.range n).map h := by
    rw [← List.take_append_drop 10 b.z, p5]
    congr 1
    have : (b.z.drop 10).map some = ((List.range n).map h).map some := by
      rw [l10, List.map_map]
      refine List.map_congr_left fun t ht => ?_
      have ht := List.mem_range.1 ht
      show (((List.range n).map fun t => some (h t))[t]?).join = some (h t)
      rw [hget t ht]; rfl
    exact List.map_injective_iff.2 (Option.some_injective _) this
  refine ⟨hz, ?_, q6, ?_⟩
  · rw [← List.take_append_drop 10 b.wetArea, p7, p5, q4]
    congr 1
    refine List.map_congr_left fun z hz' => areaOf_congr _ _ _ fun c' hc' => ?_
    rw [counts_first hh L hLn hrise c' hc']
    constructor
    · rintro ⟨a, a'⟩
      rw [hh.level c' hc' 0 hn0 a] at a'
      refine ⟨?_, a⟩
      have a' : h 0 - z - 1 / 1000 < h 0 - c'.bed := a'
      linarith
    · rintro ⟨a', a⟩
      refine ⟨a, ?_⟩
      rw [hh.level c' hc' 0 hn0 a]
      show h 0 - z - 1 / 1000 < h 0 - c'.bed
      linarith
  · rw [q5]
    refine List.map_congr_left fun t ht => ?_
    have ht := List.mem_range.1 ht
    classical
    rw [volumeOf_sum, volumeOf_sum]
    refine congrArg some (congrArg List.sum (List.map_congr_left fun c' hc' => ?_))
    by_cases hcount : Counts c'.depth L t
    · have hw := (wet_iff hh c' hc' t ht).1 hcount.1
      rw [if_pos hcount, if_pos hcount, net_depth hh L hLn hrise c' hc' c.bed hwet t ht hw]
    · rw [if_neg hcount, if_neg hcount]

/-! ## The error of the trapezoidal rule -/

/-- Zero or one. -/
def ind : Bool → K
  | true => 1
  | false => 0

/-- Successive points of a profile, seen from a face that is dry or wet: levels and wetness go up, by steps of at most `D`. -/
def Link (D : K) (p q : K × Bool) : Prop := p.1 ≤ q.1 ∧ q.1 - p.1 ≤ D ∧ (p.2 = true → q.2 = true)

theorem all_wet (D : K) : ∀ (l : List (K × Bool)) (p : K × Bool), List.IsChain (Link D) (p :: l) → p.2 = true →
    trapezoidArea ((p :: l).map fun q => ind q.2) ((p :: l).map (·.1)) = ((p :: l).getLast (List.cons_ne_nil _ _)).1 - p.1 ∧
      p.1 ≤ ((p :: l).getLast (List.cons_ne_nil _ _)).1 ∧ ((p :: l).getLast (List.cons_ne_nil _ _)).2 = true := by
  intro l
  induction l with
  | nil =>
    intro p _ hp
    exact ⟨(sub_self _).symm, le_rfl, hp⟩
  | cons q l ih =>
    intro p hc hp
    rw [List.isChain_cons_cons] at hc
    have hq := hc.1.2.2 hp
    obtain ⟨i1, i2, i3⟩ := ih q hc.2 hq
    rw [List.getLast_cons (List.cons_ne_nil q l)]
    refine ⟨?_, hc.1.1.trans i2, i3⟩
    simp only [List.map_cons] at i1 ⊢
    rw [trapezoidArea, i1, hp, hq]
    simp only [ind]
    ring

/-- The trapezoidal rule for a face that is wet at the first point. -/
theorem wet_error (D τ b : K) (l : List (K × Bool)) (p : K × Bool) (hc : List.IsChain (Link D) (p :: l)) (hp : p.2 = true)
    (hτ : 0 ≤ τ) (hb : b < p.1 + τ) :
    let T := trapezoidArea ((p :: l).map fun q => ind q.2) ((p :: l).map (·.1))
    let S := ((p :: l).getLast (List.cons_ne_nil _ _)).1 - max b p.1
    |T - S| ≤ τ ∧ (b ≤ p.1 → T = S) ∧ ((p :: l).getLast (List.cons_ne_nil _ _)).2 = true := by
  intro T S
  obtain ⟨i1, i2, i3⟩ := all_wet D l p hc hp
  have hT : T = ((p :: l).getLast (List.cons_ne_nil _ _)).1 - p.1 := i1
  refine ⟨?_, fun hle => ?_, i3⟩
  · rw [hT, abs_le]
    show -τ ≤ _ - p.1 - (_ - max b p.1) ∧ _ - p.1 - (_ - max b p.1) ≤ τ
    rcases le_total b p.1 with h1 | h1
    · rw [max_eq_right h1]; constructor <;> linarith
    · rw [max_eq_left h1]; constructor <;> linarith
  · rw [hT]
    show _ = _ - max b p.1
    rw [max_eq_right hle]

/-- The trapezoidal rule for a face that is dry at the first point. -/
theorem dry_error (D τ b : K) : ∀ (l : List (K × Bool)) (p : K × Bool),
    List.IsChain (Link D) (p :: l) → p.2 = false →
    (∀ q ∈ p :: l, (q.2 = false → q.1 ≤ b + τ) ∧ (q.2 = true → b < q.1 + τ)) →
    let T := trapezoidArea ((p :: l).map fun q => ind q.2) ((p :: l).map (·.1))
    let S := ((p :: l).getLast (List.cons_ne_nil _ _)).1 - b
    (((p :: l).getLast (List.cons_ne_nil _ _)).2 = false → T = 0) ∧
      (((p :: l).getLast (List.cons_ne_nil _ _)).2 = true → |T - S| ≤ D / 2 + τ) := by
  intro l
  induction l with
  | nil =>
    intro p _ hp _ T S
    exact ⟨fun _ => rfl, fun h => by rw [show ([p].getLast (List.cons_ne_nil _ _)).2 = p.2 from rfl, hp] at h; cases h⟩
  | cons q l ih =>
    intro p hc hp hb T S
    rw [List.isChain_cons_cons] at hc
    have hpb := (hb p List.mem_cons_self).1 hp
    have hlast : (p :: q :: l).getLast (List.cons_ne_nil _ _) = (q :: l).getLast (List.cons_ne_nil _ _) :=
      List.getLast_cons (List.cons_ne_nil q l)
    have hT : T = (q.1 - p.1) * (ind p.2 + ind q.2) / 2 +
        trapezoidArea ((q :: l).map fun q => ind q.2) ((q :: l).map (·.1)) := rfl
    have hS : S = ((q :: l).getLast (List.cons_ne_nil _ _)).1 - b := by
      show ((p :: q :: l).getLast (List.cons_ne_nil _ _)).1 - b = _
      rw [hlast]
    rw [hp] at hT
    rw [hlast]
    cases hq : q.2 with
    | false =>
      obtain ⟨i1, i2⟩ := ih q hc.2 hq fun r hr => hb r (List.mem_cons_of_mem _ hr)
      have hT' : T = trapezoidArea ((q :: l).map fun q => ind q.2) ((q :: l).map (·.1)) := by
        rw [hT, hq]
        simp only [ind]
        rw [zero_add, mul_zero, zero_div, zero_add]
      rw [hT', hS]
      exact ⟨i1, i2⟩
    | true =>
      have hqb := (hb q (List.mem_cons_of_mem _ List.mem_cons_self)).2 hq
      obtain ⟨a1, a2, a3⟩ := all_wet D l q hc.2 hq
      refine ⟨fun hf => (by rw [a3] at hf; cases hf), fun _ => ?_⟩
      rw [hT, hS, a1, hq]
      simp only [ind]
      have hstep := hc.1.2.1
      have hup := hc.1.1
      rw [abs_le]
      constructor <;> linarith

/-- The rule is linear. -/
theorem trapezoid_add {α : Type} (f g z : α → K) : ∀ pts : List α,
    trapezoidArea (pts.map fun p => f p + g p) (pts.map z) = trapezoidArea (pts.map f) (pts.map z) + trapezoidArea (pts.map g) (pts.map z)
  | [] => (add_zero _).symm
  | [_] => (add_zero _).symm
  | p :: q :: l => by
    have ih := trapezoid_add f g z (q :: l)
    simp only [List.map_cons] at ih ⊢
    rw [trapezoidArea, trapezoidArea, trapezoidArea, ih]
    ring

theorem trapezoid_mul {α : Type} (a : K) (f z : α → K) : ∀ pts : List α,
    trapezoidArea (pts.map fun p => a * f p) (pts.map z) = a * trapezoidArea (pts.map f) (pts.map z)
  | [] => (mul_zero _).symm
  | [_] => (mul_zero _).symm
  | p :: q :: l => by
    have ih := trapezoid_mul a f z (q :: l)
    simp only [List.map_cons] at ih ⊢
    rw [trapezoidArea, trapezoidArea, ih]
    ring

theorem trapezoid_zero {α : Type} (z : α → K) : ∀ pts : List α, trapezoidArea (pts.map fun _ => (0 : K)) (pts.map z) = 0
  | [] => rfl
  | [_] => rfl
  | p :: q :: l => by
    have ih := trapezoid_zero z (q :: l)
    simp only [List.map_cons] at ih ⊢
    rw [trapezoidArea, ih]
    ring

theorem trapezoid_sum {α : Type} (wet : Cell K → α → Bool) (z : α → K) (pts : List α) (cells : List (Cell K)) :
    trapezoidArea (pts.map fun p => (cells.map fun c => c.area * ind (wet c p)).sum) (pts.map z) =
      (cells.map fun c => c.area * trapezoidArea (pts.map fun p => ind (wet c p)) (pts.map z)).sum := by
  induction cells with
  | nil => exact trapezoid_zero z pts
  | cons c cs ih =>
    simp only [List.map_cons, List.sum_cons]
    rw [trapezoid_add, trapezoid_mul, ih]

/-- The error over all faces. -/
theorem volume_error {α : Type} (wet : Cell K → α → Bool) (z : α → K) (D τ : K) (hD : 0 ≤ D) (hτ : 0 ≤ τ) (p last : α) (pts : List α)
    (hlast : (p :: pts).getLast (List.cons_ne_nil _ _) = last)
    (cells : List (Cell K)) (hA : ∀ c ∈ cells, 0 ≤ c.area)
    (hc : ∀ c ∈ cells, List.IsChain (Link D) ((p :: pts).map fun q => (z q, wet c q)))
    (hb : ∀ c ∈ cells, ∀ q ∈ p :: pts, (wet c q = false → z q ≤ c.bed + τ) ∧ (wet c q = true → c.bed < z q + τ))
    (hbase : ∀ c ∈ cells, c.bed ≤ z p → wet c p = true) :
    |trapezoidArea ((p :: pts).map fun q => (cells.map fun c => c.area * ind (wet c q)).sum) ((p :: pts).map z) -
        (cells.map fun c => c.area * (ind (wet c last) * (z last - max c.bed (z p)))).sum| ≤
      (D / 2 + τ) * (cells.map fun c => if z p < c.bed ∧ wet c last = true then c.area else 0).sum := by
  rw [trapezoid_sum]
  induction cells with
  | nil => simp
  | cons c cs ih =>
    have ih := ih (fun c' h' => hA c' (List.mem_cons_of_mem _ h')) (fun c' h' => hc c' (List.mem_cons_of_mem _ h'))
      (fun c' h' => hb c' (List.mem_cons_of_mem _ h')) (fun c' h' => hbase c' (List.mem_cons_of_mem _ h'))
    simp only [List.map_cons, List.sum_cons] at ih ⊢
    have hlast' : ((p :: pts).map fun q => (z q, wet c q)).getLast (by simp) = (z last, wet c last) := by
      rw [List.getLast_map, hlast]
    have hq : ∀ q ∈ (z p, wet c p) :: pts.map fun q => (z q, wet c q),
        (q.2 = false → q.1 ≤ c.bed + τ) ∧ (q.2 = true → c.bed < q.1 + τ) := by
      intro q hq
      obtain ⟨r, hr, rfl⟩ := List.mem_map.1 (show q ∈ (p :: pts).map fun q => (z q, wet c q) from hq)
      exact hb c List.mem_cons_self r hr
    have e1 : ((z p, wet c p) :: pts.map fun q => (z q, wet c q)) = (p :: pts).map fun q => (z q, wet c q) := rfl
    have hA' := hA c List.mem_cons_self
    have key : |c.area * trapezoidArea (ind (wet c p) :: pts.map fun q => ind (wet c q)) (z p :: pts.map z) -
        c.area * (ind (wet c last) * (z last - max c.bed (z p)))| ≤
        (D / 2 + τ) * (if z p < c.bed ∧ wet c last = true then c.area else 0) := by
      rw [← mul_sub, abs_mul, abs_of_nonneg hA']
      cases hp : wet c p with
      | true =>
        have hcell := wet_error D τ c.bed (pts.map fun q => (z q, wet c q)) (z p, wet c p) (hc c List.mem_cons_self) hp hτ
          ((hb c List.mem_cons_self p List.mem_cons_self).2 hp)
        simp only [e1, hlast', List.map_map, Function.comp_def] at hcell
        obtain ⟨f1, f2, f3⟩ := hcell
        simp only [List.map_cons, hp] at f1 f2
        rw [f3]
        simp only [ind, one_mul, and_true] at f1 f2 ⊢
        by_cases hle : c.bed ≤ z p
        · rw [if_neg (not_lt.2 hle), f2 hle, sub_self, abs_zero, mul_zero, mul_zero]
        · rw [if_pos (not_le.1 hle), mul_comm]
          exact mul_le_mul_of_nonneg_right (f1.trans (by linarith)) hA'
      | false =>
        have hlt : z p < c.bed := by
          by_contra hle
          rw [hbase c List.mem_cons_self (not_lt.1 hle)] at hp
          cases hp
        have hcell := dry_error D τ c.bed (pts.map fun q => (z q, wet c q)) (z p, wet c p) (hc c List.mem_cons_self) hp hq
        simp only [e1, hlast', List.map_map, Function.comp_def] at hcell
        obtain ⟨f1, f2⟩ := hcell
        simp only [List.map_cons, hp] at f1 f2
        rw [max_eq_left hlt.le]
        cases hl : wet c last with
        | false =>
          rw [f1 hl]
          simp [ind]
        | true =>
          rw [if_pos ⟨hlt, rfl⟩, mul_comm]
          have := f2 hl
          simp only [ind, one_mul] at this ⊢
          exact mul_le_mul_of_nonneg_right this hA'
    rw [mul_add, add_sub_add_comm]
    exact (abs_add_le _ _).trans (add_le_add key ih)

/-- A profile is built, with the points above and below the first level. -/
theorem profile (cfg : BuildConfig K) (len : K) (centre s l : Nat) (raw : ControlVolume K) (h : Nat → K) (c : Cell K)
    (hh : HorizontalWater raw h) (hs : cfg.skipMaps = (s : Int)) (hl : cfg.lakeTimesteps = (l : Int)) (hn : s + l < raw.nMaps)
    (hrise : h s + 1 / 100 < h (s + l)) (hc : raw.cells[centre]? = some c) (hwet : c.bed < h s) :
    let cv := getTimeseries (s : Int) raw
    ∃ b, buildGeometry cfg len centre raw = .ok b ∧ HorizontalWater cv (fun t => h (s + t)) ∧ cv.nMaps = raw.nMaps - s ∧
      b.z = equidistant 9 c.bed (h s) ++ (List.range (raw.nMaps - s)).map (fun t => h (s + t)) ∧
      b.wetArea = (equidistant 9 c.bed (h s)).map (fun z => areaOf (fun c => c.bed < z + 1 / 1000 ∧ c.bed < h s) cv.cells) ++
        (List.range (raw.nMaps - s)).map (fun t => areaOf (fun c => Counts c.depth l t) cv.cells) ∧
      b.totalWidth = b.wetArea.map (· / len) ∧
      b.totalVolume2d.drop 10 = (List.range (raw.nMaps - s)).map (fun t => some (volumeOf (fun c => Counts c.depth l t)
        (fun c' => some (h (s + t) - max c'.bed c.bed)) cv.cells)) := by
  intro cv
  obtain ⟨hcv, hnm⟩ := used_maps hh s (by omega)
  have hL : pyIndex cv.nMaps cfg.lakeTimesteps = .ok l := by
    rw [hl]
    unfold pyIndex
    rw [if_pos (by omega), Int.toNat_natCast, if_pos (by rw [hnm]; omega)]
  have hc' : cv.cells[centre]? = some
      { c with
        depth := fun t => clean (c.depth (sliceStart raw.nMaps (s : Int) + t))
        level := fun t => clean (c.level (sliceStart raw.nMaps (s : Int) + t))
        velocity := fun t => clean (c.velocity (sliceStart raw.nMaps (s : Int) + t)) } := by
    show (raw.cells.map _)[centre]? = _
    rw [List.getElem?_map, hc]
    rfl
  have hcvs : getTimeseries cfg.skipMaps raw = cv := by rw [hs]
  obtain ⟨b, hb⟩ := build_exists cfg len centre raw _ _ l (by rw [hcvs]; exact hcv) (by rw [hcvs]; exact hc') hwet
    (by rw [hcvs]; exact hL) (by rw [hcvs, hnm]; omega)
  have := horizontal_profile cfg len centre raw _ _ l b (by rw [hcvs]; exact hcv) (by rw [hcvs]; exact hc') hwet
    (by rw [hcvs]; exact hL) (by rw [hcvs, hnm]; omega) hrise hb
  rw [hcvs] at this
  have hnm' : cv.nMaps = raw.nMaps - s := hnm
  rw [hnm'] at this
  exact ⟨b, hb, hcv, hnm, this⟩

end Fm2prof.HorizontalProof

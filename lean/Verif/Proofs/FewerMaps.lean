import Verif.Spec.FewerMaps
import Verif.Proofs.CutMaps

/-!
# Proofs about map files that are written less often
-/

set_option linter.unusedSectionVars false

namespace Fm2prof.FewerMapsProof

open Fm2prof Spec CutMapsProof

variable {K : Type} [Field K] [LinearOrder K] [IsStrictOrderedRing K] [FloorRing K]

/-! ## All maps are accepted -/

private theorem lastTrue_replicate (k : Nat) : lastTrue (List.replicate (k + 1) true) = some k := by
  unfold lastTrue
  rw [List.replicate_succ', List.zipIdx_append, List.filter_append]
  simp

private theorem mono_fold (arr : List (Option K)) (k n : Nat)
    (h : ∀ i, k ≤ i → i < k + n → fgt (arr[i + 1]?.join) (arr[i]?.join) = true) :
    (List.range' (k + 1) n).foldl (monoStep arr) (List.replicate (k + 1) true) = List.replicate (k + 1 + n) true := by
  induction n generalizing k with
  | zero => rfl
  | succ n ih =>
    rw [List.range'_succ, List.foldl_cons]
    have e : monoStep arr (List.replicate (k + 1) true) (k + 1) = List.replicate (k + 1 + 1) true := by
      unfold monoStep
      rw [lastTrue_replicate]
      simp only
      rw [h k le_rfl (by omega), ← List.replicate_succ']
    rw [e, ih (k + 1) fun i h1 h2 => h i (by omega) (by omega)]
    congr 1
    omega

theorem mono_rising (arr : List (Option K)) (hne : arr ≠ [])
    (h : ∀ i, i + 1 < arr.length → fgt (arr[i + 1]?.join) (arr[i]?.join) = true) :
    checkMonotonicity arr = List.replicate arr.length true := by
  unfold checkMonotonicity
  have hp := List.length_pos_of_ne_nil hne
  have := mono_fold arr 0 (arr.length - 1) fun i _ h2 => h i (by omega)
  simp only [Nat.zero_add] at this
  rw [show ([true] : List Bool) = List.replicate 1 true from rfl, this]
  congr 1
  omega

theorem mask_all {β : Type} (n : Nat) (l : List β) (h : l.length = n) : maskSelect (List.replicate n true) l = l := by
  subst h
  induction l with
  | nil => rfl
  | cons x xs ih => rw [List.length_cons, List.replicate_succ, maskSelect_cons_true, ih]

theorem allSome_map {β : Type} (l : List β) : allSome (l.map some) = some l := by
  induction l with
  | nil => rfl
  | cons x xs ih => rw [List.map_cons, allSome, ih]; rfl

/-! ## The series from the first map that is used -/

/-- The cell from map `s` on, without the mark for missing values. -/
def shifted (s : Nat) (c : Cell K) : Cell K :=
  { c with
    depth := fun t => clean (c.depth (s + t))
    level := fun t => clean (c.level (s + t))
    velocity := fun t => clean (c.velocity (s + t)) }

theorem timeseries_shifted (s : Nat) (raw : ControlVolume K) (h : s ≤ raw.nMaps) :
    getTimeseries (s : Int) raw = ⟨raw.nMaps - s, raw.cells.map (shifted s)⟩ := by
  have hs : sliceStart raw.nMaps (s : Int) = s := by
    unfold sliceStart
    rw [if_pos (Int.natCast_nonneg s), Int.toNat_natCast]; omega
  unfold getTimeseries
  rw [hs]
  rfl

/-- What is left of a cell with only some of the maps. -/
def chosen (ts : List Nat) (c : Cell K) : Cell K :=
  { c with
    depth := fun t => ts[t]?.bind c.depth
    level := fun t => ts[t]?.bind c.level
    velocity := fun t => ts[t]?.bind c.velocity }

theorem chosen_at (s : Nat) (ts : List Nat) (c : Cell K) (t u : Nat) (h : ts[s + t]? = some u) (hu : s ≤ u) :
    (shifted s (chosen ts c)).depth t = (shifted s c).depth (u - s) ∧
    (shifted s (chosen ts c)).level t = (shifted s c).level (u - s) ∧
    (shifted s (chosen ts c)).velocity t = (shifted s c).velocity (u - s) := by
  have e : s + (u - s) = u := by omega
  unfold shifted chosen
  simp only [h, Option.bind_some, e, and_self]

/-! ## Cells that are no lakes -/

theorem resting_no (L : Nat) (c : Cell K) (h : isLake L c = false) (t : Nat) : resting L c t = false := by
  induction t with
  | zero => exact h
  | succ t ih => unfold resting; rw [ih, Bool.and_false]

theorem wet_no (L : Nat) (c : Cell K) (h : isLake L c = false) (t : Nat) : wetNotLake L c t = ogt (c.depth t) 0 := by
  unfold wetNotLake
  rw [resting_no L c h, Bool.not_false, Bool.and_true]

theorem lakeDepth_no (L L' : Nat) (c c' : Cell K) (h : isLake L c = false) (h' : isLake L' c' = false) (t u : Nat)
    (e : c'.depth t = c.depth u) : lakeDepth L' c' t = lakeDepth L c u := by
  unfold lakeDepth lakeCorrection
  rw [h, h', e]
  rfl

theorem corrected_no (L L' : Nat) (o : Option K) (c c' : Cell K) (h : isLake L c = false) (h' : isLake L' c' = false) (t u : Nat)
    (e : c'.depth t = c.depth u) (e0 : c'.depth 0 = c.depth 0) : correctedDepth L' o c' t = correctedDepth L o c u := by
  unfold correctedDepth
  rw [lakeDepth_no L L' c c' h h' t u e, lakeDepth_no L L' c c' h h' 0 0 e0]

/-! ## Sums over the cells -/

theorem area_congr (cells : List (Cell K)) (f g : Cell K → Cell K) (mask mask' : Nat → Cell K → Bool)
    (h : ∀ c ∈ cells, (g c).area = (f c).area) (hm : ∀ c ∈ cells, ∀ i, mask' i (g c) = mask i (f c)) :
    maskedArea (cells.map g) mask' = maskedArea (cells.map f) mask := by
  unfold maskedArea
  rw [List.zipIdx_map, List.zipIdx_map, List.map_map, List.map_map]
  congr 1
  refine List.map_congr_left fun p hp => ?_
  have hc := List.fst_mem_of_mem_zipIdx hp
  simp only [Function.comp_apply, Prod.map, id, h p.1 hc, hm p.1 hc]

theorem volume_congr (cells : List (Cell K)) (f g : Cell K → Cell K) (mask mask' : Nat → Cell K → Bool)
    (depth depth' : Cell K → Option K) (h : ∀ c ∈ cells, (g c).area = (f c).area)
    (hm : ∀ c ∈ cells, ∀ i, mask' i (g c) = mask i (f c)) (hd : ∀ c ∈ cells, depth' (g c) = depth (f c)) :
    maskedVolume (cells.map g) mask' depth' = maskedVolume (cells.map f) mask depth := by
  unfold maskedVolume
  rw [List.zipIdx_map, List.zipIdx_map, List.map_map, List.map_map]
  congr 1
  refine List.map_congr_left fun p hp => ?_
  have hc := List.fst_mem_of_mem_zipIdx hp
  simp only [Function.comp_apply, Prod.map, id, h p.1 hc, hm p.1 hc, hd p.1 hc]

/-! ## The rows that are left -/

theorem keep_rows {β : Type} (ts : List Nat) (s n : Nat) (pre : List β) (hpre : pre.length = 10) (W W' : Nat → β)
    (hts : ∀ u ∈ ts.drop s, s ≤ u ∧ u < n) (hW : ∀ t u, ts[s + t]? = some u → W' t = W (u - s)) :
    pre ++ (List.range (ts.length - s)).map W' = keepMaps s ts (pre ++ (List.range (n - s)).map W) := by
  unfold keepMaps
  rw [List.take_left' hpre]
  congr 1
  have e : (ts.drop s).filterMap (fun t => (pre ++ (List.range (n - s)).map W)[10 + (t - s)]?) = (ts.drop s).map fun u => W (u - s) := by
    have e' : (ts.drop s).map (fun u => W (u - s)) = (ts.drop s).filterMap fun u => some (W (u - s)) :=
      (congrFun List.filterMap_eq_map _).symm
    rw [e']
    refine List.filterMap_congr fun u hu => ?_
    obtain ⟨h1, h2⟩ := hts u hu
    rw [List.getElem?_append_right (by omega), hpre, show 10 + (u - s) - 10 = u - s by omega, List.getElem?_map,
      List.getElem?_range (by omega)]
    rfl
  rw [e]
  refine List.ext_getElem? fun t => ?_
  rw [List.getElem?_map, List.getElem?_map, List.getElem?_drop]
  by_cases ht : s + t < ts.length
  · rw [List.getElem?_range (by omega), List.getElem?_eq_getElem ht]
    exact congrArg some (hW t _ (List.getElem?_eq_getElem ht))
  · rw [List.getElem?_eq_none (by rw [List.length_range]; omega), List.getElem?_eq_none (by omega)]
    rfl

theorem selects_drop (n s : Nat) (ts : List Nat) (h : Selects n s ts) : ∀ u ∈ ts.drop s, s ≤ u ∧ u < n := by
  intro u hu
  refine ⟨?_, h.within u (List.mem_of_mem_drop hu)⟩
  obtain ⟨j, hj⟩ := List.mem_iff_getElem?.1 hu
  rw [List.getElem?_drop] at hj
  cases j with
  | zero => rw [Nat.add_zero, h.first] at hj; exact (Option.some.inj hj).le
  | succ j =>
    obtain ⟨h1, e1⟩ := List.getElem?_eq_some_iff.1 h.first
    obtain ⟨h2, e2⟩ := List.getElem?_eq_some_iff.1 hj
    have := List.pairwise_iff_getElem.1 h.order s (s + (j + 1)) h1 h2 (by omega)
    omega

theorem keep_backMin (ts : List Nat) (s n : Nat) (pre : List K) (hpre : pre.length = 10) (W W' : Nat → K) (hsel : Selects n s ts)
    (hts : ∀ u ∈ ts.drop s, s ≤ u ∧ u < n) (hW : ∀ t u, ts[s + t]? = some u → W' t = W (u - s)) :
    List.Forall₂ (· ≤ ·) (keepMaps s ts (pre ++ backMin ((List.range (n - s)).map W)))
      (pre ++ backMin ((List.range (ts.length - s)).map W')) := by
  have hlen : (backMin ((List.range (n - s)).map W)).length = n - s := by
    rw [backMin_length, List.length_map, List.length_range]
  have e : backMin ((List.range (n - s)).map W) =
      (List.range (n - s)).map fun t => ((backMin ((List.range (n - s)).map W))[t]?).getD 0 := by
    refine List.ext_getElem? fun t => ?_
    rw [List.getElem?_map]
    by_cases ht : t < n - s
    · rw [List.getElem?_range ht, Option.map_some, List.getElem?_eq_getElem (by omega), Option.getD_some]
    · rw [List.getElem?_eq_none (by omega), List.getElem?_eq_none (by rw [List.length_range]; omega)]; rfl
  have hle := backMin_le ((List.range (n - s)).map W)
  have hpw := backMin_pairwise ((List.range (n - s)).map W)
  generalize backMin ((List.range (n - s)).map W) = m at *
  rw [e, ← keep_rows ts s n pre hpre (fun t => (m[t]?).getD 0) (fun t => (m[(ts[s + t]?).getD 0 - s]?).getD 0) hts
    (fun t u h => by rw [h]; rfl)]
  refine List.rel_append (List.forall₂_same.2 fun _ _ => le_refl _) (backMin_greatest _ _ ?_ ?_)
  · rw [List.pairwise_map]
    refine List.pairwise_lt_range.imp_of_mem fun {a b} ha hb hab => ?_
    have ha := List.mem_range.1 ha
    have hb := List.mem_range.1 hb
    have h1 := List.getElem?_eq_getElem (l := ts) (i := s + a) (by omega)
    have h2 := List.getElem?_eq_getElem (l := ts) (i := s + b) (by omega)
    have hlt := List.pairwise_iff_getElem.1 hsel.order (s + a) (s + b) (by omega) (by omega) (by omega)
    obtain ⟨k1, k2⟩ := hts ts[s + a] (List.mem_of_getElem? (i := a) (by rw [List.getElem?_drop]; exact h1))
    obtain ⟨k3, k4⟩ := hts ts[s + b] (List.mem_of_getElem? (i := b) (by rw [List.getElem?_drop]; exact h2))
    rw [h1, h2, Option.getD_some, Option.getD_some, List.getElem?_eq_getElem (by omega), List.getElem?_eq_getElem (by omega)]
    exact List.pairwise_iff_getElem.1 hpw _ _ _ _ (by omega)
  · unfold PointwiseLE
    rw [List.forall₂_map_left_iff, List.forall₂_map_right_iff, List.forall₂_same]
    intro t ht
    have ht := List.mem_range.1 ht
    have h1 := List.getElem?_eq_getElem (l := ts) (i := s + t) (by omega)
    obtain ⟨k1, k2⟩ := hts ts[s + t] (List.mem_of_getElem? (i := t) (by rw [List.getElem?_drop]; exact h1))
    rw [hW t _ h1, h1, Option.getD_some, List.getElem?_eq_getElem (by omega), Option.getD_some]
    have hle' := (List.forall₂_iff_get.1 hle).2 (ts[s + t] - s) (by omega) (by rw [List.length_map, List.length_range]; omega)
    simpa using hle'

/-! ## The geometry with all maps accepted -/

theorem build_rising (cfg : BuildConfig K) (s L : Nat) (hs : cfg.skipMaps = (s : Int)) (hL : cfg.lakeTimesteps = (L : Int)) (len : K)
    (centre : Nat) (raw : ControlVolume K) (hn : s < raw.nMaps) (c : Cell K) (hc : raw.cells[centre]? = some c)
    (hr : RisingFrom s raw.nMaps c.level) (b : Built K) (h : buildGeometry cfg len centre raw = .ok b) :
    ∃ depth0, (shifted s c).depth 0 = some depth0 ∧
      let S := series2d cfg ⟨raw.nMaps - s, raw.cells.map (shifted s)⟩ L (some depth0)
      b = assemble cfg.extrapolateStorage len (raw.cells.map (shifted s)) L depth0
        ((List.range (raw.nMaps - s)).map fun t => ((shifted s c).level t).getD 0) S.wetArea S.flowArea S.totalVolume S.flowVolume
        (centreLevels (raw.nMaps - s) (shifted s c)) := by
  have hlev : ∀ t, t < raw.nMaps - s → ∃ z, (shifted s c).level t = some z ∧ c.level (s + t) = some z := by
    intro t ht
    obtain ⟨z, hz, hz'⟩ := hr.1 (s + t) (by omega) (by omega)
    refine ⟨z, ?_, hz⟩
    show clean (c.level (s + t)) = some z
    rw [hz]
    unfold clean
    simp only [if_neg hz']
  have hcl : centreLevels (raw.nMaps - s) (shifted s c) =
      ((List.range (raw.nMaps - s)).map fun t => ((shifted s c).level t).getD 0).map some := by
    unfold centreLevels
    rw [List.map_map]
    refine List.map_congr_left fun t ht => ?_
    obtain ⟨z, hz, -⟩ := hlev t (List.mem_range.1 ht)
    simp only [Function.comp_apply, hz]
    rfl
  have hmono : checkMonotonicity (centreLevels (raw.nMaps - s) (shifted s c)) = List.replicate (raw.nMaps - s) true := by
    have hl : (centreLevels (raw.nMaps - s) (shifted s c)).length = raw.nMaps - s := by
      unfold centreLevels; rw [List.length_map, List.length_range]
    have := mono_rising (centreLevels (raw.nMaps - s) (shifted s c)) (by intro e; rw [e] at hl; have : raw.nMaps - s = 0 := hl.symm; omega) (by
      intro i hi
      rw [hl] at hi
      obtain ⟨z, hz, hz1⟩ := hlev i (by omega)
      obtain ⟨z', hz', hz1'⟩ := hlev (i + 1) (by omega)
      rw [hcl, List.getElem?_map, List.getElem?_map, List.getElem?_map, List.getElem?_map, List.getElem?_range (by omega),
        List.getElem?_range (by omega)]
      simp only [Option.map_some, Option.join_some, hz, hz', Option.getD_some]
      unfold fgt
      exact decide_eq_true (hr.2 (s + i) (s + (i + 1)) (by omega) (by omega) (by omega) _ _ hz1 hz1'))
    rw [this, hl]
  unfold buildGeometry at h
  rw [hs, timeseries_shifted s raw hn.le] at h
  have hcc : (raw.cells.map (shifted s))[centre]? = some (shifted s c) := by rw [List.getElem?_map, hc]; rfl
  simp only [hcc] at h
  rw [if_neg (show ¬ raw.nMaps - s = 0 by omega), hL] at h
  cases hp : pyIndex (raw.nMaps - s) (L : Int) with
  | error e => rw [hp] at h; cases h
  | ok L' =>
    rw [hp] at h
    have hL' : L' = L := by
      unfold pyIndex at hp
      rw [if_pos (Int.natCast_nonneg L), Int.toNat_natCast] at hp
      split at hp
      · exact (Except.ok.inj hp).symm
      · cases hp
    subst hL'
    simp only at h
    have hlen : ∀ {β : Type} (f : Nat → β), ((List.range (raw.nMaps - s)).map f).length = raw.nMaps - s := by
      intro β f; rw [List.length_map, List.length_range]
    rw [hmono, mask_all _ _ (by rw [hcl, List.length_map, hlen]), hcl, allSome_map] at h
    cases hd : (shifted s c).depth 0 with
    | none => rw [hd] at h; cases h
    | some depth0 =>
      rw [hd] at h
      refine ⟨depth0, rfl, ?_⟩
      have h := Except.ok.inj h
      rw [← h, hcl]
      unfold series2d
      simp only
      rw [mask_all _ _ (hlen _), mask_all _ _ (hlen _), mask_all _ _ (hlen _), mask_all _ _ (hlen _)]

/-- Of the geometry with only some of the maps, the columns that are given for each map. -/
theorem build_fewer (cfg : BuildConfig K) (hm : cfg.conveyanceDetectionMethod ≠ 0) (s L : Nat) (hs : cfg.skipMaps = (s : Int))
    (hL : cfg.lakeTimesteps = (L : Int)) (len : K) (centre : Nat) (raw : ControlVolume K) (ts : List Nat)
    (hts : Selects raw.nMaps s ts) (c : Cell K) (hc : raw.cells[centre]? = some c) (hr : RisingFrom s raw.nMaps c.level)
    (hlake : ∀ k ∈ raw.cells, isLake L (shifted s k) = false ∧ isLake L (shifted s (chosen ts k)) = false) (b b' : Built K)
    (h : buildGeometry cfg len centre raw = .ok b)
    (h' : buildGeometry cfg len centre (ControlVolume.onlyMaps ts raw) = .ok b') :
    b'.z = keepMaps s ts b.z ∧ b'.wetArea = keepMaps s ts b.wetArea ∧ b'.flowArea = keepMaps s ts b.flowArea ∧
      b'.totalWidth = keepMaps s ts b.totalWidth ∧ b'.totalVolume2d = keepMaps s ts b.totalVolume2d ∧
      b'.flowVolume2d = keepMaps s ts b.flowVolume2d ∧ List.Forall₂ (· ≤ ·) (keepMaps s ts b.flowWidth) b'.flowWidth := by
  have hdrop := selects_drop _ _ _ hts
  obtain ⟨hsl, -⟩ := List.getElem?_eq_some_iff.1 hts.first
  have hsn : s < raw.nMaps := hts.within s (List.mem_of_getElem? hts.first)
  have hge : ∀ t u, ts[s + t]? = some u → s ≤ u ∧ u < raw.nMaps := by
    intro t u e
    refine hdrop u (List.mem_of_getElem? (i := t) ?_)
    rw [List.getElem?_drop]; exact e
  have hr' : RisingFrom s ts.length (chosen ts c).level := by
    refine ⟨fun t h1 h2 => ?_, fun t t' h1 h2 h3 a a' e1 e2 => ?_⟩
    · have hu := List.getElem?_eq_getElem h2
      obtain ⟨g1, g2⟩ := hge (t - s) ts[t] (by rw [show s + (t - s) = t by omega]; exact hu)
      obtain ⟨z, hz, hz'⟩ := hr.1 ts[t] g1 g2
      refine ⟨z, ?_, hz'⟩
      show ts[t]?.bind c.level = some z
      rw [hu]; exact hz
    · have hu := List.getElem?_eq_getElem (l := ts) (i := t) (by omega)
      have hu' := List.getElem?_eq_getElem h3
      obtain ⟨g1, g2⟩ := hge (t - s) ts[t] (by rw [show s + (t - s) = t by omega]; exact hu)
      have hlt := List.pairwise_iff_getElem.1 hts.order t t' (by omega) h3 h2
      have e1 : ts[t]?.bind c.level = some a := e1
      have e2 : ts[t']?.bind c.level = some a' := e2
      rw [hu] at e1
      rw [hu'] at e2
      exact hr.2 _ _ g1 hlt (hts.within _ (List.getElem_mem h3)) a a' e1 e2
  have hc' : (ControlVolume.onlyMaps ts raw).cells[centre]? = some (chosen ts c) := by
    unfold ControlVolume.onlyMaps
    rw [List.getElem?_map, hc]; rfl
  obtain ⟨d, hd, hb⟩ := build_rising cfg s L hs hL len centre raw hsn c hc hr b h
  obtain ⟨d', hd', hb'⟩ := build_rising cfg s L hs hL len centre (ControlVolume.onlyMaps ts raw) hsl _ hc' hr' b' h'
  have hcells : (ControlVolume.onlyMaps ts raw).cells.map (shifted s) = raw.cells.map fun k => shifted s (chosen ts k) := by
    unfold ControlVolume.onlyMaps
    rw [List.map_map]; rfl
  have hn' : (ControlVolume.onlyMaps ts raw).nMaps = ts.length := rfl
  rw [hcells, hn'] at hb'
  have hzero : ∀ k : Cell K, (shifted s (chosen ts k)).depth 0 = (shifted s k).depth 0 ∧
      (shifted s (chosen ts k)).level 0 = (shifted s k).level 0 := by
    intro k
    have := chosen_at s ts k 0 s hts.first le_rfl
    rw [Nat.sub_self] at this
    exact ⟨this.1, this.2.1⟩
  have hdd : d' = d := by
    rw [(hzero c).1, hd] at hd'
    exact (Option.some.inj hd').symm
  subst hdd
  have hbelow : ∀ dz, areaBelow L (raw.cells.map fun k => shifted s (chosen ts k)) dz = areaBelow L (raw.cells.map (shifted s)) dz := by
    intro dz
    unfold areaBelow
    refine area_congr _ _ _ _ _ (fun k _ => rfl) fun k hk i => ?_
    rw [wet_no L _ (hlake k hk).1, wet_no L _ (hlake k hk).2, (hzero k).1, (hzero k).2]
    rfl
  have hwet : ∀ t u, ts[s + t]? = some u → maskedArea (raw.cells.map fun k => shifted s (chosen ts k)) (fun _ c => wetNotLake L c t) =
      maskedArea (raw.cells.map (shifted s)) fun _ c => wetNotLake L c (u - s) := by
    intro t u e
    refine area_congr _ _ _ _ _ (fun k _ => rfl) fun k hk i => ?_
    rw [wet_no L _ (hlake k hk).1, wet_no L _ (hlake k hk).2, (chosen_at s ts k t u e (hge t u e).1).1]
  have hmask : ∀ t u, ts[s + t]? = some u → ∀ k ∈ raw.cells, ∀ i,
      flowMask cfg ⟨ts.length - s, raw.cells.map fun k => shifted s (chosen ts k)⟩ i (shifted s (chosen ts k)) t =
        flowMask cfg ⟨raw.nMaps - s, raw.cells.map (shifted s)⟩ i (shifted s k) (u - s) := by
    intro t u e k hk i
    unfold flowMask
    rw [if_neg hm, if_neg hm, (chosen_at s ts k t u e (hge t u e).1).1, (chosen_at s ts k t u e (hge t u e).1).2.2]
    simp only [List.map_map]
    congr 1
    exact List.map_congr_left fun k' _ => (chosen_at s ts k' t u e (hge t u e).1).2.2
  have hflow : ∀ t u, ts[s + t]? = some u → maskedArea (raw.cells.map fun k => shifted s (chosen ts k))
        (fun i c => flowMask cfg ⟨ts.length - s, raw.cells.map fun k => shifted s (chosen ts k)⟩ i c t) =
      maskedArea (raw.cells.map (shifted s)) fun i c => flowMask cfg ⟨raw.nMaps - s, raw.cells.map (shifted s)⟩ i c (u - s) := by
    intro t u e
    exact area_congr _ _ _ _ _ (fun k _ => rfl) fun k hk i => hmask t u e k hk i
  have htv : ∀ t u, ts[s + t]? = some u → maskedVolume (raw.cells.map fun k => shifted s (chosen ts k)) (fun _ c => wetNotLake L c t)
        (fun c => correctedDepth L (some d') c t) =
      maskedVolume (raw.cells.map (shifted s)) (fun _ c => wetNotLake L c (u - s)) fun c => correctedDepth L (some d') c (u - s) := by
    intro t u e
    refine volume_congr _ _ _ _ _ _ _ (fun k _ => rfl) (fun k hk i => ?_) fun k hk => ?_
    · rw [wet_no L _ (hlake k hk).1, wet_no L _ (hlake k hk).2, (chosen_at s ts k t u e (hge t u e).1).1]
    · exact corrected_no L L _ _ _ (hlake k hk).1 (hlake k hk).2 t (u - s) (chosen_at s ts k t u e (hge t u e).1).1 (hzero k).1
  have hfv : ∀ t u, ts[s + t]? = some u → maskedVolume (raw.cells.map fun k => shifted s (chosen ts k))
        (fun i c => flowMask cfg ⟨ts.length - s, raw.cells.map fun k => shifted s (chosen ts k)⟩ i c t)
        (fun c => correctedDepth L (some d') c t) =
      maskedVolume (raw.cells.map (shifted s)) (fun i c => flowMask cfg ⟨raw.nMaps - s, raw.cells.map (shifted s)⟩ i c (u - s))
        fun c => correctedDepth L (some d') c (u - s) := by
    intro t u e
    refine volume_congr _ _ _ _ _ _ _ (fun k _ => rfl) (fun k hk i => hmask t u e k hk i) fun k hk => ?_
    exact corrected_no L L _ _ _ (hlake k hk).1 (hlake k hk).2 t (u - s) (chosen_at s ts k t u e (hge t u e).1).1 (hzero k).1
  have hhead : ∀ {β : Type} (W W' : Nat → β) (d : β), (∀ t u, ts[s + t]? = some u → W' t = W (u - s)) →
      ((List.range (ts.length - s)).map W').headD d = ((List.range (raw.nMaps - s)).map W).headD d := by
    intro β W W' d e
    obtain ⟨p, hp⟩ : ∃ p, ts.length - s = p + 1 := ⟨ts.length - s - 1, by omega⟩
    obtain ⟨q, hq⟩ : ∃ q, raw.nMaps - s = q + 1 := ⟨raw.nMaps - s - 1, by omega⟩
    rw [hp, hq, List.range_succ_eq_map, List.range_succ_eq_map, List.map_cons, List.map_cons, List.headD_cons, List.headD_cons]
    have := e 0 s hts.first
    rwa [Nat.sub_self] at this
  have hlev : ∀ t u, ts[s + t]? = some u →
      ((shifted s (chosen ts c)).level t).getD 0 = ((shifted s c).level (u - s)).getD 0 := by
    intro t u e
    rw [(chosen_at s ts c t u e (hge t u e).1).2.1]
  have hten : ∀ {β : Type} (f : K → β), ((linspace10 d').reverse.map f).length = 10 := by
    intro β f
    rw [List.length_map, List.length_reverse]
    unfold linspace10
    rw [List.length_map, List.length_range]
  have hpre : ∀ {β : Type} (f f' : K → β), (∀ y, f' y = f y) → (linspace10 d').reverse.map f' = (linspace10 d').reverse.map f :=
    fun f f' e => List.map_congr_left fun y _ => e y
  rw [hb, hb']
  unfold assemble series2d
  simp only [List.map_map]
  refine ⟨?_, ?_, ?_, ?_, ?_, ?_, ?_⟩
  · rw [hhead (fun t => ((shifted s c).level t).getD 0) _ 0 hlev]
    exact keep_rows ts s raw.nMaps _ (hten _) _ _ hdrop hlev
  · rw [hpre _ _ hbelow]
    exact keep_rows ts s raw.nMaps _ (hten _) _ _ hdrop hwet
  · rw [hhead (fun t => maskedArea (raw.cells.map (shifted s)) fun i c =>
      flowMask cfg ⟨raw.nMaps - s, raw.cells.map (shifted s)⟩ i c t) _ 0 hflow]
    generalize (List.map (fun t => maskedArea (raw.cells.map (shifted s)) fun i c =>
      flowMask cfg ⟨raw.nMaps - s, raw.cells.map (shifted s)⟩ i c t) (List.range (raw.nMaps - s))).headD 0 = f0
    rw [hpre (f' := flowAreaBelow cfg.extrapolateStorage f0 ∘ areaBelow L (raw.cells.map fun k => shifted s (chosen ts k)))
      (f := flowAreaBelow cfg.extrapolateStorage f0 ∘ areaBelow L (raw.cells.map (shifted s)))
      fun y => by simp only [Function.comp_apply, hbelow]]
    exact keep_rows ts s raw.nMaps _ (hten _) _ _ hdrop hflow
  · rw [hpre (f' := (fun x => x / len) ∘ areaBelow L (raw.cells.map fun k => shifted s (chosen ts k)))
      (f := (fun x => x / len) ∘ areaBelow L (raw.cells.map (shifted s))) fun y => by simp only [Function.comp_apply, hbelow]]
    exact keep_rows ts s raw.nMaps _ (hten _) _ _ hdrop fun t u e => by simp only [Function.comp_apply, hwet t u e]
  · exact keep_rows ts s raw.nMaps _ (hten _) _ _ hdrop fun t u e => by simp only [Function.comp_apply, htv t u e]
  · exact keep_rows ts s raw.nMaps _ (hten _) _ _ hdrop fun t u e => by simp only [Function.comp_apply, hfv t u e]
  · rw [hhead (fun t => maskedArea (raw.cells.map (shifted s)) fun i c =>
      flowMask cfg ⟨raw.nMaps - s, raw.cells.map (shifted s)⟩ i c t) _ 0 hflow]
    generalize (List.map (fun t => maskedArea (raw.cells.map (shifted s)) fun i c =>
      flowMask cfg ⟨raw.nMaps - s, raw.cells.map (shifted s)⟩ i c t) (List.range (raw.nMaps - s))).headD 0 = f0
    rw [hpre (f' := (fun x => x / len) ∘ flowAreaBelow cfg.extrapolateStorage f0 ∘
        areaBelow L (raw.cells.map fun k => shifted s (chosen ts k)))
      (f := (fun x => x / len) ∘ flowAreaBelow cfg.extrapolateStorage f0 ∘ areaBelow L (raw.cells.map (shifted s)))
      fun y => by simp only [Function.comp_apply, hbelow]]
    exact keep_backMin ts s raw.nMaps _ (hten _) _ _ hts hdrop fun t u e => by simp only [Function.comp_apply, hflow t u e]

/-! ## The map file with only some of the maps -/

theorem uniform_pick (ts : List Nat) (h : ts.Pairwise (· < ·)) : Uniform (K := K) (pickMaps ts) := by
  intro f a b
  unfold pickMaps
  induction ts with
  | nil => rfl
  | cons t ts ih =>
    have hlt := (List.pairwise_cons.1 h).1
    have ih := ih (List.pairwise_cons.1 h).2
    have hnil : ∀ l : List (Option K), l[t]? = none → ts.filterMap (fun t => l[t]?) = [] := by
      intro l hl
      refine List.filterMap_eq_nil_iff.2 fun u hu => List.getElem?_eq_none ?_
      have := List.getElem?_eq_none_iff.1 hl
      have := hlt u hu
      omega
    rw [List.filterMap_cons, List.filterMap_cons, List.filterMap_cons, List.getElem?_zipWith]
    cases ha : a[t]? with
    | none =>
      have hz : (List.zipWith f a b)[t]? = none := by rw [List.getElem?_zipWith, ha]
      simp only
      rw [hnil a ha, hnil _ hz]
      rfl
    | some u =>
      cases hb : b[t]? with
      | none =>
        have hz : (List.zipWith f a b)[t]? = none := by rw [List.getElem?_zipWith, ha, hb]
        simp only
        rw [hnil b hb, hnil _ hz]
        rfl
      | some v =>
        simp only [List.zipWith_cons_cons]
        rw [ih]

theorem mapSeries_pick (ts : List Nat) (r : List (Option K)) (h : ∀ t ∈ ts, t < r.length) :
    mapSeries (pickMaps ts r) = fun t => ts[t]?.bind (mapSeries r) := by
  have e : pickMaps ts r = ts.map (mapSeries r) := by
    unfold pickMaps
    have e' : ts.map (mapSeries r) = ts.filterMap fun t => some (mapSeries r t) := (congrFun List.filterMap_eq_map _).symm
    rw [e']
    refine List.filterMap_congr fun t ht => ?_
    unfold mapSeries
    rw [List.getElem?_eq_getElem (h t ht)]
    rfl
  funext t
  rw [e]
  unfold mapSeries
  rw [List.getElem?_map]
  cases ts[t]? with
  | none => rfl
  | some u => rfl

theorem controlVolume_pick (ts : List Nat) (n : Nat) (c : Selection Text K) (hts : ∀ t ∈ ts, t < n)
    (hlen : ∀ r ∈ c.waterdepth ++ c.waterlevel ++ c.velocity, r.length = n) :
    controlVolumeOf ts.length (editSelection (pickMaps ts) c) = ControlVolume.onlyMaps ts (controlVolumeOf n c) := by
  have h := cells_edit (pickMaps ts) ts.length n c (fun f t => ts[t]?.bind f) fun r hr =>
    mapSeries_pick ts r fun t ht => by rw [hlen r hr]; exact hts t ht
  unfold ControlVolume.onlyMaps
  rw [← h]
  rfl

theorem isLake_of_clean (L s : Nat) (c : Cell K) (h : isLake L (shifted s c) = true) : IsLake (fun t => c.depth (s + t)) L := by
  unfold isLake shifted at h
  simp only at h
  obtain ⟨h1, h2⟩ := Bool.and_eq_true_iff.1 h
  have hclean : ∀ o : Option K, ∀ x, clean o = some x → o = some x := by
    intro o x ho
    cases o with
    | none => cases ho
    | some y =>
      unfold clean at ho
      simp only at ho
      split at ho
      · cases ho
      · exact ho
  cases e1 : clean (c.depth (s + L)) with
  | none => rw [e1] at h1; cases h1
  | some a =>
    cases e2 : clean (c.depth (s + 0)) with
    | none => rw [e1, e2] at h2; cases h2
    | some b =>
      rw [e1] at h1
      rw [e1, e2] at h2
      exact ⟨a, b, hclean _ _ e1, hclean _ _ e2, of_decide_eq_true h1, of_decide_eq_true h2⟩

theorem noLake (L s : Nat) (c : Cell K) (h : ¬ IsLake (fun t => c.depth (s + t)) L) : isLake L (shifted s c) = false := by
  cases e : isLake L (shifted s c) with
  | false => rfl
  | true => exact absurd (isLake_of_clean L s c e) h

end Fm2prof.FewerMapsProof

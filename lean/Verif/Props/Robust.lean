import Mathlib.Algebra.Order.Field.Rat
import Verif.Proofs.Robust
import Verif.Props.Invariance

/-!
# Maps and faces that should not matter: C164, C165
-/

set_option linter.unusedSectionVars false

namespace Fm2prof.Props

open Fm2prof Spec

variable {K : Type} [Field K] [LinearOrder K] [IsStrictOrderedRing K]

/-! ## C164: maps in which the water does not rise -/

private theorem lake_of_clean (L s : Nat) (n : Nat) (c : Cell K) (raw : ControlVolume K) (hraw : sliceStart raw.nMaps (n : Int) = s)
    (h : isLake L { c with
        depth := fun t => clean (c.depth (sliceStart raw.nMaps (n : Int) + t))
        level := fun t => clean (c.level (sliceStart raw.nMaps (n : Int) + t))
        velocity := fun t => clean (c.velocity (sliceStart raw.nMaps (n : Int) + t)) } = true) :
    IsLake (fun t => c.depth (s + t)) L := by
  unfold isLake at h
  simp only [hraw] at h
  obtain ⟨h1, h2⟩ := Bool.and_eq_true_iff.1 h
  have hclean : ∀ o : Option K, ∀ x, clean o = some x → o = some x := by
    intro o x ho
    cases o with
    | none => cases ho
    | some y =>
      unfold clean at ho
      simp only at ho
      split at ho
      · cases ho
      · exact ho
  cases hL : clean (c.depth (s + L)) with
  | none => rw [hL] at h1; cases h1
  | some dL =>
    cases h0 : clean (c.depth (s + 0)) with
    | none => rw [hL, h0] at h2; cases h2
    | some d0 =>
      rw [hL] at h1
      rw [hL, h0] at h2
      exact ⟨dL, d0, hclean _ _ hL, hclean _ _ h0, of_decide_eq_true h1, of_decide_eq_true h2⟩

/-- **C164, partial.** Let a map come after those that are skipped and used to find lakes, and let the level at the centre not be above that of
some earlier map. Without this map the profile is the same, with its widths, volumes, crest level and extra areas, if it is the last map, if
all depths are those of the map before, or if there are no lakes. The default way of finding the flowing part is used, and the centre is
always wet. What is missing: other maps where there are lakes, see `C164_lake_violated`, and the other way to find the flowing part, see
`C164_mean_velocity_violated`. -/
theorem C164_not_rising_partial (opt : Optimiser K) (cfg : PipelineConfig K) (hm : cfg.build.conveyanceDetectionMethod ≠ 0)
    (bump : K → K) (release : K → K → K → K) (log : Nat → Option PyErr) (len : K) (centre : Nat) (raw : ControlVolume K) (s L p : Nat)
    (hs : cfg.build.skipMaps = (s : Int)) (hL : cfg.build.lakeTimesteps = (L : Int)) (hp : s + L < p) (hn : p < raw.nMaps)
    (c : Cell K) (hc : raw.cells[centre]? = some c) (hwet : ∀ t, s ≤ t → t < raw.nMaps → ∃ x, c.level t = some x ∧ x ≠ -999)
    (hlow : ∃ j, s ≤ j ∧ j < p ∧ ∃ x y, c.level p = some x ∧ c.level j = some y ∧ x ≤ y)
    (hl : p + 1 = raw.nMaps ∨ (∀ k ∈ raw.cells, k.depth p = k.depth (p - 1)) ∨
      ∀ k ∈ raw.cells, ¬ IsLake (fun t => k.depth (s + t)) L) :
    (buildCrossSectionGeometry opt cfg bump release log len centre (ControlVolume.without p raw)).map profileOf =
      (buildCrossSectionGeometry opt cfg bump release log len centre raw).map profileOf := by
  apply geometry_eq_levels
  refine buildGeometry_without cfg.build hm s L hs hL len centre raw p hp hn c hc hwet hlow fun k hk => ?_
  have hslice : sliceStart raw.nMaps (s : Int) = s := by
    unfold sliceStart
    rw [if_pos (Int.natCast_nonneg s), Int.toNat_natCast]; omega
  unfold getTimeseries at hk
  obtain ⟨k', hk', rfl⟩ := List.mem_map.1 hk
  rcases hl with h | h | h
  · exact Or.inl h
  · right; left
    simp only [hslice]
    rw [show s + (p - s) = p by omega, show s + (p - s - 1) = p - 1 by omega, h k' hk']
  · right; right
    by_contra hlake
    rw [Bool.not_eq_false] at hlake
    exact h k' hk' (lake_of_clean L s s k' raw hslice hlake)

/-- **C164, after the highest water.** All maps after the highest level at the centre may be left out. -/
theorem C164_after_peak (opt : Optimiser K) (cfg : PipelineConfig K) (hm : cfg.build.conveyanceDetectionMethod ≠ 0)
    (bump : K → K) (release : K → K → K → K) (log : Nat → Option PyErr) (len : K) (centre : Nat) (s L n k : Nat)
    (hs : cfg.build.skipMaps = (s : Int)) (hL : cfg.build.lakeTimesteps = (L : Int)) (hp : s + L < n) (raw : ControlVolume K)
    (hn : raw.nMaps = n + k) (c : Cell K) (hc : raw.cells[centre]? = some c)
    (hwet : ∀ t, s ≤ t → t < raw.nMaps → ∃ x, c.level t = some x ∧ x ≠ -999)
    (hlow : ∀ t, n ≤ t → t < raw.nMaps → ∃ j, s ≤ j ∧ j < n ∧ ∃ x y, c.level t = some x ∧ c.level j = some y ∧ x ≤ y) :
    (buildCrossSectionGeometry opt cfg bump release log len centre (ControlVolume.withoutLast k raw)).map profileOf =
      (buildCrossSectionGeometry opt cfg bump release log len centre raw).map profileOf := by
  induction k generalizing raw c with
  | zero => rfl
  | succ k ih =>
    have hlast : raw.nMaps - 1 = n + k := by omega
    have h1 := C164_not_rising_partial opt cfg hm bump release log len centre raw s L (raw.nMaps - 1) hs hL (by omega) (by omega) c hc hwet (by
      obtain ⟨j, h1, h2, h3⟩ := hlow (raw.nMaps - 1) (by omega) (by omega)
      exact ⟨j, h1, by omega, h3⟩) (Or.inl (by omega))
    rw [← h1]
    have hlev : ∀ t, t < n + k → (Cell.without (raw.nMaps - 1) c).level t = c.level t := by
      intro t ht
      rw [level_without, if_pos (by omega)]
    refine ih (ControlVolume.without (raw.nMaps - 1) raw) hlast (Cell.without (raw.nMaps - 1) c) ?_ ?_ ?_
    · show (raw.cells.map (Cell.without (raw.nMaps - 1)))[centre]? = _
      rw [List.getElem?_map, hc]
      rfl
    · intro t h2 h3
      have h3' : t < n + k := by
        have : t < raw.nMaps - 1 := h3
        omega
      rw [hlev t h3']
      exact hwet t h2 (by omega)
    · intro t h2 h3
      have h3' : t < n + k := by
        have : t < raw.nMaps - 1 := h3
        omega
      obtain ⟨j, a1, a2, x, y, a3, a4, a5⟩ := hlow t h2 (by omega)
      exact ⟨j, a1, a2, x, y, by rw [hlev t h3']; exact a3, by rw [hlev j (by omega)]; exact a4, a5⟩

/-- A river with levels 2, 3, 3, 4 and beside it a lake that rises by eight tenths of a millimetre in the third map and again in the
fourth. -/
def lakeBeside : ControlVolume ℚ :=
  ⟨4, [⟨100, 0, fun t => [some 2, some 3, some 3, some 4][t]?.join, fun t => [some 2, some 3, some 3, some 4][t]?.join, fun _ => some 1⟩,
    ⟨50, 1, fun t => [some 1, some 1, some (10008 / 10000), some (10016 / 10000)][t]?.join,
      fun t => [some 2, some 2, some (20008 / 10000), some (20016 / 10000)][t]?.join, fun _ => some 0⟩]⟩

private def plainConfig : BuildConfig ℚ :=
  { skipMaps := 0, lakeTimesteps := 1, absoluteVelocityThreshold := 1 / 10, relativeVelocityThreshold := 0
    conveyanceDetectionMethod := 1, extrapolateStorage := false }

/-- **C164, violated: lakes.** The third map has the level of the second at the centre. With it the lake never rises by more than a
millimetre from one map to the next and does not count; without it the lake counts at the highest level, and the total width is five
metres more. -/
theorem C164_lake_violated :
    ((buildGeometry plainConfig 10 0 lakeBeside).toOption.map (·.totalWidth.getLast?)) = some (some 10) ∧
      ((buildGeometry plainConfig 10 0 (ControlVolume.without 2 lakeBeside)).toOption.map (·.totalWidth.getLast?)) = some (some 15) := by
  decide +kernel

/-- A river with two cells, the second of which flows slowly; in the third map the water is lower and the first cell flows fast. -/
def fallingFast : ControlVolume ℚ :=
  ⟨3, List.replicate 5 ⟨100, 0, fun t => [some 2, some 3, some 2][t]?.join, fun t => [some 2, some 3, some 2][t]?.join,
    fun t => [some 1, some 1, some 9][t]?.join⟩⟩

/-- **C164, violated: the mean velocity.** With the other way to find the flowing part, fast flow in a map after the highest water makes
all that flows at the highest level count as storage. -/
theorem C164_mean_velocity_violated :
    ((buildGeometry { plainConfig with conveyanceDetectionMethod := 0, relativeVelocityThreshold := 1 / 2 } 10 0 fallingFast).toOption.map
      (·.flowWidth.getLast?)) = some (some 0) ∧
    ((buildGeometry { plainConfig with conveyanceDetectionMethod := 0, relativeVelocityThreshold := 1 / 2 } 10 0
      (ControlVolume.without 2 fallingFast)).toOption.map (·.flowWidth.getLast?)) = some (some 50) := by
  decide +kernel

/-- With the default way the last map does not matter there: the hypotheses of `C164_not_rising_partial` hold. -/
example : (2 : Nat) + 1 = fallingFast.nMaps ∧ 0 + 1 < 2 ∧
    (∀ t, 0 ≤ t → t < fallingFast.nMaps →
      ∃ x : ℚ, (fallingFast.cells[0]?.bind fun c => c.level t) = some x ∧ x ≠ -999) ∧
    (fallingFast.cells[0]?.bind fun c => c.level 2) = some 2 ∧ (fallingFast.cells[0]?.bind fun c => c.level 1) = some 3 := by
  refine ⟨rfl, by omega, ?_, rfl, rfl⟩
  intro t _ ht
  have h3 : t < 3 := ht
  have : t = 0 ∨ t = 1 ∨ t = 2 := by omega
  rcases this with rfl | rfl | rfl
  · exact ⟨2, rfl, by norm_num⟩
  · exact ⟨3, rfl, by norm_num⟩
  · exact ⟨2, rfl, by norm_num⟩

/-! ## C165: the resolution of the grid -/

/-- **C165, all of the water.** When faces are divided into smaller ones that hold the same water, the levels, total widths, wet areas and
total volumes of the profile are the same, for every way to find the flowing part. -/
theorem C165_totals (cfg : BuildConfig K) (len : K) (centre centre' : Nat) (raw raw' : ControlVolume K) (hn : raw'.nMaps = raw.nMaps)
    (h : Divided raw.cells raw'.cells) (c c' : Cell K) (hc : raw.cells[centre]? = some c) (hc' : raw'.cells[centre']? = some c')
    (hs : SameWater c c') :
    (buildGeometry cfg len centre' raw').map totalsOf = (buildGeometry cfg len centre raw).map totalsOf :=
  buildGeometry_totals cfg len centre centre' raw raw' hn h c c' hc hc' hs

/-- **C165, partial.** The finished cross-section is the same in all its parts when at every map the mean of the three largest velocities
is the same in both grids. What is missing: other divisions, see `C165_flow_violated`, and the other way to find the flowing part. -/
theorem C165_divided_partial (opt : Optimiser K) (cfg : PipelineConfig K) (hm : cfg.build.conveyanceDetectionMethod ≠ 0)
    (bump : K → K) (release : K → K → K → K) (log : Nat → Option PyErr) (len : K) (centre centre' : Nat) (raw raw' : ControlVolume K)
    (hn : raw'.nMaps = raw.nMaps) (h : Divided raw.cells raw'.cells) (c c' : Cell K)
    (hc : raw.cells[centre]? = some c) (hc' : raw'.cells[centre']? = some c') (hs : SameWater c c')
    (ht : ∀ t < raw.nMaps, SameFastest raw.cells raw'.cells t) :
    buildCrossSectionGeometry opt cfg bump release log len centre' raw' =
      buildCrossSectionGeometry opt cfg bump release log len centre raw := by
  refine geometry_eq_of opt cfg bump release log len centre' centre raw' raw
    (buildGeometry_divided cfg.build hm len centre centre' raw raw' hn h c c' hc hc' hs ?_)
  intro t hlt
  have hpos : raw.cells.length ≠ 0 := by
    have := (List.getElem?_eq_some_iff.1 hc).1
    omega
  have hpos' : raw'.cells.length ≠ 0 := by
    have := (List.getElem?_eq_some_iff.1 hc').1
    omega
  unfold getTimeseries at hlt ⊢
  simp only [List.map_map, hn] at hlt ⊢
  exact top3_fastest (t := sliceStart raw.nMaps cfg.build.skipMaps + t) ⟨fun h => absurd h hpos, fun h => absurd h hpos'⟩ (ht _ (by omega))

/-- A fast face, a slow one and one at rest. -/
def coarse : ControlVolume ℚ :=
  ⟨2, [⟨300, 0, fun t => [some 2, some 3][t]?.join, fun t => [some 2, some 3][t]?.join, fun _ => some (36 / 100)⟩,
    ⟨100, 0, fun t => [some 2, some 3][t]?.join, fun t => [some 2, some 3][t]?.join, fun _ => some (5 / 1000)⟩,
    ⟨100, 0, fun t => [some 2, some 3][t]?.join, fun t => [some 2, some 3][t]?.join, fun _ => some 0⟩]⟩

/-- The same with the fast face divided into three. -/
def fine : ControlVolume ℚ :=
  ⟨2, List.replicate 3 ⟨100, 0, fun t => [some 2, some 3][t]?.join, fun t => [some 2, some 3][t]?.join, fun _ => some (36 / 100)⟩ ++
    coarse.cells.drop 1⟩

private theorem divided_self (cells : List (Cell K)) : Divided cells cells := by
  induction cells with
  | nil => exact Divided.nil
  | cons c cells ih =>
    have := Divided.cons (c := c) (parts := [c]) (fun p hp => by
      obtain rfl := List.mem_singleton.1 hp
      exact ⟨rfl, rfl, rfl, rfl⟩) (by simp) ih
    simpa using this

theorem C165_fine_divides : Divided coarse.cells fine.cells := by
  refine Divided.cons (parts := List.replicate 3 _) ?_ ?_ (divided_self _)
  · intro p hp
    rw [List.eq_of_mem_replicate hp]
    exact ⟨rfl, rfl, rfl, rfl⟩
  · decide +kernel

/-- **C165, violated.** With the default thresholds the slow face flows in the coarse grid and is storage in the finer one, since the three
largest velocities are then all those of one face of before. The total widths are the same. -/
theorem C165_flow_violated :
    Divided coarse.cells fine.cells ∧
      ((buildGeometry riverConfig 10 0 coarse).toOption.map (·.flowWidth.getLast?)) = some (some 40) ∧
      ((buildGeometry riverConfig 10 0 fine).toOption.map (·.flowWidth.getLast?)) = some (some 30) ∧
      ((buildGeometry riverConfig 10 0 coarse).toOption.map (·.totalWidth.getLast?)) = some (some 50) ∧
      ((buildGeometry riverConfig 10 0 fine).toOption.map (·.totalWidth.getLast?)) = some (some 50) := by
  refine ⟨C165_fine_divides, ?_⟩
  decide +kernel

/-- Four faces of one velocity, and the first of them divided in two: the hypotheses of `C165_divided_partial` hold. -/
def evenFlow : ControlVolume ℚ :=
  ⟨2, List.replicate 4 ⟨100, 0, fun t => [some 2, some 3][t]?.join, fun t => [some 2, some 3][t]?.join, fun _ => some 1⟩⟩

def evenFlowFine : ControlVolume ℚ :=
  ⟨2, List.replicate 2 ⟨50, 0, fun t => [some 2, some 3][t]?.join, fun t => [some 2, some 3][t]?.join, fun _ => some 1⟩ ++
    evenFlow.cells.drop 1⟩

private theorem largest_const (n : Nat) (top : List ℚ) (h : Largest 3 (List.replicate (n + 3) 1) top) : mean top = 1 := by
  obtain ⟨rest, hp, hl, _⟩ := h
  have h1 : ∀ x ∈ top, x = 1 := fun x hx =>
    List.eq_of_mem_replicate (hp.mem_iff.2 (List.mem_append_left _ hx))
  have hlen : top.length = 3 := by rw [hl, List.length_replicate]; omega
  rw [List.eq_replicate_of_mem h1, hlen]
  decide +kernel

example : Divided evenFlow.cells evenFlowFine.cells ∧ evenFlowFine.nMaps = evenFlow.nMaps ∧
    (∀ t < evenFlow.nMaps, SameFastest evenFlow.cells evenFlowFine.cells t) := by
  refine ⟨?_, rfl, fun t _ => ⟨List.replicate 4 1, List.replicate 5 1, rfl, rfl, by decide +kernel, by decide +kernel, ?_⟩⟩
  · refine Divided.cons (parts := List.replicate 2 _) ?_ ?_ (divided_self _)
    · intro p hp
      rw [List.eq_of_mem_replicate hp]
      exact ⟨rfl, rfl, rfl, rfl⟩
    · decide +kernel
  · intro top top' h h'
    rw [largest_const 1 top h, largest_const 2 top' h']

end Fm2prof.Props

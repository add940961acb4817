import Verif.Spec.Roomier
import Verif.Proofs.Robust
import Verif.Proofs.Stricter

/-!
# Proofs about larger control volumes
-/

set_option linter.unusedSectionVars false

namespace Fm2prof.RoomierProof

open Fm2prof Fm2prof.Spec Fm2prof.Props OneSettingProof ConveyanceProof StricterProof

variable {K : Type} [Field K] [LinearOrder K] [IsStrictOrderedRing K] [FloorRing K]

theorem sum_grows {cells cells' : List (Cell K)} (h : List.SublistForall₂ Roomier cells cells') (ha : ∀ c ∈ cells', 0 ≤ c.area)
    (p : Cell K → Bool) (hp : ∀ c c', SameSurface c c' → p c' = p c) :
    maskedArea cells (fun _ c => p c) ≤ maskedArea cells' fun _ c => p c := by
  rw [maskedArea_const, maskedArea_const]
  induction h with
  | @nil l =>
    refine List.sum_nonneg fun y hy => ?_
    obtain ⟨c, hc, rfl⟩ := List.mem_map.1 hy
    split
    · exact ha c hc
    · exact le_refl _
  | @cons c c' l l' hr _ ih =>
    rw [List.map_cons, List.map_cons, List.sum_cons, List.sum_cons]
    refine add_le_add ?_ (ih fun c hc => ha c (List.mem_cons_of_mem _ hc))
    rw [hp c c' hr.1]
    split
    · exact hr.2
    · exact le_refl _
  | @cons_right c' l l' _ ih =>
    rw [List.map_cons, List.sum_cons]
    have h1 := ih fun c hc => ha c (List.mem_cons_of_mem _ hc)
    have h2 : (0 : K) ≤ if p c' = true then c'.area else 0 := by
      split
      · exact ha c' List.mem_cons_self
      · exact le_refl _
    linarith

theorem resting_same (L : Nat) (c c' : Cell K) (h : SameSurface c c') (t : Nat) : resting L c' t = resting L c t := by
  obtain ⟨h1, h2, h3⟩ := h
  induction t with
  | zero =>
    show isLake L c' = isLake L c
    unfold isLake
    rw [h2]
  | succ t ih => rw [resting, resting, ih, h2]

theorem wet_same (L : Nat) (c c' : Cell K) (h : SameSurface c c') (t : Nat) : wetNotLake L c' t = wetNotLake L c t := by
  unfold wetNotLake
  rw [resting_same L c c' h, h.2.1]

theorem below_grows {cells cells' : List (Cell K)} (h : List.SublistForall₂ Roomier cells cells') (ha : ∀ c ∈ cells', 0 ≤ c.area) (L : Nat)
    (dz : K) : areaBelow L cells dz ≤ areaBelow L cells' dz := by
  unfold areaBelow
  refine sum_grows h ha _ fun c c' hs => ?_
  rw [wet_same L c c' hs, hs.1, hs.2.2]

theorem wetArea_grows (cfg : BuildConfig K) {cv cv' : ControlVolume K} (hn : cv'.nMaps = cv.nMaps)
    (h : List.SublistForall₂ Roomier cv.cells cv'.cells) (ha : ∀ c ∈ cv'.cells, 0 ≤ c.area) (L : Nat) (e : Option K) :
    List.Forall₂ (· ≤ ·) (series2d cfg cv L e).wetArea (series2d cfg cv' L e).wetArea := by
  unfold series2d
  simp only [hn]
  rw [List.forall₂_map_left_iff, List.forall₂_map_right_iff]
  exact List.forall₂_same.2 fun t _ => sum_grows h ha _ fun c c' hs => wet_same L c c' hs t

theorem timeseries_roomier (skip : Int) {raw raw' : ControlVolume K} (hn : raw'.nMaps = raw.nMaps)
    (h : List.SublistForall₂ Roomier raw.cells raw'.cells) :
    List.SublistForall₂ Roomier (getTimeseries skip raw).cells (getTimeseries skip raw').cells := by
  unfold getTimeseries
  simp only [hn]
  revert h
  generalize raw.cells = cells
  generalize raw'.cells = cells'
  intro h
  induction h with
  | nil => exact .nil
  | @cons c c' l l' hr _ ih =>
    refine .cons ?_ ih
    obtain ⟨⟨h1, h2, h3⟩, h4⟩ := hr
    refine ⟨⟨h1, ?_, ?_⟩, h4⟩
    · simp only [h2]
    · simp only [h3]
  | cons_right _ ih => exact .cons_right ih

theorem centre_same (skip : Int) {raw raw' : ControlVolume K} (hn : raw'.nMaps = raw.nMaps) {centre centre' : Nat} {c c' : Cell K}
    (hc : raw.cells[centre]? = some c) (hc' : raw'.cells[centre']? = some c') (hs : SameSurface c c') :
    ∃ d d', (getTimeseries skip raw).cells[centre]? = some d ∧ (getTimeseries skip raw').cells[centre']? = some d' ∧
      d'.bed = d.bed ∧ d'.depth = d.depth ∧ d'.level = d.level := by
  obtain ⟨h1, h2, h3⟩ := hs
  unfold getTimeseries
  simp only [List.getElem?_map, hc, hc', Option.map_some, hn]
  exact ⟨_, _, rfl, rfl, h1, by simp only [h2], by simp only [h3]⟩

/-- With more room the wet areas and total widths are not smaller, at the same levels. -/
theorem build_roomier (cfg : BuildConfig K) (len : K) (hlen : 0 ≤ len) (centre centre' : Nat) (raw raw' : ControlVolume K)
    (hn : raw'.nMaps = raw.nMaps) (hr : List.SublistForall₂ Roomier raw.cells raw'.cells) (ha : ∀ c ∈ raw'.cells, 0 ≤ c.area)
    (c c' : Cell K) (hc : raw.cells[centre]? = some c) (hc' : raw'.cells[centre']? = some c') (hs : SameSurface c c') (b b' : Built K)
    (h : buildGeometry cfg len centre raw = .ok b) (h' : buildGeometry cfg len centre' raw' = .ok b') :
    b'.z = b.z ∧ List.Forall₂ (· ≤ ·) b.wetArea b'.wetArea ∧ List.Forall₂ (· ≤ ·) b.totalWidth b'.totalWidth := by
  obtain ⟨d, d', hd, hd', h1, h2, h3⟩ := centre_same cfg.skipMaps hn hc hc' hs
  have hnm := getTimeseries_nMaps cfg.skipMaps hn
  have hroom := timeseries_roomier cfg.skipMaps hn hr
  have harea : ∀ c ∈ (getTimeseries cfg.skipMaps raw').cells, 0 ≤ c.area := by
    intro c hc
    obtain ⟨c, hc', rfl⟩ := List.mem_map.1 hc
    exact ha c hc'
  unfold buildGeometry at h h'
  revert h h' hd hd' hnm hroom harea
  generalize getTimeseries cfg.skipMaps raw = cv
  generalize getTimeseries cfg.skipMaps raw' = cv'
  intro h h' hd hd' hnm hroom harea
  simp only [hd, hd', hnm, centreLevels_same cv.nMaps h1 h2 h3, h2] at h h'
  by_cases h0 : cv.nMaps = 0
  · rw [if_pos h0] at h; cases h
  · rw [if_neg h0] at h h'
    cases hp : pyIndex cv.nMaps cfg.lakeTimesteps with
    | error e => rw [hp] at h; cases h
    | ok lake =>
      rw [hp] at h h'
      simp only at h h'
      cases hal : allSome (maskSelect (checkMonotonicity (centreLevels cv.nMaps d)) (centreLevels cv.nMaps d)) with
      | none => rw [hal] at h; cases h
      | some z =>
        cases hdep : d.depth 0 with
        | none => rw [hal, hdep] at h; cases h
        | some d0 =>
          rw [hal, hdep] at h h'
          obtain rfl := Except.ok.inj h
          obtain rfl := Except.ok.inj h'
          have hsel := select_rel (checkMonotonicity (centreLevels cv.nMaps d)) _ _ (wetArea_grows cfg hnm hroom harea lake (some d0))
          have hbelow := map_mono_same _ _ (below_grows hroom harea lake) (linspace10 d0).reverse
          refine ⟨rfl, append_rel _ _ _ _ hbelow hsel, append_rel _ _ _ _ ?_ ?_⟩
          · exact map_mono (· / len) (fun x y hxy => div_le_div_of_nonneg_right hxy hlen) _ _ hbelow
          · exact map_mono (· / len) (fun x y hxy => div_le_div_of_nonneg_right hxy hlen) _ _ hsel

end Fm2prof.RoomierProof

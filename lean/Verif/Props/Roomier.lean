import Verif.Proofs.Roomier
import Verif.Props.Refined

/-!
# Properties of runs with larger control volumes

C197: with more room at a location its wet areas and 1D volumes do not get smaller.
-/

set_option linter.unusedSectionVars false

namespace Fm2prof.Props

open Fm2prof Spec OneSettingProof ConveyanceProof StricterProof RoomierProof

variable {K : Type} [Field K] [LinearOrder K] [IsStrictOrderedRing K] [FloorRing K]

/-- **C197, the geometry.** Faces are added to a control volume or get larger areas, and the face nearest to the location keeps its
water. Then the profile has the same levels, and at each of them a wet area, a total width and a total 1D volume that are not smaller
than before. -/
theorem C197_geometry (cfg : BuildConfig K) (len : K) (hlen : 0 ≤ len) (centre centre' : Nat) (raw raw' : ControlVolume K)
    (hn : raw'.nMaps = raw.nMaps) (hr : List.SublistForall₂ Roomier raw.cells raw'.cells) (ha : ∀ c ∈ raw'.cells, 0 ≤ c.area)
    (c c' : Cell K) (hc : raw.cells[centre]? = some c) (hc' : raw'.cells[centre']? = some c') (hs : SameSurface c c')
    (hd : ∀ t d, c.depth t = some d → 0 ≤ d) (b b' : Built K)
    (h : buildGeometry cfg len centre raw = .ok b) (h' : buildGeometry cfg len centre' raw' = .ok b') :
    b'.z = b.z ∧ List.Forall₂ (· ≤ ·) b.wetArea b'.wetArea ∧ List.Forall₂ (· ≤ ·) b.totalWidth b'.totalWidth ∧
      List.Forall₂ (· ≤ ·) b.totalVolume1d b'.totalVolume1d := by
  obtain ⟨e1, e2, e3⟩ := build_roomier cfg len hlen centre centre' raw raw' hn hr ha c c' hc hc' hs b b' h h'
  refine ⟨e1, e2, e3, ?_⟩
  have hz : NonDecreasing b.z := by
    refine (C02_built_levels h fun d hdd x hx => ?_).1
    unfold getTimeseries at hdd
    rw [List.getElem?_map, hc] at hdd
    obtain rfl := Option.some.inj hdd
    have hx : clean (c.depth (sliceStart raw.nMaps cfg.skipMaps + 0)) = some x := hx
    cases hq : c.depth (sliceStart raw.nMaps cfg.skipMaps + 0) with
    | none => rw [hq] at hx; cases hx
    | some y =>
      rw [hq] at hx
      unfold clean at hx
      simp only at hx
      split at hx
      · cases hx
      · obtain rfl := Option.some.inj hx
        exact hd _ _ hq
  obtain ⟨-, -, -, -, -, -, -, -, -, -, -, -, -, -, -, -, -, -, -, -, t1, -⟩ := built_parts h
  obtain ⟨-, -, -, -, -, -, -, -, -, -, -, -, -, -, -, -, -, -, -, -, t1', -⟩ := built_parts h'
  rw [t1, t1', e1]
  exact C08_flow_le_total _ _ _ _ hlen hz e3

/-- **C197.** Two runs with the same configuration, the second one for a 2D model with more room at a requested location: faces are added
to its control volume, or faces get larger areas, and the nearest face keeps its water. When both report success, the volume files
give as many levels for the location, and at each of them a wet area and a total 1D volume that are not smaller than before. -/
theorem C197_volumes (x : Tools K) (hb : ∀ y, y < x.bump y) (cfg : RunConfig K) (i i' : Inputs K) (hi : Consistent i)
    (hi' : Consistent i') (o : Surroundings) (hdir : o.dirExists = true) (hw : ∀ f, IsResult f → Sound o.faults f) (overwrite : Bool)
    (s : Store) (h : (run (jobOf x cfg i o) overwrite s).2 = .ok true) (h' : (run (jobOf x cfg i' o) overwrite s).2 = .ok true)
    (m m' : Model2d K) (hm : setModelData x.nn i = .ok m) (hm' : setModelData x.nn i' = .ok m') (hst : m'.stations = m.stations)
    (hnm : m'.nMaps = m.nMaps) (harea : ∀ a ∈ m'.faces.area, 0 ≤ a) (hdepth : ∀ ds ∈ m.faces.waterdepth, ∀ d, some d ∈ ds → 0 ≤ d)
    (xs : List (Loc K)) (hq : Requested cfg.cssSelection m.stations xs)
    (hn : ∀ l ∈ xs, CsvName l.id ∧ l.id ≠ "id".toList) (hnd : (xs.map (·.id)).Nodup)
    (hfloat : ∀ l ∈ xs, ∀ c, buildCss x cfg m l = .ok c → VolumeTable.Floats x.ft (volumeTableOf c.css))
    (hfloat' : ∀ l ∈ xs, ∀ c, buildCss x cfg m' l = .ok c → VolumeTable.Floats x.ft (volumeTableOf c.css))
    (l : Loc K) (hl : l ∈ xs) (hlen : 0 ≤ l.length) (hu : Usable m l) (hu' : Usable m' l) (hf : RoomierAt x.sqrt m m' l) :
    ∃ text text' v v', (run (jobOf x cfg i o) overwrite s).1 "volumes.csv".toList = some text ∧
      (run (jobOf x cfg i' o) overwrite s).1 "volumes.csv".toList = some text' ∧
      readVolumes x.ft text l.id = .ok v ∧ readVolumes x.ft text' l.id = .ok v' ∧ v.z ≠ [] ∧ v'.z.length = v.z.length ∧
      v.wa2d.length = v.z.length ∧ v.tv1d.length = v.z.length ∧
      List.Forall₂ AtMost v.wa2d v'.wa2d ∧ List.Forall₂ AtMost v.tv1d v'.tv1d := by
  have hl2 := loaded2d x.nn i hi m hm
  have hl2' := loaded2d x.nn i' hi' m' hm'
  obtain ⟨text, b, v, t1, t2, t3, t4, -, -, t6, -, t7, -⟩ := C99_volumes x hb cfg i hi o hdir hw overwrite s h m hm xs hq hn hnd hfloat l hl hu
  obtain ⟨text', b', v', u1, u2, u3, u4, -, -, u6, -, u7, -⟩ := C99_volumes x hb cfg i' hi' o hdir hw overwrite s h' m' hm' xs
    (by rw [hst]; exact hq) hn hnd hfloat' l hl hu'
  obtain ⟨r, c, h1, h2, h3⟩ := centre_cell x cfg m hl2 l b t3
  obtain ⟨r', c', h1', h2', h3'⟩ := centre_cell x cfg m' hl2' l b' u3
  have hs := hf.nearest r r' c c' h2 h2' h3 h3'
  have hroom : List.SublistForall₂ Roomier (controlVolumeOf m.nMaps (getSelection x.sqrt m.faces m.edges l.id)).cells
      (controlVolumeOf m'.nMaps (getSelection x.sqrt m'.faces m'.edges l.id)).cells := by
    rw [controlVolume_cells x m hl2, controlVolume_cells x m' hl2']
    exact hf.faces
  have hca : ∀ c ∈ (controlVolumeOf m'.nMaps (getSelection x.sqrt m'.faces m'.edges l.id)).cells, 0 ≤ c.area := by
    intro c hc
    obtain ⟨p, hp, rfl⟩ := List.mem_map.1 hc
    have h1 := (List.of_mem_zip (List.of_mem_zip hp).1).1
    have h1 : p.1.1 ∈ maskSelect (m'.faces.sclass.map fun c => decide (c = l.id)) m'.faces.area := h1
    unfold maskSelect at h1
    obtain ⟨q, hq, e⟩ := List.mem_map.1 h1
    have := (List.of_mem_zip (List.mem_filter.1 hq).1).2
    rw [e] at this
    exact harea _ this
  have hcd : ∀ t d, c.depth t = some d → 0 ≤ d := by
    intro t d hd
    unfold gridCell at h3
    cases g1 : m.faces.area[r]? <;> rw [g1] at h3
    · cases h3
    cases g2 : m.faces.bedlevel[r]? <;> rw [g2] at h3
    · cases h3
    cases g3 : m.faces.waterdepth[r]? with
    | none => rw [g3] at h3; cases h3
    | some ds =>
      rw [g3] at h3
      cases g4 : m.faces.waterlevel[r]? <;> rw [g4] at h3
      · cases h3
      cases g5 : m.faces.velocityX[r]? <;> rw [g5] at h3
      · cases h3
      cases g6 : m.faces.velocityY[r]? <;> rw [g6] at h3
      · cases h3
      obtain rfl := Option.some.inj h3
      have hd : ds[t]?.join = some d := hd
      refine hdepth ds (List.mem_of_getElem? g3) d ?_
      exact List.mem_of_getElem? (Option.join_eq_some_iff.1 hd)
  obtain ⟨e1, e2, -, e4⟩ := C197_geometry cfg.pipeline.build l.length hlen _ _ _ _ hnm hroom hca c c' h1 h1' hs hcd b b' t3 u3
  obtain ⟨acc, hacc, a1, a2, a3, a4, a5, a6⟩ := C07_arrays_aligned t3
  refine ⟨text, text', v, v', t1, u1, t2, u2, ?_, by rw [t4, u4, e1], ?_, ?_, ?_, ?_⟩
  · intro e
    rw [e] at t4
    have : b.z.length = 0 := t4.symm
    omega
  · rw [t6, List.length_map, t4]
    omega
  · rw [t7, List.length_map, t4]
    omega
  · rw [t6, u6, List.forall₂_map_left_iff, List.forall₂_map_right_iff]
    exact e2.imp fun a b h => ⟨a, b, rfl, rfl, h⟩
  · rw [t7, u7, List.forall₂_map_left_iff, List.forall₂_map_right_iff]
    exact e4.imp fun a b h => ⟨a, b, rfl, rfl, h⟩

/-- The map with a larger last face and one more face. -/
def roomierMap : MapData ℚ :=
  { finerMap with faces := { finerMap.faces with area := sampleMap.faces.area.take 12 ++ [60, 25] } }

/-- The inputs with this map. -/
def roomierInputs : Inputs ℚ := { longerInputs with map := .ok roomierMap }

private theorem roomier_consistent : Consistent roomierInputs := by
  refine ⟨?_, ?_, ?_⟩
  · rintro d h
    obtain rfl : roomierMap = d := Except.ok.inj h
    constructor <;> decide +kernel
  · rintro d css r h h1 h2
    cases h2
  · rintro d r h h1
    obtain rfl : roomierMap = d := Except.ok.inj h
    obtain rfl := Except.ok.inj (Option.some.inj h1)
    constructor <;> rfl

private theorem gridCell_low₇ (r : Nat) (hr : r < 12) :
    gridCell id (sampleLoaded roomierInputs).faces r = gridCell id (sampleLoaded sampleSectionInputs).faces r := by
  obtain ⟨c, hc⟩ := Option.isSome_iff_exists.1 (gridCell_some₆ r (by omega))
  have ha := gridCell_area₆ _ _ _ hc
  have hall : ∀ r < 12, sameAt₆ (sampleLoaded sampleSectionInputs).faces (sampleLoaded roomierInputs).faces r r = true ∧
      (sampleLoaded roomierInputs).faces.area[r]? = (sampleLoaded sampleSectionInputs).faces.area[r]? := by decide +kernel
  rw [gridCell_sameAt₆ _ _ r r (hall r hr).1 _ _ ha ((hall r hr).2.trans ha), hc]
  rfl

private theorem roomier_here : RoomierAt id (sampleLoaded sampleSectionInputs) (sampleLoaded roomierInputs) loc₆ := by
  have hrows : rowsOf (sampleLoaded sampleSectionInputs).faces.sclass loc₆.id = List.range 12 ++ [12] := by decide +kernel
  have hrows' : rowsOf (sampleLoaded roomierInputs).faces.sclass loc₆.id = List.range 12 ++ [12, 13] := by decide +kernel
  refine ⟨?_, ?_⟩
  · unfold facesOf
    rw [hrows, hrows', List.filterMap_append, List.filterMap_append]
    rw [List.filterMap_congr (fun r hr => gridCell_low₇ r (List.mem_range.1 hr))]
    obtain ⟨c, hc⟩ := Option.isSome_iff_exists.1 (gridCell_some₆ 12 (by omega))
    have ha := gridCell_area₆ _ _ _ hc
    have h12 := gridCell_sameAt₆ (sampleLoaded sampleSectionInputs).faces (sampleLoaded roomierInputs).faces 12 12 (by decide +kernel) _ 60
      ha (by decide +kernel)
    have h13 := gridCell_sameAt₆ (sampleLoaded sampleSectionInputs).faces (sampleLoaded roomierInputs).faces 12 13 (by decide +kernel) _ 25
      ha (by decide +kernel)
    have h50 : (sampleLoaded sampleSectionInputs).faces.area[12]? = some (50 : ℚ) := by decide +kernel
    have hca : c.area = 50 := Option.some.inj (ha.symm.trans h50)
    rw [hc] at h12 h13
    have e1 : List.filterMap (gridCell id (sampleLoaded sampleSectionInputs).faces) [12] = [c] := by
      rw [List.filterMap_cons, hc]; rfl
    have e2 : List.filterMap (gridCell id (sampleLoaded roomierInputs).faces) [12, 13] =
        [{ c with area := 60 }, { c with area := 25 }] := by
      rw [List.filterMap_cons, h12, List.filterMap_cons, h13]; rfl
    rw [e1, e2]
    generalize (List.range 12).filterMap (gridCell id (sampleLoaded sampleSectionInputs).faces) = pre
    induction pre with
    | nil =>
      refine .cons ⟨⟨rfl, rfl, rfl⟩, ?_⟩ .nil
      rw [hca]
      norm_num
    | cons p pre ih => exact .cons ⟨⟨rfl, rfl, rfl⟩, le_refl _⟩ ih
  · intro r r' c c' hr hr' hc hc'
    have five : ∀ m : Model2d ℚ, 5 ∈ rowsOf m.faces.sclass loc₆.id → m.faces.x[5]? = some 5 → m.faces.y[5]? = some 0 →
        (∀ k ∈ rowsOf m.faces.sclass loc₆.id, k ≠ 5 → ∃ a, m.faces.x[k]? = some a ∧ m.faces.y[k]? = some 0 ∧ a ≠ 5) →
        ∀ k, IsNearest m loc₆ k → k = 5 := by
      intro m h5 hx hy hall k hk
      by_contra hne
      obtain ⟨a, ha, hb, ha5⟩ := hall k hk.1 hne
      have h := hk.2 5 h5 a 0 5 0 ha hb hx hy
      have hz : ((5 : ℚ) - loc₆.x) ^ 2 + ((0 : ℚ) - loc₆.y) ^ 2 = 0 := by
        show ((5 : ℚ) - 5) ^ 2 + ((0 : ℚ) - 0) ^ 2 = 0
        norm_num
      have hpos : 0 < (a - loc₆.x) ^ 2 := by
        show 0 < (a - 5) ^ 2
        have : a - 5 ≠ 0 := sub_ne_zero.2 ha5
        positivity
      have := sq_nonneg ((0 : ℚ) - loc₆.y)
      linarith
    have some_of : ∀ (m : Model2d ℚ), ((rowsOf m.faces.sclass loc₆.id).all fun k => decide (k = 5) ||
        ((m.faces.x[k]?).any fun a => decide (a ≠ 5)) && decide (m.faces.y[k]? = some 0)) = true →
        ∀ k ∈ rowsOf m.faces.sclass loc₆.id, k ≠ 5 → ∃ a, m.faces.x[k]? = some a ∧ m.faces.y[k]? = some 0 ∧ a ≠ 5 := by
      intro m h k hk hne
      have h := List.all_eq_true.1 h k hk
      rw [Bool.or_eq_true, Bool.and_eq_true] at h
      rcases h with h | ⟨h, h'⟩
      · exact absurd (of_decide_eq_true h) hne
      · cases ha : m.faces.x[k]? with
        | none => rw [ha] at h; cases h
        | some a =>
          rw [ha] at h
          exact ⟨a, rfl, of_decide_eq_true h', of_decide_eq_true h⟩
    obtain rfl := five _ (by decide +kernel) (by decide +kernel) (by decide +kernel) (some_of _ (by decide +kernel)) r hr
    obtain rfl := five _ (by decide +kernel) (by decide +kernel) (by decide +kernel) (some_of _ (by decide +kernel)) r' hr'
    rw [gridCell_low₇ 5 (by omega), hc] at hc'
    obtain rfl := Option.some.inj hc'
    exact ⟨rfl, rfl, rfl⟩

/-- Both runs come to their end, for a location with 13 faces of which the second map enlarges one and has one more. -/
example : (∀ y, y < idleTools.bump y) ∧ Consistent sampleSectionInputs ∧ Consistent roomierInputs ∧ sampleSurroundings.dirExists = true ∧
    (∀ f, IsResult f → Sound sampleSurroundings.faults f) ∧
    (run (jobOf idleTools sampleRunConfig sampleSectionInputs sampleSurroundings) false noFiles).2 = .ok true ∧
    (run (jobOf idleTools sampleRunConfig roomierInputs sampleSurroundings) false noFiles).2 = .ok true ∧
    ∃ m m', setModelData idleTools.nn sampleSectionInputs = .ok m ∧ setModelData idleTools.nn roomierInputs = .ok m' ∧
      m'.stations = m.stations ∧ m'.nMaps = m.nMaps ∧ (∀ a ∈ m'.faces.area, 0 ≤ a) ∧
      (∀ ds ∈ m.faces.waterdepth, ∀ d, some d ∈ ds → 0 ≤ d) ∧
      Requested sampleRunConfig.cssSelection m.stations m.stations ∧
      (∀ l ∈ m.stations, CsvName l.id ∧ l.id ≠ "id".toList) ∧ (m.stations.map (·.id)).Nodup ∧
      (∀ l ∈ m.stations, ∀ c, buildCss idleTools sampleRunConfig m l = .ok c → VolumeTable.Floats idleTools.ft (volumeTableOf c.css)) ∧
      (∀ l ∈ m.stations, ∀ c, buildCss idleTools sampleRunConfig m' l = .ok c → VolumeTable.Floats idleTools.ft (volumeTableOf c.css)) ∧
      ∃ l ∈ m.stations, 0 ≤ l.length ∧ Usable m l ∧ Usable m' l ∧ RoomierAt idleTools.sqrt m m' l := by
  have hst : (sampleLoaded roomierInputs).stations = (sampleLoaded sampleSectionInputs).stations := by decide +kernel
  have hdep : ((sampleLoaded sampleSectionInputs).faces.waterdepth.all fun ds => ds.all fun d => d.all fun d => decide (0 ≤ d)) = true := by
    decide +kernel
  refine ⟨?_, sampleSectionInputs_consistent, roomier_consistent, rfl, fun _ _ => ⟨rfl, rfl⟩,
    ok_of₆ (by decide +kernel), ok_of₆ (by decide +kernel), sampleLoaded sampleSectionInputs, sampleLoaded roomierInputs,
    loaded_of₆ _ (by decide +kernel), loaded_of₆ _ (by decide +kernel), hst, by decide +kernel, by decide +kernel, ?_, .inl ⟨rfl, rfl⟩,
    by decide +kernel, by decide +kernel, floats_of₆ _ (by decide +kernel),
    by rw [← hst]; exact floats_of₆ _ (by decide +kernel),
    loc₆, by decide +kernel, by decide +kernel, by decide +kernel, by decide +kernel, roomier_here⟩
  · intro y
    show y < y + 1 / 1000
    linarith
  · intro ds hds d hd
    exact of_decide_eq_true (List.all_eq_true.1 (List.all_eq_true.1 hdep ds hds) _ hd)

end Fm2prof.Props

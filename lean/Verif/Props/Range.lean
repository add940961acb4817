import Verif.Proofs.Range
import Verif.Props.Pipeline

/-!
# Within which range the results of a run lie

C129 widths, C130 levels, C131 roughness.
-/

set_option linter.unusedSectionVars false

namespace Fm2prof.Props

open Fm2prof Spec

variable {K : Type} [Field K] [LinearOrder K] [IsStrictOrderedRing K] [FloorRing K]

private theorem ok_of_option {α : Type} {e : Except PyErr α} {a : α} (h : e.toOption = some a) : e = .ok a := by
  cases e with
  | error e => cases h
  | ok b => cases h; rfl

private theorem loaded_ok (i : Inputs ℚ) (h : (setModelData firstNearest i).toOption.isSome = true) :
    setModelData firstNearest i = .ok (sampleLoaded i) := by
  unfold sampleLoaded
  cases hm : setModelData firstNearest i with
  | error e => rw [hm] at h; cases h
  | ok m => rfl

/-! ## C129: widths -/

/-- **C129.** After a run that reports success, no width in the definition file is larger than the area of the faces assigned to the
location divided by its length (or than the configured minimum width), apart from one millimetre for each point, the step with
which equal widths are made to differ, and apart from the rounding to four decimals. -/
theorem C129_widths (x : Tools K) (hb : ∀ y, x.bump y = y + 1 / 1000) (cfg : RunConfig K) (i : Inputs K) (hi : Consistent i)
    (o : Surroundings) (hdir : o.dirExists = true) (hw : ∀ f, IsResult f → Sound o.faults f) (overwrite : Bool) (s : Store)
    (h : (run (jobOf x cfg i o) overwrite s).2 = .ok true) (m : Model2d K) (hm : setModelData x.nn i = .ok m)
    (xs : List (Loc K)) (hx : Requested cfg.cssSelection m.stations xs) (hu : ∃ l ∈ xs, Usable m l)
    (hn : ∀ l ∈ xs, PlainName l.id)
    (hfull : ∀ l ∈ xs, ∀ c, buildCss x cfg m l = .ok c → FullNumbers x.ft c)
    (harea : ∀ a ∈ m.faces.area, 0 ≤ a) (hlen : ∀ l ∈ xs, 0 < l.length) :
    ∃ text defs, (run (jobOf x cfg i o) overwrite s).1 "CrossSectionDefinitions.ini".toList = some text ∧
      readDefinitions x.ft text = .ok defs ∧
      List.Forall₂ (fun l d => d.id = l.id ∧ ∃ total flow : List K, d.totalWidth = total.map (as4 x.ft) ∧
          d.flowWidth = flow.map (as4 x.ft) ∧ ∀ w, w ∈ total ∨ w ∈ flow →
            w ≤ max cfg.pipeline.minimumWidth (faceArea m l / l.length) + ((9 + m.nMaps : Nat) : K) * (1 / 1000))
        (xs.filter fun l => decide (Usable m l)) defs := by
  obtain ⟨cs, text, hcs, ht, hd⟩ := run_definitions x cfg i hi o hdir hw overwrite s h m hm xs hx hu hn hfull
  have hl2 := loaded2d x.nn i hi m hm
  refine ⟨text, _, ht, hd, ?_⟩
  rw [List.forall₂_map_right_iff]
  refine (forall₂_with_mem hcs).imp fun l c hc => ?_
  obtain ⟨hl, hc⟩ := hc
  have hl := (List.mem_filter.1 hl).1
  obtain ⟨hg, _, _, _, _, _, h1, _, _, h2, h3, h4, _⟩ := buildCss_ok x cfg m l c hc
  refine ⟨h1, c.css.totalWidth, c.css.flowWidth, ?_, ?_, ?_⟩
  · show c.out.totalWidth.map _ = _; rw [h4]
  · show c.out.flowWidth.map _ = _; rw [h3]
  · obtain ⟨b, g, hbg, hcr, _, k2, k3⟩ := geometry_subset _ _ _ _ _ _ _ _ _ hg
    have ebump : x.bump = (· + 1 / 1000) := funext hb
    rw [ebump] at hcr
    have hcells : ∀ c' ∈ (controlVolumeOf m.nMaps (getSelection x.sqrt m.faces m.edges l.id)).cells, 0 ≤ c'.area := by
      intro c' hc'
      obtain ⟨k, hk⟩ := List.mem_iff_getElem?.1 hc'
      obtain ⟨r, _, hr⟩ := controlVolume_at x m hl2 _ _ _ _ hk
      unfold gridCell at hr
      cases ha : m.faces.area[r]? with
      | none => rw [ha] at hr; cases hr
      | some a =>
        rw [ha] at hr
        have := harea a (List.mem_of_getElem? ha)
        simp only [Option.bind_some, Option.bind_eq_some_iff, Option.map_eq_some_iff] at hr
        obtain ⟨_, _, _, _, _, _, _, _, _, _, rfl⟩ := hr
        exact this
    obtain ⟨w1, w2⟩ := built_widths hbg (hlen l hl) hcells
    rw [controlVolume_area x m hl2] at w1 w2
    obtain ⟨n1, n2, n3⟩ := built_count hbg
    have hz0 : ∃ lo hi : K, (∀ z ∈ b.z, lo ≤ z) ∧ ∀ z ∈ b.z, z ≤ hi := by
      refine ⟨b.z.foldr min 0, b.z.foldr max 0, ?_, ?_⟩
      · generalize b.z = zs
        induction zs with
        | nil => intro z hz; cases hz
        | cons a zs ih =>
          intro z hz
          rw [List.foldr_cons]
          rcases List.mem_cons.1 hz with rfl | hz
          · exact min_le_left _ _
          · exact (min_le_right _ _).trans (ih z hz)
      · generalize b.z = zs
        induction zs with
        | nil => intro z hz; cases hz
        | cons a zs ih =>
          intro z hz
          rw [List.foldr_cons]
          rcases List.mem_cons.1 hz with rfl | hz
          · exact le_max_left _ _
          · exact (ih z hz).trans (le_max_right _ _)
    obtain ⟨lo, hi', hlo, hhi⟩ := hz0
    obtain ⟨_, r2, r3⟩ := requirements_range (1 / 1000) cfg.pipeline.minimumWidth lo hi' _ (by norm_num) (9 + m.nMaps) _ g hcr n1 n2
      n3 hlo hhi w1 w2
    rintro w (hw' | hw')
    · exact r2 w (k2 w hw')
    · exact r3 w (k3 w hw')

/-- The sample run meets the hypotheses; its first location has 1650 m² of faces over a length of 10 m. -/
example : Consistent sampleInputs ∧ (∀ y, sampleTools.bump y = y + 1 / 1000) ∧
    (run (jobOf sampleTools sampleRunConfig sampleInputs sampleSurroundings) false noFiles).2 = .ok true ∧
    ∃ m, setModelData sampleTools.nn sampleInputs = .ok m ∧ (∃ l ∈ m.stations, Usable m l) ∧ (∀ l ∈ m.stations, PlainName l.id) ∧
      (∀ a ∈ m.faces.area, 0 ≤ a) ∧ (∀ l ∈ m.stations, 0 < l.length) ∧
      (m.stations.map fun l => faceArea m l / l.length) = [165, 0] :=
  ⟨sampleInputs_consistent, fun _ => rfl, sampleRun_ok, sampleLoaded sampleInputs, loaded_ok _ (by decide +kernel),
    by decide +kernel, by decide +kernel, by decide +kernel, by decide +kernel, by decide +kernel⟩

/-! ## C130: levels -/

/-- **C130.** After a run that reports success, every level in the definition file lies between the bed and the highest water level of the
face nearest to the location, at the maps that are used, apart from one millimetre for each point at the upper end, the step with
which equal levels are made to differ, and apart from the rounding to four decimals. -/
theorem C130_levels (x : Tools K) (hb : ∀ y, x.bump y = y + 1 / 1000) (cfg : RunConfig K) (i : Inputs K) (hi : Consistent i)
    (o : Surroundings) (hdir : o.dirExists = true) (hw : ∀ f, IsResult f → Sound o.faults f) (overwrite : Bool) (s : Store)
    (h : (run (jobOf x cfg i o) overwrite s).2 = .ok true) (m : Model2d K) (hm : setModelData x.nn i = .ok m)
    (xs : List (Loc K)) (hx : Requested cfg.cssSelection m.stations xs) (hu : ∃ l ∈ xs, Usable m l)
    (hn : ∀ l ∈ xs, PlainName l.id)
    (hfull : ∀ l ∈ xs, ∀ c, buildCss x cfg m l = .ok c → FullNumbers x.ft c)
    (skip : Nat) (hskip : cfg.pipeline.build.skipMaps = (skip : Int)) (bed top : Loc K → K)
    (hrange : ∀ l ∈ xs, ∀ r c, IsNearest m l r → gridCell x.sqrt m.faces r = some c →
      PhysicalSeries skip m.nMaps c ∧ SeriesBetween skip m.nMaps c (bed l) (top l)) :
    ∃ text defs, (run (jobOf x cfg i o) overwrite s).1 "CrossSectionDefinitions.ini".toList = some text ∧
      readDefinitions x.ft text = .ok defs ∧
      List.Forall₂ (fun l d => d.id = l.id ∧ ∃ z : List K, d.levels = z.map (as4 x.ft) ∧
          ∀ y ∈ z, bed l ≤ y ∧ y ≤ top l + ((9 + m.nMaps : Nat) : K) * (1 / 1000))
        (xs.filter fun l => decide (Usable m l)) defs := by
  obtain ⟨cs, text, hcs, ht, hd⟩ := run_definitions x cfg i hi o hdir hw overwrite s h m hm xs hx hu hn hfull
  have hl2 := loaded2d x.nn i hi m hm
  refine ⟨text, _, ht, hd, ?_⟩
  rw [List.forall₂_map_right_iff]
  refine (forall₂_with_mem hcs).imp fun l c hc => ?_
  obtain ⟨hl, hc⟩ := hc
  have hl := (List.mem_filter.1 hl).1
  obtain ⟨hg, _, _, _, _, _, h1, _, _, h2, _⟩ := buildCss_ok x cfg m l c hc
  refine ⟨h1, c.css.z, ?_, ?_⟩
  · show c.out.z.map _ = _; rw [h2]
  · obtain ⟨b, g, hbg, hcr, k1, _⟩ := geometry_subset _ _ _ _ _ _ _ _ _ hg
    have ebump : x.bump = (· + 1 / 1000) := funext hb
    rw [ebump] at hcr
    obtain ⟨c', L, z0, d0, zs, accs, hc', _⟩ := built_parts hbg
    obtain ⟨c0, hc0, _⟩ : ∃ c0, (controlVolumeOf m.nMaps (getSelection x.sqrt m.faces m.edges l.id)).cells[
        centreOf x.nn (getSelection x.sqrt m.faces m.edges l.id) l]? = some c0 ∧ True := by
      have hlt := (List.getElem?_eq_some_iff.1 hc').1
      unfold getTimeseries at hlt
      rw [List.length_map] at hlt
      exact ⟨_, List.getElem?_eq_getElem hlt, trivial⟩
    obtain ⟨r, hr, hcell⟩ := controlVolume_at x m hl2 _ _ _ _ hc0
    obtain ⟨hp, hbt⟩ := hrange l hl r c0 (centre_nearest x m hl2 l r hr) hcell
    have hlev := built_levels hbg skip hskip c0 hc0 hp (bed l) (top l) hbt
    obtain ⟨n1, n2, n3⟩ := built_count hbg
    obtain ⟨W, hW1, hW2⟩ : ∃ W : K, (∀ w ∈ b.totalWidth, w ≤ W) ∧ ∀ w ∈ b.flowWidth, w ≤ W := by
      have key : ∀ l : List K, ∀ z ∈ l, z ≤ l.foldr max 0 := by
        intro l
        induction l with
        | nil => intro z hz; cases hz
        | cons a zs ih =>
          intro z hz
          rw [List.foldr_cons]
          rcases List.mem_cons.1 hz with rfl | hz
          · exact le_max_left _ _
          · exact (ih z hz).trans (le_max_right _ _)
      exact ⟨max (b.totalWidth.foldr max 0) (b.flowWidth.foldr max 0), fun w hw => (key _ w hw).trans (le_max_left _ _),
        fun w hw => (key _ w hw).trans (le_max_right _ _)⟩
    obtain ⟨r1, _⟩ := requirements_range (1 / 1000) cfg.pipeline.minimumWidth (bed l) (top l) W (by norm_num) (9 + m.nMaps) _ g hcr
      n1 n2 n3 (fun z hz => (hlev z hz).1) (fun z hz => (hlev z hz).2) hW1 hW2
    exact fun y hy => r1 y (k1 y hy)

/-- The sample run meets the hypotheses: the face nearest to its first location has its bed at -7 m, and the water rises there to 5 m;
its second location has no faces. -/
example : sampleRunConfig.pipeline.build.skipMaps = ((0 : Nat) : Int) ∧
    ∀ l ∈ (sampleLoaded sampleInputs).stations, ∀ r c, IsNearest (sampleLoaded sampleInputs) l r →
      gridCell sampleTools.sqrt (sampleLoaded sampleInputs).faces r = some c →
      PhysicalSeries 0 (sampleLoaded sampleInputs).nMaps c ∧ SeriesBetween 0 (sampleLoaded sampleInputs).nMaps c (-7) 5 := by
  refine ⟨by decide +kernel, fun l hl r c hr hc => ?_⟩
  have hn : (sampleLoaded sampleInputs).nMaps = 4 := by decide +kernel
  have hrow : r ∈ rowsOf (sampleLoaded sampleInputs).faces.sclass l.id := hr.1
  have h5 : ∀ l ∈ (sampleLoaded sampleInputs).stations, ∀ r ∈ rowsOf (sampleLoaded sampleInputs).faces.sclass l.id,
      5 ∈ rowsOf (sampleLoaded sampleInputs).faces.sclass l.id ∧
      ((sampleLoaded sampleInputs).faces.x[r]? = some (r : ℚ) ∧ (sampleLoaded sampleInputs).faces.y[r]? = some 0) ∧
      ((sampleLoaded sampleInputs).faces.x[5]? = some 5 ∧ (sampleLoaded sampleInputs).faces.y[5]? = some 0) ∧
      (((r : ℚ) - l.x) ^ 2 + (0 - l.y) ^ 2 ≤ (5 - l.x) ^ 2 + (0 - l.y) ^ 2 → r = 5) := by decide +kernel
  obtain ⟨k1, ⟨k2, k3⟩, ⟨k4, k5⟩, k6⟩ := h5 l hl r hrow
  obtain rfl := k6 (hr.2 5 k1 _ _ _ _ k2 k3 k4 k5)
  have hv : ∀ t < 4, (∃ z d : ℚ, valueAt c.level t = some z ∧ valueAt c.depth t = some d ∧ 0 ≤ d ∧ -7 ≤ z - d ∧ z ≤ 5) := by
    have : ∀ t < 4, ((gridCell sampleTools.sqrt (sampleLoaded sampleInputs).faces 5).any fun c =>
        (valueAt c.level t).any fun z => (valueAt c.depth t).any fun d => decide (0 ≤ d ∧ -7 ≤ z - d ∧ z ≤ 5)) = true := by
      decide +kernel
    intro t ht
    have := this t ht
    rw [hc, Option.any_some] at this
    cases hz : valueAt c.level t with
    | none => rw [hz] at this; cases this
    | some z =>
      cases hd : valueAt c.depth t with
      | none => rw [hz, hd] at this; cases this
      | some d =>
        rw [hz, hd] at this
        exact ⟨z, d, rfl, rfl, of_decide_eq_true this⟩
  rw [hn]
  refine ⟨⟨fun t ht d hd => ?_, fun t ht hz => ?_⟩, ⟨fun t ht z d hz hd => ?_, fun t ht z hz => ?_⟩⟩ <;>
    obtain ⟨z', d', e1, e2, e3, e4, e5⟩ := hv t ht.2
  · obtain rfl := Option.some.inj (hd.symm.trans e2); exact e3
  · rw [e1] at hz; cases hz
  · obtain rfl := Option.some.inj (hd.symm.trans e2)
    obtain rfl := Option.some.inj (hz.symm.trans e1)
    exact e4
  · obtain rfl := Option.some.inj (hz.symm.trans e1); exact e5

private theorem record_above (levels : List (Option K)) (x0 : K) (h0 : levels[0]? = some (some x0)) (t : Nat) (y : K)
    (h : levels[t]? = some (some y)) : ∃ t' y', Rising levels t' ∧ levels[t']? = some (some y') ∧ y ≤ y' := by
  induction t using Nat.strong_induction_on generalizing y with
  | _ t ih =>
    by_cases hr : Rising levels t
    · exact ⟨t, y, hr, h, le_rfl⟩
    · have : ∃ j < t, ∃ y', levels[j]? = some (some y') ∧ y ≤ y' := by
        by_contra hc
        refine hr (Or.inr ⟨y, x0, h, h0, fun j hj y' hy' => ?_⟩)
        by_contra hlt
        exact hc ⟨j, hj, y', hy', not_lt.1 hlt⟩
      obtain ⟨j, hj, y', hy', hle⟩ := this
      obtain ⟨t', z, h1, h2, h3⟩ := ih j hj y' hy'
      exact ⟨t', z, h1, h2, hle.trans h3⟩

private theorem levels_of_centre (x : Tools K) (cfg : RunConfig K) (m : Model2d K) (hl2 : Loaded2d m) (l : Loc K) (skip : Nat)
    (hskip : cfg.pipeline.build.skipMaps = (skip : Int)) (b : Built K)
    (hbg : buildGeometry cfg.pipeline.build l.length (centreOf x.nn (getSelection x.sqrt m.faces m.edges l.id) l)
      (controlVolumeOf m.nMaps (getSelection x.sqrt m.faces m.edges l.id)) = .ok b) :
    ∃ r c z0 d0 zs, IsNearest m l r ∧ gridCell x.sqrt m.faces r = some c ∧ 0 < m.nMaps - skip ∧
      b.z = (linspace10 d0).reverse.map (z0 - ·) ++ z0 :: zs ∧ valueAt c.depth skip = some d0 ∧
      (∀ y, valueAt c.level skip = some y → z0 = y) ∧
      ∀ t, UsedMap skip m.nMaps t → ∀ y, valueAt c.level t = some y → ∃ z ∈ z0 :: zs, y ≤ z := by
  obtain ⟨c', L, z0, d0, zs, accs, hc', _, hzr, hacc, hd, hz0, hzs, hz, _⟩ := built_parts hbg
  obtain ⟨c0, hc0⟩ : ∃ c0, (controlVolumeOf m.nMaps (getSelection x.sqrt m.faces m.edges l.id)).cells[
      centreOf x.nn (getSelection x.sqrt m.faces m.edges l.id) l]? = some c0 := by
    have hlt := (List.getElem?_eq_some_iff.1 hc').1
    unfold getTimeseries at hlt
    rw [List.length_map] at hlt
    exact ⟨_, List.getElem?_eq_getElem hlt⟩
  obtain ⟨r, hr, hcell⟩ := controlVolume_at x m hl2 _ _ _ _ hc0
  have hn : (getTimeseries cfg.pipeline.build.skipMaps (controlVolumeOf m.nMaps (getSelection x.sqrt m.faces m.edges l.id))).nMaps =
      m.nMaps - skip := by
    unfold getTimeseries sliceStart
    rw [hskip, if_pos (by omega)]
    simp only [Int.toNat_natCast, controlVolumeOf]
    omega
  have hpos : 0 < m.nMaps - skip := by
    have := (List.getElem?_eq_some_iff.1 hz0).1
    rw [hzr, centreLevels_length, hn] at this
    exact this
  have hst : sliceStart m.nMaps cfg.pipeline.build.skipMaps = skip := by
    unfold sliceStart
    rw [hskip, if_pos (by omega)]
    simp only [Int.toNat_natCast]
    omega
  rw [hn] at hzr
  have hl' : ∀ t, c'.level t = valueAt c0.level (skip + t) := by
    intro t
    have hc' := hc'
    simp only [getTimeseries, List.getElem?_map, hc0, Option.map_some] at hc'
    obtain rfl := Option.some.inj hc'
    show clean (c0.level (sliceStart m.nMaps cfg.pipeline.build.skipMaps + t)) = _
    rw [hst]
    exact clean_valueAt _ _
  have hd' : ∀ t, c'.depth t = valueAt c0.depth (skip + t) := by
    intro t
    have hc' := hc'
    simp only [getTimeseries, List.getElem?_map, hc0, Option.map_some] at hc'
    obtain rfl := Option.some.inj hc'
    show clean (c0.depth (sliceStart m.nMaps cfg.pipeline.build.skipMaps + t)) = _
    rw [hst]
    exact clean_valueAt _ _
  have hlev : ∀ t < m.nMaps - skip, ∀ y, valueAt c0.level (skip + t) = some y → b.zRoughness[t]? = some (some y) := by
    intro t ht y hy
    rw [hzr, centreLevels_getElem? _ _ _ ht, hl', hy]
    rfl
  refine ⟨r, c0, z0, d0, zs, centre_nearest x m hl2 l r hr, hcell, hpos, hz, ?_, ?_, ?_⟩
  · rw [← hd, hd', Nat.add_zero]
  · intro y hy
    have := hlev 0 hpos y (by rw [Nat.add_zero]; exact hy)
    exact Option.some.inj (Option.some.inj (hz0.symm.trans this))
  · intro t ht y hy
    obtain ⟨k, rfl⟩ : ∃ k, t = skip + k := ⟨t - skip, by have := ht.1; omega⟩
    have hk := hlev k (by have := ht.2; omega) y hy
    obtain ⟨t', y', h1, h2, h3⟩ := record_above _ _ hz0 k y hk
    have hmem : t' ∈ 0 :: accs := (hacc.2 t').2 ⟨(List.getElem?_eq_some_iff.1 h2).1, h1⟩
    have : some y' ∈ (z0 :: zs).map some := by
      rw [hzs]
      exact List.mem_map.2 ⟨t', hmem, by rw [h2]; rfl⟩
    obtain ⟨z, hz', e⟩ := List.mem_map.1 this
    exact ⟨z, hz', by rw [Option.some.inj e]; exact h3⟩

private theorem forall₂_mem_left {α β : Type} {R : α → β → Prop} {as : List α} {bs : List β} (h : List.Forall₂ R as bs) :
    ∀ a ∈ as, ∃ b ∈ bs, R a b := by
  induction h with
  | nil => intro a ha; cases ha
  | cons hr _ ih =>
    intro a ha
    rcases List.mem_cons.1 ha with rfl | ha
    · exact ⟨_, List.mem_cons_self, hr⟩
    · obtain ⟨b, hb, hab⟩ := ih a ha
      exact ⟨b, List.mem_cons_of_mem _ hb, hab⟩

/-- **C130, ends.** The profile in the file covers this range: with at least two points allowed, its lowest level is the bed of a face
nearest to the location at the first map that is used, if that face is wet then, and its highest level is at or above every water
level of that face, up to the rounding to four decimals. -/
theorem C130_ends (x : Tools K) (hb : ∀ y, y < x.bump y) (cfg : RunConfig K) (i : Inputs K) (hi : Consistent i)
    (o : Surroundings) (hdir : o.dirExists = true) (hw : ∀ f, IsResult f → Sound o.faults f) (overwrite : Bool) (s : Store)
    (h : (run (jobOf x cfg i o) overwrite s).2 = .ok true) (m : Model2d K) (hm : setModelData x.nn i = .ok m)
    (xs : List (Loc K)) (hx : Requested cfg.cssSelection m.stations xs) (hu : ∃ l ∈ xs, Usable m l)
    (hn : ∀ l ∈ xs, PlainName l.id)
    (hfull : ∀ l ∈ xs, ∀ c, buildCss x cfg m l = .ok c → FullNumbers x.ft c) (hmax : 2 ≤ cfg.pipeline.maximumPoints)
    (skip : Nat) (hskip : cfg.pipeline.build.skipMaps = (skip : Int)) :
    ∃ text defs, (run (jobOf x cfg i o) overwrite s).1 "CrossSectionDefinitions.ini".toList = some text ∧
      readDefinitions x.ft text = .ok defs ∧
      List.Forall₂ (fun l d => d.id = l.id ∧ ∃ r c, IsNearest m l r ∧ gridCell x.sqrt m.faces r = some c ∧
          (∀ y, valueAt c.level skip = some y → ∃ depth, valueAt c.depth skip = some depth ∧
            d.levels.head? = some (as4 x.ft (y - depth))) ∧
          ∃ last : K, d.levels.getLast? = some (as4 x.ft last) ∧
            ∀ t, UsedMap skip m.nMaps t → ∀ y, valueAt c.level t = some y → y ≤ last)
        (xs.filter fun l => decide (Usable m l)) defs := by
  obtain ⟨cs, text, hcs, ht, hd⟩ := run_definitions x cfg i hi o hdir hw overwrite s h m hm xs hx hu hn hfull
  have hl2 := loaded2d x.nn i hi m hm
  refine ⟨text, _, ht, hd, ?_⟩
  rw [List.forall₂_map_right_iff]
  refine hcs.imp fun l c hc => ?_
  obtain ⟨hg, _, _, _, _, _, h1, _, _, h2, _⟩ := buildCss_ok x cfg m l c hc
  obtain ⟨b, g, hbg, hcr, hraw, _⟩ := geometry_parts _ _ _ _ _ _ _ _ _ hg
  obtain ⟨_, hp1, _, e1, e2⟩ := C02_C03_C14_pipeline_nonempty _ _ _ hb _ _ _ _ _ _ hmax hg
  obtain ⟨r, c0, z0, d0, zs, hr, hcell, hpos, hz, hd0, hz0, hup⟩ := levels_of_centre x cfg m hl2 l skip hskip b hbg
  have hgz : g.z = checkIncreasingOrder x.bump b.z := by
    unfold checkRequirements at hcr
    cases hj : firstNonzeroIndex b.totalWidth with
    | error e => rw [hj] at hcr; cases hcr
    | ok j => rw [hj] at hcr; rw [← Except.ok.inj hcr]
  have hrz : c.css.raw.z = checkIncreasingOrder x.bump b.z := by rw [hraw]; exact hgz
  have hhead : c.css.z.head? = some (z0 - d0) := by
    rw [e1, hrz, hz]
    have : (linspace10 d0).reverse.map (z0 - ·) = (z0 - d0) :: (((List.range 9).map fun (i : Nat) => (i : K) * d0 / 9).reverse.map (z0 - ·)) := by
      unfold linspace10
      rw [List.range_succ, List.map_append, List.reverse_append]
      simp only [List.map_cons, List.map_nil, List.reverse_singleton, List.singleton_append, List.map_reverse]
      have : ((9 : Nat) : K) * d0 / 9 = d0 := by
        push_cast
        field_simp
      rw [this]
    rw [this]
    rfl
  have hlevels : (definitionOf x.ft c.out).levels = c.css.z.map (as4 x.ft) := by
    show c.out.z.map _ = _; rw [h2]
  refine ⟨h1, r, c0, hr, hcell, fun y hy => ⟨d0, hd0, ?_⟩, ?_⟩
  · rw [hlevels, List.head?_map, hhead, hz0 y hy]
    rfl
  · have hne : c.css.z ≠ [] := by
      intro e
      rw [e, List.length_nil] at hp1
      omega
    refine ⟨c.css.z.getLast hne, ?_, fun t ht y hy => ?_⟩
    · rw [hlevels, List.getLast?_map, List.getLast?_eq_some_getLast hne]
      rfl
    · obtain ⟨z, hz', hyz⟩ := hup t ht y hy
      have hzb : z ∈ b.z := by rw [hz]; exact List.mem_append_right _ hz'
      obtain ⟨z', hz'', hle⟩ := forall₂_mem_left (checkIncreasingOrder_ge hb b.z) z hzb
      rw [← hrz] at hz''
      have hlast : z' ≤ c.css.z.getLast hne := by
        have hinc : c.css.raw.z.Pairwise (· < ·) := by rw [hrz]; exact checkIncreasingOrder_pairwise hb _
        have hl : c.css.raw.z.getLast? = some (c.css.z.getLast hne) := by
          rw [← e2]; exact List.getLast?_eq_some_getLast hne
        obtain ⟨k, hk, rfl⟩ := List.getElem_of_mem hz''
        rw [List.getLast?_eq_getElem?] at hl
        obtain ⟨hk', e⟩ := List.getElem?_eq_some_iff.1 hl
        rw [← e]
        by_cases hkk : k = c.css.raw.z.length - 1
        · subst hkk; exact le_rfl
        · exact (List.pairwise_iff_getElem.1 hinc k _ hk hk' (by omega)).le
      exact (hyz.trans hle).trans hlast

/-! ## C131: roughness -/

/-- What is read off from a table lies between bounds of its values. -/
theorem C131_read_within (level friction : List K) (hs : StrictlyIncreasing level) (hne : level ≠ [])
    (hl : level.length = friction.length) (lo hi : K) (hb : ∀ f ∈ friction, lo ≤ f ∧ f ≤ hi) (z v : K)
    (h : ReadAt level friction z v) : lo ≤ v ∧ v ≤ hi := by
  have hpos : 0 < level.length := List.length_pos_of_ne_nil hne
  have hmem : ∀ (k : Nat) (f : K), friction[k]? = some f → lo ≤ f ∧ f ≤ hi := fun k f hf => hb f (List.mem_of_getElem? hf)
  by_cases hall : ∃ j : Nat, ∃ hj : j < level.length, z < level[j]
  · classical
    obtain ⟨hj, hzj⟩ := Nat.find_spec hall
    by_cases h0 : Nat.find hall = 0
    · have e : level.head? = some level[Nat.find hall] := by
        rw [List.head?_eq_getElem?, ← h0]; exact List.getElem?_eq_getElem hj
      have ef : friction.head? = some (friction[0]'(by omega)) := by
        rw [List.head?_eq_getElem?]; exact List.getElem?_eq_getElem _
      rw [h.below _ _ e ef hzj.le]
      exact hb _ (List.getElem_mem _)
    · obtain ⟨i, hi'⟩ : ∃ i, Nat.find hall = i + 1 := ⟨Nat.find hall - 1, by omega⟩
      have hmin := Nat.find_min hall (m := i) (by omega)
      have hil : i < level.length := by omega
      have hzi : level[i] ≤ z := by
        by_contra hc
        exact hmin ⟨hil, not_le.1 hc⟩
      have hi1 : i + 1 < level.length := by omega
      have e1 : level[i]? = some level[i] := List.getElem?_eq_getElem hil
      have e2 : level[i + 1]? = some level[i + 1] := List.getElem?_eq_getElem hi1
      have e3 : friction[i]? = some (friction[i]'(by omega)) := List.getElem?_eq_getElem _
      have e4 : friction[i + 1]? = some (friction[i + 1]'(by omega)) := List.getElem?_eq_getElem _
      have hz1 : z ≤ level[i + 1] := by
        have : level[Nat.find hall] = level[i + 1] := by congr 1
        rw [← this]; exact hzj.le
      have hb := C24_between level friction i _ _ _ _ z v e1 e2 e3 e4 ⟨hzi, hz1⟩ (strictlyIncreasing_lt hs (by omega) e1 e2) h
      have b1 := hmem _ _ e3
      have b2 := hmem _ _ e4
      exact ⟨(le_min b1.1 b2.1).trans hb.1, hb.2.trans (max_le b1.2 b2.2)⟩
  · have e : level.getLast? = some level[level.length - 1] := by
      rw [List.getLast?_eq_getElem?]; exact List.getElem?_eq_getElem _
    have ef : friction.getLast? = some (friction[friction.length - 1]'(by omega)) := by
      rw [List.getLast?_eq_getElem?]; exact List.getElem?_eq_getElem _
    have hlast : level[level.length - 1] ≤ z := by
      by_contra hc
      exact hall ⟨_, by omega, not_le.1 hc⟩
    rw [h.above _ _ e ef hlast]
    exact hb _ (List.getElem_mem _)

private theorem levels_of_build (x : Tools K) (cfg : RunConfig K) (m : Model2d K) (hl2 : Loaded2d m) (l : Loc K) (c : Finished K)
    (hc : buildCss x cfg m l = .ok c) (skip : Nat) (hskip : cfg.pipeline.build.skipMaps = (skip : Int)) :
    skip < m.nMaps ∧ ∃ r c0, IsNearest m l r ∧ gridCell x.sqrt m.faces r = some c0 ∧
      c.css.raw.zRoughness.length = m.nMaps - skip ∧
      ∀ t < m.nMaps - skip, ∀ y, valueAt c0.level (skip + t) = some y → c.css.raw.zRoughness[t]? = some (some y) := by
  obtain ⟨hg, _⟩ := buildCss_ok x cfg m l c hc
  obtain ⟨b, g, hbg, hcr, hraw, _⟩ := geometry_parts _ _ _ _ _ _ _ _ _ hg
  obtain ⟨c', L, z0, d0, zs, accs, hc', _, hzr, hacc, _, hz0, _⟩ := built_parts hbg
  obtain ⟨c0, hc0⟩ : ∃ c0, (controlVolumeOf m.nMaps (getSelection x.sqrt m.faces m.edges l.id)).cells[
      centreOf x.nn (getSelection x.sqrt m.faces m.edges l.id) l]? = some c0 := by
    have hlt := (List.getElem?_eq_some_iff.1 hc').1
    unfold getTimeseries at hlt
    rw [List.length_map] at hlt
    exact ⟨_, List.getElem?_eq_getElem hlt⟩
  obtain ⟨r, hr, hcell⟩ := controlVolume_at x m hl2 _ _ _ _ hc0
  have hn : (getTimeseries cfg.pipeline.build.skipMaps (controlVolumeOf m.nMaps (getSelection x.sqrt m.faces m.edges l.id))).nMaps =
      m.nMaps - skip := by
    unfold getTimeseries sliceStart
    rw [hskip, if_pos (by omega)]
    simp only [Int.toNat_natCast, controlVolumeOf]
    omega
  have hpos : 0 < m.nMaps - skip := by
    have := (List.getElem?_eq_some_iff.1 hz0).1
    rw [hzr, centreLevels_length, hn] at this
    exact this
  have hst : sliceStart m.nMaps cfg.pipeline.build.skipMaps = skip := by
    unfold sliceStart
    rw [hskip, if_pos (by omega)]
    simp only [Int.toNat_natCast]
    omega
  have hraw' : c.css.raw.zRoughness = b.zRoughness := by rw [hraw]
  refine ⟨by omega, r, c0, centre_nearest x m hl2 l r hr, hcell, ?_, ?_⟩
  · rw [hraw', hzr, centreLevels_length, hn]
  · intro t ht y hy
    rw [hraw', hzr, hn, centreLevels_getElem? _ _ _ ht]
    have : c'.level t = valueAt c0.level (skip + t) := by
      have hc' := hc'
      simp only [getTimeseries, List.getElem?_map, hc0, Option.map_some] at hc'
      obtain rfl := Option.some.inj hc'
      show clean (c0.level (sliceStart m.nMaps cfg.pipeline.build.skipMaps + t)) = _
      rw [hst]
      exact clean_valueAt _ _
    rw [this, hy]
    rfl

/-- **C131, partial.** When the water at the face nearest to each location rises from each map that is used to the next, and some edge in
the section is wet at all of these maps, the values of the roughness file lie between the smallest and the largest roughness of
the wet edges. What is missing: sections that are dry at some map (see `C131_dry_violated`) and water that falls
(`C74_falling_water_violated`), and what is missing in `C98_files_partial`. -/
theorem C131_roughness_partial (x : Tools K) (sig : SigText x.ft) (hsig : x.sig = sig.text) (cfg : RunConfig K)
    (hf : cfg.frictionWeighing = 0) (i : Inputs K) (hi : Consistent i) (o : Surroundings) (hdir : o.dirExists = true)
    (hw : ∀ f, IsResult f → Sound o.faults f) (overwrite : Bool) (s : Store)
    (h : (run (jobOf x cfg i o) overwrite s).2 = .ok true) (m : Model2d K) (hm : setModelData x.nn i = .ok m)
    (xs : List (Loc K)) (hx : Requested cfg.cssSelection m.stations xs) (hn : ∀ l ∈ xs, PlainName l.branch)
    (hlab : ∀ t ∈ m.edges.sect, ∃ q ∈ roughnessFiles, t = q.1.toList)
    (hz : ∀ l ∈ xs, ∀ c, buildCss x cfg m l = .ok c → ∀ z, some z ∈ c.css.raw.zRoughness → -10 ^ 20 ≤ z ∧ z ≤ 10 ^ 20)
    (q : String × String × String) (hq : q ∈ roughnessFiles) (hu : ∃ l ∈ xs, Usable m l ∧ HasEdge m l q.1.toList)
    (skip : Nat) (hskip : cfg.pipeline.build.skipMaps = (skip : Int))
    (hrise : ∀ l ∈ xs, ∀ r c, IsNearest m l r → gridCell x.sqrt m.faces r = some c → RisesThroughout skip m.nMaps c)
    (hwet : ∀ l ∈ xs, HasEdge m l q.1.toList → ∀ t, UsedMap skip m.nMaps t → ∃ v, some v ∈ edgeRoughness m l q.1.toList t ∧ v ≠ 0)
    (least most : Loc K → K)
    (hrange : ∀ l ∈ xs, ∀ t, UsedMap skip m.nMaps t → ∀ v, some v ∈ edgeRoughness m l q.1.toList t → v ≠ 0 → least l ≤ v ∧ v ≤ most l) :
    ∃ text, (run (jobOf x cfg i o) overwrite s).1 q.2.1.toList = some text ∧
      List.Forall₂ (fun l d => d.1 = some l.branch ∧ d.2.1 = some (x.ft.repr l.chainage) ∧
          ∃ values : List K, d.2.2 = some (values.map sig.text) ∧ ∀ v ∈ values, least l ≤ v ∧ v ≤ most l)
        (xs.filter fun l => decide (Usable m l ∧ HasEdge m l q.1.toList))
        ((sections "[Definition]" text).map fun d => (d.get "branchId", d.get "chainage", (d.get "values").map splitWs)) := by
  obtain ⟨text, grid, ht, _, _, hdefs⟩ := C98_files_partial x sig hsig cfg hf i hi o hdir hw overwrite s h m hm xs hx hn hlab hz q hq hu
  have hl2 := loaded2d x.nn i hi m hm
  refine ⟨text, ht, (forall₂_with_mem hdefs).imp fun l d hd => ?_⟩
  obtain ⟨hl, d1, d2, c, level, values, hc, hlev, hint, hval⟩ := hd
  obtain ⟨hl, hus⟩ := List.mem_filter.1 hl
  have hus := of_decide_eq_true hus
  refine ⟨d1, d2, values, hval, ?_⟩
  obtain ⟨hpos, r, c0, hr, hcell, hlen, hread⟩ := levels_of_build x cfg m hl2 l c hc skip hskip
  have hrise := hrise l hl r c0 hr hcell
  rw [hlev, List.length_map] at hlen
  have hst : sliceStart m.nMaps cfg.pipeline.build.skipMaps = skip := by
    unfold sliceStart
    rw [hskip, if_pos (by omega)]
    simp only [Int.toNat_natCast]
    omega
  have hget : ∀ t < m.nMaps - skip, ∀ y, valueAt c0.level (skip + t) = some y → level[t]? = some y := by
    intro t ht y hy
    have := hread t ht y hy
    rw [hlev, List.getElem?_map] at this
    obtain ⟨y', h1, h2⟩ := Option.map_eq_some_iff.1 this
    rw [h1, Option.some.inj h2]
  have hs : StrictlyIncreasing level := by
    unfold StrictlyIncreasing
    rw [List.pairwise_iff_getElem]
    intro a b ha hb hab
    obtain ⟨y, hy, hlt⟩ := hrise (skip + a) ⟨by omega, by omega⟩
    obtain ⟨y', hy', _⟩ := hrise (skip + b) ⟨by omega, by omega⟩
    have e1 := hget a (by omega) y hy
    have e2 := hget b (by omega) y' hy'
    rw [List.getElem?_eq_getElem ha] at e1
    rw [List.getElem?_eq_getElem hb] at e2
    rw [Option.some.inj e1, Option.some.inj e2]
    exact hlt _ _ ⟨by omega, by omega⟩ (by omega) hy'
  have hne : level ≠ [] := by
    intro e
    rw [e, List.length_nil] at hlen
    omega
  obtain ⟨t', h1, h2, h3, h4⟩ := C24_interpolation ⟨level, (List.range level.length).map fun k => meanWet
    (edgeRoughness m l q.1.toList (sliceStart m.nMaps cfg.pipeline.build.skipMaps + k))⟩ hs hne
    (by rw [List.length_map, List.length_range]) grid
  obtain rfl := Except.ok.inj (hint.symm.trans h1)
  intro v hv
  obtain ⟨k, hk⟩ := List.mem_iff_getElem?.1 hv
  have hkg : k < grid.length := by
    rw [← h3]; exact (List.getElem?_eq_some_iff.1 hk).1
  refine C131_read_within level _ hs hne (by rw [List.length_map, List.length_range]) (least l) (most l) ?_ grid[k] v
    (h4 k _ v (List.getElem?_eq_getElem hkg) hk)
  intro f hf
  obtain ⟨k, hk, rfl⟩ := List.mem_map.1 hf
  have hk := List.mem_range.1 hk
  rw [hst]
  have hused : UsedMap skip m.nMaps (skip + k) := ⟨by omega, by omega⟩
  refine C22_between _ _ _ ?_ (hrange l hl _ hused)
  obtain ⟨v, hv, hv0⟩ := hwet l hl hus.2 _ hused
  have : v ∈ wetValues (edgeRoughness m l q.1.toList (skip + k)) := by
    unfold wetValues present
    exact List.mem_filter.2 ⟨List.mem_filterMap.2 ⟨_, hv, rfl⟩, by simpa using hv0⟩
  exact List.ne_nil_of_mem this

/-- **C131 is violated when a section is dry.** Whatever the roughness of its edges is when they are wet: when the edges in a section
are all dry at the first map that is used, the roughness file gives zero for that location at every level up to the first water level. -/
theorem C131_dry_violated (x : Tools K) (sig : SigText x.ft) (hsig : x.sig = sig.text) (cfg : RunConfig K)
    (hf : cfg.frictionWeighing = 0) (i : Inputs K) (hi : Consistent i) (o : Surroundings) (hdir : o.dirExists = true)
    (hw : ∀ f, IsResult f → Sound o.faults f) (overwrite : Bool) (s : Store)
    (h : (run (jobOf x cfg i o) overwrite s).2 = .ok true) (m : Model2d K) (hm : setModelData x.nn i = .ok m)
    (xs : List (Loc K)) (hx : Requested cfg.cssSelection m.stations xs) (hn : ∀ l ∈ xs, PlainName l.branch)
    (hlab : ∀ t ∈ m.edges.sect, ∃ q ∈ roughnessFiles, t = q.1.toList)
    (hz : ∀ l ∈ xs, ∀ c, buildCss x cfg m l = .ok c → ∀ z, some z ∈ c.css.raw.zRoughness → -10 ^ 20 ≤ z ∧ z ≤ 10 ^ 20)
    (q : String × String × String) (hq : q ∈ roughnessFiles) (hu : ∃ l ∈ xs, Usable m l ∧ HasEdge m l q.1.toList)
    (skip : Nat) (hskip : cfg.pipeline.build.skipMaps = (skip : Int))
    (hrise : ∀ l ∈ xs, ∀ r c, IsNearest m l r → gridCell x.sqrt m.faces r = some c → RisesThroughout skip m.nMaps c) :
    ∃ (text : Text) (grid : List K), (run (jobOf x cfg i o) overwrite s).1 q.2.1.toList = some text ∧
      (∀ b ∈ sections "[BranchProperties]" text, ∃ lv, b.get "levels" = some lv ∧ decimals lv = grid.map fun z => some (roundTo 4 z)) ∧
      List.Forall₂ (fun l d => d.1 = some l.branch ∧ d.2.1 = some (x.ft.repr l.chainage) ∧
          ∃ values : List K, d.2.2 = some (values.map sig.text) ∧ values.length = grid.length ∧
            ((∀ v, some v ∈ edgeRoughness m l q.1.toList skip → v = 0) →
              ∃ r c y, IsNearest m l r ∧ gridCell x.sqrt m.faces r = some c ∧ valueAt c.level skip = some y ∧
                ∀ (k : Nat) z, grid[k]? = some z → z ≤ y → values[k]? = some 0))
        (xs.filter fun l => decide (Usable m l ∧ HasEdge m l q.1.toList))
        ((sections "[Definition]" text).map fun d => (d.get "branchId", d.get "chainage", (d.get "values").map splitWs)) := by
  obtain ⟨text, grid, ht, _, hbr, hdefs⟩ :=
    C98_files_partial x sig hsig cfg hf i hi o hdir hw overwrite s h m hm xs hx hn hlab hz q hq hu
  have hl2 := loaded2d x.nn i hi m hm
  refine ⟨text, grid, ht, fun b hb => ?_, (forall₂_with_mem hdefs).imp fun l d hd => ?_⟩
  · obtain ⟨lv, h1, _, h3⟩ := hbr b hb
    exact ⟨lv, h1, h3⟩
  obtain ⟨hl, d1, d2, c, level, values, hc, hlev, hint, hval⟩ := hd
  obtain ⟨hl, hus⟩ := List.mem_filter.1 hl
  obtain ⟨hpos, r, c0, hr, hcell, hlen, hread⟩ := levels_of_build x cfg m hl2 l c hc skip hskip
  have hrise := hrise l hl r c0 hr hcell
  rw [hlev, List.length_map] at hlen
  have hst : sliceStart m.nMaps cfg.pipeline.build.skipMaps = skip := by
    unfold sliceStart
    rw [hskip, if_pos (by omega)]
    simp only [Int.toNat_natCast]
    omega
  have hget : ∀ t < m.nMaps - skip, ∀ y, valueAt c0.level (skip + t) = some y → level[t]? = some y := by
    intro t ht y hy
    have := hread t ht y hy
    rw [hlev, List.getElem?_map] at this
    obtain ⟨y', h1, h2⟩ := Option.map_eq_some_iff.1 this
    rw [h1, Option.some.inj h2]
  have hs : StrictlyIncreasing level := by
    unfold StrictlyIncreasing
    rw [List.pairwise_iff_getElem]
    intro a b ha hb hab
    obtain ⟨y, hy, hlt⟩ := hrise (skip + a) ⟨by omega, by omega⟩
    obtain ⟨y', hy', _⟩ := hrise (skip + b) ⟨by omega, by omega⟩
    have e1 := hget a (by omega) y hy
    have e2 := hget b (by omega) y' hy'
    rw [List.getElem?_eq_getElem ha] at e1
    rw [List.getElem?_eq_getElem hb] at e2
    rw [Option.some.inj e1, Option.some.inj e2]
    exact hlt _ _ ⟨by omega, by omega⟩ (by omega) hy'
  have hne : level ≠ [] := by
    intro e
    rw [e, List.length_nil] at hlen
    omega
  obtain ⟨t', h1, h2, h3, h4⟩ := C24_interpolation ⟨level, (List.range level.length).map fun k => meanWet
    (edgeRoughness m l q.1.toList (sliceStart m.nMaps cfg.pipeline.build.skipMaps + k))⟩ hs hne
    (by rw [List.length_map, List.length_range]) grid
  obtain rfl := Except.ok.inj (hint.symm.trans h1)
  refine ⟨d1, d2, values, hval, h3, fun hdry => ?_⟩
  obtain ⟨y, hy, _⟩ := hrise skip ⟨le_rfl, hpos⟩
  refine ⟨r, c0, y, hr, hcell, hy, fun k z hk hzy => ?_⟩
  have hkv : k < values.length := by
    have h3 : values.length = grid.length := h3
    rw [h3]; exact (List.getElem?_eq_some_iff.1 hk).1
  have hv := List.getElem?_eq_getElem hkv
  have hread0 := h4 k z values[k] hk hv
  have hlpos : 0 < level.length := by omega
  have e1 : level.head? = some y := by
    rw [List.head?_eq_getElem?]; exact hget 0 (by omega) y hy
  have e2 : ((List.range level.length).map fun k => meanWet
      (edgeRoughness m l q.1.toList (sliceStart m.nMaps cfg.pipeline.build.skipMaps + k))).head? = some 0 := by
    rw [List.head?_eq_getElem?, List.getElem?_map, List.getElem?_range hlpos, Option.map_some, hst, Nat.add_zero]
    unfold meanWet
    rw [if_pos]
    unfold wetValues present
    rw [List.filter_eq_nil_iff]
    intro v hv
    obtain ⟨o', ho, rfl⟩ := List.mem_filterMap.1 hv
    simpa using hdry v ho
  rw [hv, hread0.below _ _ e1 e2 hzy]

/-- The sample data with water that rises from each map to the next. -/
def risingInputs : Inputs ℚ :=
  let level : List ℚ := [2, 3, 4, 5]
  { sampleSectionInputs with
    map := .ok { sampleMap with
      faces := { sampleMap.faces with
        waterdepth := sampleMap.faces.bedlevel.map fun b => level.map fun z => some (max 0 (z - b))
        waterlevel := sampleMap.faces.bedlevel.map fun b => level.map fun z => some (max b z) } } }

theorem risingInputs_consistent : Consistent risingInputs :=
  { map := by
      intro d hd
      obtain rfl := Except.ok.inj hd
      constructor <;> rfl
    regions := by intro d css r _ _ h; cases h
    sections := by
      intro d r hd h
      obtain rfl := Except.ok.inj hd
      obtain rfl := Except.ok.inj (Option.some.inj h)
      constructor <;> rfl }

private theorem rising_nearest : ∀ l ∈ (sampleLoaded risingInputs).stations, ∀ r c, IsNearest (sampleLoaded risingInputs) l r →
    gridCell sampleTools.sqrt (sampleLoaded risingInputs).faces r = some c →
    RisesThroughout 0 (sampleLoaded risingInputs).nMaps c := by
  intro l hl r c hr hc
  have hn : (sampleLoaded risingInputs).nMaps = 4 := by decide +kernel
  have hrow : r ∈ rowsOf (sampleLoaded risingInputs).faces.sclass l.id := hr.1
  have h5 : ∀ l ∈ (sampleLoaded risingInputs).stations, ∀ r ∈ rowsOf (sampleLoaded risingInputs).faces.sclass l.id,
      5 ∈ rowsOf (sampleLoaded risingInputs).faces.sclass l.id ∧
      ((sampleLoaded risingInputs).faces.x[r]? = some (r : ℚ) ∧ (sampleLoaded risingInputs).faces.y[r]? = some 0) ∧
      ((sampleLoaded risingInputs).faces.x[5]? = some 5 ∧ (sampleLoaded risingInputs).faces.y[5]? = some 0) ∧
      (((r : ℚ) - l.x) ^ 2 + (0 - l.y) ^ 2 ≤ (5 - l.x) ^ 2 + (0 - l.y) ^ 2 → r = 5) := by decide +kernel
  obtain ⟨k1, ⟨k2, k3⟩, ⟨k4, k5⟩, k6⟩ := h5 l hl r hrow
  obtain rfl := k6 (hr.2 5 k1 _ _ _ _ k2 k3 k4 k5)
  have hv : ∀ t < 4, valueAt c.level t = some ((t : ℚ) + 2) := by
    have : ∀ t < 4, ((gridCell sampleTools.sqrt (sampleLoaded risingInputs).faces 5).any fun c =>
        decide (valueAt c.level t = some ((t : ℚ) + 2))) = true := by decide +kernel
    intro t ht
    have := this t ht
    rw [hc, Option.any_some] at this
    exact of_decide_eq_true this
  rw [hn]
  intro t ht
  refine ⟨_, hv t ht.2, fun t' y ht' hlt hy => ?_⟩
  rw [hv t' ht'.2] at hy
  rw [← Option.some.inj hy]
  have : (t : ℚ) < t' := by exact_mod_cast hlt
  linarith

/-- The main channel of this run meets the hypotheses, with bounds 38 and 45; the floodplain is dry at the first map and not at the
last. -/
example : Consistent risingInputs ∧ sampleTools.sig = sampleSig.text ∧ sampleRunConfig.frictionWeighing = 0 ∧
    (run (jobOf sampleTools sampleRunConfig risingInputs sampleSurroundings) false noFiles).2 = .ok true ∧
    ∃ m, setModelData sampleTools.nn risingInputs = .ok m ∧ (∀ l ∈ m.stations, PlainName l.branch) ∧
      (∀ t ∈ m.edges.sect, ∃ q ∈ roughnessFiles, t = q.1.toList) ∧
      (∃ l ∈ m.stations, Usable m l ∧ HasEdge m l "main".toList) ∧
      (∀ l ∈ m.stations, ∀ c, buildCss sampleTools sampleRunConfig m l = .ok c →
        ∀ z, some z ∈ c.css.raw.zRoughness → -10 ^ 20 ≤ z ∧ z ≤ 10 ^ 20) ∧
      (∀ l ∈ m.stations, ∀ r c, IsNearest m l r → gridCell sampleTools.sqrt m.faces r = some c → RisesThroughout 0 m.nMaps c) ∧
      m.nMaps = 4 ∧
      (∀ l ∈ m.stations, HasEdge m l "main".toList → ∀ t < 4, ∃ v ∈ edgeRoughness m l "main".toList t, v ≠ some 0 ∧ v ≠ none) ∧
      (∀ l ∈ m.stations, ∀ t < 4, ∀ v ∈ edgeRoughness m l "main".toList t, v.all fun v => decide (v ≠ 0 → 38 ≤ v ∧ v ≤ 45)) ∧
      ∃ l ∈ m.stations, Usable m l ∧ HasEdge m l "floodplain1".toList ∧
        (∀ v ∈ edgeRoughness m l "floodplain1".toList 0, v = some 0) ∧ some 20 ∈ edgeRoughness m l "floodplain1".toList 3 := by
  refine ⟨risingInputs_consistent, rfl, rfl, ok_of_option (by decide +kernel), sampleLoaded risingInputs,
    loaded_ok _ (by decide +kernel), by decide +kernel, by decide +kernel, by decide +kernel, fun l hl c hc z hz => ?_,
    rising_nearest, by decide +kernel, by decide +kernel, by decide +kernel, by decide +kernel⟩
  have h : ∀ l ∈ (sampleLoaded risingInputs).stations,
      ((buildCss sampleTools sampleRunConfig (sampleLoaded risingInputs) l).toOption.all fun c =>
        c.css.raw.zRoughness.all fun z => z.all fun z => decide (-10 ^ 20 ≤ z ∧ z ≤ 10 ^ 20)) = true := by decide +kernel
  have h := h l hl
  rw [hc] at h
  have h : (c.css.raw.zRoughness.all fun z => z.all fun z => decide (-10 ^ 20 ≤ z ∧ z ≤ 10 ^ 20)) = true := h
  exact of_decide_eq_true (List.all_eq_true.1 h _ hz)

end Fm2prof.Props

import Verif.Proofs.Range
import Verif.Proofs.Robust
import Verif.Spec.CutMaps
import Verif.Spec.Robust
import Verif.Spec.Horizontal

/-!
# Lemmas on map files with maps left out
-/

set_option linter.unusedSectionVars false

namespace Fm2prof.CutMapsProof

open Fm2prof Spec

variable {K : Type} [Field K] [LinearOrder K] [IsStrictOrderedRing K] [FloorRing K]

/-- A change of series that can be made before or after two series are combined. -/
def Uniform (g : List (Option K) → List (Option K)) : Prop :=
  ∀ (f : Option K → Option K → Option K) (a b : List (Option K)), List.zipWith f (g a) (g b) = g (List.zipWith f a b)

theorem uniform_take (n : Nat) : Uniform (K := K) (List.take n) := fun _ _ _ => List.take_zipWith.symm

theorem uniform_erase (p : Nat) : Uniform (K := K) fun r => r.eraseIdx p := by
  intro f a b
  induction p generalizing a b with
  | zero => cases a <;> cases b <;> simp
  | succ p ih =>
    cases a with
    | nil => rfl
    | cons x xs =>
      cases b with
      | nil => simp
      | cons y ys =>
        simp only [List.eraseIdx_cons_succ, List.zipWith_cons_cons]
        rw [ih]

theorem mapSeries_erase (p : Nat) (r : List (Option K)) : mapSeries (r.eraseIdx p) = without p (mapSeries r) := by
  funext t
  unfold mapSeries without
  rw [List.getElem?_eraseIdx]
  split <;> rfl

theorem maskSelect_edit (g : List (Option K) → List (Option K)) (mask : List Bool) (l : List (List (Option K))) :
    maskSelect mask (l.map g) = (maskSelect mask l).map g := by
  unfold maskSelect
  rw [List.zip_map_right, List.filter_map, List.map_map, List.map_map]
  rfl

theorem zipWith_edit (g : List (Option K) → List (Option K)) (hg : Uniform g) (f : Option K → Option K → Option K)
    (a b : List (List (Option K))) :
    List.zipWith (List.zipWith f) (a.map g) (b.map g) = (List.zipWith (List.zipWith f) a b).map g := by
  induction a generalizing b with
  | nil => rfl
  | cons x xs ih =>
    cases b with
    | nil => rfl
    | cons y ys => simp only [List.map_cons, List.zipWith_cons_cons, ih, hg f x y]

/-- The selected data with changed series. -/
def editSelection (g : List (Option K) → List (Option K)) (c : Selection Text K) : Selection Text K :=
  { c with waterdepth := c.waterdepth.map g, waterlevel := c.waterlevel.map g
           velocity := c.velocity.map g, chezy := c.chezy.map g }

/-- Loaded data with changed series. -/
def editModel (g : List (Option K) → List (Option K)) (n : Nat) (m : Model2d K) : Model2d K :=
  { m with
    faces := { m.faces with
      waterdepth := m.faces.waterdepth.map g, waterlevel := m.faces.waterlevel.map g
      velocityX := m.faces.velocityX.map g, velocityY := m.faces.velocityY.map g }
    edges := { m.edges with chezy := m.edges.chezy.map g }
    nMaps := n }

theorem selection_edit (g : List (Option K) → List (Option K)) (hg : Uniform g) (sqrt : K → K) (n : Nat) (m : Model2d K) (id : Text) :
    getSelection sqrt (editModel g n m).faces (editModel g n m).edges id = editSelection g (getSelection sqrt m.faces m.edges id) := by
  unfold getSelection editSelection editModel
  simp only [maskSelect_edit, zipWith_edit g hg]

theorem sectionsByVariance_edit (g : List (Option K) → List (Option K)) (series : List (List (Option K)))
    (h : ∀ r ∈ series, (g r).getLast? = r.getLast?) : sectionsByVariance (series.map g) = sectionsByVariance series := by
  unfold sectionsByVariance
  rw [List.map_map]
  have : series.map ((fun r : List (Option K) => r.getLast?.join) ∘ g) = series.map fun r => r.getLast?.join := by
    refine List.map_congr_left fun r hr => ?_
    simp only [Function.comp_apply, h r hr]
  rw [this]

theorem setModelData_edit (nn : NearestPicker K) (g : List (Option K) → List (Option K)) (n : Nat) (i : Inputs K) (d : MapData K)
    (hd : i.map = .ok d) (h : (∃ r, i.sections = some (.ok r)) ∨ ∀ r ∈ d.edges.chezy ++ d.chezyMean, (g r).getLast? = r.getLast?) :
    setModelData nn { i with map := .ok (Spec.MapData.editMaps g n d) } = (setModelData nn i).map (editModel g n) := by
  obtain ⟨map, css, regions, sections⟩ := i
  obtain rfl : map = .ok d := hd
  unfold setModelData
  cases css with
  | error e => rfl
  | ok css =>
    simp only
    have ha : ∀ r, assignCss nn (Spec.MapData.editMaps g n d) css r = assignCss nn d css r := by
      intro r; cases r <;> rfl
    simp only [ha]
    cases readOptional regions with
    | error e => rfl
    | ok regions =>
      cases hs : readOptional sections with
      | error e => rfl
      | ok secs =>
        have hb : assignSections (Spec.MapData.editMaps g n d) secs = assignSections d secs := by
          cases secs with
          | some r => rfl
          | none =>
            rcases h with ⟨r, hr⟩ | h
            · have hr : sections = some (.ok r) := hr
              rw [hr] at hs; cases hs
            · unfold assignSections
              have e1 : sectionsByVariance (Spec.MapData.editMaps g n d).edges.chezy = sectionsByVariance d.edges.chezy :=
                sectionsByVariance_edit g _ fun r hr => h r (List.mem_append.2 (Or.inl hr))
              have e2 : sectionsByVariance (Spec.MapData.editMaps g n d).chezyMean = sectionsByVariance d.chezyMean :=
                sectionsByVariance_edit g _ fun r hr => h r (List.mem_append.2 (Or.inr hr))
              simp only [e1, e2]
        dsimp only
        rw [hb]
        cases assignCss nn d css regions with
        | error e => rfl
        | ok p =>
          dsimp only
          cases assignSections d secs with
          | error e => rfl
          | ok q => rfl

theorem cells_edit (g : List (Option K) → List (Option K)) (n n' : Nat) (c : Selection Text K) (q : (Nat → Option K) → Nat → Option K)
    (hq : ∀ r ∈ c.waterdepth ++ c.waterlevel ++ c.velocity, mapSeries (g r) = q (mapSeries r)) :
    (controlVolumeOf n (editSelection g c)).cells = (controlVolumeOf n' c).cells.map fun k =>
      { k with depth := q k.depth, level := q k.level, velocity := q k.velocity } := by
  unfold controlVolumeOf editSelection
  simp only [List.zip_map, List.map_map]
  rw [List.zip_map_right, List.map_map]
  refine List.map_congr_left fun p hp => ?_
  have h0 := (List.of_mem_zip hp).2
  have h1 := (List.of_mem_zip h0).1
  have h2 := (List.of_mem_zip (List.of_mem_zip h0).2).1
  have h3 := (List.of_mem_zip (List.of_mem_zip h0).2).2
  simp only [Function.comp_apply, Prod.map, id]
  rw [hq _ (List.mem_append.2 (.inl (List.mem_append.2 (.inl h1)))), hq _ (List.mem_append.2 (.inl (List.mem_append.2 (.inr h2)))),
    hq _ (List.mem_append.2 (.inr h3))]

theorem controlVolume_erase (p n : Nat) (c : Selection Text K) :
    controlVolumeOf (n - 1) (editSelection (fun r => r.eraseIdx p) c) = ControlVolume.without p (controlVolumeOf n c) := by
  have h := cells_edit (fun r : List (Option K) => r.eraseIdx p) (n - 1) n c (without p) fun r _ => mapSeries_erase p r
  unfold ControlVolume.without
  have e : controlVolumeOf (n - 1) (editSelection (fun r => r.eraseIdx p) c) =
      ⟨n - 1, (controlVolumeOf (n - 1) (editSelection (fun r => r.eraseIdx p) c)).cells⟩ := rfl
  rw [e, h]
  rfl

theorem controlVolume_take (n k : Nat) (c : Selection Text K)
    (h : ∀ r ∈ c.waterdepth ++ c.waterlevel ++ c.velocity, r.length = n + k) :
    controlVolumeOf n (editSelection (List.take n) c) = ControlVolume.withoutLast k (controlVolumeOf (n + k) c) := by
  induction k generalizing c with
  | zero =>
    have hcell := cells_edit (List.take n) n n c id fun r hr => by
      rw [List.take_of_length_le (by rw [h r hr]; omega)]; rfl
    have e : controlVolumeOf n (editSelection (List.take n) c) =
      ⟨n, (controlVolumeOf n (editSelection (List.take n) c)).cells⟩ := rfl
    rw [e, hcell]
    show _ = controlVolumeOf n c
    simp only [id, List.map_id']
    rfl
  | succ k ih =>
    show _ = ControlVolume.withoutLast k (ControlVolume.without (n + k) (controlVolumeOf (n + (k + 1)) c))
    rw [← controlVolume_erase]
    show _ = ControlVolume.withoutLast k (controlVolumeOf (n + k) _)
    rw [← ih (editSelection (fun r => r.eraseIdx (n + k)) c)]
    · have hcell := cells_edit (List.take n) n n c (fun f t => if t < n then f t else none) fun r hr => by
        funext t
        unfold mapSeries
        rw [List.getElem?_take]
        split <;> rfl
      have hcell' := cells_edit (List.take n) n n (editSelection (fun r => r.eraseIdx (n + k)) c) (fun f t => if t < n then f t else none)
        fun r hr => by
          funext t
          unfold mapSeries
          rw [List.getElem?_take]
          split <;> rfl
      have hcell'' := cells_edit (fun r => r.eraseIdx (n + k)) n n c (without (n + k)) fun r _ => mapSeries_erase _ r
      have e : ∀ c : Selection Text K, controlVolumeOf n (editSelection (List.take n) c) =
        ⟨n, (controlVolumeOf n (editSelection (List.take n) c)).cells⟩ := fun _ => rfl
      rw [e c, e (editSelection (fun r => r.eraseIdx (n + k)) c), hcell, hcell', hcell'', List.map_map]
      congr 1
      refine List.map_congr_left fun cell _ => ?_
      simp only [Function.comp_apply]
      have hw : ∀ f : Nat → Option K, (fun t => if t < n then without (n + k) f t else none) = fun t => if t < n then f t else none := by
        intro f
        funext t
        unfold without
        split
        · rw [if_pos (by omega)]
        · rfl
      simp only [hw]
    · intro r hr
      have : ∀ col : List (List (Option K)), (∀ r ∈ col, r.length = n + (k + 1)) →
          ∀ r ∈ col.map fun r => r.eraseIdx (n + k), r.length = n + k := by
        intro col hcol r hr
        obtain ⟨r', hr', rfl⟩ := List.mem_map.1 hr
        rw [List.length_eraseIdx_of_lt (by rw [hcol r' hr']; omega), hcol r' hr']
        omega
      rcases List.mem_append.1 hr with hr | hr
      · rcases List.mem_append.1 hr with hr | hr
        · exact this _ (fun r hr => h r (List.mem_append.2 (.inl (List.mem_append.2 (.inl hr))))) r hr
        · exact this _ (fun r hr => h r (List.mem_append.2 (.inl (List.mem_append.2 (.inr hr))))) r hr
      · exact this _ (fun r hr => h r (List.mem_append.2 (.inr hr))) r hr

/-- Two cross-sections with the same profile, faces and sections have the same definition; only the roughness tables may differ. -/
theorem definition_of_profile (x : Tools K) (cfg : RunConfig K) (g : List (Option K) → List (Option K)) (hg : Uniform g) (n : Nat)
    (m : Model2d K) (l : Loc K) (c c' : Finished K) (h : buildCss x cfg m l = .ok c) (h' : buildCss x cfg (editModel g n m) l = .ok c')
    (hp : (buildCrossSectionGeometry (x.opt l.id) cfg.pipeline x.bump x.release (x.log l.id) l.length
        (centreOf x.nn (getSelection x.sqrt m.faces m.edges l.id) l)
        (controlVolumeOf n (editSelection g (getSelection x.sqrt m.faces m.edges l.id)))).map profileOf =
      (buildCrossSectionGeometry (x.opt l.id) cfg.pipeline x.bump x.release (x.log l.id) l.length
        (centreOf x.nn (getSelection x.sqrt m.faces m.edges l.id) l)
        (controlVolumeOf m.nMaps (getSelection x.sqrt m.faces m.edges l.id))).map profileOf) :
    { c'.out with tables := c.out.tables } = c.out := by
  obtain ⟨a1, a2, a3, a4, a5, a6, a7, a8, a9, a10, a11, a12, a13, _⟩ := buildCss_ok x cfg m l c h
  obtain ⟨b1, b2, b3, b4, b5, b6, b7, b8, b9, b10, b11, b12, b13, _⟩ := buildCss_ok x cfg _ l c' h'
  rw [selection_edit g hg] at b1 b2
  have b1 : buildCrossSectionGeometry (x.opt l.id) cfg.pipeline x.bump x.release (x.log l.id) l.length
        (centreOf x.nn (getSelection x.sqrt m.faces m.edges l.id) l)
        (controlVolumeOf n (editSelection g (getSelection x.sqrt m.faces m.edges l.id))) = .ok c'.css := b1
  rw [a1, b1] at hp
  have hp : profileOf c'.css = profileOf c.css := Except.ok.inj hp
  obtain ⟨_, _, _, a14, a15⟩ := assignRoughness_ok _ _ _ _ _ _ _ _ a2
  obtain ⟨_, _, _, b14, b15⟩ := assignRoughness_ok _ _ _ _ _ _ _ _ b2
  have b14 : computeSectionWidths l.length (sectionFacesOf m.numbered (getSelection x.sqrt m.faces m.edges l.id)) c'.css.flowWidth
    c'.css.raw.flowWidth = .ok c'.out.widths := b14
  have b15 : c'.out.floodplainBase = floodplainBase c'.css.crestLevel cfg.floodplainTolerance
    (sectionFacesOf m.numbered (getSelection x.sqrt m.faces m.edges l.id)) := b15
  have hv : volumeTableOf c'.css = volumeTableOf c.css := by
    have := congrArg volumeTableOf hp
    exact this
  have k1 : c'.css.flowWidth = c.css.flowWidth := have e := congrArg (fun q : Css K => q.flowWidth) hp; e
  have k2 : c'.css.raw.flowWidth = c.css.raw.flowWidth := have e := congrArg (fun q : Css K => q.raw.flowWidth) hp; e
  have k3 : c'.css.crestLevel = c.css.crestLevel := have e := congrArg (fun q : Css K => q.crestLevel) hp; e
  have k4 : c'.css.z = c.css.z := have e := congrArg (fun q : Css K => q.z) hp; e
  have k5 : c'.css.totalWidth = c.css.totalWidth := have e := congrArg (fun q : Css K => q.totalWidth) hp; e
  have k6 : c'.css.extraFlowArea = c.css.extraFlowArea := have e := congrArg (fun q : Css K => q.extraFlowArea) hp; e
  have k7 : c'.css.extraTotalArea = c.css.extraTotalArea := have e := congrArg (fun q : Css K => q.extraTotalArea) hp; e
  have k8 : c'.css.extraTotalVolume = c.css.extraTotalVolume := have e := congrArg (fun q : Css K => q.extraTotalVolume) hp; e
  rw [k1, k2] at b14
  have w : c'.out.widths = c.out.widths := Except.ok.inj (b14.symm.trans a14)
  rw [k3] at b15 b3
  rw [k6] at b4; rw [k7] at b5; rw [k8] at b6
  have f1 := Option.some.inj (b3.symm.trans a3)
  have f2 := Option.some.inj (b4.symm.trans a4)
  have f3 := Option.some.inj (b5.symm.trans a5)
  have f4 := Option.some.inj (b6.symm.trans a6)
  have f5 := b7.trans a7.symm
  have f6 := b8.trans a8.symm
  have f7 := b9.trans a9.symm
  have f8 := b10.trans (k4.trans a10.symm)
  have f9 := b11.trans (k1.trans a11.symm)
  have f10 := b12.trans (k5.trans a12.symm)
  have f11 := b13.trans (hv.trans a13.symm)
  have f12 := b15.trans a15.symm
  generalize c'.out = o' at *
  generalize c.out = o at *
  cases o'; cases o
  simp only at w f1 f2 f3 f4 f5 f6 f7 f8 f9 f10 f11 f12
  subst w f1 f2 f3 f4 f5 f6 f7 f8 f9 f10 f11 f12
  rfl

theorem selection_lengths (x : Tools K) (i : Inputs K) (d : MapData K) (hd : i.map = .ok d) (hw : MapData.Whole d) (m : Model2d K)
    (hm : setModelData x.nn i = .ok m) (id : Text) (n : Nat) (hn : m.nMaps = n) :
    ∀ r ∈ (getSelection x.sqrt m.faces m.edges id).waterdepth ++ (getSelection x.sqrt m.faces m.edges id).waterlevel ++
      (getSelection x.sqrt m.faces m.edges id).velocity, r.length = n := by
  obtain ⟨d', css, rg, sec, fc, ec, fs, es, hd', -, -, -, -, -, hf, -, h9, -⟩ := setModelData_ok x.nn i m hm
  obtain rfl := Except.ok.inj (hd.symm.trans hd')
  have hsel : ∀ (mask : List Bool) (col : List (List (Option K))), (∀ r ∈ col, r.length = n) → ∀ r ∈ maskSelect mask col, r.length = n := by
    intro mask col hcol r hr
    unfold maskSelect at hr
    obtain ⟨q, hq, rfl⟩ := List.mem_map.1 hr
    exact hcol _ (List.of_mem_zip (List.mem_filter.1 hq).1).2
  have hzip : ∀ (f : Option K → Option K → Option K) (a b : List (List (Option K))), (∀ r ∈ a, r.length = n) → (∀ r ∈ b, r.length = n) →
      ∀ r ∈ List.zipWith (List.zipWith f) a b, r.length = n := by
    intro f a b ha hb r hr
    obtain ⟨j, hj⟩ := List.mem_iff_getElem?.1 hr
    rw [List.getElem?_zipWith] at hj
    cases h1 : a[j]? with
    | none => rw [h1] at hj; cases hj
    | some u =>
      cases h2 : b[j]? with
      | none => rw [h1, h2] at hj; cases hj
      | some v =>
        rw [h1, h2] at hj
        obtain rfl := Option.some.inj hj
        rw [List.length_zipWith, ha u (List.mem_of_getElem? h1), hb v (List.mem_of_getElem? h2), Nat.min_self]
  have hw' : ∀ r ∈ d.faces.waterdepth ++ d.faces.waterlevel ++ d.faces.velocityX ++ d.faces.velocityY ++ d.edges.chezy ++ d.chezyMean,
      r.length = n := fun r hr => by rw [hw r hr, ← h9, hn]
  have k1 : ∀ r ∈ m.faces.waterdepth, r.length = n := by rw [hf]; exact fun r hr => hw' r (by simp [hr])
  have k2 : ∀ r ∈ m.faces.waterlevel, r.length = n := by rw [hf]; exact fun r hr => hw' r (by simp [hr])
  have k3 : ∀ r ∈ m.faces.velocityX, r.length = n := by rw [hf]; exact fun r hr => hw' r (by simp [hr])
  have k4 : ∀ r ∈ m.faces.velocityY, r.length = n := by rw [hf]; exact fun r hr => hw' r (by simp [hr])
  intro r hr
  rcases List.mem_append.1 hr with hr | hr
  · rcases List.mem_append.1 hr with hr | hr
    · exact hsel _ _ k1 r hr
    · exact hzip _ _ _ (hsel _ _ k1) (hsel _ _ k2) r hr
  · exact hzip _ _ _ (hsel _ _ k3) (hsel _ _ k4) r hr

end Fm2prof.CutMapsProof

import Verif.Spec.RoughnessOnly
import Verif.Proofs.OneSetting
import Verif.Proofs.RunSim
import Verif.Proofs.ScaleRun

/-!
# Proofs about maps that differ in their roughness only
-/

set_option linter.unusedSectionVars false

namespace Fm2prof.RoughnessOnlyProof

open Fm2prof Spec OneSettingProof

variable {K : Type} [Field K] [LinearOrder K] [IsStrictOrderedRing K] [FloorRing K]

/-! ## Any other roughness -/

/-- A finished cross-section without the contents of its roughness tables. -/
def smooth (c : Finished K) : ExportCss K × Css K :=
  ({ c.out with tables := c.out.tables.map fun p => (p.1, ⟨[], []⟩) }, c.css)

theorem tables_names (method : Int) (skip n : Nat) (level : List K) (links links' : List (Link Text K)) (ss : List Text) :
    (buildTablesFor method none skip n level links' ss).map (fun t => t.map (·.1))
      = (buildTablesFor method none skip n level links ss).map (fun t => t.map (·.1)) := by
  induction ss with
  | nil => rfl
  | cons s ss ih =>
    rw [buildTablesFor, buildTablesFor]
    unfold sectionFriction
    by_cases h0 : method = 0
    · rw [if_pos h0, if_pos h0]
      simp only
      unfold FrictionTable.make
      rw [List.length_map, List.length_map, List.length_range]
      by_cases hl : level.length = n - skip
      · rw [if_pos hl, if_pos hl]
        simp only
        generalize buildTablesFor method none skip n level links' ss = a at ih ⊢
        generalize buildTablesFor method none skip n level links ss = b at ih ⊢
        cases a <;> cases b
        · exact ih
        · cases ih
        · cases ih
        · exact congrArg (fun l => Except.ok (s :: l)) (Except.ok.inj ih)
      · rw [if_neg hl, if_neg hl]
    · rw [if_neg h0, if_neg h0]
      by_cases h1 : method = 1
      · rw [if_pos h1]
      · rw [if_neg h1]

theorem zip_fst {α β γ : Type} (l : List α) (r : List β) (r' : List γ) (h : r'.length = r.length) :
    (l.zip r').map (·.1) = (l.zip r).map (·.1) := by
  induction l generalizing r r' with
  | nil => rfl
  | cons a l ih =>
    cases r with
    | nil => cases r' with
      | nil => rfl
      | cons => cases h
    | cons b r => cases r' with
      | nil => cases h
      | cons b' r' =>
        rw [List.zip_cons_cons, List.zip_cons_cons, List.map_cons, List.map_cons, ih r r' (Nat.succ.inj h)]

theorem maskSelect_length {β γ : Type} (mask : List Bool) (r : List β) (r' : List γ) (h : r'.length = r.length) :
    (maskSelect mask r').length = (maskSelect mask r).length := by
  unfold maskSelect
  rw [List.length_map, List.length_map]
  have e : ∀ {δ : Type} (z : List (Bool × δ)), (z.filter (·.1)).length = ((z.map (·.1)).filter id).length := by
    intro δ z
    rw [List.filter_map, List.length_map]
    rfl
  rw [e, e, zip_fst mask r r' h]

/-- The data of a cross-section with other roughness. -/
theorem selection_smooth (sqrt : K → K) (m : Model2d K) (chezy : List (List (Option K))) (id : Text) :
    getSelection sqrt m.faces { m.edges with chezy := chezy } id
      = { getSelection sqrt m.faces m.edges id with chezy := maskSelect (m.edges.sclass.map fun c => decide (c = id)) chezy } := rfl

theorem links_names (s : Selection Text K) (chezy : List (List (Option K))) (h : chezy.length = s.chezy.length) :
    (linksOf { s with chezy := chezy }).map (·.sect) = (linksOf s).map (·.sect) := by
  unfold linksOf
  rw [List.map_map, List.map_map]
  exact zip_fst s.edgeSection s.chezy chezy h

theorem assign_smooth (cfg : RunConfig K) (m m' : Model2d K) (hn : m'.nMaps = m.nMaps) (hb : m'.numbered = m.numbered)
    (s : Selection Text K) (chezy : List (List (Option K))) (h : chezy.length = s.chezy.length) (len : K) (c : Css K) :
    (assignRoughness cfg m' { s with chezy := chezy } len c).map (fun t => (t.1.map (·.1), t.2))
      = (assignRoughness cfg m s len c).map (fun t => (t.1.map (·.1), t.2)) := by
  have e : sectionFacesOf m'.numbered { s with chezy := chezy } = sectionFacesOf m.numbered s := by rw [hb]; rfl
  unfold assignRoughness
  rw [hn, e]
  cases allSome c.raw.zRoughness with
  | none => rfl
  | some level =>
    simp only
    have key : (buildRoughnessTables cfg.frictionWeighing none (sliceStart m.nMaps cfg.pipeline.build.skipMaps) m.nMaps level
        (linksOf { s with chezy := chezy })).map (fun t => t.map (·.1)) = (buildRoughnessTables cfg.frictionWeighing none
          (sliceStart m.nMaps cfg.pipeline.build.skipMaps) m.nMaps level (linksOf s)).map (fun t => t.map (·.1)) := by
      unfold buildRoughnessTables
      rw [links_names s chezy h]
      exact tables_names _ _ _ _ _ _ _
    generalize buildRoughnessTables cfg.frictionWeighing none (sliceStart m.nMaps cfg.pipeline.build.skipMaps) m.nMaps level
        (linksOf { s with chezy := chezy }) = a at key ⊢
    generalize buildRoughnessTables cfg.frictionWeighing none (sliceStart m.nMaps cfg.pipeline.build.skipMaps) m.nMaps level
        (linksOf s) = b at key ⊢
    cases a <;> cases b
    · exact congrArg Except.error (Except.error.inj key)
    · cases key
    · cases key
    · rename_i ta tb
      have key : ta.map (·.1) = tb.map (·.1) := Except.ok.inj key
      simp only
      cases computeSectionWidths len (sectionFacesOf m.numbered s) c.flowWidth c.raw.flowWidth with
      | error e => rfl
      | ok w =>
        show Except.ok (ta.map (·.1), _) = Except.ok (tb.map (·.1), _)
        rw [key]

theorem names_eq (ta tb : List (Text × FrictionTable K)) (h : ta.map (·.1) = tb.map (·.1)) :
    ta.map (fun p => (p.1, (⟨[], []⟩ : FrictionTable K))) = tb.map (fun p => (p.1, ⟨[], []⟩)) := by
  have e : ∀ t : List (Text × FrictionTable K), t.map (fun p => (p.1, (⟨[], []⟩ : FrictionTable K)))
      = (t.map (·.1)).map fun n => (n, ⟨[], []⟩) := by
    intro t; rw [List.map_map]; rfl
  rw [e, e, h]

/-- What is built for a cross-section with other roughness. -/
theorem build_smooth (x : Tools K) (cfg : RunConfig K) (m m' : Model2d K) (hf : m'.faces = m.faces)
    (chezy : List (List (Option K))) (hc : chezy.length = m.edges.chezy.length) (he : m'.edges = { m.edges with chezy := chezy })
    (hn : m'.nMaps = m.nMaps) (hb : m'.numbered = m.numbered) (l : Loc K) :
    (buildCss x cfg m' l).map smooth = (buildCss x cfg m l).map smooth := by
  have hs : getSelection x.sqrt m'.faces m'.edges l.id = { getSelection x.sqrt m.faces m.edges l.id with
      chezy := maskSelect (m.edges.sclass.map fun c => decide (c = l.id)) chezy } := by
    rw [hf, he]; rfl
  have hl : (maskSelect (m.edges.sclass.map fun c => decide (c = l.id)) chezy).length
      = (getSelection x.sqrt m.faces m.edges l.id).chezy.length := maskSelect_length _ _ _ hc
  unfold buildCss
  rw [hs, hn]
  generalize getSelection x.sqrt m.faces m.edges l.id = s at hl ⊢
  generalize maskSelect (m.edges.sclass.map fun c => decide (c = l.id)) chezy = ch at hl ⊢
  have e1 : centreOf x.nn { s with chezy := ch } l = centreOf x.nn s l := rfl
  have e2 : controlVolumeOf m.nMaps { s with chezy := ch } = controlVolumeOf m.nMaps s := rfl
  have e3 : maskData l.id { s with chezy := ch } = maskData l.id s := rfl
  simp only [e1, e2, e3]
  cases buildCrossSectionGeometry (x.opt l.id) cfg.pipeline x.bump x.release (x.log l.id) l.length (centreOf x.nn s l)
    (controlVolumeOf m.nMaps s) with
  | error e => rfl
  | ok c =>
    simp only
    have key := assign_smooth cfg m m' hn hb s ch hl l.length c
    generalize assignRoughness cfg m' { s with chezy := ch } l.length c = a at key ⊢
    generalize assignRoughness cfg m s l.length c = b at key ⊢
    cases a <;> cases b
    · exact congrArg Except.error (Except.error.inj key)
    · cases key
    · cases key
    · rename_i ta tb
      obtain ⟨ta, w, base⟩ := ta
      obtain ⟨tb, w', base'⟩ := tb
      have key : (ta.map (·.1), w, base) = (tb.map (·.1), w', base') := Except.ok.inj key
      obtain ⟨k1, k2⟩ := Prod.mk.inj key
      obtain ⟨rfl, rfl⟩ := Prod.mk.inj k2
      simp only
      cases c.crestLevel <;> cases c.extraFlowArea <;> cases c.extraTotalArea <;> cases c.extraTotalVolume <;>
        first
        | rfl
        | (show Except.ok (_, c) = Except.ok (_, c)
           rw [names_eq ta tb k1])

theorem harmonise_smooth (cs : List (Finished K)) : (harmoniseCss cs).map smooth = cs.map smooth := by
  have h1 : (harmoniseCss cs).map (fun c => ({ c.out with tables := [] }, c.css)) = cs.map (fun c => ({ c.out with tables := [] }, c.css)) :=
    harmoniseCss_map _ (fun _ _ => rfl) cs
  have h2 : (harmoniseCss cs).map (fun c => c.out.tables.map (·.1)) = cs.map (fun c => c.out.tables.map (·.1)) := by
    have := harmonise_sections (cs.map fun c => c.out.tables)
    rw [← harmoniseCss_tables, List.map_map, List.map_map] at this
    exact this
  have hlen := harmoniseCss_length cs
  apply List.ext_getElem
  · rw [List.length_map, List.length_map, hlen]
  · intro k hk hk'
    rw [List.length_map] at hk hk'
    rw [List.getElem_map, List.getElem_map]
    have a1 : ({ (harmoniseCss cs)[k].out with tables := [] }, (harmoniseCss cs)[k].css) = ({ cs[k].out with tables := [] }, cs[k].css) := by
      have := congrArg (fun l => l[k]?) h1
      simp only [List.getElem?_map, List.getElem?_eq_getElem hk, List.getElem?_eq_getElem hk', Option.map_some] at this
      exact Option.some.inj this
    have a2 : (harmoniseCss cs)[k].out.tables.map (·.1) = cs[k].out.tables.map (·.1) := by
      have := congrArg (fun l => l[k]?) h2
      simp only [List.getElem?_map, List.getElem?_eq_getElem hk, List.getElem?_eq_getElem hk', Option.map_some] at this
      exact Option.some.inj this
    obtain ⟨b1, b2⟩ := Prod.mk.inj a1
    unfold smooth
    rw [b2, names_eq _ _ a2]
    have : ∀ (o o' : ExportCss K) (t : List (Text × FrictionTable K)), { o with tables := [] } = { o' with tables := ([] : Tables Text K) } →
        { o with tables := t } = { o' with tables := t } := by
      intro o o' t h
      have := congrArg (fun c : ExportCss K => { c with tables := t }) h
      exact this
    rw [this _ _ _ b1]

/-! ## A multiple of the roughness -/

variable {σ : Type} [LinearOrder σ]

/-- A roughness table with all values multiplied by `k`. -/
def table (k : K) (t : FrictionTable K) : FrictionTable K := ⟨t.level, t.friction.map (k * ·)⟩

def tables (k : K) (ts : Tables σ K) : Tables σ K := ts.map fun p => (p.1, table k p.2)

def out (k : K) (c : ExportCss K) : ExportCss K := { c with tables := tables k c.tables }

def link (k : K) (l : Link σ K) : Link σ K := { l with chezy := fun t => (l.chezy t).map (k * ·) }

theorem zeroToNan_mul (k : K) (hk : k ≠ 0) (o : Option K) : zeroToNan (o.map (k * ·)) = (zeroToNan o).map (k * ·) := by
  cases o with
  | none => rfl
  | some v =>
    show (if k * v = 0 then none else some (k * v)) = Option.map (k * ·) (if v = 0 then none else some v)
    by_cases h : v = 0
    · rw [if_pos h, h, mul_zero, if_pos rfl]; rfl
    · rw [if_neg h, if_neg (mul_ne_zero hk h)]; rfl

theorem nanmean_mul (k : K) (l : List (Option K)) : nanmean (l.map (Option.map (k * ·))) = (nanmean l).map (k * ·) := by
  have e : (l.map (Option.map (k * ·))).reduceOption = l.reduceOption.map (k * ·) := List.reduceOption_map
  unfold nanmean
  rw [e]
  cases l.reduceOption with
  | nil => rfl
  | cons a as =>
    rw [List.map_cons]
    show some ((k * a :: as.map (k * ·)).sum / _) = some (k * ((a :: as).sum / _))
    rw [← List.map_cons (f := (k * ·)), List.length_map, List.sum_map_mul_left, List.map_id', mul_div_assoc]

theorem frictionSimple_mul (k : K) (hk : k ≠ 0) (links : List (Link σ K)) (t : Nat) :
    frictionSimple (links.map (link k)) t = k * frictionSimple links t := by
  unfold frictionSimple
  have e : (links.map (link k)).map (fun l => zeroToNan (l.chezy t))
      = (links.map fun l => zeroToNan (l.chezy t)).map (Option.map (k * ·)) := by
    rw [List.map_map, List.map_map]
    apply List.map_congr_left
    intro l _
    exact zeroToNan_mul k hk (l.chezy t)
  rw [e, nanmean_mul]
  cases nanmean (links.map fun l => zeroToNan (l.chezy t)) with
  | none => exact (mul_zero k).symm
  | some v => rfl

theorem linksOf_mul (k : K) (s : Selection Text K) :
    linksOf { s with chezy := s.chezy.map fun r => r.map (Option.map (k * ·)) } = (linksOf s).map (link k) := by
  have h : ∀ (r : List (Option K)), mapSeries (r.map (Option.map (k * ·))) = fun t => (mapSeries r t).map (k * ·) := by
    intro r
    funext t
    unfold mapSeries
    rw [List.getElem?_map]
    cases r[t]? with
    | none => rfl
    | some o => rfl
  unfold linksOf
  show (s.edgeSection.zip (s.chezy.map _)).map _ = _
  rw [List.zip_map_right, List.map_map, List.map_map]
  apply List.map_congr_left
  intro p _
  show (⟨p.1, (0, 0), mapSeries (p.2.map (Option.map (k * ·)))⟩ : Link Text K) = ⟨p.1, (0, 0), fun t => (mapSeries p.2 t).map (k * ·)⟩
  rw [h]

theorem buildTablesFor_mul (k : K) (hk : k ≠ 0) (method : Int) (skip n : Nat) (level : List K) (links : List (Link σ K))
    (ss : List σ) : buildTablesFor method none skip n level (links.map (link k)) ss
      = (buildTablesFor method none skip n level links ss).map (tables k) := by
  induction ss with
  | nil => rfl
  | cons s ss ih =>
    rw [buildTablesFor, buildTablesFor, ih]
    have hfil : (links.map (link k)).filter (fun l => l.sect = s) = (links.filter fun l => l.sect = s).map (link k) := by
      rw [List.filter_map]; rfl
    have hsec : sectionFriction method none skip n ((links.map (link k)).filter fun l => l.sect = s)
        = (sectionFriction method none skip n (links.filter fun l => l.sect = s)).map (List.map (k * ·)) := by
      rw [hfil]
      unfold sectionFriction
      by_cases h0 : method = 0
      · rw [if_pos h0, if_pos h0]
        show Except.ok _ = Except.ok _
        rw [List.map_map]
        congr 1
        apply List.map_congr_left
        intro t _
        exact frictionSimple_mul k hk _ _
      · rw [if_neg h0, if_neg h0]
        by_cases h1 : method = 1
        · rw [if_pos h1]; rfl
        · rw [if_neg h1]; rfl
    rw [hsec]
    cases sectionFriction method none skip n (links.filter fun l => l.sect = s) with
    | error e => rfl
    | ok fr =>
      simp only [Except.map]
      unfold FrictionTable.make
      rw [List.length_map]
      by_cases hl : level.length = fr.length
      · rw [if_pos hl, if_pos hl]
        simp only
        cases buildTablesFor method none skip n level links ss <;> rfl
      · rw [if_neg hl, if_neg hl]

theorem interp1_mul (k : K) (xp fp : List K) (x : K) : interp1 xp (fp.map (k * ·)) x = (interp1 xp fp x).map (k * ·) := by
  unfold interp1
  rw [List.head?_map, List.getLast?_map, List.getElem?_map, List.getElem?_map]
  generalize xp[interpSearch x xp.tail 0]? = a
  generalize fp[interpSearch x xp.tail 0]? = fa
  generalize xp[interpSearch x xp.tail 0 + 1]? = b
  generalize fp[interpSearch x xp.tail 0 + 1]? = fb
  cases xp.head? with
  | none => rfl
  | some x₀ =>
    cases xp.getLast? with
    | none => rfl
    | some x₁ =>
      cases fp.head? with
      | none => rfl
      | some f₀ =>
        cases fp.getLast? with
        | none => rfl
        | some f₁ =>
          simp only [Option.map_some]
          by_cases h1 : x₁ < x
          · rw [if_pos h1, if_pos h1]; rfl
          rw [if_neg h1, if_neg h1]
          by_cases h2 : x < x₀
          · rw [if_pos h2, if_pos h2]; rfl
          rw [if_neg h2, if_neg h2]
          cases a with
          | none => rfl
          | some a =>
            cases fa with
            | none => rfl
            | some fa =>
              cases b with
              | none => rfl
              | some b =>
                cases fb with
                | none => rfl
                | some fb =>
                  simp only [Option.map_some]
                  by_cases h3 : a = x
                  · rw [if_pos h3, if_pos h3]; rfl
                  · rw [if_neg h3, if_neg h3]
                    show some _ = some _
                    congr 1
                    rw [← mul_sub]
                    ring

theorem allSome_mul (k : K) (l : List (Option K)) : allSome (l.map (Option.map (k * ·))) = (allSome l).map (List.map (k * ·)) := by
  induction l with
  | nil => rfl
  | cons o l ih =>
    rw [List.map_cons]
    cases o with
    | none => rfl
    | some v =>
      show Option.map (k * v :: ·) (allSome (l.map (Option.map (k * ·)))) = Option.map (List.map (k * ·)) (Option.map (v :: ·) (allSome l))
      rw [ih]
      cases allSome l <;> rfl

theorem interpolate_mul (k : K) (t : FrictionTable K) (z : List K) : (table k t).interpolate z = (t.interpolate z).map (table k) := by
  unfold FrictionTable.interpolate
  have e : z.map (interp1 (table k t).level (table k t).friction) = (z.map (interp1 t.level t.friction)).map (Option.map (k * ·)) := by
    rw [List.map_map]
    apply List.map_congr_left
    intro v _
    exact interp1_mul k t.level t.friction v
  rw [e, allSome_mul]
  cases allSome (z.map (interp1 t.level t.friction)) <;> rfl

theorem get_mul (k : K) (ts : Tables σ K) (s : σ) : Tables.get (tables k ts) s = (Tables.get ts s).map (table k) := by
  unfold Tables.get tables
  rw [List.find?_map]
  have e : ((fun p : σ × FrictionTable K => decide (p.1 = s)) ∘ fun p : σ × FrictionTable K => (p.1, table k p.2)) =
      fun p : σ × FrictionTable K => decide (p.1 = s) := rfl
  rw [e]
  cases ts.find? fun p => decide (p.1 = s) <;> rfl

theorem setTable_mul (k : K) (ts : Tables σ K) (s : σ) (t : FrictionTable K) :
    Tables.setTable (tables k ts) s (table k t) = tables k (Tables.setTable ts s t) := by
  unfold Tables.setTable tables
  rw [List.map_map, List.map_map]
  apply List.map_congr_left
  intro p _
  show (if p.1 = s then (p.1, table k t) else (p.1, table k p.2)) = ((if p.1 = s then (p.1, t) else p).1, table k (if p.1 = s then (p.1, t) else p).2)
  split <;> rfl

theorem levelRange_mul (k : K) (s : σ) (l : List (Tables σ K)) (r : K × K) : levelRange s (l.map (tables k)) r = levelRange s l r := by
  induction l generalizing r with
  | nil => rfl
  | cons ts l ih =>
    rw [List.map_cons, levelRange, levelRange, get_mul]
    cases Tables.get ts s with
    | none => exact ih r
    | some t =>
      simp only [Option.map_some]
      have e : (table k t).level = t.level := rfl
      rw [e]
      cases t.level.min? with
      | none => rfl
      | some lo =>
        cases t.level.max? with
        | none => rfl
        | some hi => exact ih _

theorem resampleCss_mul (k : K) (s : σ) (z : List K) (ts : Tables σ K) :
    resampleCss s z (tables k ts) = (resampleCss s z ts).map (tables k) := by
  unfold resampleCss
  rw [get_mul]
  cases Tables.get ts s with
  | none => rfl
  | some t =>
    show (match (table k t).interpolate z with | .error e => _ | .ok t' => _) = _
    rw [interpolate_mul]
    simp only
    cases t.interpolate z with
    | error e => rfl
    | ok t' =>
      show Except.ok _ = Except.ok _
      rw [setTable_mul]

theorem resampleAll_mul (k : K) (s : σ) (z : List K) (l : List (Tables σ K)) :
    resampleAll s z (l.map (tables k)) = ((resampleAll s z l).1.map (tables k), (resampleAll s z l).2) := by
  induction l with
  | nil => rfl
  | cons ts l ih =>
    rw [List.map_cons, resampleAll, resampleAll, resampleCss_mul, ih]
    cases resampleCss s z ts <;> rfl

theorem harmoniseSection_mul (k : K) (s : σ) (l : List (Tables σ K)) :
    harmoniseSection s (l.map (tables k)) = ((harmoniseSection s l).1.map (tables k), (harmoniseSection s l).2) := by
  unfold harmoniseSection
  rw [levelRange_mul]
  cases levelRange s l (10 ^ 20, -10 ^ 20) with
  | error e => rfl
  | ok r =>
    obtain ⟨lo, hi⟩ := r
    exact resampleAll_mul k s _ l

theorem harmoniseSections_mul (k : K) (ss : List σ) (l : List (Tables σ K)) :
    harmoniseSections ss (l.map (tables k)) = ((harmoniseSections ss l).1.map (tables k), (harmoniseSections ss l).2) := by
  induction ss generalizing l with
  | nil => rfl
  | cons s ss ih =>
    rw [harmoniseSections, harmoniseSections, harmoniseSection_mul]
    simp only
    by_cases h : (harmoniseSection s l).2 = true
    · rw [if_pos h, if_pos h]
      exact ih _
    · rw [if_neg h, if_neg h]

theorem harmonise_mul (k : K) (l : List (Tables σ K)) : (harmonise (l.map (tables k))).1 = (harmonise l).1.map (tables k) := by
  have e : (l.map (tables k)).flatMap (fun css => css.map (·.1)) = l.flatMap fun css => css.map (·.1) := by
    rw [List.flatMap_map]
    congr 1
    funext ts
    unfold tables
    rw [List.map_map]
    rfl
  unfold harmonise
  rw [e, harmoniseSections_mul]

theorem harmoniseOuts_mul (k : K) (os : List (ExportCss K)) : harmoniseOuts (os.map (out k)) = (harmoniseOuts os).map (out k) := by
  unfold harmoniseOuts
  have e : (os.map (out k)).map (fun c => c.tables) = (os.map fun c => c.tables).map (tables k) := by
    rw [List.map_map, List.map_map]; rfl
  rw [e, harmonise_mul, List.zipWith_map, List.map_zipWith]
  rfl

theorem tableOf_mul (k : K) (c : ExportCss K) (s : Text) : tableOf (out k c) s = (tableOf c s).map (table k) := by
  unfold tableOf out tables
  show Option.map _ ((c.tables.map _).find? _) = _
  rw [List.find?_map]
  have e : ((fun p : Text × FrictionTable K => decide (p.1 = s)) ∘ fun p : Text × FrictionTable K => (p.1, table k p.2)) =
      fun p : Text × FrictionTable K => decide (p.1 = s) := rfl
  rw [e]
  cases c.tables.find? fun p => decide (p.1 = s) <;> rfl

theorem exportRoughness_mul (k : K) (ft : FloatText K) (sig : K → Text) (os : List (ExportCss K)) (sec : Text) :
    exportRoughness ft sig (os.map (out k)) sec = exportRoughness ft (fun v => sig (k * v)) os sec := by
  have h1 : ∀ (s : Text) (os : List (ExportCss K)) (seen : List Text), branchSec s seen (os.map (out k)) = branchSec s seen os := by
    intro s os
    induction os with
    | nil => intro seen; rfl
    | cons c cs ih =>
      intro seen
      rw [List.map_cons, branchSec, branchSec, tableOf_mul]
      cases tableOf c s with
      | none => exact ih seen
      | some t =>
        show (if c.branch ∈ seen then branchSec s seen (cs.map (out k)) else branchBlock c.branch t ++ branchSec s (seen ++ [c.branch]) (cs.map (out k))) = _
        rw [ih, ih]
  have h2 : ∀ (s : Text) (os : List (ExportCss K)), definitionSec ft sig s (os.map (out k)) = definitionSec ft (fun v => sig (k * v)) s os := by
    intro s os
    induction os with
    | nil => rfl
    | cons c cs ih =>
      rw [List.map_cons, definitionSec, definitionSec, tableOf_mul]
      cases tableOf c s with
      | none => exact ih
      | some t =>
        show frictionBlock ft sig (out k c) (table k t) ++ definitionSec ft sig s (cs.map (out k)) = _
        rw [ih]
        congr 1
        unfold frictionBlock table
        rw [List.map_map]
        rfl
  unfold exportRoughness
  rw [h1, h2]

/-- What is built for a cross-section from the multiple of the roughness. -/
theorem build_mul (k : K) (hk : k ≠ 0) (x y : Tools K) (sig : K → Text) (hy : y = { x with sig := sig }) (cfg : RunConfig K)
    (m m' : Model2d K) (hf : m'.faces = m.faces)
    (he : m'.edges = { m.edges with chezy := m.edges.chezy.map fun r => r.map (Option.map (k * ·)) })
    (hn : m'.nMaps = m.nMaps) (hb : m'.numbered = m.numbered) (l : Loc K) :
    (buildCss x cfg m' l).map (fun c => c.out) = (buildCss y cfg m l).map fun c => out k c.out := by
  subst hy
  have hs : getSelection x.sqrt m'.faces m'.edges l.id = { getSelection x.sqrt m.faces m.edges l.id with
      chezy := (getSelection x.sqrt m.faces m.edges l.id).chezy.map fun r => r.map (Option.map (k * ·)) } := by
    rw [hf, he]
    have : ∀ {α β : Type} (f : α → β) (mask : List Bool) (xs : List α), maskSelect mask (xs.map f) = (maskSelect mask xs).map f := by
      intro α β f mask xs
      unfold maskSelect
      rw [List.zip_map_right, List.filter_map, List.map_map, List.map_map]
      rfl
    show ({ getSelection x.sqrt m.faces m.edges l.id with chezy := maskSelect _ _ } : Selection Text K) = _
    rw [this]
    rfl
  unfold buildCss
  show Except.map _ (match buildCrossSectionGeometry _ _ _ _ _ _ (centreOf x.nn (getSelection x.sqrt m'.faces m'.edges l.id) l)
      (controlVolumeOf m'.nMaps (getSelection x.sqrt m'.faces m'.edges l.id)) with
    | .error e => .error e
    | .ok css => match assignRoughness cfg m' (getSelection x.sqrt m'.faces m'.edges l.id) l.length css with
      | .error e => .error e
      | .ok (tables, widths, base) => _) = _
  rw [hs, hn]
  show _ = Except.map _ (match buildCrossSectionGeometry _ _ _ _ _ _ (centreOf x.nn (getSelection x.sqrt m.faces m.edges l.id) l)
      (controlVolumeOf m.nMaps (getSelection x.sqrt m.faces m.edges l.id)) with
    | .error e => .error e
    | .ok css => match assignRoughness cfg m (getSelection x.sqrt m.faces m.edges l.id) l.length css with
      | .error e => .error e
      | .ok (tables, widths, base) => _)
  generalize getSelection x.sqrt m.faces m.edges l.id = s
  have e1 : centreOf x.nn { s with chezy := s.chezy.map fun r => r.map (Option.map (k * ·)) } l = centreOf x.nn s l := rfl
  have e2 : controlVolumeOf m.nMaps { s with chezy := s.chezy.map fun r => r.map (Option.map (k * ·)) } = controlVolumeOf m.nMaps s := rfl
  rw [e1, e2]
  cases buildCrossSectionGeometry (x.opt l.id) cfg.pipeline x.bump x.release (x.log l.id) l.length (centreOf x.nn s l)
    (controlVolumeOf m.nMaps s) with
  | error e => rfl
  | ok c =>
    simp only
    have key : assignRoughness cfg m' { s with chezy := s.chezy.map fun r => r.map (Option.map (k * ·)) } l.length c
        = (assignRoughness cfg m s l.length c).map fun t => (tables k t.1, t.2) := by
      unfold assignRoughness
      have e3 : sectionFacesOf m'.numbered { s with chezy := s.chezy.map fun r => r.map (Option.map (k * ·)) }
          = sectionFacesOf m.numbered s := by rw [hb]; rfl
      rw [hn, e3, linksOf_mul]
      cases allSome c.raw.zRoughness with
      | none => rfl
      | some level =>
        simp only
        unfold buildRoughnessTables
        have e4 : ((linksOf s).map (link k)).map (·.sect) = (linksOf s).map (·.sect) := by rw [List.map_map]; rfl
        rw [e4, buildTablesFor_mul k hk]
        cases buildTablesFor cfg.frictionWeighing none (sliceStart m.nMaps cfg.pipeline.build.skipMaps) m.nMaps level (linksOf s)
            (npUnique ((linksOf s).map (·.sect))) with
        | error e => rfl
        | ok t =>
          simp only [Except.map]
          cases computeSectionWidths l.length (sectionFacesOf m.numbered s) c.flowWidth c.raw.flowWidth <;> rfl
    rw [key]
    cases assignRoughness cfg m s l.length c with
    | error e => rfl
    | ok t =>
      obtain ⟨t, w, base⟩ := t
      simp only [Except.map]
      cases c.crestLevel <;> cases c.extraFlowArea <;> cases c.extraTotalArea <;> cases c.extraTotalVolume <;> rfl

/-! ## Loading -/

theorem load_rough (nn : NearestPicker K) (i : Inputs K) (d : MapData K) (hd : i.map = .ok d) (sections : Except PyErr SectionLabels)
    (hs : i.sections = some sections) (chezy mean : List (List (Option K))) :
    (∃ e, setModelData nn i = .error e ∧ setModelData nn { i with map := .ok (MapData.withRoughness d chezy mean) } = .error e) ∨
    ∃ m, setModelData nn i = .ok m ∧ m.edges.chezy = d.edges.chezy ∧ setModelData nn { i with map := .ok (MapData.withRoughness d chezy mean) }
      = .ok { m with edges := { m.edges with chezy := chezy } } := by
  unfold setModelData
  rw [hd, hs]
  simp only
  cases i.css with
  | error e => exact .inl ⟨e, rfl, rfl⟩
  | ok css =>
    simp only
    cases readOptional i.regions with
    | error e => exact .inl ⟨e, rfl, rfl⟩
    | ok regions =>
      simp only
      cases sections with
      | error e => exact .inl ⟨e, rfl, rfl⟩
      | ok sec =>
        have e : assignCss nn (MapData.withRoughness d chezy mean) css regions = assignCss nn d css regions := by
          cases regions <;> rfl
        simp only [readOptional, e, assignSections]
        cases assignCss nn d css regions with
        | error e => exact .inl ⟨e, rfl, rfl⟩
        | ok p => exact .inr ⟨_, rfl, rfl, rfl⟩

/-- The two runs do the same for the files `P`, if what matters of a cross-section does. -/
theorem rough_jobs {V : Type} (v v' : Finished K → V) (P : Text → Prop) (x y : Tools K) (sig : K → Text) (hy : y = { x with sig := sig })
    (cfg : RunConfig K) (i : Inputs K) (d : MapData K) (hd : i.map = .ok d) (sections : Except PyErr SectionLabels)
    (hs : i.sections = some sections) (chezy mean : List (List (Option K))) (o : Surroundings)
    (hbuild : ∀ m : Model2d K, m.edges.chezy = d.edges.chezy → ∀ l,
      (buildCss x cfg { m with edges := { m.edges with chezy := chezy } } l).map v' = (buildCss y cfg m l).map v)
    (hout : ∀ cs cs' : List (Finished K), cs'.map v' = cs.map v → ∀ s f, P f →
      writeOutput o.faults (exporterOf x) o.dirExists (harmoniseCss cs') s f
        = writeOutput o.faults (exporterOf y) o.dirExists (harmoniseCss cs) s f) :
    SameJobs (jobOf y cfg i o) (jobOf x cfg { i with map := .ok (MapData.withRoughness d chezy mean) } o) id v v' P := by
  have hnn : y.nn = x.nn := by rw [hy]
  have hsq : y.sqrt = x.sqrt := by rw [hy]
  have hset := load_rough x.nn i d hd sections hs chezy mean
  have hload : ∀ m, (jobOf y cfg i o).load = .ok m → ∃ m, setModelData y.nn i = .ok m ∧ m.edges.chezy = d.edges.chezy ∧
      setModelData x.nn { i with map := .ok (MapData.withRoughness d chezy mean) } = .ok { m with edges := { m.edges with chezy := chezy } } := by
    intro m h
    have h : (setModelData y.nn i).map (fun m => (⟨m.stations, m.nMaps⟩ : Loaded (Loc K))) = .ok m := h
    rw [hnn] at h ⊢
    rcases hset with ⟨e, h1, _⟩ | ⟨m, h1, h2, h3⟩
    · rw [h1] at h; cases h
    · exact ⟨m, h1, h2, h3⟩
  constructor
  · rfl
  · rfl
  · rfl
  · rfl
  · rfl
  · rfl
  · rfl
  · show (setModelData x.nn _).map _ = ((setModelData y.nn _).map _).map _
    rw [hnn]
    rcases hset with ⟨e, h1, h2⟩ | ⟨m, h1, _, h3⟩
    · rw [h1, h2]; rfl
    · rw [h1, h3]
      simp only [Except.map, List.map_id]
  · intro _ _ _ _; rfl
  · intro _ _ l _ _ _
    exact storeData_sim _ _ _ _ _ _ rfl rfl rfl
  · intro m h h' l _ _ _
    exact jobOf_storeMask _ _ _ _ _ _ _ _ h h' rfl _ _ rfl _ _
  · intro m h l _ _
    obtain ⟨m, h1, h2, h3⟩ := hload m h
    show (match setModelData x.nn _ with | .error _ => 0 | .ok m => (getSelection x.sqrt m.faces m.edges l.id).x.length)
      = (match setModelData y.nn _ with | .error _ => 0 | .ok m => (getSelection y.sqrt m.faces m.edges l.id).x.length)
    rw [h1, h3, hsq]
    rfl
  · intro m h l _ _ _
    obtain ⟨m, h1, h2, h3⟩ := hload m h
    show (match setModelData x.nn _ with | .error e => Except.error e | .ok m => buildCss x cfg m l).map _
      = (match setModelData y.nn _ with | .error e => Except.error e | .ok m => buildCss y cfg m l).map _
    rw [h1, h3]
    exact hbuild m h2 l
  · intro cs cs' h s f hf
    exact hout cs cs' h s f hf

/-! ## Writing -/

theorem smooth_outs (cs cs' : List (Finished K)) (h : cs'.map smooth = cs.map smooth) :
    (cs'.map (·.out)).map (fun c => ({ c with tables := [] } : ExportCss K)) = (cs.map (·.out)).map fun c => { c with tables := [] } := by
  have := congrArg (List.map fun p : ExportCss K × Css K => ({ p.1 with tables := [] } : ExportCss K)) h
  rw [List.map_map, List.map_map] at this
  rw [List.map_map, List.map_map]
  exact this

theorem smooth_names (cs cs' : List (Finished K)) (h : cs'.map smooth = cs.map smooth) :
    (cs'.flatMap fun c => c.out.tables.map (·.1)) = cs.flatMap fun c => c.out.tables.map (·.1) := by
  have e : ∀ l : List (Finished K), (l.flatMap fun c => c.out.tables.map (·.1)) = (l.map smooth).flatMap fun p => p.1.tables.map (·.1) := by
    intro l
    rw [List.flatMap_map]
    congr 1
    funext c
    unfold smooth
    rw [List.map_map]
    rfl
  rw [e, e, h]

/-- The file of volumes from what is kept. -/
theorem volumes_smooth (ft : FloatText K) (cs cs' : List (Finished K)) (h : cs'.map smooth = cs.map smooth) :
    volumesText ft cs' = volumesText ft cs := by
  let g : ExportCss K × Css K → Finished K := fun p => ⟨p.1, p.2, maskData [] (⟨[], [], [], [], [], [], [], [], [], [], [], none, [], [], []⟩)⟩
  have key : ∀ l : List (Finished K), volumesText ft ((l.map smooth).map g) = volumesText ft l := by
    intro l
    rw [List.map_map]
    have hf : (l.map (g ∘ smooth)).flatMap (fun c => (List.range c.css.raw.z.length).map fun i => (c, i))
        = (l.flatMap fun c => (List.range c.css.raw.z.length).map fun i => (c, i)).map fun p => ((g ∘ smooth) p.1, p.2) := by
      rw [List.map_flatMap, List.flatMap_map]
      simp only [List.map_map]
      rfl
    unfold volumesText
    rw [hf, linesUntil_map (volumesLine ft) (volumesLine ft) (fun p => ((g ∘ smooth) p.1, p.2)) (fun _ => rfl)]
  rw [← key cs', h, key]

theorem blank_locations (ft : FloatText K) (os : List (ExportCss K)) :
    exportLocations ft (os.map fun c => { c with tables := [] }) = exportLocations ft os := by
  unfold exportLocations
  rw [List.map_map]
  rfl

theorem blank_definitions (ft : FloatText K) (os : List (ExportCss K)) :
    exportDefinitions ft (os.map fun c => { c with tables := [] }) = exportDefinitions ft os := by
  unfold exportDefinitions
  rw [List.map_map]
  rfl

theorem blank_sobek (ft : FloatText K) (os : List (ExportCss K)) :
    exportSobekGeometry ft (os.map fun c => { c with tables := [] }) = exportSobekGeometry ft os := by
  have hm : ∀ c : ExportCss K, sobekMeta ft { c with tables := [] } = sobekMeta ft c := by
    intro c
    unfold sobekMeta
    simp only
  have hr : ∀ (c : ExportCss K) (ws : List K) (i : Nat), sobekRows ft { c with tables := [] } i ws = sobekRows ft c i ws := by
    intro c ws
    induction ws with
    | nil => intro i; rfl
    | cons w ws ih =>
      intro i
      rw [sobekRows, sobekRows]
      simp only [ih]
  have hb : ∀ c : ExportCss K, sobekBlock ft { c with tables := [] } = sobekBlock ft c := by
    intro c
    unfold sobekBlock
    rw [hm, hr]
  unfold exportSobekGeometry
  rw [List.map_map]
  have : (sobekBlock ft ∘ fun c : ExportCss K => { c with tables := [] }) = sobekBlock ft := funext hb
  rw [this]

theorem blank_test (ft : FloatText K) (os : List (ExportCss K)) :
    testText ft (os.map fun c => { c with tables := [] }) = testText ft os := by
  have hf : (os.map fun c => ({ c with tables := [] } : ExportCss K)).flatMap (fun c => (List.range c.z.length).map fun i => (c, i))
      = (os.flatMap fun c => (List.range c.z.length).map fun i => (c, i)).map fun p => (({ p.1 with tables := [] } : ExportCss K), p.2) := by
    rw [List.map_flatMap, List.flatMap_map]
    simp only [List.map_map]
    rfl
  unfold testText
  rw [hf, linesUntil_map (testLine ft) (testLine ft) (fun p => (({ p.1 with tables := [] } : ExportCss K), p.2)) (fun _ => rfl)]

/-- The files without roughness are the same when all but the roughness is. -/
theorem output_smooth (x : Tools K) (w : WriteFaults) (dir : Bool) (cs cs' : List (Finished K)) (h : cs'.map smooth = cs.map smooth)
    (s : Store) (f : Text) (hf : ¬ HoldsRoughness f) :
    writeOutput w (exporterOf x) dir (harmoniseCss cs') s f = writeOutput w (exporterOf x) dir (harmoniseCss cs) s f := by
  have hh : (harmoniseCss cs').map smooth = (harmoniseCss cs).map smooth := by rw [harmonise_smooth, harmonise_smooth, h]
  generalize harmoniseCss cs' = bs' at hh
  generalize harmoniseCss cs = bs at hh
  have ho := smooth_outs bs bs' hh
  have e1 : exportLocations x.ft (bs'.map (·.out)) = exportLocations x.ft (bs.map (·.out)) := by
    rw [← blank_locations, ho, blank_locations]
  have e2 : exportDefinitions x.ft (bs'.map (·.out)) = exportDefinitions x.ft (bs.map (·.out)) := by
    rw [← blank_definitions, ho, blank_definitions]
  have e3 : exportSobekGeometry x.ft (bs'.map (·.out)) = exportSobekGeometry x.ft (bs.map (·.out)) := by
    rw [← blank_sobek, ho, blank_sobek]
  have e4 : testText x.ft (bs'.map (·.out)) = testText x.ft (bs.map (·.out)) := by
    rw [← blank_test, ho, blank_test]
  have e5 : volumesText x.ft bs' = volumesText x.ft bs := volumes_smooth x.ft bs bs' hh
  have e6 := smooth_names bs bs' hh
  refine (writeOutput_sameFor w (exporterOf x) (exporterOf x) dir _ _ s f (isEmpty_of_map smooth _ _ hh) ?_ ?_ ?_).symm
  · unfold dimrBlock
    have a1 : (exporterOf x).locations bs' = (exporterOf x).locations bs := by
      show (exportLocations x.ft (bs'.map (·.out)), none) = (exportLocations x.ft (bs.map (·.out)), none)
      rw [e1]
    have a2 : (exporterOf x).definitions bs' = (exporterOf x).definitions bs := by
      show (exportDefinitions x.ft (bs'.map (·.out)), none) = (exportDefinitions x.ft (bs.map (·.out)), none)
      rw [e2]
    have a3 : bs'.flatMap (exporterOf x).sections = bs.flatMap (exporterOf x).sections := e6
    rw [a1, a2, a3]
    refine .same _ _ _ (.same _ _ _ (.rest _ _ ?_ ?_)) <;>
    · intro hm
      apply hf
      obtain ⟨st, hst, hfile⟩ := List.mem_filterMap.1 hm
      obtain ⟨sec, _, rfl⟩ := List.mem_map.1 hst
      unfold roughnessStep at hfile
      cases hsec : sectionFile sec with
      | none => rw [hsec] at hfile; cases hfile
      | some p =>
        rw [hsec] at hfile
        obtain ⟨file, id⟩ := p
        have hfile : some file = some f := hfile
        obtain rfl := Option.some.inj hfile
        unfold sectionFile at hsec
        split at hsec
        · obtain rfl := (Prod.mk.inj (Option.some.inj hsec)).1
          exact .inl ⟨_, List.mem_cons_self, rfl⟩
        · split at hsec
          · obtain rfl := (Prod.mk.inj (Option.some.inj hsec)).1
            exact .inl ⟨_, List.mem_cons_of_mem _ List.mem_cons_self, rfl⟩
          · split at hsec
            · obtain rfl := (Prod.mk.inj (Option.some.inj hsec)).1
              exact .inl ⟨_, List.mem_cons_of_mem _ (List.mem_cons_of_mem _ List.mem_cons_self), rfl⟩
            · cases hsec
  · unfold sobekBlock'
    have a1 : (exporterOf x).sobekGeometry bs' = (exporterOf x).sobekGeometry bs := by
      show (exportSobekGeometry x.ft (bs'.map (·.out)), none) = (exportSobekGeometry x.ft (bs.map (·.out)), none)
      rw [e3]
    rw [a1]
    refine .same _ _ _ (.rest _ _ ?_ ?_) <;>
    · intro hm
      exact hf (.inr (List.mem_singleton.1 hm))
  · unfold otherBlock
    have a1 : (exporterOf x).testGeometry bs' = (exporterOf x).testGeometry bs := e4
    have a2 : (exporterOf x).volumes bs' = (exporterOf x).volumes bs := e5
    rw [a1, a2]
    exact SameFor.refl _ _

/-- The roughness files for D-Flow 1D of the multiple. -/
theorem output_mul (k : K) (x : Tools K) (w : WriteFaults) (dir : Bool) (cs cs' : List (Finished K))
    (h : cs'.map (fun c => c.out) = cs.map fun c => out k c.out) (s : Store) (f : Text) (hf' : IsRoughness f) :
    writeOutput w (exporterOf x) dir (harmoniseCss cs') s f
      = writeOutput w (exporterOf { x with sig := fun v => x.sig (k * v) }) dir (harmoniseCss cs) s f := by
  have hf : f ≠ "CrossSectionLocations.ini".toList ∧ f ≠ "CrossSectionDefinitions.ini".toList ∧ f ≠ "geometry.csv".toList ∧
      f ≠ "roughness.csv".toList ∧ f ≠ "geometry_test.csv".toList ∧ f ≠ "volumes.csv".toList := by
    obtain ⟨p, hp, rfl⟩ := hf'
    revert p; decide
  have hh : (harmoniseCss cs').map (·.out) = ((harmoniseCss cs).map (·.out)).map (out k) := by
    have e : cs'.map (·.out) = (cs.map (·.out)).map (out k) := by rw [List.map_map]; exact h
    rw [harmoniseCss_outs, harmoniseCss_outs, e, harmoniseOuts_mul]
  have hlen : (harmoniseCss cs').length = (harmoniseCss cs).length := by
    have := congrArg List.length hh
    rwa [List.length_map, List.length_map, List.length_map] at this
  generalize harmoniseCss cs' = bs' at hh hlen
  generalize harmoniseCss cs = bs at hh hlen
  have hsec : (bs'.flatMap fun c => c.out.tables.map (·.1)) = bs.flatMap fun c => c.out.tables.map (·.1) := by
    have e : ∀ l : List (Finished K), (l.flatMap fun c => c.out.tables.map (·.1)) = (l.map (·.out)).flatMap fun c => c.tables.map (·.1) := by
      intro l; rw [List.flatMap_map]
    rw [e, hh, List.flatMap_map, e]
    congr 1
    funext c
    show (tables k c.tables).map (·.1) = _
    unfold tables
    rw [List.map_map]
    rfl
  refine (writeOutput_sameFor w (exporterOf { x with sig := fun v => x.sig (k * v) }) (exporterOf x) dir bs bs' s f ?_ ?_ ?_ ?_).symm
  · cases bs' <;> cases bs <;> first | rfl | cases hlen
  · unfold dimrBlock
    refine .other _ _ _ _ _ _ hf.1 (.other _ _ _ _ _ _ hf.2.1 ?_)
    have e1 : bs'.flatMap (exporterOf x).sections = bs.flatMap (exporterOf { x with sig := fun v => x.sig (k * v) }).sections := hsec
    have e2 : roughnessStep (exporterOf x) bs' = roughnessStep (exporterOf { x with sig := fun v => x.sig (k * v) }) bs := by
      funext sec
      unfold roughnessStep
      cases sectionFile sec with
      | none => rfl
      | some p =>
        show ExportStep.write p.1 (exportRoughness x.ft x.sig (bs'.map (·.out)) p.2) none
          = ExportStep.write p.1 (exportRoughness x.ft (fun v => x.sig (k * v)) (bs.map (·.out)) p.2) none
        rw [hh, exportRoughness_mul]
    rw [e1, e2]
    exact SameFor.refl _ _
  · unfold sobekBlock'
    refine .rest _ _ ?_ ?_ <;>
    · intro hm
      simp only [blockFiles] at hm
      rcases List.mem_cons.1 hm with e | hm
      · exact hf.2.2.1 e
      · exact hf.2.2.2.1 (List.mem_singleton.1 hm)
  · unfold otherBlock
    refine .rest _ _ ?_ ?_ <;>
    · intro hm
      simp only [blockFiles] at hm
      rcases List.mem_cons.1 hm with e | hm
      · exact hf.2.2.2.2.1 e
      · exact hf.2.2.2.2.2 (List.mem_singleton.1 hm)

end Fm2prof.RoughnessOnlyProof

import Verif.Proofs.Smoother
import Verif.Props.RoughnessOnly

/-!
# Properties of runs on maps with a larger roughness coefficient

C207: where the 2D model is nowhere rougher, the 1D model is nowhere rougher.
-/

set_option linter.unusedSectionVars false

namespace Fm2prof.Props

open Fm2prof Spec RoughnessOnlyProof SmootherProof

variable {K : Type} [Field K] [LinearOrder K] [IsStrictOrderedRing K] [FloorRing K]

private theorem forall₂_filterMap₇ {α β γ : Type} {R : α → β → Prop} {as : List α} {bs : List β} (h : List.Forall₂ R as bs)
    (p : α → Bool) (g : β → Option γ) (hg : ∀ a b, R a b → (p a = true ↔ ∃ c, g b = some c)) :
    List.Forall₂ (fun a c => ∃ b ∈ bs, R a b ∧ g b = some c) (as.filter p) (bs.filterMap g) := by
  induction h with
  | nil => exact .nil
  | @cons a b as bs hr _ ih =>
    have ih' := ih.imp fun a c h => by
      obtain ⟨b', hb', h⟩ := h
      exact (⟨b', List.mem_cons_of_mem b hb', h⟩ : ∃ b_1 ∈ b :: bs, R a b_1 ∧ g b_1 = some c)
    rw [List.filter_cons, List.filterMap_cons]
    cases hb : g b with
    | none =>
      have : ¬p a = true := fun hp => by
        obtain ⟨c, hc⟩ := (hg a b hr).1 hp
        rw [hb] at hc; cases hc
      rw [if_neg this]
      exact ih'
    | some c =>
      rw [if_pos ((hg a b hr).2 ⟨c, hb⟩)]
      exact .cons ⟨b, List.mem_cons_self, hr, hb⟩ ih'

/-- The roughness file of a run with the levels of the tables it was made from. -/
private theorem roughness_blocks (x : Tools K) (sig : SigText x.ft) (hsig : x.sig = sig.text) (cfg : RunConfig K)
    (hf : cfg.frictionWeighing = 0) (i : Inputs K) (hi : Consistent i) (o : Surroundings) (hdir : o.dirExists = true)
    (hw : ∀ f, IsResult f → Sound o.faults f) (overwrite : Bool) (s : Store)
    (h : (run (jobOf x cfg i o) overwrite s).2 = .ok true) (m : Model2d K) (hm : setModelData x.nn i = .ok m)
    (xs : List (Loc K)) (hx : Requested cfg.cssSelection m.stations xs) (hn : ∀ l ∈ xs, PlainName l.branch)
    (hlab : ∀ t ∈ m.edges.sect, ∃ q ∈ roughnessFiles, t = q.1.toList)
    (hz : ∀ l ∈ xs, ∀ c, buildCss x cfg m l = .ok c → ∀ z, some z ∈ c.css.raw.zRoughness → -10 ^ 20 ≤ z ∧ z ≤ 10 ^ 20)
    (q : String × String × String) (hq : q ∈ roughnessFiles) (hu : ∃ l ∈ xs, Usable m l ∧ HasEdge m l q.1.toList) :
    ∃ cs text, List.Forall₂ (fun l c => buildCss x cfg m l = .ok c) (xs.filter fun l => decide (Usable m l)) cs ∧
      (run (jobOf x cfg i o) overwrite s).1 q.2.1.toList = some text ∧
      (∀ b ∈ sections "[BranchProperties]" text, ∃ lv, b.get "levels" = some lv ∧
        decimals lv = (gridOf q.1.toList (cs.map fun c => c.out.tables)).map fun z => some (roundTo 4 z)) ∧
      List.Forall₂ (fun l d => d.1 = some l.branch ∧ d.2.1 = some (x.ft.repr l.chainage) ∧
          ∃ c level values, buildCss x cfg m l = .ok c ∧ c.css.raw.zRoughness = level.map some ∧
            FrictionTable.interpolate ⟨level, (List.range level.length).map fun k => meanWet
              (edgeRoughness m l q.1.toList (sliceStart m.nMaps cfg.pipeline.build.skipMaps + k))⟩
              (gridOf q.1.toList (cs.map fun c => c.out.tables)) = .ok ⟨gridOf q.1.toList (cs.map fun c => c.out.tables), values⟩ ∧
            d.2.2 = some (values.map sig.text))
        (xs.filter fun l => decide (Usable m l ∧ HasEdge m l q.1.toList))
        ((sections "[Definition]" text).map fun d => (d.get "branchId", d.get "chainage", (d.get "values").map splitWs)) := by
  have hl2 := loaded2d x.nn i hi m hm
  obtain ⟨cs, hcs, htab, heq, hplain, hfile⟩ := run_roughness_text x sig hsig cfg hf i hi o hdir hw overwrite s h m hm xs hx hn hlab hz
    q hq hu
  have hlow := known_names q hq
  refine ⟨cs, _, hcs, hfile, ?_, ?_⟩
  · intro b hb
    obtain ⟨c, hc, t, lv, ht, _, h3, h4, h5⟩ := C26_levels x.ft sig _ _ hplain hlow.2 b hb
    rw [hlow.1, sectionTable_eq] at ht
    have hg : t.level = gridOf q.1.toList (cs.map fun c => c.out.tables) := by
      rw [heq] at hc
      obtain ⟨c, hc', rfl⟩ := List.mem_map.1 hc
      obtain ⟨c, _, rfl⟩ := List.mem_map.1 hc'
      rw [tableOf_resampled c (fun r => gridOf r (cs.map fun c => c.out.tables))] at ht
      obtain ⟨t', _, rfl⟩ := Option.map_eq_some_iff.1 ht
      rfl
    exact ⟨lv, h3, by rw [h5, hg]⟩
  · rw [C26_definitions x.ft sig _ _ hplain hlow.2]
    simp only [sectionTable_eq]
    rw [hlow.1, heq, List.map_map, List.filterMap_map]
    have := forall₂_filterMap₇ (forall₂_with_mem hcs) (fun l => decide (HasEdge m l q.1.toList))
      ((fun c => (tableOf c q.1.toList).map fun t => (some c.branch, some (x.ft.repr c.chainage), some (t.friction.map sig.text))) ∘
        (fun c : Finished K => c.out) ∘ fun c : Finished K => c.withTables (c.out.tables.map fun p =>
          (p.1, resampled (gridOf p.1 (cs.map fun c => c.out.tables)) p.2))) ?_
    · rw [List.filter_filter] at this
      have e : (fun a => decide (HasEdge m a q.1.toList) && decide (Usable m a)) =
          fun l => decide (Usable m l ∧ HasEdge m l q.1.toList) := by
        funext l
        rw [Bool.decide_and, Bool.and_comm]
      rw [e] at this
      refine this.imp fun l d hd => ?_
      obtain ⟨c, hc, ⟨hl, hb⟩, ht⟩ := hd
      have hl := (List.mem_filter.1 hl).1
      simp only [Function.comp_apply] at ht
      rw [tableOf_resampled c (fun r => gridOf r (cs.map fun c => c.out.tables)), Option.map_map] at ht
      obtain ⟨t, hto, rfl⟩ := Option.map_eq_some_iff.1 ht
      obtain ⟨_, _, _, _, _, _, _, h2, h3, _⟩ := buildCss_ok x cfg m l c hb
      obtain ⟨level, k1, _, k3⟩ := built_tables x cfg hf m hl2 l c hb (hz l hl c hb)
      obtain ⟨k4, k5⟩ := k3 _ (tableOf_mem _ _ _ hto)
      simp only at k4 k5
      refine ⟨?_, ?_, c, level, _, hb, k1, ?_, rfl⟩
      · show some c.out.branch = _; rw [h2]
      · show some (x.ft.repr c.out.chainage) = _; rw [h3]
      · rw [← k5]; exact interpolate_resampled t k4 _
    · rintro l c ⟨-, hb⟩
      simp only [Function.comp_apply]
      rw [tableOf_resampled c (fun r => gridOf r (cs.map fun c => c.out.tables)), decide_eq_true_eq,
        ← hasEdge_sections x cfg m hl2 l c hb, ← tableOf_isSome]
      constructor
      · rintro ⟨t, ht⟩; rw [ht]; exact ⟨_, rfl⟩
      · rintro ⟨t, ht⟩
        cases hto : tableOf c.out q.1.toList with
        | none => rw [hto] at ht; cases ht
        | some t => exact ⟨t, rfl⟩

private theorem rows_of {α β γ : Type} {R R' : α → β → Prop} {as : List α} {bs bs' : List β} (h : List.Forall₂ R as bs)
    (h' : List.Forall₂ R' as bs') (P : α → γ → γ → Prop) (g : α → γ → β)
    (hP : ∀ a b b', a ∈ as → R a b → R' a b' → ∃ v v', P a v v' ∧ b = g a v ∧ b' = g a v') :
    ∃ rows : List (α × γ × γ), rows.map (·.1) = as ∧ bs = rows.map (fun r => g r.1 r.2.1) ∧ bs' = rows.map (fun r => g r.1 r.2.2) ∧
      ∀ r ∈ rows, P r.1 r.2.1 r.2.2 := by
  induction h generalizing bs' with
  | nil => cases h'; exact ⟨[], rfl, rfl, rfl, fun r hr => by cases hr⟩
  | cons hr _ ih =>
    cases h' with
    | cons hr' h' =>
      obtain ⟨rows, e1, e2, e3, e4⟩ := ih h' (fun a b b' ha => hP a b b' (List.mem_cons_of_mem _ ha))
      obtain ⟨v, v', p, rfl, rfl⟩ := hP _ _ _ List.mem_cons_self hr hr'
      refine ⟨(_, v, v') :: rows, by rw [List.map_cons, e1], by rw [List.map_cons, e2], by rw [List.map_cons, e3], ?_⟩
      intro r hr
      rcases List.mem_cons.1 hr with rfl | hr
      · exact p
      · exact e4 r hr

private theorem consistent_rougher (i : Inputs K) (hi : Consistent i) (d : MapData K) (hd : i.map = .ok d) (chezy mean : List (List (Option K)))
    (hlen : chezy.length = d.edges.chezy.length) (hmean : mean.length = d.chezyMean.length) :
    Consistent { i with map := .ok (MapData.withRoughness d chezy mean) } := by
  refine ⟨fun d' h => ?_, fun d' css r h hc hr => ?_, fun d' r h hr => ?_⟩
  · obtain rfl := Except.ok.inj h
    have c := hi.map d hd
    exact ⟨c.y, c.area, c.bedlevel, c.region, c.islake, c.waterdepth, c.waterlevel, c.velocityX, c.velocityY, hmean.trans c.chezyMean,
      c.edgeY, hlen.trans c.edgeChezy⟩
  · obtain rfl := Except.ok.inj h
    exact hi.regions d css r hd hc hr
  · obtain rfl := Except.ok.inj h
    exact hi.sections d r hd hr

private theorem forall₂_both {α β γ : Type} {R : α → β → Prop} {S : α → γ → Prop} {as : List α} {bs : List β} {cs : List γ}
    (h : List.Forall₂ R as bs) (h' : List.Forall₂ S as cs) : List.Forall₂ (fun b c => ∃ a ∈ as, R a b ∧ S a c) bs cs := by
  induction h generalizing cs with
  | nil => cases h'; exact .nil
  | cons hr _ ih =>
    cases h' with
    | cons hs h' =>
      refine .cons ⟨_, List.mem_cons_self, hr, hs⟩ ((ih h').imp fun b c => ?_)
      rintro ⟨a, ha, h⟩
      exact ⟨a, List.mem_cons_of_mem _ ha, h⟩

private theorem get_level (ts : Tables Text K) (level : List K) (h : ∀ p ∈ ts, p.2.level = level) (s : Text) :
    (Tables.get ts s).map (·.level) = if s ∈ ts.map (·.1) then some level else none := by
  unfold Tables.get
  induction ts with
  | nil => rfl
  | cons p ts ih =>
    by_cases hp : p.1 = s
    · rw [List.find?_cons_of_pos (by simpa using hp), if_pos (by rw [← hp]; exact List.mem_map_of_mem List.mem_cons_self)]
      simp only [Option.map_some, h p List.mem_cons_self]
    · rw [List.find?_cons_of_neg (by simpa using hp), ih fun p hp => h p (List.mem_cons_of_mem _ hp)]
      have : (s ∈ (p :: ts).map (·.1)) ↔ s ∈ ts.map (·.1) := by
        rw [List.map_cons, List.mem_cons]
        exact ⟨fun h => h.resolve_left fun e => hp e.symm, .inr⟩
      simp only [this]

/-- **C207.** There are polygons of the sections, and the map file has other roughness coefficients that are nowhere smaller, while the
same edges are dry at the same maps. Then the run on it succeeds as well. Its roughness files have the same blocks at the same levels,
and no number read from a block is smaller than the one in its place in the file of the first run. Here printing to four digits is
not to change the order of two numbers. -/
theorem C207_smoother (x : Tools K) (sig : SigText x.ft) (hsig : x.sig = sig.text) (hmono : ∀ a b, a ≤ b → sig.value a ≤ sig.value b)
    (cfg : RunConfig K) (hf : cfg.frictionWeighing = 0) (i : Inputs K) (hi : Consistent i) (d : MapData K) (hd : i.map = .ok d)
    (labels : Except PyErr SectionLabels) (hs : i.sections = some labels) (chezy mean : List (List (Option K)))
    (hmean : mean.length = d.chezyMean.length) (hrough : NowhereRougher d.edges.chezy chezy) (o : Surroundings)
    (hdir : o.dirExists = true) (hw : ∀ f, IsResult f → Sound o.faults f) (overwrite : Bool) (s : Store)
    (h : (run (jobOf x cfg i o) overwrite s).2 = .ok true) (m : Model2d K) (hm : setModelData x.nn i = .ok m)
    (xs : List (Loc K)) (hx : Requested cfg.cssSelection m.stations xs) (hn : ∀ l ∈ xs, PlainName l.branch)
    (hlab : ∀ t ∈ m.edges.sect, ∃ q ∈ roughnessFiles, t = q.1.toList)
    (hz : ∀ l ∈ xs, ∀ c, buildCss x cfg m l = .ok c → ∀ z, some z ∈ c.css.raw.zRoughness → -10 ^ 20 ≤ z ∧ z ≤ 10 ^ 20)
    (q : String × String × String) (hq : q ∈ roughnessFiles) (hu : ∃ l ∈ xs, Usable m l ∧ HasEdge m l q.1.toList) :
    (run (jobOf x cfg { i with map := .ok (MapData.withRoughness d chezy mean) } o) overwrite s).2 = .ok true ∧
    ∃ text text', (run (jobOf x cfg i o) overwrite s).1 q.2.1.toList = some text ∧
      (run (jobOf x cfg { i with map := .ok (MapData.withRoughness d chezy mean) } o) overwrite s).1 q.2.1.toList = some text' ∧
      (∃ levels : List (Option K), ∀ t ∈ [text, text'], ∀ b ∈ sections "[BranchProperties]" t, (b.get "levels").map decimals = some levels) ∧
      ∃ rows : List (Loc K × List K × List K),
        rows.map (·.1) = (xs.filter fun l => decide (Usable m l ∧ HasEdge m l q.1.toList)) ∧
        (sections "[Definition]" text).map (fun d => (d.get "branchId", d.get "chainage", (d.get "values").map fun v => (splitWs v).map x.ft.parse))
          = rows.map (fun r => (some r.1.branch, some (x.ft.repr r.1.chainage), some (r.2.1.map some))) ∧
        (sections "[Definition]" text').map (fun d => (d.get "branchId", d.get "chainage", (d.get "values").map fun v => (splitWs v).map x.ft.parse))
          = rows.map (fun r => (some r.1.branch, some (x.ft.repr r.1.chainage), some (r.2.2.map some))) ∧
        ∀ r ∈ rows, List.Forall₂ (· ≤ ·) r.2.1 r.2.2 := by
  have hlen : chezy.length = d.edges.chezy.length := (List.Forall₂.length_eq hrough).symm
  obtain ⟨hres, -⟩ := C193_profiles x cfg i d hd labels hs chezy mean hlen o overwrite s
  have h' := hres.trans h
  refine ⟨h', ?_⟩
  obtain ⟨hch, hm'⟩ : m.edges.chezy = d.edges.chezy ∧
      setModelData x.nn { i with map := .ok (MapData.withRoughness d chezy mean) } = .ok { m with edges := { m.edges with chezy := chezy } } := by
    rcases load_rough x.nn i d hd labels hs chezy mean with ⟨e, e1, _⟩ | ⟨m₁, e1, e2, e3⟩
    · rw [hm] at e1; cases e1
    · rw [hm] at e1
      obtain rfl := Except.ok.inj e1
      exact ⟨e2, e3⟩
  have hsame : ∀ l c c', buildCss x cfg m l = .ok c → buildCss x cfg { m with edges := { m.edges with chezy := chezy } } l = .ok c' →
      smooth c' = smooth c := by
    intro l c c' hc hc'
    have := build_smooth x cfg m { m with edges := { m.edges with chezy := chezy } } rfl chezy (by rw [hch]; exact hlen) rfl rfl rfl l
    rw [hc, hc'] at this
    exact Except.ok.inj this
  have hback : ∀ l c', buildCss x cfg { m with edges := { m.edges with chezy := chezy } } l = .ok c' → ∃ c, buildCss x cfg m l = .ok c := by
    intro l c' hc'
    have := build_smooth x cfg m { m with edges := { m.edges with chezy := chezy } } rfl chezy (by rw [hch]; exact hlen) rfl rfl rfl l
    rw [hc'] at this
    cases hb : buildCss x cfg m l with
    | error e => rw [hb] at this; cases this
    | ok c => exact ⟨c, rfl⟩
  have hcss : ∀ c c' : Finished K, smooth c' = smooth c → c'.css = c.css := fun c c' e => congrArg Prod.snd e
  have hz' : ∀ l ∈ xs, ∀ c, buildCss x cfg { m with edges := { m.edges with chezy := chezy } } l = .ok c →
      ∀ z, some z ∈ c.css.raw.zRoughness → -10 ^ 20 ≤ z ∧ z ≤ 10 ^ 20 := by
    intro l hl c' hc' z hzm
    obtain ⟨c, hc⟩ := hback l c' hc'
    rw [hcss c c' (hsame l c c' hc hc')] at hzm
    exact hz l hl c hc z hzm
  have hi' := consistent_rougher i hi d hd chezy mean hlen hmean
  obtain ⟨cs, text, hcs, ht, hlv, hdef⟩ := roughness_blocks x sig hsig cfg hf i hi o hdir hw overwrite s h m hm xs hx hn hlab hz q hq hu
  obtain ⟨cs', text', hcs', ht', hlv', hdef'⟩ := roughness_blocks x sig hsig cfg hf _ hi' o hdir hw overwrite s h' _ hm' xs hx hn hlab hz' q
    hq hu
  have hl2 := loaded2d x.nn i hi m hm
  have hl2' := loaded2d x.nn _ hi' _ hm'
  have hgrid : gridOf q.1.toList (cs.map fun c => c.out.tables) = gridOf q.1.toList (cs'.map fun c => c.out.tables) := by
    refine gridOf_congr _ _ _ ?_
    rw [List.forall₂_map_left_iff, List.forall₂_map_right_iff]
    refine (forall₂_both hcs hcs').imp fun c c' => ?_
    rintro ⟨l, hl, hc, hc'⟩
    have hl := (List.mem_filter.1 hl).1
    obtain ⟨level, k1, -, k3⟩ := built_tables x cfg hf m hl2 l c hc (hz l hl c hc)
    obtain ⟨level', k1', -, k3'⟩ := built_tables x cfg hf _ hl2' l c' hc' (hz' l hl c' hc')
    have hsm := hsame l c c' hc hc'
    have hlevel : level' = level := by
      rw [hcss c c' hsm, k1] at k1'
      exact (List.map_injective_iff.2 (Option.some_injective K) k1').symm
    have hnames : c'.out.tables.map (·.1) = c.out.tables.map (·.1) := by
      have := congrArg (fun p => p.1.tables.map (·.1)) hsm
      simp only [smooth, List.map_map] at this
      exact this
    rw [get_level _ level (fun p hp => by rw [(k3 p hp).2]) q.1.toList, get_level _ level (fun p hp => by rw [(k3' p hp).2, hlevel]) q.1.toList,
      hnames]
  rw [← hgrid] at hlv' hdef'
  refine ⟨text, text', ht, ht', ⟨(gridOf q.1.toList (cs.map fun c => c.out.tables)).map fun z => some (roundTo 4 z), ?_⟩, ?_⟩
  · intro t htm b hb
    rcases List.mem_cons.1 htm with rfl | htm
    · obtain ⟨lv, e1, e2⟩ := hlv b hb
      rw [e1, Option.map_some, e2]
    · obtain rfl := List.mem_singleton.1 htm
      obtain ⟨lv, e1, e2⟩ := hlv' b hb
      rw [e1, Option.map_some, e2]
  have hrows := rows_of hdef hdef' (fun _ v v' => List.Forall₂ (· ≤ ·) v v')
    (fun l (v : List K) => (some l.branch, some (x.ft.repr l.chainage), some (v.map sig.text))) ?_
  · obtain ⟨rows, e1, e2, e3, e4⟩ := hrows
    refine ⟨rows.map fun r => (r.1, r.2.1.map sig.value, r.2.2.map sig.value), ?_, ?_, ?_, ?_⟩
    · rw [List.map_map]; exact e1
    · have := congrArg (List.map fun e : Option Text × Option Text × Option (List Text) => (e.1, e.2.1, e.2.2.map (List.map x.ft.parse))) e2
      rw [List.map_map, List.map_map] at this
      rw [List.map_map]
      refine Eq.trans ?_ (this.trans (List.map_congr_left fun r _ => ?_))
      · refine List.map_congr_left fun d _ => ?_
        simp only [Function.comp_apply, Option.map_map]
        rfl
      · simp only [Function.comp_apply, Option.map_some, List.map_map]
        congr 4
        exact funext fun v => sig.parse v
    · have := congrArg (List.map fun e : Option Text × Option Text × Option (List Text) => (e.1, e.2.1, e.2.2.map (List.map x.ft.parse))) e3
      rw [List.map_map, List.map_map] at this
      rw [List.map_map]
      refine Eq.trans ?_ (this.trans (List.map_congr_left fun r _ => ?_))
      · refine List.map_congr_left fun d _ => ?_
        simp only [Function.comp_apply, Option.map_map]
        rfl
      · simp only [Function.comp_apply, Option.map_some, List.map_map]
        congr 4
        exact funext fun v => sig.parse v
    · intro r hr
      obtain ⟨r, hr', rfl⟩ := List.mem_map.1 hr
      rw [List.forall₂_map_left_iff, List.forall₂_map_right_iff]
      exact (e4 r hr').imp hmono
  · rintro l ⟨b1, b2, b3⟩ ⟨b1', b2', b3'⟩ hl ⟨rfl, rfl, c, level, v, hc, hlev, hint, rfl⟩ ⟨rfl, rfl, c', level', v', hc', hlev', hint', rfl⟩
    refine ⟨v, v', ?_, rfl, rfl⟩
    have hlevel : level' = level := by
      rw [hcss c c' (hsame l c c' hc hc'), hlev] at hlev'
      exact (List.map_injective_iff.2 (Option.some_injective K) hlev').symm
    subst hlevel
    refine interpolate_le _ _ _ _ _ _ ?_ hint hint'
    rw [List.forall₂_map_left_iff, List.forall₂_map_right_iff, List.forall₂_same]
    intro k _
    exact meanWet_le (edge_le m chezy (by rw [hch]; exact hrough) l _ _)

/-- Twice the coefficient at each edge. -/
def doubled (chezy : List (List (Option ℚ))) : List (List (Option ℚ)) := chezy.map fun r => r.map (Option.map (2 * ·))

private theorem doubled_smoother (chezy : List (List (Option ℚ))) (h : ∀ r ∈ chezy, ∀ v ∈ r, ∀ a ∈ v, 0 ≤ a) :
    NowhereRougher chezy (doubled chezy) := by
  unfold NowhereRougher doubled
  rw [List.forall₂_map_right_iff, List.forall₂_same]
  intro r hr
  rw [List.forall₂_map_right_iff, List.forall₂_same]
  intro v hv
  cases v with
  | none => exact .missing
  | some a =>
    have ha := h r hr _ hv a rfl
    by_cases h0 : a = 0
    · subst h0
      show NotRougher (some 0) (some (2 * 0))
      rw [mul_zero]
      exact .dry
    · exact .wet a (2 * a) h0 (mul_ne_zero (by norm_num) h0) (by linarith)

private theorem doubled_file :
    (run (jobOf sampleTools sampleRunConfig { sampleSectionInputs with map := .ok (MapData.withRoughness sampleMap
      (doubled sampleMap.edges.chezy) sampleMap.chezyMean) } sampleSurroundings) false noFiles).1 "roughness-Main.ini".toList ≠
    (run (jobOf sampleTools sampleRunConfig sampleSectionInputs sampleSurroundings) false noFiles).1 "roughness-Main.ini".toList := by
  decide +kernel

/-- The sample with polygons of the sections, and with all coefficients twice as large: the file for the main section is another one.
The other hypotheses are met as beside `C98_files_partial`. -/
example : Consistent sampleSectionInputs ∧ sampleTools.sig = sampleSig.text ∧ (∀ a b, a ≤ b → sampleSig.value a ≤ sampleSig.value b) ∧
    sampleRunConfig.frictionWeighing = 0 ∧ sampleSectionInputs.map = .ok sampleMap ∧ sampleSectionInputs.sections.isSome = true ∧
    NowhereRougher sampleMap.edges.chezy (doubled sampleMap.edges.chezy) ∧ (∀ f, IsResult f → Sound sampleSurroundings.faults f) ∧
    (run (jobOf sampleTools sampleRunConfig sampleSectionInputs sampleSurroundings) false noFiles).2 = .ok true ∧
    ∃ m, setModelData sampleTools.nn sampleSectionInputs = .ok m ∧ (∀ l ∈ m.stations, PlainName l.branch) ∧
      (∀ t ∈ m.edges.sect, ∃ q ∈ roughnessFiles, t = q.1.toList) ∧ (∃ l ∈ m.stations, Usable m l ∧ HasEdge m l "main".toList) ∧
      (∀ l ∈ m.stations, ∀ c, buildCss sampleTools sampleRunConfig m l = .ok c →
        ∀ z, some z ∈ c.css.raw.zRoughness → -10 ^ 20 ≤ z ∧ z ≤ 10 ^ 20) ∧
      (run (jobOf sampleTools sampleRunConfig { sampleSectionInputs with map := .ok (MapData.withRoughness sampleMap
        (doubled sampleMap.edges.chezy) sampleMap.chezyMean) } sampleSurroundings) false noFiles).1 "roughness-Main.ini".toList ≠
      (run (jobOf sampleTools sampleRunConfig sampleSectionInputs sampleSurroundings) false noFiles).1 "roughness-Main.ini".toList := by
  have hok : ∀ {α : Type} {e : Except PyErr α} {a : α}, e.toOption = some a → e = .ok a := by
    intro α e a h
    cases e with
    | error e => cases h
    | ok b => exact congrArg Except.ok (Option.some.inj h)
  have hload : setModelData sampleTools.nn sampleSectionInputs = .ok (sampleLoaded sampleSectionInputs) := by
    have h : (setModelData firstNearest sampleSectionInputs).toOption.isSome = true := by decide +kernel
    show setModelData firstNearest sampleSectionInputs = _
    unfold sampleLoaded
    cases hm : setModelData firstNearest sampleSectionInputs with
    | error e => rw [hm] at h; cases h
    | ok m => rfl
  refine ⟨sampleSectionInputs_consistent, rfl, fun a b h => roundTo_mono 4 h, rfl, rfl, rfl, doubled_smoother _ (by decide +kernel),
    fun _ _ => ⟨rfl, rfl⟩, hok (by decide +kernel), sampleLoaded sampleSectionInputs, hload, by decide +kernel, by decide +kernel,
    by decide +kernel, fun l hl c hc z hz => ?_, doubled_file⟩
  have h : ∀ l ∈ (sampleLoaded sampleSectionInputs).stations,
      ((buildCss sampleTools sampleRunConfig (sampleLoaded sampleSectionInputs) l).toOption.all fun c =>
        c.css.raw.zRoughness.all fun z => z.all fun z => decide (-10 ^ 20 ≤ z ∧ z ≤ 10 ^ 20)) = true := by decide +kernel
  have h := h l hl
  rw [hc] at h
  have h : (c.css.raw.zRoughness.all fun z => z.all fun z => decide (-10 ^ 20 ≤ z ∧ z ≤ 10 ^ 20)) = true := h
  exact of_decide_eq_true (List.all_eq_true.1 h _ hz)

/-- The first number of the first block of a roughness file. -/
def firstRoughness (ft : FloatText ℚ) (text : Text) : Option ℚ :=
  ((sections "[Definition]" text).head?.bind fun d => d.get "values").bind fun v => (splitWs v).head?.bind ft.parse

/-- The sample map with the coefficient `k` at the first edge and 40 at the others. -/
def firstEdge (k : ℚ) : MapData ℚ :=
  MapData.withRoughness sampleMap ([some k, some k, some k, some k] :: List.replicate 3 [some 40, some 40, some 40, some 40]) sampleMap.chezyMean

private theorem first_edge :
    (run (jobOf sampleTools sampleRunConfig { sampleSectionInputs with map := .ok (firstEdge 0) } sampleSurroundings) false
      noFiles).2.toOption = some true ∧
    (run (jobOf sampleTools sampleRunConfig { sampleSectionInputs with map := .ok (firstEdge 10) } sampleSurroundings) false
      noFiles).2.toOption = some true ∧
    ((run (jobOf sampleTools sampleRunConfig { sampleSectionInputs with map := .ok (firstEdge 0) } sampleSurroundings) false
      noFiles).1 "roughness-Main.ini".toList).bind (firstRoughness sampleTools.ft) = some 40 ∧
    ((run (jobOf sampleTools sampleRunConfig { sampleSectionInputs with map := .ok (firstEdge 10) } sampleSurroundings) false
      noFiles).1 "roughness-Main.ini".toList).bind (firstRoughness sampleTools.ft) = some 30 := by
  decide +kernel

/-- **C207, edges that were dry.** It does not suffice that the coefficients are nowhere smaller: an edge with the coefficient 0 is taken
to be dry and does not count. When it gets a small coefficient, the roughness file gets smaller numbers. -/
theorem C207_needs_dry : ∃ (x : Tools ℚ) (cfg : RunConfig ℚ) (o : Surroundings) (i : Inputs ℚ) (d : MapData ℚ)
    (chezy : List (List (Option ℚ))), i.map = .ok d ∧ i.sections.isSome = true ∧
    List.Forall₂ (List.Forall₂ fun v v' => ∃ a b, v = some a ∧ v' = some b ∧ a ≤ b) d.edges.chezy chezy ∧
    (run (jobOf x cfg i o) false noFiles).2 = .ok true ∧
    (run (jobOf x cfg { i with map := .ok (MapData.withRoughness d chezy d.chezyMean) } o) false noFiles).2 = .ok true ∧
    ∃ a b, ((run (jobOf x cfg i o) false noFiles).1 "roughness-Main.ini".toList).bind (firstRoughness x.ft) = some a ∧
      ((run (jobOf x cfg { i with map := .ok (MapData.withRoughness d chezy d.chezyMean) } o) false noFiles).1
        "roughness-Main.ini".toList).bind (firstRoughness x.ft) = some b ∧ b < a := by
  have hok : ∀ {α : Type} {e : Except PyErr α} {a : α}, e.toOption = some a → e = .ok a := by
    intro α e a h
    cases e with
    | error e => cases h
    | ok b => exact congrArg Except.ok (Option.some.inj h)
  refine ⟨sampleTools, sampleRunConfig, sampleSurroundings, { sampleSectionInputs with map := .ok (firstEdge 0) }, firstEdge 0,
    (firstEdge 10).edges.chezy, rfl, rfl, ?_, hok first_edge.1, hok first_edge.2.1, 40, 30, first_edge.2.2.1, first_edge.2.2.2, by norm_num⟩
  have hs : ∀ a b : ℚ, a ≤ b → ∃ a' b', some a = some a' ∧ some b = some b' ∧ a' ≤ b' := fun a b h => ⟨a, b, rfl, rfl, h⟩
  have h1 := hs 0 10 (by norm_num)
  have h2 := hs 40 40 (le_refl _)
  exact .cons (.cons h1 (.cons h1 (.cons h1 (.cons h1 .nil)))) (List.forall₂_same.2 fun r hr => by
    rw [List.eq_of_mem_replicate hr]
    exact .cons h2 (.cons h2 (.cons h2 (.cons h2 .nil))))

end Fm2prof.Props

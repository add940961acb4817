import Verif.Proofs.InvarianceRun
import Verif.Spec.StationOrder

/-!
# Runs with the cross-sections in another order
-/

set_option linter.unusedSectionVars false

namespace Fm2prof

open Spec

variable {K : Type} [Field K] [LinearOrder K] [IsStrictOrderedRing K]

section
variable {ι : Type} [DecidableEq ι]

theorem labelD_order (nn : NearestPicker K) {S S' : List (Station ι K)} (hp : S.Perm S') (hne : S ≠ []) (p : Pt K)
    (hc : ClearAt S p) (d : ι) : labelD nn S' d p = labelD nn S d p := by
  obtain ⟨a, ha, ha1, ha2⟩ := labelD_nearest nn S hne d p
  obtain ⟨b, hb, hb1, hb2⟩ := labelD_nearest nn S' (fun e => hne (by rw [e] at hp; exact hp.eq_nil)) d p
  rw [← ha1, ← hb1]
  have hb := hp.mem_iff.2 hb
  exact hc a ha b hb ha2 (le_antisymm (hb2 a (hp.mem_iff.1 ha)) (ha2 b hb))

theorem perm_nil_iff {α : Type} {l l' : List α} (h : l.Perm l') : l' = [] ↔ l = [] :=
  ⟨fun e => by rw [e] at h; exact h.eq_nil, fun e => by rw [e] at h; exact h.symm.eq_nil⟩

theorem classifyWithoutRegions_order (nn : NearestPicker K) {css css' : List (Station ι K)} (hp : css.Perm css') (d : ι)
    (faces edges : List (GridPoint ι K)) (hf : ∀ p ∈ faces, ClearAt css p.pos) (he : ∀ p ∈ edges, ClearAt css p.pos) :
    classifyWithoutRegions nn css' faces edges = classifyWithoutRegions nn css faces edges := by
  have hpr : ∀ pts : List (GridPoint ι K), (∀ p ∈ pts, ClearAt css p.pos) → predict nn css' pts = predict nn css pts := by
    intro pts hpts
    by_cases h : css = [] ∨ pts = []
    · unfold predict
      rw [if_pos h, if_pos (h.imp (perm_nil_iff hp).2 id)]
    · push Not at h
      rw [predict_eq nn css pts h.1 h.2 d, predict_eq nn css' pts (fun e => h.1 ((perm_nil_iff hp).1 e)) h.2 d]
      congr 1
      apply List.map_congr_left
      intro p hm
      exact labelD_order nn hp h.1 p.pos (hpts p hm) d
  unfold classifyWithoutRegions
  rw [hpr faces hf, hpr edges he]

theorem classifyWithRegions_order (nn : NearestPicker K) (trunc : ι → ι) (blank : ι) {css css' : List (Station ι K)}
    (hp : css.Perm css') (faces edges : List (GridPoint ι K))
    (hf : ∀ p ∈ faces, ClearAt (inRegion css p.region) p.pos) (he : ∀ p ∈ edges, ClearAt (inRegion css p.region) p.pos) :
    classifyWithRegions nn trunc blank css' faces edges = classifyWithRegions nn trunc blank css faces edges := by
  have hreg : ∀ r, (inRegion css r).Perm (inRegion css' r) := fun r => hp.filter _
  have hnil : ∀ r, inRegion css' r = [] ↔ inRegion css r = [] := fun r => perm_nil_iff (hreg r)
  unfold classifyWithRegions
  by_cases hok : ∀ r ∈ pdUnique (faces.map (·.region)), inRegion css r = [] ∨
      (faces.filter (fun p => p.region = r) ≠ [] ∧ edges.filter (fun p => p.region = r) ≠ [])
  · have hok' : ∀ r ∈ pdUnique (faces.map (·.region)), inRegion css' r = [] ∨
        (faces.filter (fun p => p.region = r) ≠ [] ∧ edges.filter (fun p => p.region = r) ≠ []) :=
      fun r hr => (hok r hr).imp (hnil r).2 id
    rw [classifyRegions_eq nn trunc css faces edges _ (nodup_pdUnique _) _ _ (by simp) (by simp) hok,
      classifyRegions_eq nn trunc css' faces edges _ (nodup_pdUnique _) _ _ (by simp) (by simp) hok',
      zipWith_self_map, zipWith_self_map, zipWith_self_map, zipWith_self_map]
    congr 2
    · apply List.map_congr_left
      intro p hm
      unfold faceLabel
      by_cases h : p.region ∈ pdUnique (faces.map (·.region)) ∧ inRegion css p.region ≠ []
      · rw [if_pos h, if_pos ⟨h.1, fun e => h.2 ((hnil _).1 e)⟩]
        exact labelD_order nn (hreg _) h.2 p.pos (hf p hm) _
      · rw [if_neg h, if_neg fun h' => h ⟨h'.1, fun e => h'.2 ((hnil _).2 e)⟩]
    · apply List.map_congr_left
      intro p hm
      unfold edgeLabel
      by_cases h : p.region ∈ pdUnique (faces.map (·.region)) ∧ inRegion css p.region ≠ []
      · rw [if_pos h, if_pos ⟨h.1, fun e => h.2 ((hnil _).1 e)⟩, labelD_order nn (hreg _) h.2 p.pos (he p hm) _]
      · rw [if_neg h, if_neg fun h' => h ⟨h'.1, fun e => h'.2 ((hnil _).2 e)⟩]
  · push Not at hok
    obtain ⟨r, hr, h1, h2⟩ := hok
    have hbad : faces.filter (fun p => p.region = r) = [] ∨ edges.filter (fun p => p.region = r) = [] := by
      by_cases h' : faces.filter (fun p => p.region = r) = []
      · exact .inl h'
      · exact .inr (h2 h')
    rw [classifyRegions_error nn trunc css faces edges _ _ _ (by simp) (by simp) r hr h1 hbad,
      classifyRegions_error nn trunc css' faces edges _ _ _ (by simp) (by simp) r hr (fun e => h1 ((hnil r).1 e)) hbad]

end

variable [FloorRing K]

theorem assignCss_order (nn : NearestPicker K) (faces : List (InFace K)) (edges : List (InEdge K))
    (ef : Option (List (Int × Int))) (nMaps : Nat) {st st' : List (Loc K × Text)} (hp : st.Perm st') (regions : Bool)
    (hclear : ClearAll faces edges st regions) :
    assignCss nn (mapOf faces edges ef nMaps) (st'.map (·.1))
        (regionsOf faces edges (if regions then some (st'.map (·.2)) else none))
      = assignCss nn (mapOf faces edges ef nMaps) (st.map (·.1))
        (regionsOf faces edges (if regions then some (st.map (·.2)) else none)) := by
  obtain ⟨hcf, hce⟩ := hclear
  cases regions with
  | false =>
    have hst : ∀ l : List (Loc K × Text), stationsOf (l.map (·.1)) ((l.map (·.1)).map fun _ => [])
        = l.map fun a => ⟨a.1.id, (a.1.x, a.1.y), []⟩ := by
      intro l
      unfold stationsOf
      induction l with
      | nil => rfl
      | cons a as ih => simp only [List.map_cons, List.zip_cons_cons] at ih ⊢; rw [ih]
    simp only [Bool.false_eq_true, if_false] at hcf hce ⊢
    simp only [mapOf, regionsOf, Option.map_none, assignCss, faceColumns, edgeColumns, hst]
    simp only [List.map_map, Function.comp_def, gridPoints_rows]
    have h1 : ∀ a ∈ st.map (fun a => (⟨a.1.id, (a.1.x, a.1.y), []⟩ : Station Text K)),
        ∃ l ∈ st.map (·.1), a.id = l.id ∧ a.pos = (l.x, l.y) := by
      intro a ha
      obtain ⟨l, hl, rfl⟩ := List.mem_map.1 ha
      exact ⟨l.1, List.mem_map_of_mem hl, rfl, rfl⟩
    have h2 : ∀ l ∈ st.map (·.1), ∃ a ∈ st.map (fun a => (⟨a.1.id, (a.1.x, a.1.y), []⟩ : Station Text K)), a.pos = (l.x, l.y) := by
      intro l hl
      obtain ⟨l, hm, rfl⟩ := List.mem_map.1 hl
      exact ⟨_, List.mem_map_of_mem hm, rfl⟩
    refine classifyWithoutRegions_order nn (hp.map _) [] _ _ ?_ ?_
    · intro a ha
      obtain ⟨f, hf, rfl⟩ := List.mem_map.1 ha
      exact clearAt_of _ _ _ _ h1 h2 (hcf f hf)
    · intro a ha
      obtain ⟨f, hf, rfl⟩ := List.mem_map.1 ha
      exact clearAt_of _ _ _ _ h1 h2 (hce f hf)
  | true =>
    have hz : ∀ l : List (Loc K × Text), (l.map (·.1)).zip (l.map (·.2)) = l := by
      intro l
      induction l with
      | nil => rfl
      | cons a as ih => simp only [List.map_cons, List.zip_cons_cons, ih]
    have hst : ∀ l : List (Loc K × Text), stationsOf (l.map (·.1)) (l.map (·.2))
        = l.map fun a => ⟨a.1.id, (a.1.x, a.1.y), a.2⟩ := by
      intro l
      unfold stationsOf
      rw [hz]
    simp only [if_true] at hcf hce ⊢
    simp only [mapOf, regionsOf, Option.map_some, assignCss, faceColumns, edgeColumns, hst]
    simp only [List.map_map, Function.comp_def, gridPoints_rows]
    have hin : ∀ r, cssIn (st.map (·.1)) (some (st.map (·.2))) r = (st.filter fun p => decide (p.2 = r)).map (·.1) := by
      intro r
      unfold cssIn
      simp only [hz]
    have h1 : ∀ r, ∀ a ∈ inRegion (st.map (fun a => (⟨a.1.id, (a.1.x, a.1.y), a.2⟩ : Station Text K))) r,
        ∃ l ∈ cssIn (st.map (·.1)) (some (st.map (·.2))) r, a.id = l.id ∧ a.pos = (l.x, l.y) := by
      intro r a ha
      obtain ⟨ha, har⟩ := List.mem_filter.1 ha
      obtain ⟨l, hl, rfl⟩ := List.mem_map.1 ha
      rw [hin]
      exact ⟨l.1, List.mem_map.2 ⟨l, List.mem_filter.2 ⟨hl, har⟩, rfl⟩, rfl, rfl⟩
    have h2 : ∀ r, ∀ l ∈ cssIn (st.map (·.1)) (some (st.map (·.2))) r,
        ∃ a ∈ inRegion (st.map (fun a => (⟨a.1.id, (a.1.x, a.1.y), a.2⟩ : Station Text K))) r, a.pos = (l.x, l.y) := by
      intro r l hl
      rw [hin] at hl
      obtain ⟨l, hm, rfl⟩ := List.mem_map.1 hl
      obtain ⟨hm, hr⟩ := List.mem_filter.1 hm
      exact ⟨_, List.mem_filter.2 ⟨List.mem_map_of_mem hm, hr⟩, rfl⟩
    refine classifyWithRegions_order nn _ _ (hp.map _) _ _ ?_ ?_
    · intro a ha
      obtain ⟨f, hf, rfl⟩ := List.mem_map.1 ha
      exact clearAt_of _ _ _ _ (h1 _) (h2 _) (hcf f hf)
    · intro a ha
      obtain ⟨f, hf, rfl⟩ := List.mem_map.1 ha
      exact clearAt_of _ _ _ _ (h1 _) (h2 _) (hce f hf)

/-- The model of the other order is the same but for the order of its locations. -/
theorem setModelData_order (nn : NearestPicker K) (faces : List (InFace K)) (edges : List (InEdge K))
    (ef : Option (List (Int × Int))) (nMaps : Nat) {st st' : List (Loc K × Text)} (hp : st.Perm st') (regions sections : Bool)
    (hclear : ClearAll faces edges st regions) :
    (∃ e, setModelData nn (inputsAt faces edges ef nMaps st regions sections) = .error e ∧
      setModelData nn (inputsAt faces edges ef nMaps st' regions sections) = .error e) ∨
    ∃ m, setModelData nn (inputsAt faces edges ef nMaps st regions sections) = .ok m ∧ m.stations = st.map (·.1) ∧
      setModelData nn (inputsAt faces edges ef nMaps st' regions sections) = .ok { m with stations := st'.map (·.1) } := by
  have hT := assignCss_order nn faces edges ef nMaps hp regions hclear
  unfold setModelData inputsAt inputsOf
  simp only [readOptional_regions, readOptional_sections]
  unfold mapOf regionsOf at hT
  rw [hT]
  rcases assignCss_perm nn (List.Perm.refl faces) (List.Perm.refl edges) ef ef nMaps (st.map (·.1))
    (if regions then some (st.map (·.2)) else none) with ⟨e, h1, _⟩ | ⟨cf, ce, h1, _⟩
  · simp only at h1
    rw [h1]
    exact .inl ⟨e, rfl, rfl⟩
  · simp only at h1
    rw [h1]
    simp only
    rcases assignSections_perm (List.Perm.refl faces) (List.Perm.refl edges) ef ef nMaps sections with
      ⟨e, h3, _⟩ | ⟨sf, se, nb, h3, _⟩
    · simp only at h3
      rw [h3]
      exact .inl ⟨e, rfl, rfl⟩
    · simp only at h3
      rw [h3]
      refine .inr ⟨_, rfl, rfl, ?_⟩
      cases regions <;> rfl

section
variable {S C : Type}

theorem outcomes_perm (j : Job S C) {xs ys : List S} (h : xs.Perm ys) (cs : List C) (hc : outcomes j xs = .ok cs) :
    ∃ ds, outcomes j ys = .ok ds ∧ cs.Perm ds := by
  induction h generalizing cs with
  | nil => exact ⟨cs, hc, List.Perm.refl _⟩
  | cons x _ ih =>
    rw [outcomes] at hc ⊢
    cases ho : outcome j x with
    | error e => rw [ho] at hc; cases hc
    | ok r =>
      rw [ho] at hc
      simp only at hc ⊢
      rename_i l₁ l₂ _
      cases h1 : outcomes j l₁ with
      | error e => rw [h1] at hc; cases hc
      | ok as =>
        rw [h1] at hc
        obtain rfl := Except.ok.inj hc
        obtain ⟨bs, h2, h3⟩ := ih as h1
        rw [h2]
        exact ⟨_, rfl, h3.append_left _⟩
  | swap x y l =>
    rw [outcomes, outcomes] at hc
    rw [outcomes, outcomes]
    cases hy : outcome j y with
    | error e => rw [hy] at hc; cases hc
    | ok r =>
      rw [hy] at hc
      simp only at hc
      cases hx : outcome j x with
      | error e => rw [hx] at hc; cases hc
      | ok q =>
        rw [hx] at hc
        simp only at hc ⊢
        cases hl : outcomes j l with
        | error e => rw [hl] at hc; cases hc
        | ok as =>
          rw [hl] at hc
          obtain rfl := Except.ok.inj hc
          refine ⟨_, rfl, ?_⟩
          rw [← List.append_assoc, ← List.append_assoc]
          exact List.perm_append_comm.append_right _
  | trans _ _ ih1 ih2 =>
    obtain ⟨ds, h1, h2⟩ := ih1 cs hc
    obtain ⟨es, h3, h4⟩ := ih2 ds h1
    exact ⟨es, h3, h2.trans h4⟩

theorem outcome_congr (j j' : Job S C) (x : S) (h1 : j'.valid = j.valid) (h2 : j'.faces = j.faces) (h3 : j'.build = j.build)
    (h4 : j'.exportCssData = j.exportCssData) (h5 : j'.faults = j.faults) (h6 : j'.name = j.name)
    (h7 : (j'.mask x).isSome = (j.mask x).isSome) : outcome j' x = outcome j x := by
  unfold outcome
  rw [h1, h2, h3, storePickle_of j j' x x (fun s s' => storeData_sim j j' x x s s' h4 h5 (congrFun h6 x)) (congrFun h2 x)
    fun _ s s' => storeMask_sim j j' x x s s' h4 h5 (congrFun h6 x) h7]

theorem outcomes_congr (j j' : Job S C) (h : ∀ x, outcome j' x = outcome j x) (xs : List S) : outcomes j' xs = outcomes j xs := by
  induction xs with
  | nil => rfl
  | cons x xs ih => rw [outcomes, outcomes, h, ih]

/-- When a run over all locations ends with success. -/
theorem run_true_iff (j : Job S C) (overwrite : Bool) (s : Store) (hsel : j.cssSelection = []) :
    (run j overwrite s).2 = .ok true ↔ j.configured = true ∧ (outputExists s && !overwrite) = false ∧
      ∃ m cs, initialise j = .ok m ∧ outcomes j m.stations = .ok cs := by
  unfold run
  cases hc : j.configured with
  | false => exact ⟨fun h => (by cases h), fun h => (by cases h.1)⟩
  | true =>
    rw [if_neg (by decide)]
    cases ho : (outputExists s && !overwrite) with
    | true => exact ⟨fun h => (by cases h), fun h => (by cases h.2.1)⟩
    | false =>
      rw [if_neg (by decide)]
      unfold runInifile
      cases hi : initialise j with
      | error e => 
        refine ⟨fun h => ?_, fun h => ?_⟩
        · cases e <;> cases h
        · obtain ⟨_, _, _, _, h, _⟩ := h; cases h
      | ok m =>
        have hg := generate_outcome j m s
        rw [hsel] at hg
        have hg : (generate j m s).2 = outcomes j m.stations := hg
        revert hg
        simp only
        cases generate j m s with
        | mk s' r =>
          intro hg
          cases r with
          | error e =>
            refine ⟨fun h => (by cases h), fun h => ?_⟩
            obtain ⟨_, _, m', cs, h1, h2⟩ := h
            obtain rfl := Except.ok.inj h1
            rw [← hg] at h2
            cases h2
          | ok cs => exact ⟨fun _ => ⟨trivial, trivial, m, cs, rfl, hg.symm⟩, fun _ => rfl⟩

end

theorem run_order (x : Tools K) (cfg : RunConfig K) (hsel : cfg.cssSelection = []) (faces : List (InFace K)) (edges : List (InEdge K))
    (ef : Option (List (Int × Int))) (nMaps : Nat) {st st' : List (Loc K × Text)} (hp : st.Perm st') (regions sections : Bool)
    (hclear : ClearAll faces edges st regions) (o : Surroundings) (overwrite : Bool) (s : Store)
    (h : (run (jobOf x cfg (inputsAt faces edges ef nMaps st regions sections) o) overwrite s).2 = .ok true) :
    (run (jobOf x cfg (inputsAt faces edges ef nMaps st' regions sections) o) overwrite s).2 = .ok true := by
  obtain ⟨h1, h2, m, cs, h3, h4⟩ := (run_true_iff _ overwrite s hsel).1 h
  obtain ⟨k1, k2, k3, k4⟩ := (initialise_ok _ m).1 h3
  have k3 : (setModelData x.nn (inputsAt faces edges ef nMaps st regions sections)).map
    (fun m => (⟨m.stations, m.nMaps⟩ : Loaded (Loc K))) = .ok m := k3
  rcases setModelData_order x.nn faces edges ef nMaps hp regions sections hclear with ⟨e, e1, _⟩ | ⟨d, d1, d2, d3⟩
  · rw [e1] at k3; cases k3
  · rw [d1] at k3
    obtain rfl := Except.ok.inj k3
    have hcong : ∀ l, outcome (jobOf x cfg (inputsAt faces edges ef nMaps st' regions sections) o) l =
        outcome (jobOf x cfg (inputsAt faces edges ef nMaps st regions sections) o) l := by
      intro l
      refine outcome_congr _ _ l rfl ?_ ?_ rfl rfl rfl ?_
      · funext l
        show (match setModelData x.nn _ with | .error _ => 0 | .ok m => (getSelection x.sqrt m.faces m.edges l.id).x.length)
          = (match setModelData x.nn _ with | .error _ => 0 | .ok m => (getSelection x.sqrt m.faces m.edges l.id).x.length)
        rw [d1, d3]
      · funext l
        show (match setModelData x.nn _ with | .error e => Except.error e | .ok m => buildCss x cfg m l)
          = (match setModelData x.nn _ with | .error e => Except.error e | .ok m => buildCss x cfg m l)
        rw [d1, d3]
        rfl
      · rw [jobOf_mask x cfg (inputsAt faces edges ef nMaps st regions sections) o ⟨d.stations, d.nMaps⟩
            (by show (setModelData x.nn _).map _ = _; rw [d1]; rfl),
          jobOf_mask x cfg (inputsAt faces edges ef nMaps st' regions sections) o ⟨st'.map (·.1), d.nMaps⟩
            (by show (setModelData x.nn _).map _ = _; rw [d3]; rfl)]
    have h4 : outcomes (jobOf x cfg (inputsAt faces edges ef nMaps st regions sections) o) d.stations = .ok cs := h4
    rw [d2] at h4
    obtain ⟨ds, h5, _⟩ := outcomes_perm _ (hp.map (·.1)) cs h4
    refine (run_true_iff _ overwrite s hsel).2 ⟨h1, h2, ⟨st'.map (·.1), d.nMaps⟩, ds, (initialise_ok _ _).2 ⟨k1, k2, ?_, k4⟩, ?_⟩
    · show (setModelData x.nn _).map _ = _
      rw [d3]
      rfl
    · rw [outcomes_congr _ _ hcong]
      exact h5

theorem clearAll_order {faces : List (InFace K)} {edges : List (InEdge K)} {st st' : List (Loc K × Text)} (hp : st.Perm st')
    (regions : Bool) (h : ClearAll faces edges st regions) : ClearAll faces edges st' regions := by
  have hz : ∀ l : List (Loc K × Text), (l.map (·.1)).zip (l.map (·.2)) = l := by
    intro l
    induction l with
    | nil => rfl
    | cons a as ih => simp only [List.map_cons, List.zip_cons_cons, ih]
  have hmem : ∀ r l, l ∈ cssIn (st'.map (·.1)) (if regions then some (st'.map (·.2)) else none) r ↔
      l ∈ cssIn (st.map (·.1)) (if regions then some (st.map (·.2)) else none) r := by
    intro r l
    cases regions with
    | false => exact (hp.map _).symm.mem_iff
    | true =>
      simp only [if_true, cssIn, hz]
      exact ((hp.filter _).map _).symm.mem_iff
  have hone : ∀ r px py, OneNearestCss (cssIn (st.map (·.1)) (if regions then some (st.map (·.2)) else none) r) px py →
      OneNearestCss (cssIn (st'.map (·.1)) (if regions then some (st'.map (·.2)) else none) r) px py :=
    fun r px py h a ha b hb h1 h2 => h a ((hmem r a).1 ha) b ((hmem r b).1 hb) (fun c hc => h1 c ((hmem r c).2 hc)) h2
  exact ⟨fun f hf => hone _ _ _ (h.1 f hf), fun f hf => hone _ _ _ (h.2 f hf)⟩

/-! ## What is written -/

theorem forall₂_filterMap_eq {α β : Type} (f : α → Except PyErr β) {xs : List α} {cs : List β}
    (h : List.Forall₂ (fun l c => f l = .ok c) xs cs) : cs = xs.filterMap fun l => (f l).toOption := by
  induction h with
  | nil => rfl
  | cons h _ ih => rw [List.filterMap_cons, h, ← ih]; rfl

theorem forall₂_order {α β : Type} (f : α → Except PyErr β) {xs xs' : List α} {cs cs' : List β} (hp : xs.Perm xs')
    (h : List.Forall₂ (fun l c => f l = .ok c) xs cs) (h' : List.Forall₂ (fun l c => f l = .ok c) xs' cs') : cs.Perm cs' := by
  rw [forall₂_filterMap_eq f h, forall₂_filterMap_eq f h']
  exact hp.filterMap _

theorem levelRange_order {σ : Type} [LinearOrder σ] (sec : σ) {l l' : List (Tables σ K)} (h : l.Perm l') (r : K × K) :
    levelRange sec l' r = levelRange sec l r := by
  induction h generalizing r with
  | nil => rfl
  | cons a _ ih =>
    rw [levelRange, levelRange]
    cases a.get sec with
    | none => exact ih r
    | some t =>
      simp only
      cases t.level.min? with
      | none => rfl
      | some lo =>
        cases t.level.max? with
        | none => rfl
        | some hi => exact ih _
  | swap a b l =>
    simp only [levelRange]
    cases a.get sec with
    | none => rfl
    | some t =>
      cases b.get sec with
      | none => rfl
      | some u =>
        simp only
        cases t.level.min? <;> cases t.level.max? <;> cases u.level.min? <;> cases u.level.max? <;> first | rfl | skip
        simp only
        rw [min_assoc, min_assoc, max_assoc, max_assoc]
        rename_i a1 a2 a3 a4
        rw [min_comm a1 a3, max_comm a2 a4]
  | trans _ _ ih1 ih2 => exact (ih2 r).trans (ih1 r)

theorem gridOf_order {σ : Type} [LinearOrder σ] (sec : σ) {l l' : List (Tables σ K)} (h : l.Perm l') : gridOf sec l' = gridOf sec l := by
  unfold gridOf
  rw [levelRange_order sec h]

end Fm2prof

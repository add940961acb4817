import Verif.Proofs.OneSetting
import Verif.Props.ScaleRun

/-!
# What a setting does not change

C187: two runs on the same data whose configurations differ in one group of settings.
-/

set_option linter.unusedSectionVars false

namespace Fm2prof.Props

open Fm2prof Spec OneSettingProof

variable {K : Type} [Field K] [LinearOrder K] [IsStrictOrderedRing K] [FloorRing K]

private theorem forall₂_pair {α β γ : Type} {R : α → β → Prop} {S : α → γ → Prop} {as : List α} {bs : List β} {cs : List γ}
    (h : List.Forall₂ R as bs) (h' : List.Forall₂ S as cs) : List.Forall₂ (fun b c => ∃ a ∈ as, R a b ∧ S a c) bs cs := by
  induction h generalizing cs with
  | nil => cases h'; exact .nil
  | @cons a b as bs hr _ ih =>
    cases h' with
    | cons hs hs' =>
      refine .cons ⟨a, List.mem_cons_self, hr, hs⟩ ((ih hs').imp fun b c => ?_)
      rintro ⟨a', ha, h⟩
      exact ⟨a', List.mem_cons_of_mem _ ha, h⟩

private theorem map_of_forall₂ {α β : Type} {R : α → α → Prop} (g : α → β) (as bs : List α) (h : List.Forall₂ R as bs)
    (hg : ∀ a b, R a b → g b = g a) : bs.map g = as.map g := by
  induction h with
  | nil => rfl
  | cons hr _ ih => rw [List.map_cons, List.map_cons, ih, hg _ _ hr]

/-- Two runs on the same data. -/
private theorem two_runs (x x' : Tools K) (hnn : x'.nn = x.nn) (cfg cfg' : RunConfig K) (hsel : cfg'.cssSelection = cfg.cssSelection)
    (i : Inputs K) (hi : Consistent i) (o : Surroundings) (overwrite : Bool) (s : Store)
    (h : (run (jobOf x cfg i o) overwrite s).2 = .ok true) (h' : (run (jobOf x' cfg' i o) overwrite s).2 = .ok true) :
    ∃ m cs cs', List.Forall₂ (fun c c' => ∃ l, buildCss x cfg m l = .ok c ∧ buildCss x' cfg' m l = .ok c') cs cs' ∧
      (∀ f, IsResult f → (run (jobOf x cfg i o) overwrite s).1 f =
        writeOutput o.faults (exporterOf x) o.dirExists (harmoniseCss cs) s f) ∧
      ∀ f, IsResult f → (run (jobOf x' cfg' i o) overwrite s).1 f =
        writeOutput o.faults (exporterOf x') o.dirExists (harmoniseCss cs') s f := by
  have hc := C52_in_order (jobOf x cfg i o) overwrite s h
  obtain ⟨m₀, xs, -, e1, e2, -⟩ := id hc
  have e1 : (setModelData x.nn i).map (fun m => (⟨m.stations, m.nMaps⟩ : Loaded (Loc K))) = .ok m₀ := e1
  cases hm : setModelData x.nn i with
  | error e => rw [hm] at e1; cases e1
  | ok m =>
    rw [hm] at e1
    obtain rfl := Except.ok.inj e1
    have e2 : Requested cfg.cssSelection m.stations xs := e2
    obtain ⟨cs, hcs, hf⟩ := run_exports_of x cfg i o overwrite s hi m hm xs e2 hc
    obtain ⟨cs', hcs', hf'⟩ := run_exports_of x' cfg' i o overwrite s hi m (hnn ▸ hm) xs (hsel ▸ e2)
      (C52_in_order (jobOf x' cfg' i o) overwrite s h')
    refine ⟨m, cs, cs', (forall₂_pair hcs hcs').imp fun c c' => ?_, hf, hf'⟩
    rintro ⟨l, -, h⟩
    exact ⟨l, h⟩

/-- **C187, the volume behind summer dikes.** Whether, how, and over which height it is corrected for, and the margin of the base level,
make a difference for the definitions, the geometry table and the volume table only. This is for any results of the optimiser in both
runs. -/
theorem C187_summerdike (x : Tools K) (opt : Text → Optimiser K) (log : Text → Nat → Option PyErr) (cfg : RunConfig K) (on : Bool)
    (method : Int) (height tolerance : K) (i : Inputs K) (hi : Consistent i) (o : Surroundings) (overwrite : Bool) (s : Store)
    (h : (run (jobOf x cfg i o) overwrite s).2 = .ok true)
    (h' : (run (jobOf { x with opt := opt, log := log } (RunConfig.withSummerdike on method height tolerance cfg) i o) overwrite s).2 =
      .ok true) (f : Text) (hf : IsResult f)
    (h1 : f ∉ ["CrossSectionDefinitions.ini".toList, "geometry.csv".toList, "volumes.csv".toList]) :
    (run (jobOf { x with opt := opt, log := log } (RunConfig.withSummerdike on method height tolerance cfg) i o) overwrite s).1 f =
      (run (jobOf x cfg i o) overwrite s).1 f := by
  obtain ⟨m, cs, cs', hcs, hr, hr'⟩ := two_runs x { x with opt := opt, log := log } rfl cfg
    (RunConfig.withSummerdike on method height tolerance cfg) rfl i hi o overwrite s h h'
  rw [hr f hf, hr' f hf]
  have hs : cs'.map (fun c => shape c.out) = cs.map fun c => shape c.out := by
    refine map_of_forall₂ _ cs cs' hcs ?_
    rintro c c' ⟨l, hc, hc'⟩
    exact (css_dike x opt log cfg on method height tolerance m l c c' hc hc').1
  have hs := outs_same shape (fun _ => rfl) (fun _ _ => rfl) cs cs' hs
  have hbare : ((harmoniseCss cs').map (·.out)).map bare = ((harmoniseCss cs).map (·.out)).map bare := by
    have e : ∀ l : List (ExportCss K), l.map bare = (l.map shape).map bare := by intro l; rw [List.map_map]; rfl
    rw [e, hs, ← e]
  simp only [List.mem_cons, List.not_mem_nil, or_false, not_or] at h1
  refine (writeOutput_sameFor o.faults _ _ _ _ _ s f ?_ (dimr_bare x { x with opt := opt, log := log } rfl rfl _ _ hbare f h1.1)
    (sobek_bare x { x with opt := opt, log := log } rfl _ _ hbare f h1.2.1) ?_).symm
  · rw [← List.isEmpty_map (f := fun c : Finished K => c.out), ← List.isEmpty_map (f := shape), hs, List.isEmpty_map, List.isEmpty_map]
  · have e : testText x.ft ((harmoniseCss cs').map (·.out)) = testText x.ft ((harmoniseCss cs).map (·.out)) := by
      rw [← testText_shape, hs, testText_shape]
    unfold otherBlock exporterOf
    simp only [e]
    refine .same _ _ _ (.rest _ _ ?_ ?_) <;> exact fun hm => h1.2.2 (List.mem_singleton.1 hm)

/-- **C187, the smallest width.** It makes no difference for the locations and for the roughness. -/
theorem C187_minimum_width (x : Tools K) (cfg : RunConfig K) (width : K) (i : Inputs K) (hi : Consistent i) (o : Surroundings)
    (overwrite : Bool) (s : Store) (h : (run (jobOf x cfg i o) overwrite s).2 = .ok true)
    (h' : (run (jobOf x (RunConfig.withMinimumWidth width cfg) i o) overwrite s).2 = .ok true) (f : Text) (hf : IsResult f)
    (h1 : f ∉ ["CrossSectionDefinitions.ini".toList, "geometry.csv".toList, "geometry_test.csv".toList, "volumes.csv".toList]) :
    (run (jobOf x (RunConfig.withMinimumWidth width cfg) i o) overwrite s).1 f = (run (jobOf x cfg i o) overwrite s).1 f := by
  obtain ⟨m, cs, cs', hcs, hr, hr'⟩ := two_runs x x rfl cfg (RunConfig.withMinimumWidth width cfg) rfl i hi o overwrite s h h'
  rw [hr f hf, hr' f hf]
  have hs : cs'.map (fun c => bare c.out) = cs.map fun c => bare c.out := by
    refine map_of_forall₂ _ cs cs' hcs ?_
    rintro c c' ⟨l, hc, hc'⟩
    exact (css_width x cfg width m l c c' hc hc').1
  have hs := outs_same bare (fun _ => rfl) (fun _ _ => rfl) cs cs' hs
  simp only [List.mem_cons, List.not_mem_nil, or_false, not_or] at h1
  refine (writeOutput_sameFor o.faults _ _ _ _ _ s f ?_ (dimr_bare x x rfl rfl _ _ hs f h1.1) (sobek_bare x x rfl _ _ hs f h1.2.1) ?_).symm
  · rw [← List.isEmpty_map (f := fun c : Finished K => c.out), ← List.isEmpty_map (f := bare), hs, List.isEmpty_map, List.isEmpty_map]
  · have hm : ∀ cs : List (Finished K), f ∉ blockFiles (otherBlock (exporterOf x) cs) := by
      intro cs hm
      have hm : f ∈ ["geometry_test.csv".toList, "volumes.csv".toList] := hm
      rcases List.mem_cons.1 hm with e | e
      · exact h1.2.2.1 e
      · exact h1.2.2.2 (List.mem_singleton.1 e)
    exact .rest _ _ (hm _) (hm _)

/-- **C187, the number of points.** It makes a difference for the definitions, the geometry table and the table in the test format
only. -/
theorem C187_points (x : Tools K) (hb : ∀ y, y < x.bump y) (cfg : RunConfig K) (n n' : Nat) (hn : 2 ≤ n) (hn' : 2 ≤ n') (i : Inputs K)
    (hi : Consistent i) (o : Surroundings) (overwrite : Bool) (s : Store)
    (h : (run (jobOf x (RunConfig.withPoints n cfg) i o) overwrite s).2 = .ok true)
    (h' : (run (jobOf x (RunConfig.withPoints n' cfg) i o) overwrite s).2 = .ok true) (f : Text) (hf : IsResult f)
    (h1 : f ∉ ["CrossSectionDefinitions.ini".toList, "geometry.csv".toList, "geometry_test.csv".toList]) :
    (run (jobOf x (RunConfig.withPoints n' cfg) i o) overwrite s).1 f = (run (jobOf x (RunConfig.withPoints n cfg) i o) overwrite s).1 f := by
  obtain ⟨m, cs, cs', hcs, hr, hr'⟩ := two_runs x x rfl (RunConfig.withPoints n cfg) (RunConfig.withPoints n' cfg) rfl i hi o overwrite s h h'
  rw [hr f hf, hr' f hf]
  have hs : cs'.map unprofiled = cs.map unprofiled := by
    refine map_of_forall₂ _ cs cs' hcs ?_
    rintro c c' ⟨l, hc, hc'⟩
    exact (css_points x hb cfg n n' hn hn' m l c c' hc hc').1
  have hu : (harmoniseCss cs').map unprofiled = (harmoniseCss cs).map unprofiled := by
    rw [← harmoniseCss_unprofiled, ← harmoniseCss_unprofiled, hs]
  have hbare : ((harmoniseCss cs').map (·.out)).map bare = ((harmoniseCss cs).map (·.out)).map bare := by
    have e : ∀ l : List (Finished K), (l.map (·.out)).map bare = (l.map unprofiled).map fun c => bare c.out := by
      intro l; rw [List.map_map, List.map_map]; rfl
    rw [e, hu, ← e]
  simp only [List.mem_cons, List.not_mem_nil, or_false, not_or] at h1
  refine (writeOutput_sameFor o.faults _ _ _ _ _ s f (isEmpty_of_map unprofiled _ _ hu) (dimr_bare x x rfl rfl _ _ hbare f h1.1)
    (sobek_bare x x rfl _ _ hbare f h1.2.1) ?_).symm
  have hv : volumesText x.ft (harmoniseCss cs') = volumesText x.ft (harmoniseCss cs) := by
    rw [← volumesText_unprofiled, hu, volumesText_unprofiled]
  have htest : ∀ (k : Nat) (ds : List (Finished K)), 2 ≤ k → (∀ d ∈ ds, ∃ l, buildCss x (RunConfig.withPoints k cfg) m l = .ok d) →
      (testText x.ft ((harmoniseCss ds).map (·.out))).2 = none := by
    intro k ds hk hd
    refine testText_ok x.ft _ fun c hc => ?_
    have hall : (harmoniseCss ds).map (fun c => decide (c.out.totalWidth.length = c.out.z.length ∧ c.out.flowWidth.length = c.out.z.length)) =
        ds.map fun c => decide (c.out.totalWidth.length = c.out.z.length ∧ c.out.flowWidth.length = c.out.z.length) :=
      harmoniseCss_map (fun c : Finished K => decide (c.out.totalWidth.length = c.out.z.length ∧ c.out.flowWidth.length = c.out.z.length))
        (fun _ _ => rfl) ds
    obtain ⟨d, hd', rfl⟩ := List.mem_map.1 hc
    have hmem := List.mem_map_of_mem (f := fun c : Finished K =>
      decide (c.out.totalWidth.length = c.out.z.length ∧ c.out.flowWidth.length = c.out.z.length)) hd'
    rw [hall] at hmem
    obtain ⟨e, he, hee⟩ := List.mem_map.1 hmem
    obtain ⟨l, hl⟩ := hd e he
    have hv := C02_C03_pipeline_valid (x.opt l.id) _ x.bump hb x.release (x.log l.id) l.length _ _ _ (buildCss_ok x _ m l e hl).1
    obtain ⟨-, -, -, -, -, -, -, -, -, g6, g7, g8, -, -⟩ := buildCss_ok x _ m l e hl
    have := hv.lengths
    rw [← g6, ← g7, ← g8] at this
    rw [decide_eq_true this] at hee
    exact of_decide_eq_true hee.symm
  have hmem : (∀ d ∈ cs, ∃ l, buildCss x (RunConfig.withPoints n cfg) m l = .ok d) ∧
      ∀ d ∈ cs', ∃ l, buildCss x (RunConfig.withPoints n' cfg) m l = .ok d := by
    clear hr hr' hs hu hbare hv htest
    induction hcs with
    | nil => exact ⟨fun d hd => absurd hd List.not_mem_nil, fun d hd => absurd hd List.not_mem_nil⟩
    | cons hr _ ih =>
      obtain ⟨l, hc, hc'⟩ := hr
      refine ⟨fun d hd => ?_, fun d hd => ?_⟩
      · rcases List.mem_cons.1 hd with rfl | hd
        · exact ⟨l, hc⟩
        · exact ih.1 d hd
      · rcases List.mem_cons.1 hd with rfl | hd
        · exact ⟨l, hc'⟩
        · exact ih.2 d hd
  unfold otherBlock
  show SameFor f [.write _ _ (testText x.ft ((harmoniseCss cs).map (·.out))).2, .write _ (volumesText x.ft (harmoniseCss cs)).1
      (volumesText x.ft (harmoniseCss cs)).2]
    [.write _ _ (testText x.ft ((harmoniseCss cs').map (·.out))).2, .write _ (volumesText x.ft (harmoniseCss cs')).1
      (volumesText x.ft (harmoniseCss cs')).2]
  rw [htest n cs hn hmem.1, htest n' cs' hn' hmem.2, hv]
  exact .other _ _ _ _ _ _ h1.2.2 (.refl _ _)

/-- **C187, other files.** Whether the data of the cross-sections and the points are written to files makes no difference for the
results. -/
theorem C187_extra_files (x : Tools K) (cfg : RunConfig K) (data maps : Bool) (i : Inputs K) (hi : Consistent i) (o : Surroundings)
    (overwrite : Bool) (s : Store) (h : (run (jobOf x cfg i o) overwrite s).2 = .ok true)
    (h' : (run (jobOf x (RunConfig.withExtraFiles data maps cfg) i o) overwrite s).2 = .ok true) (f : Text) (hf : IsResult f) :
    (run (jobOf x (RunConfig.withExtraFiles data maps cfg) i o) overwrite s).1 f = (run (jobOf x cfg i o) overwrite s).1 f := by
  obtain ⟨m, cs, cs', hcs, hr, hr'⟩ := two_runs x x rfl cfg (RunConfig.withExtraFiles data maps cfg) rfl i hi o overwrite s h h'
  have e : cs'.map id = cs.map id := by
    refine map_of_forall₂ id cs cs' hcs ?_
    rintro c c' ⟨l, hc, hc'⟩
    exact Except.ok.inj (hc'.symm.trans hc)
  rw [List.map_id, List.map_id] at e
  rw [hr f hf, hr' f hf, e]

/-! ## The definitions -/

private theorem two_definitions (x x' : Tools K) (hnn : x'.nn = x.nn) (hft : x'.ft = x.ft) (cfg cfg' : RunConfig K)
    (hsel : cfg'.cssSelection = cfg.cssSelection) (i : Inputs K) (hi : Consistent i) (o : Surroundings) (hdir : o.dirExists = true)
    (hw : ∀ f, IsResult f → Sound o.faults f) (overwrite : Bool) (s : Store)
    (h : (run (jobOf x cfg i o) overwrite s).2 = .ok true) (h' : (run (jobOf x' cfg' i o) overwrite s).2 = .ok true)
    (m : Model2d K) (hm : setModelData x.nn i = .ok m) (xs : List (Loc K)) (hx : Requested cfg.cssSelection m.stations xs)
    (hu : ∃ l ∈ xs, Usable m l) (hn : ∀ l ∈ xs, PlainName l.id)
    (hfull : ∀ l ∈ xs, ∀ c, buildCss x cfg m l = .ok c → FullNumbers x.ft c)
    (hfull' : ∀ l ∈ xs, ∀ c, buildCss x' cfg' m l = .ok c → FullNumbers x.ft c) (R : CssDef K → CssDef K → Prop)
    (hR : ∀ l c c', buildCss x cfg m l = .ok c → buildCss x' cfg' m l = .ok c' → R (definitionOf x.ft c.out) (definitionOf x.ft c'.out)) :
    ∃ text text' defs defs', (run (jobOf x cfg i o) overwrite s).1 "CrossSectionDefinitions.ini".toList = some text ∧
      (run (jobOf x' cfg' i o) overwrite s).1 "CrossSectionDefinitions.ini".toList = some text' ∧
      readDefinitions x.ft text = .ok defs ∧ readDefinitions x.ft text' = .ok defs' ∧ defs ≠ [] ∧ List.Forall₂ R defs defs' := by
  obtain ⟨cs, text, hcs, ht, hd⟩ := run_definitions x cfg i hi o hdir hw overwrite s h m hm xs hx hu hn hfull
  obtain ⟨cs', text', hcs', ht', hd'⟩ := run_definitions x' cfg' i hi o hdir hw overwrite s h' m (hnn ▸ hm) xs (hsel ▸ hx) hu hn
    (hft ▸ hfull')
  rw [hft] at hd'
  refine ⟨text, text', _, _, ht, ht', hd, hd', ?_, ?_⟩
  · obtain ⟨l, hl, hlu⟩ := hu
    have hmem : l ∈ xs.filter fun l => decide (Usable m l) := List.mem_filter.2 ⟨hl, by simpa using hlu⟩
    intro e
    have h1 := congrArg List.length e
    rw [List.length_map, ← hcs.length_eq] at h1
    have := List.length_pos_of_mem hmem
    rw [h1] at this
    cases this
  · rw [List.forall₂_map_left_iff, List.forall₂_map_right_iff]
    refine (forall₂_pair hcs hcs').imp fun c c' => ?_
    rintro ⟨l, -, h1, h2⟩
    exact hR l c c' h1 h2

/-- **C187, the definitions and the volume behind summer dikes.** Levels, widths and section widths are the same whether, how and over
which height it is corrected for. -/
theorem C187_summerdike_definitions (x : Tools K) (opt : Text → Optimiser K) (log : Text → Nat → Option PyErr) (cfg : RunConfig K) (on : Bool)
    (method : Int) (height tolerance : K) (i : Inputs K) (hi : Consistent i) (o : Surroundings) (hdir : o.dirExists = true)
    (hw : ∀ f, IsResult f → Sound o.faults f) (overwrite : Bool) (s : Store)
    (h : (run (jobOf x cfg i o) overwrite s).2 = .ok true)
    (h' : (run (jobOf { x with opt := opt, log := log } (RunConfig.withSummerdike on method height tolerance cfg) i o) overwrite s).2 =
      .ok true) (m : Model2d K) (hm : setModelData x.nn i = .ok m) (xs : List (Loc K)) (hx : Requested cfg.cssSelection m.stations xs)
    (hu : ∃ l ∈ xs, Usable m l) (hn : ∀ l ∈ xs, PlainName l.id)
    (hfull : ∀ l ∈ xs, ∀ c, buildCss x cfg m l = .ok c → FullNumbers x.ft c)
    (hfull' : ∀ l ∈ xs, ∀ c, buildCss { x with opt := opt, log := log } (RunConfig.withSummerdike on method height tolerance cfg) m l = .ok c →
      FullNumbers x.ft c) :
    ∃ text text' defs defs', (run (jobOf x cfg i o) overwrite s).1 "CrossSectionDefinitions.ini".toList = some text ∧
      (run (jobOf { x with opt := opt, log := log } (RunConfig.withSummerdike on method height tolerance cfg) i o) overwrite s).1
        "CrossSectionDefinitions.ini".toList = some text' ∧
      readDefinitions x.ft text = .ok defs ∧ readDefinitions x.ft text' = .ok defs' ∧ defs ≠ [] ∧ List.Forall₂ SameButDike defs defs' := by
  refine two_definitions x { x with opt := opt, log := log } rfl rfl cfg (RunConfig.withSummerdike on method height tolerance cfg) rfl i hi o
    hdir hw overwrite s h h' m hm xs hx hu hn hfull hfull' SameButDike ?_
  intro l c c' hc hc'
  obtain ⟨e1, e2⟩ := css_dike x opt log cfg on method height tolerance m l c c' hc hc'
  have en : c'.out.name = c.out.name := by have e := congrArg (fun c : ExportCss K => c.name) e1; exact e
  have ez : c'.out.z = c.out.z := by have e := congrArg (fun c : ExportCss K => c.z) e1; exact e
  have ef : c'.out.flowWidth = c.out.flowWidth := by have e := congrArg (fun c : ExportCss K => c.flowWidth) e1; exact e
  have et : c'.out.totalWidth = c.out.totalWidth := by have e := congrArg (fun c : ExportCss K => c.totalWidth) e1; exact e
  unfold SameButDike definitionOf
  simp only [en, ez, ef, et, e2, and_self]

/-- **C187, the definitions and the smallest width.** Crest level, areas and base level of the summer dikes do not depend on it. -/
theorem C187_minimum_width_definitions (x : Tools K) (cfg : RunConfig K) (width : K) (i : Inputs K) (hi : Consistent i) (o : Surroundings)
    (hdir : o.dirExists = true) (hw : ∀ f, IsResult f → Sound o.faults f) (overwrite : Bool) (s : Store)
    (h : (run (jobOf x cfg i o) overwrite s).2 = .ok true)
    (h' : (run (jobOf x (RunConfig.withMinimumWidth width cfg) i o) overwrite s).2 = .ok true)
    (m : Model2d K) (hm : setModelData x.nn i = .ok m) (xs : List (Loc K)) (hx : Requested cfg.cssSelection m.stations xs)
    (hu : ∃ l ∈ xs, Usable m l) (hn : ∀ l ∈ xs, PlainName l.id)
    (hfull : ∀ l ∈ xs, ∀ c, buildCss x cfg m l = .ok c → FullNumbers x.ft c)
    (hfull' : ∀ l ∈ xs, ∀ c, buildCss x (RunConfig.withMinimumWidth width cfg) m l = .ok c → FullNumbers x.ft c) :
    ∃ text text' defs defs', (run (jobOf x cfg i o) overwrite s).1 "CrossSectionDefinitions.ini".toList = some text ∧
      (run (jobOf x (RunConfig.withMinimumWidth width cfg) i o) overwrite s).1 "CrossSectionDefinitions.ini".toList = some text' ∧
      readDefinitions x.ft text = .ok defs ∧ readDefinitions x.ft text' = .ok defs' ∧ defs ≠ [] ∧ List.Forall₂ SameDike defs defs' := by
  refine two_definitions x x rfl rfl cfg (RunConfig.withMinimumWidth width cfg) rfl i hi o hdir hw overwrite s h h' m hm xs hx hu hn hfull
    hfull' SameDike ?_
  intro l c c' hc hc'
  obtain ⟨e1, e2, e3, e4, e5⟩ := css_width x cfg width m l c c' hc hc'
  have en : c'.out.name = c.out.name := by have e := congrArg (fun c : ExportCss K => c.name) e1; exact e
  unfold SameDike definitionOf
  simp only [en, e2, e3, e4, e5, and_self]

/-- **C187, the definitions and the number of points.** With fewer points allowed a profile consists of some of the points that it has
with more, among which are the lowest and the highest one; the sections and the summer dikes are the same. -/
theorem C187_points_definitions (x : Tools K) (hb : ∀ y, y < x.bump y) (cfg : RunConfig K) (n n' : Nat) (hn2 : 2 ≤ n) (hnn : n ≤ n')
    (i : Inputs K) (hi : Consistent i) (o : Surroundings)
    (hdir : o.dirExists = true) (hw : ∀ f, IsResult f → Sound o.faults f) (overwrite : Bool) (s : Store)
    (h : (run (jobOf x (RunConfig.withPoints n cfg) i o) overwrite s).2 = .ok true)
    (h' : (run (jobOf x (RunConfig.withPoints n' cfg) i o) overwrite s).2 = .ok true)
    (m : Model2d K) (hm : setModelData x.nn i = .ok m) (xs : List (Loc K)) (hx : Requested cfg.cssSelection m.stations xs)
    (hu : ∃ l ∈ xs, Usable m l) (hn : ∀ l ∈ xs, PlainName l.id)
    (hfull : ∀ l ∈ xs, ∀ c, buildCss x (RunConfig.withPoints n cfg) m l = .ok c → FullNumbers x.ft c)
    (hfull' : ∀ l ∈ xs, ∀ c, buildCss x (RunConfig.withPoints n' cfg) m l = .ok c → FullNumbers x.ft c) :
    ∃ text text' defs defs', (run (jobOf x (RunConfig.withPoints n cfg) i o) overwrite s).1 "CrossSectionDefinitions.ini".toList = some text ∧
      (run (jobOf x (RunConfig.withPoints n' cfg) i o) overwrite s).1 "CrossSectionDefinitions.ini".toList = some text' ∧
      readDefinitions x.ft text = .ok defs ∧ readDefinitions x.ft text' = .ok defs' ∧ defs ≠ [] ∧ List.Forall₂ FewerPoints defs defs' := by
  refine two_definitions x x rfl rfl (RunConfig.withPoints n cfg) (RunConfig.withPoints n' cfg) rfl i hi o hdir hw overwrite s h h' m hm xs hx
    hu hn hfull hfull' FewerPoints ?_
  intro l c c' hc hc'
  obtain ⟨e1, e2⟩ := css_points x hb cfg n n' hn2 (by omega) m l c c' hc hc'
  exact definition_points x.ft c c' n n' hn2 hnn e1 e2

/-! ## Sample runs -/

private theorem ok_of₃ {α : Type} {e : Except PyErr α} {a : α} (h : e.toOption = some a) : e = .ok a := by
  cases e with
  | error e => cases h
  | ok b => exact congrArg Except.ok (Option.some.inj h)

private theorem loaded_of₃ (i : Inputs ℚ) (h : (setModelData firstNearest i).toOption.isSome = true) :
    setModelData firstNearest i = .ok (sampleLoaded i) := by
  unfold sampleLoaded
  cases hm : setModelData firstNearest i with
  | error e => rw [hm] at h; cases h
  | ok m => rfl

private noncomputable def shortWith (x : Tools ℚ) (cfg : RunConfig ℚ) (m : Model2d ℚ) : Bool :=
  m.stations.all fun l => (buildCss x cfg m l).toOption.all fun c =>
    decide (roundTo 6 c.out.extraFlowArea = c.out.extraFlowArea) && c.out.floodplainBase.all fun b => decide (roundTo 6 b = b)

private theorem full_of₃ (x : Tools ℚ) (cfg : RunConfig ℚ) (m : Model2d ℚ) (h : shortWith x cfg m = true) (l : Loc ℚ) (hl : l ∈ m.stations)
    (c : Finished ℚ) (hc : buildCss x cfg m l = .ok c) : FullNumbers idleTools.ft c := by
  have h := List.all_eq_true.1 h l hl
  rw [hc] at h
  have h : (decide (roundTo 6 c.out.extraFlowArea = c.out.extraFlowArea) &&
          c.out.floodplainBase.all fun b => decide (roundTo 6 b = b)) = true := h
  rw [Bool.and_eq_true] at h
  refine ⟨of_decide_eq_true (p := roundTo 6 _ = _) h.1, fun b hb => ?_⟩
  have h2 := h.2
  rw [hb] at h2
  exact of_decide_eq_true (p := roundTo 6 _ = _) h2

private theorem section_consistent : Consistent sampleSectionInputs := by
  refine ⟨?_, fun _ _ _ _ _ h => (by cases h), ?_⟩
  · intro d hd
    obtain rfl := Except.ok.inj hd
    constructor <;> rfl
  · intro d r hd h
    obtain rfl := Except.ok.inj hd
    obtain rfl := Except.ok.inj (Option.some.inj h)
    constructor <;> rfl

/-- Without the correction, and with more points and a larger smallest width: the runs come to their end, and the definitions are not
the same. -/
example : Consistent sampleSectionInputs ∧ (∀ y, y < idleTools.bump y) ∧ sampleSurroundings.dirExists = true ∧
    (∀ f, IsResult f → Sound sampleSurroundings.faults f) ∧
    (run (jobOf idleTools sampleRunConfig sampleSectionInputs sampleSurroundings) false noFiles).2 = .ok true ∧
    (run (jobOf { idleTools with opt := sampleTools.opt, log := idleTools.log }
      (RunConfig.withSummerdike false 2 (1 / 4) (1 / 10) sampleRunConfig) sampleSectionInputs sampleSurroundings) false noFiles).2 = .ok true ∧
    (run (jobOf idleTools (RunConfig.withMinimumWidth 100 sampleRunConfig) sampleSectionInputs sampleSurroundings) false noFiles).2 = .ok true ∧
    (run (jobOf idleTools (RunConfig.withPoints (3 : Nat) sampleRunConfig) sampleSectionInputs sampleSurroundings) false noFiles).2 = .ok true ∧
    (run (jobOf idleTools (RunConfig.withPoints (5 : Nat) sampleRunConfig) sampleSectionInputs sampleSurroundings) false noFiles).2 = .ok true ∧
    (run (jobOf idleTools (RunConfig.withExtraFiles true true sampleRunConfig) sampleSectionInputs sampleSurroundings) false noFiles).2 =
      .ok true ∧
    ∃ m, setModelData idleTools.nn sampleSectionInputs = .ok m ∧ Requested sampleRunConfig.cssSelection m.stations m.stations ∧
      (∃ l ∈ m.stations, Usable m l) ∧ (∀ l ∈ m.stations, PlainName l.id) ∧
      (∀ l ∈ m.stations, ∀ c, buildCss idleTools sampleRunConfig m l = .ok c → FullNumbers idleTools.ft c) ∧
      (∀ l ∈ m.stations, ∀ c, buildCss { idleTools with opt := sampleTools.opt, log := idleTools.log }
        (RunConfig.withSummerdike false 2 (1 / 4) (1 / 10) sampleRunConfig) m l = .ok c → FullNumbers idleTools.ft c) ∧
      (∀ l ∈ m.stations, ∀ c, buildCss idleTools (RunConfig.withMinimumWidth 100 sampleRunConfig) m l = .ok c → FullNumbers idleTools.ft c) ∧
      (∀ l ∈ m.stations, ∀ c, buildCss idleTools (RunConfig.withPoints (3 : Nat) sampleRunConfig) m l = .ok c → FullNumbers idleTools.ft c) ∧
      (∀ l ∈ m.stations, ∀ c, buildCss idleTools (RunConfig.withPoints (5 : Nat) sampleRunConfig) m l = .ok c → FullNumbers idleTools.ft c) := by
  refine ⟨section_consistent, ?_, rfl, fun _ _ => ⟨rfl, rfl⟩, ok_of₃ (by decide +kernel), ok_of₃ (by decide +kernel),
    ok_of₃ (by decide +kernel), ok_of₃ (by decide +kernel), ok_of₃ (by decide +kernel), ok_of₃ (by decide +kernel),
    sampleLoaded sampleSectionInputs, loaded_of₃ _ (by decide +kernel), .inl ⟨rfl, rfl⟩, ?_, by decide +kernel,
    full_of₃ _ _ _ (by decide +kernel), full_of₃ _ _ _ (by decide +kernel), full_of₃ _ _ _ (by decide +kernel),
    full_of₃ _ _ _ (by decide +kernel), full_of₃ _ _ _ (by decide +kernel)⟩
  · intro y
    show y < y + 1 / 1000
    linarith
  · exact ⟨⟨"rhine_100".toList, 5, 0, 10, "rhine".toList, 100⟩, by decide +kernel, by decide +kernel⟩

private noncomputable def profileWith (cfg : RunConfig ℚ) : Option (List ℚ × List ℚ × ℚ) :=
  ((sampleLoaded sampleSectionInputs).stations.head?.bind fun l =>
    (buildCss idleTools cfg (sampleLoaded sampleSectionInputs) l).toOption).map fun c => (c.out.z, c.out.totalWidth, c.out.crestLevel)

/-- The settings do make a difference. -/
example : ((profileWith sampleRunConfig).map fun p => p.2.2) ≠
      ((profileWith (RunConfig.withSummerdike false 2 (1 / 4) (1 / 10) sampleRunConfig)).map fun p => p.2.2) ∧
    ((profileWith sampleRunConfig).map fun p => p.2.1) ≠ ((profileWith (RunConfig.withMinimumWidth 100 sampleRunConfig)).map fun p => p.2.1) ∧
    ((profileWith (RunConfig.withPoints (3 : Nat) sampleRunConfig)).map fun p => p.1.length) ≠
      ((profileWith (RunConfig.withPoints (5 : Nat) sampleRunConfig)).map fun p => p.1.length) := by
  refine ⟨?_, ?_, ?_⟩
  · decide +kernel
  · decide +kernel
  · decide +kernel

end Fm2prof.Props

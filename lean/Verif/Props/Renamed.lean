import Verif.Proofs.Renamed
import Verif.Props.Territory

/-!
# Properties of runs with other names for the cross-sections

C191: the names of the cross-sections are names only.
-/

set_option linter.unusedSectionVars false

namespace Fm2prof.Props

open Fm2prof Spec RenamedProof OneSettingProof

variable {K : Type} [Field K] [LinearOrder K] [IsStrictOrderedRing K] [FloorRing K]

/-- **C191, outcome.** The cross-sections of the location file get other names, branches and chainages. The run ends in the same way. -/
theorem C191_outcome (name : Text → Text) (branch : Loc K → Text) (chainage : Loc K → K) (i : Inputs K) (css : List (Loc K))
    (regions : Option RegionLabels) (hcss : i.css = .ok css) (hreg : i.regions = regions.map .ok)
    (hn : ∀ d, i.map = .ok d → Renaming name d css regions) (x y : Tools K) (hy : SameHelp name css x y) (cfg : RunConfig K)
    (o : Surroundings)
    (hp : cfg.exportCssData = true → ∀ l ∈ css, Sound o.faults (l.id ++ ".pickle".toList) ∧ Sound o.faults (name l.id ++ ".pickle".toList) ∧
      Sound o.faults (l.id ++ "_flowmask.pickle".toList) ∧ Sound o.faults (name l.id ++ "_flowmask.pickle".toList))
    (overwrite : Bool) (s : Store) :
    (run (jobOf y cfg (Inputs.renamed name branch chainage i) o) overwrite s).2 = (run (jobOf x cfg i o) overwrite s).2 :=
  (run_sim (sameJobs (fun _ => ()) (fun _ => ()) (fun _ => False) name branch chainage i css regions hcss hreg hn x y hy cfg o hp
    (fun _ _ _ _ _ => rfl) (fun _ _ _ _ _ h => h.elim)) overwrite s).1

private theorem consistent_renamed (name : Text → Text) (b : Loc K → Text) (q : Loc K → K) (i : Inputs K) (hi : Consistent i)
    (css : List (Loc K)) (hcss : i.css = .ok css) : Consistent (Inputs.renamed name b q i) := by
  refine ⟨hi.map, ?_, hi.sections⟩
  intro d css' r hd hc hr
  have hc : i.css.map _ = .ok css' := hc
  rw [hcss] at hc
  obtain rfl := Except.ok.inj hc
  rw [List.length_map]
  exact hi.regions d css r hd hcss hr

private theorem forall₂_filter {α β γ : Type} (g : α → β) (p : α → Bool) (p' : β → Bool) (R : α → γ → Prop) (R' : β → γ → Prop)
    (l : List α) (hp : ∀ a ∈ l, p' (g a) = p a) (r r' : List γ) (h : List.Forall₂ R (l.filter p) r)
    (h' : List.Forall₂ R' ((l.map g).filter p') r') {δ : Type} (v v' : γ → δ)
    (hv : ∀ a ∈ l, p a = true → ∀ c c', R a c → R' (g a) c' → v' c' = v c) : r'.map v' = r.map v := by
  induction l generalizing r r' with
  | nil => cases h; cases h'; rfl
  | cons a l ih =>
    rw [List.map_cons] at h'
    have e := hp a List.mem_cons_self
    by_cases ha : p a = true
    · rw [List.filter_cons_of_pos ha] at h
      rw [List.filter_cons_of_pos (by rw [e]; exact ha)] at h'
      cases h with
      | cons h1 h2 =>
        cases h' with
        | cons h1' h2' =>
          rw [List.map_cons, List.map_cons, hv a List.mem_cons_self ha _ _ h1 h1',
            ih (fun b hb => hp b (List.mem_cons_of_mem _ hb)) _ _ h2 h2' fun b hb => hv b (List.mem_cons_of_mem _ hb)]
    · rw [List.filter_cons_of_neg ha] at h
      rw [List.filter_cons_of_neg (by rw [e]; exact ha)] at h'
      exact ih (fun b hb => hp b (List.mem_cons_of_mem _ hb)) _ _ h h' fun b hb => hv b (List.mem_cons_of_mem _ hb)

/-- **C191, profiles.** The cross-sections of the location file get other names, branches and chainages. The definition file of a
successful run has the same profiles, sections and summer dikes as before, in the same order, under the new names. -/
theorem C191_definitions (name : Text → Text) (branch : Loc K → Text) (chainage : Loc K → K) (i : Inputs K) (css : List (Loc K))
    (regions : Option RegionLabels) (hcss : i.css = .ok css) (hreg : i.regions = regions.map .ok) (hi : Consistent i)
    (hn : ∀ d, i.map = .ok d → Renaming name d css regions) (x y : Tools K) (hy : SameHelp name css x y) (cfg : RunConfig K)
    (o : Surroundings) (hdir : o.dirExists = true) (hw : ∀ f, IsResult f → Sound o.faults f)
    (hp : cfg.exportCssData = true → ∀ l ∈ css, Sound o.faults (l.id ++ ".pickle".toList) ∧ Sound o.faults (name l.id ++ ".pickle".toList) ∧
      Sound o.faults (l.id ++ "_flowmask.pickle".toList) ∧ Sound o.faults (name l.id ++ "_flowmask.pickle".toList))
    (overwrite : Bool) (s : Store) (h : (run (jobOf x cfg i o) overwrite s).2 = .ok true)
    (m : Model2d K) (hm : setModelData x.nn i = .ok m) (xs : List (Loc K)) (hx : Requested cfg.cssSelection css xs)
    (hu : ∃ l ∈ xs, Usable m l) (hplain : ∀ l ∈ xs, l.id ≠ [] ∧ PlainName l.id ∧ PlainName (name l.id))
    (hfull : ∀ l ∈ xs, ∀ c, buildCss x cfg m l = .ok c → FullNumbers x.ft c) :
    ∃ text text' defs, (run (jobOf x cfg i o) overwrite s).1 "CrossSectionDefinitions.ini".toList = some text ∧
      (run (jobOf y cfg (Inputs.renamed name branch chainage i) o) overwrite s).1 "CrossSectionDefinitions.ini".toList = some text' ∧
      readDefinitions x.ft text = .ok defs ∧
      readDefinitions x.ft text' = .ok (defs.map fun d => { d with id := name d.id }) := by
  have hout := (C191_outcome name branch chainage i css regions hcss hreg hn x y hy cfg o hp overwrite s).trans h
  have hnn : y.nn = x.nn := by obtain ⟨opt, log, rfl⟩ := hy.rest; rfl
  have hft : y.ft = x.ft := by obtain ⟨opt, log, rfl⟩ := hy.rest; rfl
  rcases load_renamed x.nn name branch chainage i css regions hcss hreg hn with ⟨e, h1, _⟩ | ⟨m1, m', h1, h2, h3, h4, h5, d, hd⟩
  · rw [h1] at hm; cases hm
  rw [hm] at h1
  obtain rfl := Except.ok.inj h1
  have hmem : ∀ l ∈ xs, l ∈ css := RenamedProof.requested_mem _ _ _ hx
  have husable : ∀ l ∈ xs, (Usable m' (Loc.renamed name branch chainage l) ↔ Usable m l) := fun l hl =>
    usable_twin h5 (hn d hd) branch chainage l (hmem l hl)
  have hbuild : ∀ l ∈ xs, l.id ≠ [] → ∀ c c', buildCss x cfg m l = .ok c →
      buildCss y cfg m' (Loc.renamed name branch chainage l) = .ok c' →
      c'.out = { c.out with name := name l.id, branch := branch l, chainage := chainage l } := by
    intro l hl hid c c' hc hc'
    have key := build_twin h5 branch chainage x y hy cfg l (hmem l hl) hid
    rw [hc, hc'] at key
    exact Except.ok.inj key
  obtain ⟨cs, text, hcs, ht, hdef⟩ := run_definitions x cfg i hi o hdir hw overwrite s h m hm xs (by rw [h3]; exact hx) hu
    (fun l hl => (hplain l hl).2.1) hfull
  obtain ⟨cs', text', hcs', ht', hdef'⟩ := run_definitions y cfg _ (consistent_renamed name branch chainage i hi css hcss) o hdir hw
    overwrite s hout m' (by rw [hnn]; exact h2) (xs.map (Loc.renamed name branch chainage))
    (by rw [h4]; exact RenamedProof.requested_map _ _ _ _ hx)
    (by obtain ⟨l, hl, hul⟩ := hu; exact ⟨_, List.mem_map_of_mem hl, (husable l hl).2 hul⟩)
    (by intro l hl; obtain ⟨k, hk, rfl⟩ := List.mem_map.1 hl; exact (hplain k hk).2.2)
    (by
      intro l hl c' hc'
      obtain ⟨k, hk, rfl⟩ := List.mem_map.1 hl
      by_cases hid : k.id = []
      · exact absurd hid (hplain k hk).1
      have key := build_twin h5 branch chainage x y hy cfg k (hmem k hk) hid
      rw [hc'] at key
      cases hc : buildCss x cfg m k with
      | error e => rw [hc] at key; cases key
      | ok c =>
        have e := hbuild k hk hid c c' hc hc'
        have hf := hfull k hk c hc
        unfold FullNumbers at hf ⊢
        rw [e, hft]
        exact hf)
  rw [hft] at hdef'
  refine ⟨text, text', _, ht, ht', hdef, ?_⟩
  rw [hdef']
  refine congrArg Except.ok ?_
  rw [List.map_map]
  refine forall₂_filter (Loc.renamed name branch chainage) _ _ _ _ xs (fun l hl => decide_eq_decide.2 (husable l hl)) cs cs' hcs hcs' _ _ ?_
  intro l hl hul c c' hc hc'
  have hul : Usable m l := of_decide_eq_true hul
  have e := hbuild l hl hul.1 c c' hc hc'
  have hname : c.out.name = l.id := (buildCss_ok x cfg m l c hc).2.2.2.2.2.2.1
  show definitionOf x.ft c'.out = { definitionOf x.ft c.out with id := name c.out.name }
  rw [e, hname]
  rfl

/-- **C191, roughness.** The cross-sections of the location file get other names, on the same branches and at the same chainages. The
roughness files for D-Flow 1D are the same, to the letter. -/
theorem C191_roughness (name : Text → Text) (i : Inputs K) (css : List (Loc K))
    (regions : Option RegionLabels) (hcss : i.css = .ok css) (hreg : i.regions = regions.map .ok)
    (hn : ∀ d, i.map = .ok d → Renaming name d css regions) (x y : Tools K) (hy : SameHelp name css x y) (cfg : RunConfig K)
    (o : Surroundings)
    (hp : cfg.exportCssData = true → ∀ l ∈ css, Sound o.faults (l.id ++ ".pickle".toList) ∧ Sound o.faults (name l.id ++ ".pickle".toList) ∧
      Sound o.faults (l.id ++ "_flowmask.pickle".toList) ∧ Sound o.faults (name l.id ++ "_flowmask.pickle".toList))
    (overwrite : Bool) (s : Store) (f : Text) (hf : IsRoughness f) :
    (run (jobOf y cfg (Inputs.renamed name (fun l => l.branch) (fun l => l.chainage) i) o) overwrite s).1 f
      = (run (jobOf x cfg i o) overwrite s).1 f := by
  have hres : IsResult f := by
    obtain ⟨p, hp, rfl⟩ := hf
    exact ⟨p.2.1, by revert p; decide, rfl⟩
  refine (run_sim (sameJobs nameless nameless IsRoughness name (fun l => l.branch) (fun l => l.chainage) i css regions hcss hreg hn x y hy
    cfg o hp ?_ ?_) overwrite s).2 f hres hf
  · intro l _ c h1 h2
    unfold nameless
    rw [← h1, ← h2]
  · intro cs cs' h s f hf'
    have hf : f ≠ "CrossSectionLocations.ini".toList ∧ f ≠ "CrossSectionDefinitions.ini".toList ∧ f ≠ "geometry.csv".toList ∧
        f ≠ "roughness.csv".toList ∧ f ≠ "geometry_test.csv".toList ∧ f ≠ "volumes.csv".toList := by
      obtain ⟨p, hp, rfl⟩ := hf'
      revert p; decide
    have hlen : cs'.length = cs.length := by
      have := congrArg List.length h
      rwa [List.length_map, List.length_map] at this
    have hh : ((harmoniseCss cs').map (·.out)).map nameless = ((harmoniseCss cs).map (·.out)).map nameless :=
      outs_same nameless (fun _ => rfl) (fun _ _ => rfl) cs cs' h
    have hft : y.ft = x.ft := by obtain ⟨opt, log, rfl⟩ := hy.rest; rfl
    have hsig : y.sig = x.sig := by obtain ⟨opt, log, rfl⟩ := hy.rest; rfl
    have hr : ∀ sec, exportRoughness y.ft y.sig ((harmoniseCss cs').map (·.out)) sec
        = exportRoughness x.ft x.sig ((harmoniseCss cs).map (·.out)) sec := by
      intro sec
      rw [hft, hsig, ← roughness_nameless, hh, roughness_nameless]
    have hsec : (harmoniseCss cs').flatMap (fun c => c.out.tables.map (·.1)) = (harmoniseCss cs).flatMap fun c => c.out.tables.map (·.1) := by
      have e : ∀ l : List (Finished K), (l.flatMap fun c => c.out.tables.map (·.1)) =
          ((l.map (·.out)).map nameless).flatMap fun c => c.tables.map (·.1) := by
        intro l; rw [List.flatMap_map, List.flatMap_map]; rfl
      rw [e, e, hh]
    refine (writeOutput_sameFor o.faults (exporterOf x) (exporterOf y) o.dirExists _ _ s f ?_ ?_ ?_ ?_).symm
    · have : (harmoniseCss cs').length = (harmoniseCss cs).length := by rw [harmoniseCss_length, harmoniseCss_length, hlen]
      cases h1 : harmoniseCss cs' <;> cases h2 : harmoniseCss cs <;> rw [h1, h2] at this <;> first | rfl | cases this
    · unfold dimrBlock
      refine .other _ _ _ _ _ _ hf.1 (.other _ _ _ _ _ _ hf.2.1 ?_)
      have e1 : (harmoniseCss cs').flatMap (exporterOf y).sections = (harmoniseCss cs).flatMap (exporterOf x).sections := hsec
      have e2 : roughnessStep (exporterOf y) (harmoniseCss cs') = roughnessStep (exporterOf x) (harmoniseCss cs) := by
        funext sec
        unfold roughnessStep
        cases sectionFile sec with
        | none => rfl
        | some p =>
          show ExportStep.write p.1 (exportRoughness y.ft y.sig _ p.2) none = ExportStep.write p.1 (exportRoughness x.ft x.sig _ p.2) none
          rw [hr]
      rw [e1, e2]
      exact SameFor.refl _ _
    · unfold sobekBlock'
      refine .rest _ _ ?_ ?_ <;>
      · intro hm
        simp only [blockFiles] at hm
        rcases List.mem_cons.1 hm with e | hm
        · exact hf.2.2.1 e
        · exact hf.2.2.2.1 (List.mem_singleton.1 hm)
    · unfold otherBlock
      refine .rest _ _ ?_ ?_ <;>
      · intro hm
        simp only [blockFiles] at hm
        rcases List.mem_cons.1 hm with e | hm
        · exact hf.2.2.2.2.1 e
        · exact hf.2.2.2.2.2 (List.mem_singleton.1 hm)

private theorem loaded_of' (i : Inputs ℚ) (h : (setModelData firstNearest i).toOption.isSome = true) :
    setModelData idleTools.nn i = .ok (sampleLoaded i) := by
  unfold sampleLoaded
  show setModelData firstNearest i = _
  cases hm : setModelData firstNearest i with
  | error e => rw [hm] at h; cases h
  | ok m => rfl

private theorem ok_of' {α : Type} {e : Except PyErr α} {a : α} (h : e.toOption = some a) : e = .ok a := by
  cases e with
  | error e => cases h
  | ok b => exact congrArg Except.ok (Option.some.inj h)

/-- Names of another water authority. -/
def otherName (t : Text) : Text := "new ".toList ++ t

/-- The sample with a face that belongs to another cross-section: other names, one branch for all and other chainages. -/
example : ∃ css, longerInputs.css = .ok css ∧ longerInputs.regions = (none : Option RegionLabels).map .ok ∧ Consistent longerInputs ∧
    (∀ d, longerInputs.map = .ok d → Renaming otherName d css none) ∧ SameHelp otherName css idleTools idleTools ∧
    (∀ f, IsResult f → Sound sampleSurroundings.faults f) ∧
    (∀ l ∈ css, Sound sampleSurroundings.faults (l.id ++ ".pickle".toList) ∧
      Sound sampleSurroundings.faults (otherName l.id ++ ".pickle".toList) ∧
      Sound sampleSurroundings.faults (l.id ++ "_flowmask.pickle".toList) ∧
      Sound sampleSurroundings.faults (otherName l.id ++ "_flowmask.pickle".toList)) ∧
    (run (jobOf idleTools sampleRunConfig longerInputs sampleSurroundings) false noFiles).2 = .ok true ∧
    ∃ m, setModelData idleTools.nn longerInputs = .ok m ∧ Requested sampleRunConfig.cssSelection css css ∧
      (∃ l ∈ css, Usable m l) ∧ (∀ l ∈ css, l.id ≠ [] ∧ PlainName l.id ∧ PlainName (otherName l.id)) ∧
      (∀ l ∈ css, ∀ c, buildCss idleTools sampleRunConfig m l = .ok c → FullNumbers idleTools.ft c) ∧
      (run (jobOf idleTools sampleRunConfig (Inputs.renamed otherName (fun _ => "waal".toList) (fun l => l.chainage + 7) longerInputs)
        sampleSurroundings) false noFiles).1 "CrossSectionDefinitions.ini".toList ≠
        (run (jobOf idleTools sampleRunConfig longerInputs sampleSurroundings) false noFiles).1 "CrossSectionDefinitions.ini".toList := by
  refine ⟨_, rfl, rfl, ?_, ?_, ⟨fun _ _ => rfl, fun _ _ => rfl, _, _, rfl⟩, fun _ _ => ⟨rfl, rfl⟩, fun _ _ => ⟨⟨rfl, rfl⟩, ⟨rfl, rfl⟩, ⟨rfl, rfl⟩, rfl, rfl⟩,
    ok_of' (by decide +kernel), sampleLoaded longerInputs, loaded_of' _ (by decide +kernel), .inl ⟨rfl, rfl⟩,
    ⟨rhineLoc, List.mem_cons_self, by decide +kernel⟩, by decide +kernel, fullNumbers_of (sampleLoaded longerInputs) (by decide +kernel),
    by decide +kernel⟩
  · exact { map := by
              intro d hd
              obtain rfl := Except.ok.inj hd
              constructor <;> rfl
            regions := by intro d css r _ _ h; cases h
            sections := by
              intro d r hd h
              obtain rfl := Except.ok.inj hd
              obtain rfl := Except.ok.inj (Option.some.inj h)
              constructor <;> rfl }
  · intro d hd
    obtain rfl := Except.ok.inj hd
    exact ⟨by decide +kernel, by decide +kernel, by decide +kernel, fun h => absurd rfl h⟩

/-- A region that has no cross-section is called like a cross-section elsewhere. -/
def namesakeLabels : RegionLabels :=
  { sampleLabels with faces := (List.range 13).map fun i => if i < 12 then "west".toList else "rhine_100".toList }

/-- The sample with such a region. -/
def namesakeInputs : Inputs ℚ := { regionInputs with regions := some (.ok namesakeLabels) }

private theorem namesake_texts :
    (run (jobOf idleTools sampleRunConfig namesakeInputs sampleSurroundings) false noFiles).2.toOption = some true ∧
    (run (jobOf idleTools sampleRunConfig (Inputs.renamed otherName (fun l => l.branch) (fun l => l.chainage) namesakeInputs)
      sampleSurroundings) false noFiles).2.toOption = some true ∧
    ((run (jobOf idleTools sampleRunConfig namesakeInputs sampleSurroundings) false noFiles).1 "CrossSectionDefinitions.ini".toList).map
      (fun t => (readDefinitions idleTools.ft t).toOption.map fun ds => ds.map fun d => { d with id := otherName d.id }) ≠
    ((run (jobOf idleTools sampleRunConfig (Inputs.renamed otherName (fun l => l.branch) (fun l => l.chainage) namesakeInputs)
      sampleSurroundings) false noFiles).1 "CrossSectionDefinitions.ini".toList).map (fun t => (readDefinitions idleTools.ft t).toOption) := by
  decide +kernel

/-- **C191, regions.** A name is not only a name when a region without cross-sections has it too: the faces of that region count as faces
of the cross-section. Another name for all cross-sections then changes the profiles, though both runs report success. -/
theorem C191_namesake_violated : ∃ (x : Tools ℚ) (cfg : RunConfig ℚ) (o : Surroundings) (i : Inputs ℚ) (css : List (Loc ℚ))
    (name : Text → Text), i.css = .ok css ∧ (∀ l ∈ css, l.id ≠ [] ∧ name l.id ≠ []) ∧ (∀ t t', name t = name t' → t = t') ∧
    SameHelp name css x x ∧ (run (jobOf x cfg i o) false noFiles).2 = .ok true ∧
    (run (jobOf x cfg (Inputs.renamed name (fun l => l.branch) (fun l => l.chainage) i) o) false noFiles).2 = .ok true ∧
    ¬ ∃ text text' defs, (run (jobOf x cfg i o) false noFiles).1 "CrossSectionDefinitions.ini".toList = some text ∧
      (run (jobOf x cfg (Inputs.renamed name (fun l => l.branch) (fun l => l.chainage) i) o) false noFiles).1
        "CrossSectionDefinitions.ini".toList = some text' ∧
      readDefinitions x.ft text = .ok defs ∧ readDefinitions x.ft text' = .ok (defs.map fun d => { d with id := name d.id }) := by
  obtain ⟨h1, h2, h3⟩ := namesake_texts
  refine ⟨idleTools, sampleRunConfig, sampleSurroundings, namesakeInputs, _, otherName, rfl, by decide +kernel,
    fun t t' h => List.append_cancel_left h, ⟨fun _ _ => rfl, fun _ _ => rfl, _, _, rfl⟩, ok_of' h1, ok_of' h2, ?_⟩
  rintro ⟨text, text', defs, e1, e2, e3, e4⟩
  apply h3
  rw [e1, e2, Option.map_some, Option.map_some, e3, e4]
  rfl

/-- The sample with two regions. -/
example : ∃ css, regionInputs.css = .ok css ∧ regionInputs.regions = (some sampleLabels).map .ok ∧
    (∀ d, regionInputs.map = .ok d → Renaming otherName d css (some sampleLabels)) ∧
    (run (jobOf idleTools sampleRunConfig regionInputs sampleSurroundings) false noFiles).2 = .ok true ∧
    ((run (jobOf idleTools sampleRunConfig regionInputs sampleSurroundings) false noFiles).1 "roughness-Main.ini".toList).isSome = true ∧
    IsRoughness "roughness-Main.ini".toList := by
  refine ⟨_, rfl, rfl, ?_, ok_of' (by decide +kernel), by decide +kernel, ⟨_, List.mem_cons_self, rfl⟩⟩
  intro d hd
  obtain rfl := Except.ok.inj hd
  exact ⟨by decide +kernel, by decide +kernel, by decide +kernel, fun _ => by decide +kernel⟩

end Fm2prof.Props

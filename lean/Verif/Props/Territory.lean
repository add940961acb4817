import Verif.Proofs.Territory
import Verif.Props.ScaleRun

/-!
# Properties of runs with other cross-sections elsewhere

C185: cross-sections elsewhere do not matter for the profile of a cross-section.
-/

set_option linter.unusedSectionVars false

namespace Fm2prof.Props

open Fm2prof Spec TerritoryProof

variable {K : Type} [Field K] [LinearOrder K] [IsStrictOrderedRing K] [FloorRing K]

private theorem same_definition (x : Tools K) (cfg : RunConfig K) (selection : List Int) (i i' : Inputs K) (hi : Consistent i)
    (hi' : Consistent i') (o o' : Surroundings) (hdir : o.dirExists = true) (hdir' : o'.dirExists = true)
    (hw : ∀ f, IsResult f → Sound o.faults f) (hw' : ∀ f, IsResult f → Sound o'.faults f) (overwrite overwrite' : Bool)
    (s s' : Store) (h : (run (jobOf x cfg i o) overwrite s).2 = .ok true)
    (h' : (run (jobOf x { cfg with cssSelection := selection } i' o') overwrite' s').2 = .ok true)
    (m m' : Model2d K) (hm : setModelData x.nn i = .ok m) (hm' : setModelData x.nn i' = .ok m')
    (xs xs' : List (Loc K)) (hx : Requested cfg.cssSelection m.stations xs) (hx' : Requested selection m'.stations xs')
    (hn : ∀ l ∈ xs ++ xs', PlainName l.id)
    (hfull : ∀ l ∈ xs, ∀ c, buildCss x cfg m l = .ok c → FullNumbers x.ft c)
    (hfull' : ∀ l ∈ xs', ∀ c, buildCss x cfg m' l = .ok c → FullNumbers x.ft c)
    (l : Loc K) (hl : l ∈ xs) (hl' : l ∈ xs') (hu : Usable m l) (hs : SameData m m' l.id) :
    ∃ text text' defs defs', (run (jobOf x cfg i o) overwrite s).1 "CrossSectionDefinitions.ini".toList = some text ∧
      (run (jobOf x { cfg with cssSelection := selection } i' o') overwrite' s').1 "CrossSectionDefinitions.ini".toList = some text' ∧
      readDefinitions x.ft text = .ok defs ∧ readDefinitions x.ft text' = .ok defs' ∧
      ∃ d ∈ defs, d ∈ defs' ∧ d.id = l.id := by
  have hu' : Usable m' l := ⟨hu.1, by
    have := congrArg List.length hs.faces
    rw [List.length_map, List.length_map] at this
    rw [← this]; exact hu.2⟩
  obtain ⟨cs, text, hcs, ht, hd⟩ := run_definitions x cfg i hi o hdir hw overwrite s h m hm xs hx ⟨l, hl, hu⟩
    (fun l hl => hn l (List.mem_append.2 (.inl hl))) hfull
  obtain ⟨cs', text', hcs', ht', hd'⟩ := run_definitions x { cfg with cssSelection := selection } i' hi' o' hdir' hw' overwrite' s' h' m'
    hm' xs' hx' ⟨l, hl', hu'⟩ (fun l hl => hn l (List.mem_append.2 (.inr hl))) hfull'
  obtain ⟨c, hc, hbc⟩ := forall₂_mem hcs.flip l (List.mem_filter.2 ⟨hl, decide_eq_true hu⟩)
  obtain ⟨c', hc', hbc'⟩ := forall₂_mem hcs'.flip l (List.mem_filter.2 ⟨hl', decide_eq_true hu'⟩)
  have hbc : buildCss x cfg m l = .ok c := hbc
  have hbc' : buildCss x cfg m' l = .ok c' := hbc'
  have key := buildCss_same x cfg m m' (loaded2d x.nn i hi m hm) (loaded2d x.nn i' hi' m' hm') l hs
  rw [hbc, hbc'] at key
  have e : c.out = c'.out := (Prod.mk.inj (Except.ok.inj key)).1
  refine ⟨text, text', _, _, ht, ht', hd, hd', definitionOf x.ft c.out, List.mem_map_of_mem (f := fun c : Finished K =>
    definitionOf x.ft c.out) hc, ?_, ?_⟩
  · rw [e]; exact List.mem_map_of_mem (f := fun c : Finished K => definitionOf x.ft c.out) hc'
  · exact (buildCss_ok x cfg m l c hbc).2.2.2.2.2.2.1

/-- **C185, the grid points of a cross-section.** Two location files are used with the same 2D model and the same polygons. Each face and
edge clearly belongs to the cross-section with both of them, or clearly does not with both of them: what differs are cross-sections
elsewhere. If both runs report success and the cross-section was requested in both, both definition files have the same definition for
it. Regions must not be named like the cross-section. -/
theorem C185_territory (x : Tools K) (cfg : RunConfig K) (selection : List Int) (i : Inputs K) (css css' : List (Loc K))
    (regions : Option RegionLabels) (labels : List Text) (hcss : i.css = .ok css) (hreg : i.regions = regions.map .ok) (hi : Consistent i)
    (hi' : Consistent (Inputs.withCss css' labels i)) (o o' : Surroundings) (hdir : o.dirExists = true) (hdir' : o'.dirExists = true)
    (hw : ∀ f, IsResult f → Sound o.faults f) (hw' : ∀ f, IsResult f → Sound o'.faults f) (overwrite overwrite' : Bool)
    (s s' : Store) (h : (run (jobOf x cfg i o) overwrite s).2 = .ok true)
    (h' : (run (jobOf x { cfg with cssSelection := selection } (Inputs.withCss css' labels i) o') overwrite' s').2 = .ok true)
    (m m' : Model2d K) (hm : setModelData x.nn i = .ok m) (hm' : setModelData x.nn (Inputs.withCss css' labels i) = .ok m')
    (xs xs' : List (Loc K)) (hx : Requested cfg.cssSelection css xs) (hx' : Requested selection css' xs')
    (hn : ∀ l ∈ xs ++ xs', PlainName l.id)
    (hfull : ∀ l ∈ xs, ∀ c, buildCss x cfg m l = .ok c → FullNumbers x.ft c)
    (hfull' : ∀ l ∈ xs', ∀ c, buildCss x cfg m' l = .ok c → FullNumbers x.ft c)
    (l : Loc K) (hl : l ∈ xs) (hl' : l ∈ xs') (hu : Usable m l) (c : Station Text K) (hid : c.id = l.id)
    (hc : Named (placed css regions) c regions) (hc' : Named (placed css' (withRegions labels regions)) c (withRegions labels regions))
    (hname : ∀ d, i.map = .ok d → ∀ p ∈ placedFaces d regions, p.region ≠ l.id)
    (hsame : ∀ d, i.map = .ok d → ∀ p ∈ placedFaces d regions ++ placedEdges d regions,
      (Belongs (placed css regions) c p ∧ Belongs (placed css' (withRegions labels regions)) c p) ∨
      (Apart (placed css regions) c p ∧ Apart (placed css' (withRegions labels regions)) c p)) :
    ∃ text text' defs defs', (run (jobOf x cfg i o) overwrite s).1 "CrossSectionDefinitions.ini".toList = some text ∧
      (run (jobOf x { cfg with cssSelection := selection } (Inputs.withCss css' labels i) o') overwrite' s').1
        "CrossSectionDefinitions.ini".toList = some text' ∧
      readDefinitions x.ft text = .ok defs ∧ readDefinitions x.ft text' = .ok defs' ∧
      ∃ d ∈ defs, d ∈ defs' ∧ d.id = l.id := by
  obtain ⟨hs, h1, h2⟩ := same_data x.nn i css css' regions labels hcss hreg m m' hm hm' c (by rw [hid]; exact hu.1) hc hc'
    (fun d hd p hp => by rw [hid]; exact hname d hd p hp) (fun d hd p hp => .inr (.inr (hsame d hd p hp)))
  rw [hid] at hs
  exact same_definition x cfg selection i _ hi hi' o o' hdir hdir' hw hw' overwrite overwrite' s s' h h' m m' hm hm' xs xs'
    (by rw [h1]; exact hx) (by rw [h2]; exact hx') hn hfull hfull' l hl hl' hu hs

private theorem loaded_of (i : Inputs ℚ) (h : (setModelData firstNearest i).toOption.isSome = true) :
    setModelData idleTools.nn i = .ok (sampleLoaded i) := by
  unfold sampleLoaded
  show setModelData firstNearest i = _
  cases hm : setModelData firstNearest i with
  | error e => rw [hm] at h; cases h
  | ok m => rfl

private theorem ok_of {α : Type} {e : Except PyErr α} {a : α} (h : e.toOption = some a) : e = .ok a := by
  cases e with
  | error e => cases h
  | ok b => exact congrArg Except.ok (Option.some.inj h)

/-- A location on the Rhine. -/
def rhineLoc : Loc ℚ := ⟨"rhine_100".toList, 5, 0, 10, "rhine".toList, 100⟩

/-- The second location of the sample is moved and one more is put in front. -/
def otherLocs : List (Loc ℚ) :=
  [⟨"waal_1".toList, 40, 0, 10, "waal".toList, 1⟩, rhineLoc, ⟨"rhine_950".toList, 21, 0, 10, "rhine".toList, 950⟩]

private theorem longer_consistent (css : List (Loc ℚ)) (labels : List Text) : Consistent (Inputs.withCss css labels longerInputs) :=
  { map := by
      intro d hd
      obtain rfl := Except.ok.inj hd
      constructor <;> rfl
    regions := by intro d css r _ _ h; cases h
    sections := by
      intro d r hd h
      obtain rfl := Except.ok.inj hd
      obtain rfl := Except.ok.inj (Option.some.inj h)
      constructor <;> rfl }

/-- The sample with a face that belongs to other cross-sections; the cross-section is the first one in one location file and the second
one, asked for by its number, in the other. -/
example : ∃ css, longerInputs.css = .ok css ∧ longerInputs.regions = (none : Option RegionLabels).map .ok ∧
    Consistent (Inputs.withCss otherLocs [] longerInputs) ∧
    (run (jobOf idleTools sampleRunConfig longerInputs sampleSurroundings) false noFiles).2 = .ok true ∧
    (run (jobOf idleTools { sampleRunConfig with cssSelection := [1] } (Inputs.withCss otherLocs [] longerInputs) sampleSurroundings)
      false noFiles).2 = .ok true ∧
    ∃ m m', setModelData idleTools.nn longerInputs = .ok m ∧
      setModelData idleTools.nn (Inputs.withCss otherLocs [] longerInputs) = .ok m' ∧
      Requested sampleRunConfig.cssSelection css css ∧ Requested [1] otherLocs [rhineLoc] ∧ rhineLoc ∈ css ∧ Usable m rhineLoc ∧
      (∀ l ∈ css ++ [rhineLoc], PlainName l.id) ∧
      (∀ l ∈ css, ∀ c, buildCss idleTools sampleRunConfig m l = .ok c → FullNumbers idleTools.ft c) ∧
      (∀ l ∈ [rhineLoc], ∀ c, buildCss idleTools sampleRunConfig m' l = .ok c → FullNumbers idleTools.ft c) ∧
      Named (placed css none) ⟨rhineLoc.id, (5, 0), []⟩ none ∧
      Named (placed otherLocs (withRegions [] none)) ⟨rhineLoc.id, (5, 0), []⟩ (withRegions [] none) ∧
      (∀ p ∈ placedFaces longerMap none, p.region ≠ rhineLoc.id) ∧
      (∀ p ∈ placedFaces longerMap none ++ placedEdges longerMap none,
        (Belongs (placed css none) ⟨rhineLoc.id, (5, 0), []⟩ p ∧
          Belongs (placed otherLocs (withRegions [] none)) ⟨rhineLoc.id, (5, 0), []⟩ p) ∨
        (Apart (placed css none) ⟨rhineLoc.id, (5, 0), []⟩ p ∧
          Apart (placed otherLocs (withRegions [] none)) ⟨rhineLoc.id, (5, 0), []⟩ p)) ∧
      ∃ p ∈ placedFaces longerMap none, Apart (placed css none) ⟨rhineLoc.id, (5, 0), []⟩ p := by
  refine ⟨_, rfl, rfl, longer_consistent _ _, ok_of (by decide +kernel), ok_of (by decide +kernel), sampleLoaded longerInputs,
    sampleLoaded (Inputs.withCss otherLocs [] longerInputs), loaded_of _ (by decide +kernel), loaded_of _ (by decide +kernel),
    .inl ⟨rfl, rfl⟩, .inr ⟨by decide, List.Forall₂.cons (.inl ⟨by decide, rfl⟩) List.Forall₂.nil⟩, List.mem_cons_self,
    by decide +kernel, by decide +kernel, fullNumbers_of (sampleLoaded longerInputs) (by decide +kernel),
    fun l hl => fullNumbers_of
      (sampleLoaded (Inputs.withCss otherLocs [] longerInputs)) (by decide +kernel) l (by rw [List.mem_singleton.1 hl]; decide +kernel),
    ⟨by decide +kernel, by decide +kernel, fun h => absurd rfl h⟩, ⟨by decide +kernel, by decide +kernel, fun h => absurd rfl h⟩,
    by decide +kernel, by decide +kernel, by decide +kernel⟩

/-- **C185, regions.** Two location files are used with the same 2D model and the same polygons. They have the same cross-sections in the
region of a cross-section, in the same order; cross-sections in other regions are added, moved or left out, however near they are. If both
runs report success and the cross-section was requested in both, both definition files have the same definition for it. Regions must not be
named like the cross-section. -/
theorem C185_regions (x : Tools K) (cfg : RunConfig K) (selection : List Int) (i : Inputs K) (css css' : List (Loc K))
    (regions : Option RegionLabels) (labels : List Text) (hcss : i.css = .ok css) (hreg : i.regions = regions.map .ok) (hi : Consistent i)
    (hi' : Consistent (Inputs.withCss css' labels i)) (o o' : Surroundings) (hdir : o.dirExists = true) (hdir' : o'.dirExists = true)
    (hw : ∀ f, IsResult f → Sound o.faults f) (hw' : ∀ f, IsResult f → Sound o'.faults f) (overwrite overwrite' : Bool)
    (s s' : Store) (h : (run (jobOf x cfg i o) overwrite s).2 = .ok true)
    (h' : (run (jobOf x { cfg with cssSelection := selection } (Inputs.withCss css' labels i) o') overwrite' s').2 = .ok true)
    (m m' : Model2d K) (hm : setModelData x.nn i = .ok m) (hm' : setModelData x.nn (Inputs.withCss css' labels i) = .ok m')
    (xs xs' : List (Loc K)) (hx : Requested cfg.cssSelection css xs) (hx' : Requested selection css' xs')
    (hn : ∀ l ∈ xs ++ xs', PlainName l.id)
    (hfull : ∀ l ∈ xs, ∀ c, buildCss x cfg m l = .ok c → FullNumbers x.ft c)
    (hfull' : ∀ l ∈ xs', ∀ c, buildCss x cfg m' l = .ok c → FullNumbers x.ft c)
    (l : Loc K) (hl : l ∈ xs) (hl' : l ∈ xs') (hu : Usable m l) (c : Station Text K) (hid : c.id = l.id)
    (hc : Named (placed css regions) c regions) (hc' : Named (placed css' (withRegions labels regions)) c (withRegions labels regions))
    (hname : ∀ d, i.map = .ok d → ∀ p ∈ placedFaces d regions, p.region ≠ l.id)
    (hsame : (placed css' (withRegions labels regions)).filter (fun d => d.region = c.region) =
      (placed css regions).filter fun d => d.region = c.region) :
    ∃ text text' defs defs', (run (jobOf x cfg i o) overwrite s).1 "CrossSectionDefinitions.ini".toList = some text ∧
      (run (jobOf x { cfg with cssSelection := selection } (Inputs.withCss css' labels i) o') overwrite' s').1
        "CrossSectionDefinitions.ini".toList = some text' ∧
      readDefinitions x.ft text = .ok defs ∧ readDefinitions x.ft text' = .ok defs' ∧
      ∃ d ∈ defs, d ∈ defs' ∧ d.id = l.id := by
  obtain ⟨hs, h1, h2⟩ := same_data x.nn i css css' regions labels hcss hreg m m' hm hm' c (by rw [hid]; exact hu.1) hc hc'
    (fun d hd p hp => by rw [hid]; exact hname d hd p hp) fun d hd p hp => (by
      by_cases hp : p.region = c.region
      · exact .inl ⟨hp, hsame⟩
      · exact .inr (.inl hp))
  rw [hid] at hs
  exact same_definition x cfg selection i _ hi hi' o o' hdir hdir' hw hw' overwrite overwrite' s s' h h' m m' hm hm' xs xs'
    (by rw [h1]; exact hx) (by rw [h2]; exact hx') hn hfull hfull' l hl hl' hu hs

/-- The sample with two regions; the second cross-section is in a region of its own. -/
def regionInputs : Inputs ℚ :=
  { sampleSectionInputs with
    regions := some (.ok ⟨(List.range 13).map fun i => if i < 12 then "west".toList else "east".toList,
      ["west".toList, "west".toList, "west".toList, "west".toList], ["west".toList, "north".toList]⟩) }

/-- Another cross-section, at the same place as the first one but in another region. -/
def nearLocs : List (Loc ℚ) := [⟨"lek_1".toList, 5, 0, 10, "lek".toList, 1⟩, rhineLoc]

/-- The labels of the regions. -/
def sampleLabels : RegionLabels :=
  ⟨(List.range 13).map fun i => if i < 12 then "west".toList else "east".toList,
    ["west".toList, "west".toList, "west".toList, "west".toList], ["west".toList, "north".toList]⟩

example : ∃ css, regionInputs.css = .ok css ∧ regionInputs.regions = (some sampleLabels).map .ok ∧ Consistent regionInputs ∧
    Consistent (Inputs.withCss nearLocs ["south".toList, "west".toList] regionInputs) ∧
    (run (jobOf idleTools sampleRunConfig regionInputs sampleSurroundings) false noFiles).2 = .ok true ∧
    (run (jobOf idleTools { sampleRunConfig with cssSelection := [1] }
      (Inputs.withCss nearLocs ["south".toList, "west".toList] regionInputs) sampleSurroundings) false noFiles).2 = .ok true ∧
    ∃ m m', setModelData idleTools.nn regionInputs = .ok m ∧
      setModelData idleTools.nn (Inputs.withCss nearLocs ["south".toList, "west".toList] regionInputs) = .ok m' ∧
      Requested sampleRunConfig.cssSelection css css ∧ Requested [1] nearLocs [rhineLoc] ∧ rhineLoc ∈ css ∧ Usable m rhineLoc ∧
      (∀ l ∈ css ++ [rhineLoc], PlainName l.id) ∧
      (∀ l ∈ css, ∀ c, buildCss idleTools sampleRunConfig m l = .ok c → FullNumbers idleTools.ft c) ∧
      (∀ l ∈ [rhineLoc], ∀ c, buildCss idleTools sampleRunConfig m' l = .ok c → FullNumbers idleTools.ft c) ∧
      Named (placed css (some sampleLabels)) ⟨rhineLoc.id, (5, 0), "west".toList⟩ (some sampleLabels) ∧
      Named (placed nearLocs (withRegions ["south".toList, "west".toList] (some sampleLabels)))
        ⟨rhineLoc.id, (5, 0), "west".toList⟩ (withRegions ["south".toList, "west".toList] (some sampleLabels)) ∧
      (∀ p ∈ placedFaces sampleMap (some sampleLabels), p.region ≠ rhineLoc.id) ∧
      (placed nearLocs (withRegions ["south".toList, "west".toList] (some sampleLabels))).filter (fun d => d.region = "west".toList) =
        (placed css (some sampleLabels)).filter fun d => d.region = "west".toList := by
  have hcons : ∀ css labels, labels.length = css.length → Consistent (Inputs.withCss css labels regionInputs) := fun css labels hl =>
    { map := by
        intro d hd
        obtain rfl := Except.ok.inj hd
        constructor <;> rfl
      regions := by
        intro d css' r hd hc h
        obtain rfl := Except.ok.inj hd
        obtain rfl := Except.ok.inj hc
        obtain rfl := Except.ok.inj (Option.some.inj h)
        exact ⟨rfl, rfl, hl⟩
      sections := by
        intro d r hd h
        obtain rfl := Except.ok.inj hd
        obtain rfl := Except.ok.inj (Option.some.inj h)
        constructor <;> rfl }
  refine ⟨_, rfl, rfl, hcons [rhineLoc, ⟨"rhine_900".toList, 20, 0, 10, "rhine".toList, 900⟩] ["west".toList, "north".toList] rfl,
    hcons _ _ rfl, ok_of (by decide +kernel), ok_of (by decide +kernel), sampleLoaded regionInputs,
    sampleLoaded (Inputs.withCss nearLocs ["south".toList, "west".toList] regionInputs), loaded_of _ (by decide +kernel),
    loaded_of _ (by decide +kernel),
    .inl ⟨rfl, rfl⟩, .inr ⟨by decide, List.Forall₂.cons (.inl ⟨by decide, rfl⟩) List.Forall₂.nil⟩, List.mem_cons_self,
    by decide +kernel, by decide +kernel, fullNumbers_of (sampleLoaded regionInputs) (by decide +kernel),
    fun l hl => fullNumbers_of
      (sampleLoaded (Inputs.withCss nearLocs ["south".toList, "west".toList] regionInputs)) (by decide +kernel) l (by rw [List.mem_singleton.1 hl]; decide +kernel),
    ⟨by decide +kernel, by decide +kernel, fun _ => by decide +kernel⟩, ⟨by decide +kernel, by decide +kernel, fun _ => by decide +kernel⟩,
    by decide +kernel, by decide +kernel⟩

end Fm2prof.Props

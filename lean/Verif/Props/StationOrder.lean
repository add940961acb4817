import Verif.Props.InvarianceRun
import Verif.Proofs.StationOrder

/-!
# C183: the order of the cross-sections in the location file
-/

set_option linter.unusedSectionVars false

namespace Fm2prof.Props

open Fm2prof Spec

variable {K : Type} [Field K] [LinearOrder K] [IsStrictOrderedRing K] [FloorRing K]

/-- **C183, outcome.** Over all cross-sections of the location file, a run ends with success for one order of these cross-sections
exactly when it does for any other order. -/
theorem C183_run (x : Tools K) (cfg : RunConfig K) (hsel : cfg.cssSelection = []) (faces : List (InFace K)) (edges : List (InEdge K))
    (ef : Option (List (Int × Int))) (nMaps : Nat) {st st' : List (Loc K × Text)} (hp : st.Perm st') (regions sections : Bool)
    (hclear : ClearAll faces edges st regions) (o : Surroundings) (overwrite : Bool) (s : Store) :
    (run (jobOf x cfg (inputsAt faces edges ef nMaps st regions sections) o) overwrite s).2 = .ok true ↔
      (run (jobOf x cfg (inputsAt faces edges ef nMaps st' regions sections) o) overwrite s).2 = .ok true :=
  ⟨run_order x cfg hsel faces edges ef nMaps hp regions sections hclear o overwrite s,
    run_order x cfg hsel faces edges ef nMaps hp.symm regions sections (clearAll_order hp regions hclear) o overwrite s⟩

private theorem consistent_order (faces : List (InFace K)) (edges : List (InEdge K))
    (ef : Option (List (Int × Int))) (nMaps : Nat) (st : List (Loc K × Text)) (regions sections : Bool) :
    Consistent (inputsAt faces edges ef nMaps st regions sections) := by
  refine ⟨?_, ?_, ?_⟩
  · intro d hd
    obtain rfl := Except.ok.inj hd
    constructor <;> simp only [faceColumns, edgeColumns, List.length_map]
  · intro d css r hd hc hr
    obtain rfl := Except.ok.inj hd
    obtain rfl := Except.ok.inj hc
    cases regions with
    | false => cases hr
    | true =>
      obtain rfl := Except.ok.inj (Option.some.inj hr)
      simp only [faceColumns, edgeColumns, List.length_map, and_self]
  · intro d r hd hr
    obtain rfl := Except.ok.inj hd
    cases sections with
    | false => cases hr
    | true =>
      obtain rfl := Except.ok.inj (Option.some.inj hr)
      simp only [faceColumns, edgeColumns, List.length_map, and_self]

/-- The model of the other order. -/
private theorem model_order (x : Tools K) (faces : List (InFace K)) (edges : List (InEdge K))
    (ef : Option (List (Int × Int))) (nMaps : Nat) {st st' : List (Loc K × Text)} (hp : st.Perm st') (regions sections : Bool)
    (hclear : ClearAll faces edges st regions) (m : Model2d K)
    (hm : setModelData x.nn (inputsAt faces edges ef nMaps st regions sections) = .ok m) :
    m.stations = st.map (·.1) ∧
      setModelData x.nn (inputsAt faces edges ef nMaps st' regions sections) = .ok { m with stations := st'.map (·.1) } := by
  rcases setModelData_order x.nn faces edges ef nMaps hp regions sections hclear with ⟨e, e1, _⟩ | ⟨d, d1, d2, d3⟩
  · rw [e1] at hm; cases hm
  · rw [d1] at hm
    obtain rfl := Except.ok.inj hm
    exact ⟨d2, d3⟩

/-- **C183, definitions.** When the run ends with success, the cross-section definitions read back from its file are the same for
both orders of the location file, but for their order. -/
theorem C183_definitions (x : Tools K) (cfg : RunConfig K) (hsel : cfg.cssSelection = []) (faces : List (InFace K))
    (edges : List (InEdge K)) (ef : Option (List (Int × Int))) (nMaps : Nat) {st st' : List (Loc K × Text)} (hp : st.Perm st')
    (regions sections : Bool) (hclear : ClearAll faces edges st regions) (o : Surroundings) (hdir : o.dirExists = true)
    (hw : ∀ f, IsResult f → Sound o.faults f) (overwrite : Bool) (s : Store)
    (h : (run (jobOf x cfg (inputsAt faces edges ef nMaps st regions sections) o) overwrite s).2 = .ok true)
    (m : Model2d K) (hm : setModelData x.nn (inputsAt faces edges ef nMaps st regions sections) = .ok m)
    (hu : ∃ l ∈ m.stations, Usable m l) (hn : ∀ l ∈ m.stations, PlainName l.id)
    (hfull : ∀ l ∈ m.stations, ∀ c, buildCss x cfg m l = .ok c → FullNumbers x.ft c) :
    ∃ text text' defs defs',
      (run (jobOf x cfg (inputsAt faces edges ef nMaps st regions sections) o) overwrite s).1
        "CrossSectionDefinitions.ini".toList = some text ∧
      (run (jobOf x cfg (inputsAt faces edges ef nMaps st' regions sections) o) overwrite s).1
        "CrossSectionDefinitions.ini".toList = some text' ∧
      readDefinitions x.ft text = .ok defs ∧ readDefinitions x.ft text' = .ok defs' ∧ defs.Perm defs' := by
  obtain ⟨hst, hm'⟩ := model_order x faces edges ef nMaps hp regions sections hclear m hm
  have hps : m.stations.Perm (st'.map (·.1)) := hst ▸ hp.map _
  have h' := (C183_run x cfg hsel faces edges ef nMaps hp regions sections hclear o overwrite s).1 h
  obtain ⟨cs, text, hcs, h1, h2⟩ := run_definitions x cfg _ (consistent_order faces edges ef nMaps st regions sections) o hdir hw
    overwrite s h m hm m.stations (.inl ⟨hsel, rfl⟩) hu hn hfull
  obtain ⟨cs', text', hcs', h1', h2'⟩ := run_definitions x cfg _ (consistent_order faces edges ef nMaps st' regions sections) o hdir hw
    overwrite s h' _ hm' (st'.map (·.1)) (.inl ⟨hsel, rfl⟩)
    (by obtain ⟨l, hl, hu⟩ := hu; exact ⟨l, hps.mem_iff.1 hl, hu⟩) (fun l hl => hn l (hps.mem_iff.2 hl))
    (fun l hl c hc => hfull l (hps.mem_iff.2 hl) c hc)
  exact ⟨text, text', _, _, h1, h1', h2, h2', (forall₂_order (buildCss x cfg m) (hps.filter _) hcs hcs').map _⟩

/-- **C183, locations.** The same holds for the blocks of the location file of the 1D model. -/
theorem C183_locations (x : Tools K) (cfg : RunConfig K) (hsel : cfg.cssSelection = []) (faces : List (InFace K))
    (edges : List (InEdge K)) (ef : Option (List (Int × Int))) (nMaps : Nat) {st st' : List (Loc K × Text)} (hp : st.Perm st')
    (regions sects : Bool) (hclear : ClearAll faces edges st regions) (o : Surroundings) (hdir : o.dirExists = true)
    (hw : ∀ f, IsResult f → Sound o.faults f) (overwrite : Bool) (s : Store)
    (h : (run (jobOf x cfg (inputsAt faces edges ef nMaps st regions sects) o) overwrite s).2 = .ok true)
    (m : Model2d K) (hm : setModelData x.nn (inputsAt faces edges ef nMaps st regions sects) = .ok m)
    (hu : ∃ l ∈ m.stations, Usable m l) (hn : ∀ l ∈ m.stations, PlainName l.id ∧ PlainName l.branch) :
    ∃ text text',
      (run (jobOf x cfg (inputsAt faces edges ef nMaps st regions sects) o) overwrite s).1
        "CrossSectionLocations.ini".toList = some text ∧
      (run (jobOf x cfg (inputsAt faces edges ef nMaps st' regions sects) o) overwrite s).1
        "CrossSectionLocations.ini".toList = some text' ∧
      ((sections "[CrossSection]" text).map fun s => (s.get "id", s.get "branchid", s.get "chainage", s.get "definition")).Perm
        ((sections "[CrossSection]" text').map fun s => (s.get "id", s.get "branchid", s.get "chainage", s.get "definition")) := by
  obtain ⟨hst, hm'⟩ := model_order x faces edges ef nMaps hp regions sects hclear m hm
  have hps : m.stations.Perm (st'.map (·.1)) := hst ▸ hp.map _
  have h' := (C183_run x cfg hsel faces edges ef nMaps hp regions sects hclear o overwrite s).1 h
  obtain ⟨text, h1, h2⟩ := C97_locations x cfg _ (consistent_order faces edges ef nMaps st regions sects) o hdir hw
    overwrite s h m hm m.stations (.inl ⟨hsel, rfl⟩) hu hn
  obtain ⟨text', h1', h2'⟩ := C97_locations x cfg _ (consistent_order faces edges ef nMaps st' regions sects) o hdir hw
    overwrite s h' _ hm' (st'.map (·.1)) (.inl ⟨hsel, rfl⟩)
    (by obtain ⟨l, hl, hu⟩ := hu; exact ⟨l, hps.mem_iff.1 hl, hu⟩) (fun l hl => hn l (hps.mem_iff.2 hl))
  refine ⟨text, text', h1, h1', ?_⟩
  rw [h2, h2']
  exact (hps.filter _).map _

/-- **C183, volumes.** The same holds for the file of volumes: for each cross-section it gives the same table for both orders. -/
theorem C183_volumes (x : Tools K) (hb : ∀ y, y < x.bump y) (cfg : RunConfig K) (hsel : cfg.cssSelection = []) (faces : List (InFace K))
    (edges : List (InEdge K)) (ef : Option (List (Int × Int))) (nMaps : Nat) {st st' : List (Loc K × Text)} (hp : st.Perm st')
    (regions sects : Bool) (hclear : ClearAll faces edges st regions) (o : Surroundings) (hdir : o.dirExists = true)
    (hw : ∀ f, IsResult f → Sound o.faults f) (overwrite : Bool) (s : Store)
    (h : (run (jobOf x cfg (inputsAt faces edges ef nMaps st regions sects) o) overwrite s).2 = .ok true)
    (m : Model2d K) (hm : setModelData x.nn (inputsAt faces edges ef nMaps st regions sects) = .ok m)
    (hn : ∀ l ∈ m.stations, CsvName l.id ∧ l.id ≠ "id".toList) (hd : (m.stations.map (·.id)).Nodup)
    (hfloat : ∀ l ∈ m.stations, ∀ c, buildCss x cfg m l = .ok c → VolumeTable.Floats x.ft (volumeTableOf c.css))
    (l : Loc K) (hl : l ∈ m.stations) (hu : Usable m l) :
    ∃ text text' table,
      (run (jobOf x cfg (inputsAt faces edges ef nMaps st regions sects) o) overwrite s).1 "volumes.csv".toList = some text ∧
      (run (jobOf x cfg (inputsAt faces edges ef nMaps st' regions sects) o) overwrite s).1 "volumes.csv".toList = some text' ∧
      readVolumes x.ft text l.id = .ok table ∧ readVolumes x.ft text' l.id = .ok table := by
  obtain ⟨hst, hm'⟩ := model_order x faces edges ef nMaps hp regions sects hclear m hm
  have hps : m.stations.Perm (st'.map (·.1)) := hst ▸ hp.map _
  have h' := (C183_run x cfg hsel faces edges ef nMaps hp regions sects hclear o overwrite s).1 h
  obtain ⟨text, c, h1, h2, h3⟩ := run_volumes x hb cfg _ (consistent_order faces edges ef nMaps st regions sects) o hdir hw
    overwrite s h m hm m.stations (.inl ⟨hsel, rfl⟩) hn hd hfloat l hl hu
  obtain ⟨text', c', h1', h2', h3'⟩ := run_volumes x hb cfg _ (consistent_order faces edges ef nMaps st' regions sects) o hdir hw
    overwrite s h' _ hm' (st'.map (·.1)) (.inl ⟨hsel, rfl⟩) (fun l hl => hn l (hps.mem_iff.2 hl))
    ((hps.map (·.id)).nodup_iff.1 hd) (fun l hl c hc => hfloat l (hps.mem_iff.2 hl) c hc) l (hps.mem_iff.1 hl) hu
  have hcc : c' = c := Except.ok.inj (h3'.symm.trans h3)
  rw [hcc] at h2'
  exact ⟨text, text', _, h1, h1', h2, h2'⟩

/-- **C183, roughness.** With the conditions of `C98_files_partial`, the same holds for a roughness file: the branches with their
levels and the blocks with their branch, chainage and values are the same for both orders, but for their order. -/
theorem C183_roughness_partial (x : Tools K) (sig : SigText x.ft) (hsig : x.sig = sig.text) (cfg : RunConfig K)
    (hsel : cfg.cssSelection = []) (hf : cfg.frictionWeighing = 0) (faces : List (InFace K))
    (edges : List (InEdge K)) (ef : Option (List (Int × Int))) (nMaps : Nat) {st st' : List (Loc K × Text)} (hp : st.Perm st')
    (regions sects : Bool) (hclear : ClearAll faces edges st regions) (o : Surroundings) (hdir : o.dirExists = true)
    (hw : ∀ f, IsResult f → Sound o.faults f) (overwrite : Bool) (s : Store)
    (h : (run (jobOf x cfg (inputsAt faces edges ef nMaps st regions sects) o) overwrite s).2 = .ok true)
    (m : Model2d K) (hm : setModelData x.nn (inputsAt faces edges ef nMaps st regions sects) = .ok m)
    (hn : ∀ l ∈ m.stations, PlainName l.branch) (hlab : ∀ t ∈ m.edges.sect, ∃ q ∈ roughnessFiles, t = q.1.toList)
    (hz : ∀ l ∈ m.stations, ∀ c, buildCss x cfg m l = .ok c → ∀ z, some z ∈ c.css.raw.zRoughness → -10 ^ 20 ≤ z ∧ z ≤ 10 ^ 20)
    (q : String × String × String) (hq : q ∈ roughnessFiles) (hu : ∃ l ∈ m.stations, Usable m l ∧ HasEdge m l q.1.toList) :
    ∃ text text',
      (run (jobOf x cfg (inputsAt faces edges ef nMaps st regions sects) o) overwrite s).1 q.2.1.toList = some text ∧
      (run (jobOf x cfg (inputsAt faces edges ef nMaps st' regions sects) o) overwrite s).1 q.2.1.toList = some text' ∧
      ((sections "[BranchProperties]" text).map fun b => (b.get "branchId", (b.get "levels").map (decimals (K := K)))).Perm
        ((sections "[BranchProperties]" text').map fun b => (b.get "branchId", (b.get "levels").map (decimals (K := K)))) ∧
      ((sections "[Definition]" text).map fun d => (d.get "branchId", d.get "chainage", (d.get "values").map splitWs)).Perm
        ((sections "[Definition]" text').map fun d => (d.get "branchId", d.get "chainage", (d.get "values").map splitWs)) := by
  obtain ⟨hst, hm'⟩ := model_order x faces edges ef nMaps hp regions sects hclear m hm
  have hps : m.stations.Perm (st'.map (·.1)) := hst ▸ hp.map _
  have h' := (C183_run x cfg hsel faces edges ef nMaps hp regions sects hclear o overwrite s).1 h
  obtain ⟨cs, hcs, htab, heq, hplain, hfile⟩ := run_roughness_text x sig hsig cfg hf _
    (consistent_order faces edges ef nMaps st regions sects) o hdir hw overwrite s h m hm m.stations (.inl ⟨hsel, rfl⟩) hn hlab hz q hq hu
  obtain ⟨cs', hcs', htab', heq', hplain', hfile'⟩ := run_roughness_text x sig hsig cfg hf _
    (consistent_order faces edges ef nMaps st' regions sects) o hdir hw overwrite s h' _ hm' (st'.map (·.1)) (.inl ⟨hsel, rfl⟩)
    (fun l hl => hn l (hps.mem_iff.2 hl)) hlab (fun l hl c hc => hz l (hps.mem_iff.2 hl) c hc) q hq
    (by obtain ⟨l, hl, hu⟩ := hu; exact ⟨l, hps.mem_iff.1 hl, hu⟩)
  have hlow := known_names q hq
  have hpc : cs.Perm cs' := forall₂_order (buildCss x cfg m) (hps.filter _) hcs hcs'
  have hgrid : ∀ sec, gridOf sec (cs'.map fun c => c.out.tables) = gridOf sec (cs.map fun c => c.out.tables) :=
    fun sec => gridOf_order sec (hpc.map _)
  have hph : ((harmoniseCss cs).map (·.out)).Perm ((harmoniseCss cs').map (·.out)) := by
    rw [heq, heq']
    simp only [hgrid]
    exact (hpc.map _).map _
  have hlev : ∀ ds : List (Finished K), harmoniseCss ds = (ds.map fun c => c.withTables (c.out.tables.map fun p =>
        (p.1, resampled (gridOf p.1 (ds.map fun c => c.out.tables)) p.2))) →
      (∀ c ∈ (harmoniseCss ds).map (·.out), PlainName c.branch) →
      ((sections "[BranchProperties]" (exportRoughness x.ft sig.text ((harmoniseCss ds).map (·.out)) q.2.2.toList)).map
          fun b => (b.get "branchId", (b.get "levels").map (decimals (K := K)))) =
        ((sections "[BranchProperties]" (exportRoughness x.ft sig.text ((harmoniseCss ds).map (·.out)) q.2.2.toList)).map
          fun b => b.get "branchId").map fun b => (b, some ((gridOf q.1.toList (ds.map fun c => c.out.tables)).map fun z => some (roundTo 4 z))) := by
    intro ds heq hplain
    rw [List.map_map]
    apply List.map_congr_left
    intro b hb
    obtain ⟨c, hc, t, lv, ht, _, h3, h4, h5⟩ := C26_levels x.ft sig _ _ hplain hlow.2 b hb
    rw [hlow.1, sectionTable_eq] at ht
    have hg : t.level = gridOf q.1.toList (ds.map fun c => c.out.tables) := by
      rw [heq] at hc
      obtain ⟨c, hc', rfl⟩ := List.mem_map.1 hc
      obtain ⟨c, _, rfl⟩ := List.mem_map.1 hc'
      rw [tableOf_resampled c (fun r => gridOf r (ds.map fun c => c.out.tables))] at ht
      obtain ⟨t', _, rfl⟩ := Option.map_eq_some_iff.1 ht
      rfl
    show (b.get "branchId", (b.get "levels").map (decimals (K := K))) = (b.get "branchId", _)
    rw [h3, Option.map_some, h5, hg]
  refine ⟨_, _, hfile, hfile', ?_, ?_⟩
  · rw [hlev cs heq hplain, hlev cs' heq' hplain', hgrid]
    refine List.Perm.map _ ?_
    obtain ⟨n1, b1⟩ := C26_branches x.ft sig ((harmoniseCss cs).map (·.out)) q.2.2.toList hplain hlow.2
    obtain ⟨n2, b2⟩ := C26_branches x.ft sig ((harmoniseCss cs').map (·.out)) q.2.2.toList hplain' hlow.2
    refine (List.perm_ext_iff_of_nodup n1 n2).2 fun b => ?_
    cases b with
    | none =>
      have hno : ∀ ds : List (Finished K), (∀ c ∈ (harmoniseCss ds).map (·.out), PlainName c.branch) →
          none ∉ (sections "[BranchProperties]" (exportRoughness x.ft sig.text ((harmoniseCss ds).map (·.out)) q.2.2.toList)).map
            fun b => b.get "branchId" := by
        intro ds hpl hb
        obtain ⟨b, hb, e⟩ := List.mem_map.1 hb
        obtain ⟨c, _, t, lv, _, h2, _⟩ := C26_levels x.ft sig _ _ hpl hlow.2 b hb
        rw [h2] at e
        cases e
      exact ⟨fun hb => absurd hb (hno cs hplain), fun hb => absurd hb (hno cs' hplain')⟩
    | some b =>
      rw [b1, b2]
      exact ⟨fun ⟨c, hc, hcb⟩ => ⟨c, hph.mem_iff.1 hc, hcb⟩, fun ⟨c, hc, hcb⟩ => ⟨c, hph.mem_iff.2 hc, hcb⟩⟩
  · rw [C26_definitions x.ft sig _ _ hplain hlow.2, C26_definitions x.ft sig _ _ hplain' hlow.2]
    exact hph.filterMap _

/-! ## The sample river -/

/-- The sample river with a second reach like the first one. The high faces and one edge are in the floodplain. -/
def reachFaces : List (InFace ℚ) :=
  (rowFaces ++ rowFaces.map fun (f : InFace ℚ) => { f with row := { f.row with x := f.row.x + 100 } }).map fun (f : InFace ℚ) =>
    { f with inSection := if f.row.bedlevel = 3 then "floodplain1".toList else "main".toList }

/-- Its edges. -/
def reachEdges : List (InEdge ℚ) :=
  (rowEdges ++ rowEdges.map fun (e : InEdge ℚ) => { e with row := { e.row with x := e.row.x + 100 } }).map fun (e : InEdge ℚ) =>
    { e with inSection := if e.row.x = 3 / 2 then "floodplain1".toList else "main".toList }

/-- A cross-section in each reach. -/
def reachStations : List (Loc ℚ × Text) :=
  [(⟨"rhine_100".toList, 5, 0, 10, "rhine".toList, 100⟩, []), (⟨"rhine_900".toList, 105, 0, 10, "rhine".toList, 900⟩, [])]

/-- What the run on the two reaches loads. -/
noncomputable def reachModel : Model2d ℚ := sampleLoaded (inputsAt reachFaces reachEdges none 4 reachStations false true)

theorem reachModel_ok : setModelData sampleTools.nn (inputsAt reachFaces reachEdges none 4 reachStations false true) = .ok reachModel := by
  have h : (setModelData firstNearest (inputsAt reachFaces reachEdges none 4 reachStations false true)).toOption.isSome = true := by
    decide +kernel
  show setModelData firstNearest _ = _
  unfold reachModel sampleLoaded
  cases hm : setModelData firstNearest (inputsAt reachFaces reachEdges none 4 reachStations false true) with
  | error e => rw [hm] at h; cases h
  | ok m => rfl

theorem reachClear : ClearAll reachFaces reachEdges reachStations false := by
  have h : (∀ f ∈ reachFaces, ∀ a ∈ reachStations.map (·.1), ∀ b ∈ reachStations.map (·.1),
        distance2 f.row.x f.row.y b = distance2 f.row.x f.row.y a → b.id = a.id) ∧
      ∀ f ∈ reachEdges, ∀ a ∈ reachStations.map (·.1), ∀ b ∈ reachStations.map (·.1),
        distance2 f.row.x f.row.y b = distance2 f.row.x f.row.y a → b.id = a.id := by
    decide +kernel
  exact ⟨fun f hf a ha b hb _ he => h.1 f hf a ha b hb he, fun f hf a ha b hb _ he => h.2 f hf a ha b hb he⟩

/-- The hypotheses of the four theorems, for two cross-sections that are swapped. Both have a roughness table for the main
section. -/
example : sampleRunConfig.cssSelection = [] ∧ sampleTools.sig = sampleSig.text ∧ sampleRunConfig.frictionWeighing = 0 ∧
    reachStations.Perm reachStations.reverse ∧ reachStations.reverse ≠ reachStations ∧
    ClearAll reachFaces reachEdges reachStations false ∧
    sampleSurroundings.dirExists = true ∧ (∀ f, IsResult f → Sound sampleSurroundings.faults f) ∧
    (run (jobOf sampleTools sampleRunConfig (inputsAt reachFaces reachEdges none 4 reachStations false true) sampleSurroundings)
      false noFiles).2 = .ok true ∧
    (reachModel.stations.map fun l => decide (Usable reachModel l ∧ HasEdge reachModel l "main".toList)) = [true, true] ∧
    (∀ l ∈ reachModel.stations, PlainName l.id ∧ PlainName l.branch) ∧
    (∀ t ∈ reachModel.edges.sect, ∃ q ∈ roughnessFiles, t = q.1.toList) ∧
    ∀ l ∈ reachModel.stations, ∀ c, buildCss sampleTools sampleRunConfig reachModel l = .ok c → FullNumbers sampleTools.ft c ∧
      ∀ z, some z ∈ c.css.raw.zRoughness → -10 ^ 20 ≤ z ∧ z ≤ 10 ^ 20 := by
  refine ⟨rfl, rfl, rfl, (List.reverse_perm _).symm, by decide, reachClear, rfl, fun f _ => ⟨rfl, rfl⟩, ?_, by decide +kernel,
    by decide +kernel, by decide +kernel, fun l hl c hc => ?_⟩
  · have h : ((run (jobOf sampleTools sampleRunConfig (inputsAt reachFaces reachEdges none 4 reachStations false true) sampleSurroundings)
      false noFiles).2).toOption = some true := by decide +kernel
    revert h
    cases (run (jobOf sampleTools sampleRunConfig (inputsAt reachFaces reachEdges none 4 reachStations false true) sampleSurroundings)
      false noFiles).2 with
    | error e => exact fun h => (by cases h)
    | ok b => exact fun h => congrArg Except.ok (Option.some.inj h)
  · have h : ∀ l ∈ reachModel.stations,
        ((buildCss sampleTools sampleRunConfig reachModel l).toOption.all fun c =>
          (decide (roundTo 6 c.out.extraFlowArea = c.out.extraFlowArea) &&
            c.out.floodplainBase.all fun b => decide (roundTo 6 b = b)) &&
          c.css.raw.zRoughness.all fun z => z.all fun z => decide (-10 ^ 20 ≤ z ∧ z ≤ 10 ^ 20)) = true := by decide +kernel
    have h := h l hl
    rw [hc] at h
    have h : ((decide (roundTo 6 c.out.extraFlowArea = c.out.extraFlowArea) &&
            c.out.floodplainBase.all fun b => decide (roundTo 6 b = b)) &&
          c.css.raw.zRoughness.all fun z => z.all fun z => decide (-10 ^ 20 ≤ z ∧ z ≤ 10 ^ 20)) = true := h
    rw [Bool.and_eq_true, Bool.and_eq_true] at h
    refine ⟨⟨of_decide_eq_true (p := roundTo 6 _ = _) h.1.1, fun b hb => ?_⟩, fun z hz => ?_⟩
    · have h2 := h.1.2
      rw [hb] at h2
      exact of_decide_eq_true (p := roundTo 6 _ = _) h2
    · have h3 := List.all_eq_true.1 h.2 _ hz
      exact of_decide_eq_true (p := -10 ^ 20 ≤ z ∧ z ≤ 10 ^ 20) h3

/-- The two stations can also be looked up in the file of volumes. -/
example : (reachModel.stations.map (·.id)).Nodup ∧ (∀ l ∈ reachModel.stations, CsvName l.id ∧ l.id ≠ "id".toList) ∧
    (∀ y, y < sampleTools.bump y) ∧
    ∀ l ∈ reachModel.stations, ∀ c, buildCss sampleTools sampleRunConfig reachModel l = .ok c →
      VolumeTable.Floats sampleTools.ft (volumeTableOf c.css) := by
  refine ⟨by decide +kernel, by decide +kernel, fun y => by show y < y + 1 / 1000; linarith, fun l hl c hc => ?_⟩
  have h : ∀ l ∈ reachModel.stations, ((buildCss sampleTools sampleRunConfig reachModel l).toOption.all fun c =>
      (VolumeTable.columns (volumeTableOf c.css)).all fun col => col.all fun v =>
        v.all fun v => decide (roundTo 6 v = v)) = true := by decide +kernel
  have h := h l hl
  rw [hc] at h
  have h : ((VolumeTable.columns (volumeTableOf c.css)).all fun col => col.all fun v =>
      v.all fun v => decide (roundTo 6 v = v)) = true := h
  exact fun col hcol v hv => of_decide_eq_true (p := roundTo 6 _ = _) (List.all_eq_true.1 (List.all_eq_true.1 h col hcol) _ hv)

end Fm2prof.Props

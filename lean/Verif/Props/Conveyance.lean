import Verif.Proofs.Conveyance
import Verif.Props.ScaleRun

/-!
# Properties of runs that differ in what conveys

C195: the velocities of the 2D model and the criteria for the conveying part decide the flow widths, and not the levels, the total
widths, the total volumes or the roughness.
-/

set_option linter.unusedSectionVars false

namespace Fm2prof.Props

open Fm2prof Spec OneSettingProof ConveyanceProof

variable {K : Type} [Field K] [LinearOrder K] [IsStrictOrderedRing K] [FloorRing K]

private theorem forall₂_pair' {α β γ : Type} {R : α → β → Prop} {S : α → γ → Prop} {as : List α} {bs : List β} {cs : List γ}
    (h : List.Forall₂ R as bs) (h' : List.Forall₂ S as cs) : List.Forall₂ (fun b c => ∃ a ∈ as, R a b ∧ S a c) bs cs := by
  induction h generalizing cs with
  | nil => cases h'; exact .nil
  | @cons a b as bs hr _ ih =>
    cases h' with
    | cons hs hs' =>
      refine .cons ⟨a, List.mem_cons_self, hr, hs⟩ ((ih hs').imp fun b c => ?_)
      rintro ⟨a', ha, h⟩
      exact ⟨a', List.mem_cons_of_mem _ ha, h⟩

private theorem map_of_forall₂' {α β : Type} {R : α → α → Prop} (g : α → β) (as bs : List α) (h : List.Forall₂ R as bs)
    (hg : ∀ a b, R a b → g b = g a) : bs.map g = as.map g := by
  induction h with
  | nil => rfl
  | cons hr _ ih => rw [List.map_cons, List.map_cons, ih, hg _ _ hr]

private theorem consistent_still (i : Inputs K) (hi : Consistent i) (d : MapData K) (hd : i.map = .ok d)
    (vx vy : List (List (Option K))) (hx : vx.length = d.faces.velocityX.length) (hy : vy.length = d.faces.velocityY.length) :
    Consistent { i with map := .ok (MapData.withVelocities d vx vy) } := by
  have hc := hi.map d hd
  refine ⟨?_, ?_, ?_⟩
  · rintro d' h
    obtain rfl := Except.ok.inj h
    exact { hc with velocityX := hx.trans hc.velocityX, velocityY := hy.trans hc.velocityY }
  · rintro d' css r h h1 h2
    obtain rfl := Except.ok.inj h
    exact hi.regions d css r hd h1 h2
  · rintro d' r h h1
    obtain rfl := Except.ok.inj h
    exact hi.sections d r hd h1

/-- **C195, files.** The map file has other velocities (one series for each face, as before), the configuration other criteria for the
conveying part, and the optimiser may give anything. When both runs report success, the location file and all roughness files are the
same, to the letter. -/
theorem C195_files (x : Tools K) (opt : Text → Optimiser K) (log : Text → Nat → Option PyErr) (cfg : RunConfig K) (method : Int)
    (absolute relative : K) (extrapolate : Bool) (i : Inputs K) (hi : Consistent i) (d : MapData K) (hd : i.map = .ok d)
    (vx vy : List (List (Option K))) (hx : vx.length = d.faces.velocityX.length) (hy : vy.length = d.faces.velocityY.length)
    (o : Surroundings) (overwrite : Bool) (s : Store) (h : (run (jobOf x cfg i o) overwrite s).2 = .ok true)
    (h' : (run (jobOf { x with opt := opt, log := log } (RunConfig.withConveyance method absolute relative extrapolate cfg)
      { i with map := .ok (MapData.withVelocities d vx vy) } o) overwrite s).2 = .ok true) (f : Text) (hf : IsResult f)
    (h1 : f ∉ ["CrossSectionDefinitions.ini".toList, "geometry.csv".toList, "geometry_test.csv".toList, "volumes.csv".toList]) :
    (run (jobOf { x with opt := opt, log := log } (RunConfig.withConveyance method absolute relative extrapolate cfg)
      { i with map := .ok (MapData.withVelocities d vx vy) } o) overwrite s).1 f = (run (jobOf x cfg i o) overwrite s).1 f := by
  have hc := C52_in_order (jobOf x cfg i o) overwrite s h
  obtain ⟨m₀, xs, -, e1, e2, -⟩ := id hc
  have e1 : (setModelData x.nn i).map (fun m => (⟨m.stations, m.nMaps⟩ : Loaded (Loc K))) = .ok m₀ := e1
  cases hm : setModelData x.nn i with
  | error e => rw [hm] at e1; cases e1
  | ok m =>
    rw [hm] at e1
    obtain rfl := Except.ok.inj e1
    have e2 : Requested cfg.cssSelection m.stations xs := e2
    have hm' := load_still x.nn i d hd vx vy
    rw [hm] at hm'
    obtain ⟨v1, v2⟩ := loaded_velocities x.nn i d hd m hm
    obtain ⟨cs, hcs, hr⟩ := run_exports_of x cfg i o overwrite s hi m hm xs e2 hc
    obtain ⟨cs', hcs', hr'⟩ := run_exports_of { x with opt := opt, log := log }
      (RunConfig.withConveyance method absolute relative extrapolate cfg) _ o overwrite s (consistent_still i hi d hd vx vy hx hy)
      _ hm' xs e2 (C52_in_order _ overwrite s h')
    rw [hr f hf, hr' f hf]
    have hs : cs'.map (fun c => bare c.out) = cs.map fun c => bare c.out := by
      refine map_of_forall₂' _ cs cs' (forall₂_pair' hcs hcs') ?_
      rintro c c' ⟨l, -, hc, hc'⟩
      exact (css_flow x opt log cfg method absolute relative extrapolate m
        { m with faces := { m.faces with velocityX := vx, velocityY := vy } } vx vy (by rw [v1]; exact hx) (by rw [v2]; exact hy)
        rfl rfl rfl rfl l c c' hc hc').1
    have hs := outs_same bare (fun _ => rfl) (fun _ _ => rfl) cs cs' hs
    simp only [List.mem_cons, List.not_mem_nil, or_false, not_or] at h1
    refine (writeOutput_sameFor o.faults _ _ _ _ _ s f ?_ (dimr_bare x { x with opt := opt, log := log } rfl rfl _ _ hs f h1.1)
      (sobek_bare x { x with opt := opt, log := log } rfl _ _ hs f h1.2.1) ?_).symm
    · rw [← List.isEmpty_map (f := fun c : Finished K => c.out), ← List.isEmpty_map (f := bare), hs, List.isEmpty_map, List.isEmpty_map]
    · have hmem : ∀ (y : Tools K) (cs : List (Finished K)), f ∉ blockFiles (otherBlock (exporterOf y) cs) := by
        intro y cs hm
        have hm : f ∈ ["geometry_test.csv".toList, "volumes.csv".toList] := hm
        rcases List.mem_cons.1 hm with e | e
        · exact h1.2.2.1 e
        · exact h1.2.2.2 (List.mem_singleton.1 e)
      exact .rest _ _ (hmem _ _) (hmem _ _)

private theorem two_definitions' (x : Tools K) (opt : Text → Optimiser K) (log : Text → Nat → Option PyErr) (cfg : RunConfig K)
    (method : Int) (absolute relative : K) (extrapolate : Bool) (i : Inputs K) (hi : Consistent i) (d : MapData K) (hd : i.map = .ok d)
    (vx vy : List (List (Option K))) (hx : vx.length = d.faces.velocityX.length) (hy : vy.length = d.faces.velocityY.length)
    (o : Surroundings) (hdir : o.dirExists = true) (hw : ∀ f, IsResult f → Sound o.faults f) (overwrite : Bool) (s : Store)
    (h : (run (jobOf x cfg i o) overwrite s).2 = .ok true)
    (h' : (run (jobOf { x with opt := opt, log := log } (RunConfig.withConveyance method absolute relative extrapolate cfg)
      { i with map := .ok (MapData.withVelocities d vx vy) } o) overwrite s).2 = .ok true)
    (m m' : Model2d K) (hm : setModelData x.nn i = .ok m)
    (hm' : setModelData x.nn { i with map := .ok (MapData.withVelocities d vx vy) } = .ok m')
    (xs : List (Loc K)) (hq : Requested cfg.cssSelection m.stations xs) (hu : ∃ l ∈ xs, Usable m l) (hn : ∀ l ∈ xs, PlainName l.id)
    (hfull : ∀ l ∈ xs, ∀ c, buildCss x cfg m l = .ok c → FullNumbers x.ft c)
    (hfull' : ∀ l ∈ xs, ∀ c, buildCss { x with opt := opt, log := log }
      (RunConfig.withConveyance method absolute relative extrapolate cfg) m' l = .ok c → FullNumbers x.ft c)
    (R : CssDef K → CssDef K → Prop)
    (hR : ∀ l c c', buildCss x cfg m l = .ok c → buildCss { x with opt := opt, log := log }
      (RunConfig.withConveyance method absolute relative extrapolate cfg) m' l = .ok c' → R (definitionOf x.ft c.out) (definitionOf x.ft c'.out)) :
    ∃ text text' defs defs', (run (jobOf x cfg i o) overwrite s).1 "CrossSectionDefinitions.ini".toList = some text ∧
      (run (jobOf { x with opt := opt, log := log } (RunConfig.withConveyance method absolute relative extrapolate cfg)
        { i with map := .ok (MapData.withVelocities d vx vy) } o) overwrite s).1 "CrossSectionDefinitions.ini".toList = some text' ∧
      readDefinitions x.ft text = .ok defs ∧ readDefinitions x.ft text' = .ok defs' ∧ defs ≠ [] ∧ List.Forall₂ R defs defs' := by
  have hms := load_still x.nn i d hd vx vy
  rw [hm, hm'] at hms
  obtain rfl : m' = { m with faces := { m.faces with velocityX := vx, velocityY := vy } } := Except.ok.inj hms
  obtain ⟨cs, text, hcs, ht, hdef⟩ := run_definitions x cfg i hi o hdir hw overwrite s h m hm xs hq hu hn hfull
  obtain ⟨cs', text', hcs', ht', hdef'⟩ := run_definitions { x with opt := opt, log := log }
    (RunConfig.withConveyance method absolute relative extrapolate cfg) _ (consistent_still i hi d hd vx vy hx hy) o hdir hw overwrite s h'
    _ hm' xs hq hu hn hfull'
  refine ⟨text, text', _, _, ht, ht', hdef, hdef', ?_, ?_⟩
  · obtain ⟨l, hl, hlu⟩ := hu
    have hmem : l ∈ xs.filter fun l => decide (Usable m l) := List.mem_filter.2 ⟨hl, by simpa using hlu⟩
    intro e
    have h1 := congrArg List.length e
    rw [List.length_map, ← hcs.length_eq] at h1
    have := List.length_pos_of_mem hmem
    rw [h1] at this
    cases this
  · rw [List.forall₂_map_left_iff, List.forall₂_map_right_iff]
    refine (forall₂_pair' hcs hcs').imp fun c c' => ?_
    rintro ⟨l, -, h1, h2⟩
    exact hR l c c' h1 h2

/-- **C195, definitions.** Likewise the definitions read from both definition files have the same levels and the same total widths. -/
theorem C195_definitions (x : Tools K) (opt : Text → Optimiser K) (log : Text → Nat → Option PyErr) (cfg : RunConfig K)
    (method : Int) (absolute relative : K) (extrapolate : Bool) (i : Inputs K) (hi : Consistent i) (d : MapData K) (hd : i.map = .ok d)
    (vx vy : List (List (Option K))) (hx : vx.length = d.faces.velocityX.length) (hy : vy.length = d.faces.velocityY.length)
    (o : Surroundings) (hdir : o.dirExists = true) (hw : ∀ f, IsResult f → Sound o.faults f) (overwrite : Bool) (s : Store)
    (h : (run (jobOf x cfg i o) overwrite s).2 = .ok true)
    (h' : (run (jobOf { x with opt := opt, log := log } (RunConfig.withConveyance method absolute relative extrapolate cfg)
      { i with map := .ok (MapData.withVelocities d vx vy) } o) overwrite s).2 = .ok true)
    (m m' : Model2d K) (hm : setModelData x.nn i = .ok m)
    (hm' : setModelData x.nn { i with map := .ok (MapData.withVelocities d vx vy) } = .ok m')
    (xs : List (Loc K)) (hq : Requested cfg.cssSelection m.stations xs) (hu : ∃ l ∈ xs, Usable m l) (hn : ∀ l ∈ xs, PlainName l.id)
    (hfull : ∀ l ∈ xs, ∀ c, buildCss x cfg m l = .ok c → FullNumbers x.ft c)
    (hfull' : ∀ l ∈ xs, ∀ c, buildCss { x with opt := opt, log := log }
      (RunConfig.withConveyance method absolute relative extrapolate cfg) m' l = .ok c → FullNumbers x.ft c) :
    ∃ text text' defs defs', (run (jobOf x cfg i o) overwrite s).1 "CrossSectionDefinitions.ini".toList = some text ∧
      (run (jobOf { x with opt := opt, log := log } (RunConfig.withConveyance method absolute relative extrapolate cfg)
        { i with map := .ok (MapData.withVelocities d vx vy) } o) overwrite s).1 "CrossSectionDefinitions.ini".toList = some text' ∧
      readDefinitions x.ft text = .ok defs ∧ readDefinitions x.ft text' = .ok defs' ∧ defs ≠ [] ∧ List.Forall₂ SameTotal defs defs' := by
  refine two_definitions' x opt log cfg method absolute relative extrapolate i hi d hd vx vy hx hy o hdir hw overwrite s h h' m m' hm hm' xs
    hq hu hn hfull hfull' SameTotal ?_
  intro l c c' hc hc'
  have hms := load_still x.nn i d hd vx vy
  rw [hm, hm'] at hms
  obtain rfl : m' = { m with faces := { m.faces with velocityX := vx, velocityY := vy } } := Except.ok.inj hms
  obtain ⟨v1, v2⟩ := loaded_velocities x.nn i d hd m hm
  obtain ⟨e1, e2, e3, -⟩ := css_flow x opt log cfg method absolute relative extrapolate m { m with faces := { m.faces with velocityX := vx, velocityY := vy } } vx vy
    (by rw [v1]; exact hx) (by rw [v2]; exact hy)
    rfl rfl rfl rfl l c c' hc hc'
  have en : c'.out.name = c.out.name := by have e := congrArg (fun c : ExportCss K => c.name) e1; exact e
  unfold SameTotal definitionOf
  simp only [en, e2, e3, and_self]

/-- **C195, summer dikes.** The correction starts from the total volumes (`SDOptimisationMethod` is neither 1 nor 2) and the fit of the
flow volume does not fail: then the crest level, the total area and the base level of the summer dikes are the same as well. -/
theorem C195_summerdike (x : Tools K) (hopt : ∀ id fl c v, ∃ w, (x.opt id).volume fl c v = .ok w) (cfg : RunConfig K)
    (hm1 : cfg.pipeline.sdOptimisationMethod ≠ 1) (hm2 : cfg.pipeline.sdOptimisationMethod ≠ 2)
    (method : Int) (absolute relative : K) (extrapolate : Bool) (i : Inputs K) (hi : Consistent i) (d : MapData K) (hd : i.map = .ok d)
    (vx vy : List (List (Option K))) (hx : vx.length = d.faces.velocityX.length) (hy : vy.length = d.faces.velocityY.length)
    (o : Surroundings) (hdir : o.dirExists = true) (hw : ∀ f, IsResult f → Sound o.faults f) (overwrite : Bool) (s : Store)
    (h : (run (jobOf x cfg i o) overwrite s).2 = .ok true)
    (h' : (run (jobOf x (RunConfig.withConveyance method absolute relative extrapolate cfg)
      { i with map := .ok (MapData.withVelocities d vx vy) } o) overwrite s).2 = .ok true)
    (m m' : Model2d K) (hm : setModelData x.nn i = .ok m)
    (hm' : setModelData x.nn { i with map := .ok (MapData.withVelocities d vx vy) } = .ok m')
    (xs : List (Loc K)) (hq : Requested cfg.cssSelection m.stations xs) (hu : ∃ l ∈ xs, Usable m l) (hn : ∀ l ∈ xs, PlainName l.id)
    (hfull : ∀ l ∈ xs, ∀ c, buildCss x cfg m l = .ok c → FullNumbers x.ft c)
    (hfull' : ∀ l ∈ xs, ∀ c, buildCss x (RunConfig.withConveyance method absolute relative extrapolate cfg) m' l = .ok c →
      FullNumbers x.ft c) :
    ∃ text text' defs defs', (run (jobOf x cfg i o) overwrite s).1 "CrossSectionDefinitions.ini".toList = some text ∧
      (run (jobOf x (RunConfig.withConveyance method absolute relative extrapolate cfg)
        { i with map := .ok (MapData.withVelocities d vx vy) } o) overwrite s).1 "CrossSectionDefinitions.ini".toList = some text' ∧
      readDefinitions x.ft text = .ok defs ∧ readDefinitions x.ft text' = .ok defs' ∧ defs ≠ [] ∧
      List.Forall₂ SameTotalDike defs defs' := by
  refine two_definitions' x x.opt x.log cfg method absolute relative extrapolate i hi d hd vx vy hx hy o hdir hw overwrite s h h' m m' hm hm'
    xs hq hu hn hfull hfull' SameTotalDike ?_
  intro l c c' hc hc'
  have hms := load_still x.nn i d hd vx vy
  rw [hm, hm'] at hms
  obtain rfl : m' = { m with faces := { m.faces with velocityX := vx, velocityY := vy } } := Except.ok.inj hms
  obtain ⟨v1, v2⟩ := loaded_velocities x.nn i d hd m hm
  obtain ⟨e1, -, -, e2⟩ := css_flow x x.opt x.log cfg method absolute relative extrapolate m { m with faces := { m.faces with velocityX := vx, velocityY := vy } } vx vy
    (by rw [v1]; exact hx)
    (by rw [v2]; exact hy) rfl rfl rfl rfl l c c' hc hc'
  obtain ⟨e2, e3, e4⟩ := e2 rfl rfl (hopt l.id) hm1 hm2
  have en : c'.out.name = c.out.name := by have e := congrArg (fun c : ExportCss K => c.name) e1; exact e
  unfold SameTotalDike definitionOf
  simp only [en, e2, e3, e4, and_self]

/-- **C195, volumes.** The volume files of both runs give the same total 2D volumes, wet areas and total 1D volumes. -/
theorem C195_volumes (x : Tools K) (hb : ∀ y, y < x.bump y) (opt : Text → Optimiser K) (log : Text → Nat → Option PyErr)
    (cfg : RunConfig K) (method : Int) (absolute relative : K) (extrapolate : Bool) (i : Inputs K) (hi : Consistent i) (d : MapData K)
    (hd : i.map = .ok d) (vx vy : List (List (Option K))) (hx : vx.length = d.faces.velocityX.length)
    (hy : vy.length = d.faces.velocityY.length) (o : Surroundings) (hdir : o.dirExists = true) (hw : ∀ f, IsResult f → Sound o.faults f)
    (overwrite : Bool) (s : Store) (h : (run (jobOf x cfg i o) overwrite s).2 = .ok true)
    (h' : (run (jobOf { x with opt := opt, log := log } (RunConfig.withConveyance method absolute relative extrapolate cfg)
      { i with map := .ok (MapData.withVelocities d vx vy) } o) overwrite s).2 = .ok true)
    (m m' : Model2d K) (hm : setModelData x.nn i = .ok m)
    (hm' : setModelData x.nn { i with map := .ok (MapData.withVelocities d vx vy) } = .ok m')
    (xs : List (Loc K)) (hq : Requested cfg.cssSelection m.stations xs)
    (hn : ∀ l ∈ xs, CsvName l.id ∧ l.id ≠ "id".toList) (hnd : (xs.map (·.id)).Nodup)
    (hfloat : ∀ l ∈ xs, ∀ c, buildCss x cfg m l = .ok c → VolumeTable.Floats x.ft (volumeTableOf c.css))
    (hfloat' : ∀ l ∈ xs, ∀ c, buildCss { x with opt := opt, log := log }
      (RunConfig.withConveyance method absolute relative extrapolate cfg) m' l = .ok c → VolumeTable.Floats x.ft (volumeTableOf c.css))
    (l : Loc K) (hl : l ∈ xs) (hu : Usable m l) :
    ∃ text text' v v', (run (jobOf x cfg i o) overwrite s).1 "volumes.csv".toList = some text ∧
      (run (jobOf { x with opt := opt, log := log } (RunConfig.withConveyance method absolute relative extrapolate cfg)
        { i with map := .ok (MapData.withVelocities d vx vy) } o) overwrite s).1 "volumes.csv".toList = some text' ∧
      readVolumes x.ft text l.id = .ok v ∧ readVolumes x.ft text' l.id = .ok v' ∧ v'.z.length = v.z.length ∧ v.z ≠ [] ∧
      v'.tv2d = v.tv2d ∧ v'.wa2d = v.wa2d ∧ v'.tv1d = v.tv1d := by
  have hms := load_still x.nn i d hd vx vy
  rw [hm, hm'] at hms
  obtain rfl : m' = { m with faces := { m.faces with velocityX := vx, velocityY := vy } } := Except.ok.inj hms
  obtain ⟨v1, v2⟩ := loaded_velocities x.nn i d hd m hm
  obtain ⟨text, b, v, t1, t2, t3, t4, t5, -, t6, -, t7, -⟩ := C99_volumes x hb cfg i hi o hdir hw overwrite s h m hm xs hq hn hnd hfloat l hl hu
  obtain ⟨text', b', v', u1, u2, u3, u4, u5, -, u6, -, u7, -⟩ := C99_volumes { x with opt := opt, log := log } hb
    (RunConfig.withConveyance method absolute relative extrapolate cfg) _ (consistent_still i hi d hd vx vy hx hy) o hdir hw overwrite s h'
    _ hm' xs hq hn hnd hfloat' l hl hu
  obtain ⟨w, hw', hs⟩ := selection_still x.sqrt m { m with faces := { m.faces with velocityX := vx, velocityY := vy } } vx vy
    (by rw [v1]; exact hx) (by rw [v2]; exact hy) rfl rfl l.id
  have u3 : buildGeometry (RunConfig.withConveyance method absolute relative extrapolate cfg).pipeline.build l.length
    (centreOf x.nn (getSelection x.sqrt { m.faces with velocityX := vx, velocityY := vy } m.edges l.id) l)
    (controlVolumeOf m.nMaps (getSelection x.sqrt { m.faces with velocityX := vx, velocityY := vy } m.edges l.id)) = .ok b' := u3
  have hs : getSelection x.sqrt { m.faces with velocityX := vx, velocityY := vy } m.edges l.id =
    { getSelection x.sqrt m.faces m.edges l.id with velocity := w } := hs
  rw [hs] at u3
  have ht : total b' = total b := build_still cfg.pipeline.build
    (RunConfig.withConveyance method absolute relative extrapolate cfg).pipeline.build rfl rfl l.length
    (centreOf x.nn (getSelection x.sqrt m.faces m.edges l.id) l) (controlVolumeOf m.nMaps (getSelection x.sqrt m.faces m.edges l.id))
    (controlVolumeOf m.nMaps { getSelection x.sqrt m.faces m.edges l.id with velocity := w }) rfl
    (volume_cells m.nMaps _ w hw') b b' t3 u3
  have e1 : b'.z = b.z := congrArg Total.z ht
  have e2 : b'.totalVolume2d = b.totalVolume2d := congrArg Total.totalVolume2d ht
  have e3 : b'.wetArea = b.wetArea := congrArg Total.wetArea ht
  have e4 : b'.totalVolume1d = b.totalVolume1d := congrArg Total.totalVolume1d ht
  refine ⟨text, text', v, v', t1, u1, t2, u2, by rw [t4, u4, e1], ?_, by rw [t5, u5, e2], by rw [t6, u6, e3], by rw [t7, u7, e4]⟩
  obtain ⟨acc, hacc, hlen⟩ := C07_arrays_aligned t3
  intro e
  rw [e] at t4
  have : b.z.length = 0 := t4.symm
  omega

/-! ## A sample -/

private theorem ok_of₄ {α : Type} {e : Except PyErr α} {a : α} (h : e.toOption = some a) : e = .ok a := by
  cases e with
  | error e => cases h
  | ok b => exact congrArg Except.ok (Option.some.inj h)

private theorem loaded_of₄ (i : Inputs ℚ) (h : (setModelData firstNearest i).toOption.isSome = true) :
    setModelData firstNearest i = .ok (sampleLoaded i) := by
  unfold sampleLoaded
  cases hm : setModelData firstNearest i with
  | error e => rw [hm] at h; cases h
  | ok m => rfl

/-- Velocities for the sample: the water stands still but for the first faces. -/
def otherVelocities : List (List (Option ℚ)) := (List.range 13).map fun i => (List.range 4).map fun _ => some (if i < 5 then 2 else 0)

/-- The sample with other velocities. -/
def slowInputs : Inputs ℚ := { sampleSectionInputs with map := .ok (MapData.withVelocities sampleMap otherVelocities otherVelocities) }

/-- Its configuration: the mean velocity, other thresholds and no extrapolation. -/
def slowConfig : RunConfig ℚ := RunConfig.withConveyance 0 (1 / 1000) (1 / 10) false sampleRunConfig

private noncomputable def shortWith' (x : Tools ℚ) (cfg : RunConfig ℚ) (m : Model2d ℚ) : Bool :=
  m.stations.all fun l => (buildCss x cfg m l).toOption.all fun c =>
    decide (roundTo 6 c.out.extraFlowArea = c.out.extraFlowArea) && c.out.floodplainBase.all fun b => decide (roundTo 6 b = b)

private theorem full_of₄ (x : Tools ℚ) (cfg : RunConfig ℚ) (m : Model2d ℚ) (h : shortWith' x cfg m = true) (l : Loc ℚ) (hl : l ∈ m.stations)
    (c : Finished ℚ) (hc : buildCss x cfg m l = .ok c) : FullNumbers idleTools.ft c := by
  have h := List.all_eq_true.1 h l hl
  rw [hc] at h
  have h : (decide (roundTo 6 c.out.extraFlowArea = c.out.extraFlowArea) &&
          c.out.floodplainBase.all fun b => decide (roundTo 6 b = b)) = true := h
  rw [Bool.and_eq_true] at h
  refine ⟨of_decide_eq_true (p := roundTo 6 _ = _) h.1, fun b hb => ?_⟩
  have h2 := h.2
  rw [hb] at h2
  exact of_decide_eq_true (p := roundTo 6 _ = _) h2

/-- Both runs come to their end, and the definitions are not the same. -/
example : Consistent sampleSectionInputs ∧ sampleSectionInputs.map = .ok sampleMap ∧
    otherVelocities.length = sampleMap.faces.velocityX.length ∧ otherVelocities.length = sampleMap.faces.velocityY.length ∧
    (∀ y, y < idleTools.bump y) ∧ (∀ id fl c v, ∃ w, (idleTools.opt id).volume fl c v = .ok w) ∧
    sampleRunConfig.pipeline.sdOptimisationMethod ≠ 1 ∧ sampleRunConfig.pipeline.sdOptimisationMethod ≠ 2 ∧
    sampleSurroundings.dirExists = true ∧ (∀ f, IsResult f → Sound sampleSurroundings.faults f) ∧
    (run (jobOf idleTools sampleRunConfig sampleSectionInputs sampleSurroundings) false noFiles).2 = .ok true ∧
    (run (jobOf idleTools slowConfig slowInputs sampleSurroundings) false noFiles).2 = .ok true ∧
    (run (jobOf idleTools slowConfig slowInputs sampleSurroundings) false noFiles).1 "CrossSectionDefinitions.ini".toList ≠
      (run (jobOf idleTools sampleRunConfig sampleSectionInputs sampleSurroundings) false noFiles).1 "CrossSectionDefinitions.ini".toList ∧
    ∃ m m', setModelData idleTools.nn sampleSectionInputs = .ok m ∧ setModelData idleTools.nn slowInputs = .ok m' ∧
      Requested sampleRunConfig.cssSelection m.stations m.stations ∧ (∃ l ∈ m.stations, Usable m l) ∧
      (∀ l ∈ m.stations, PlainName l.id) ∧
      (∀ l ∈ m.stations, ∀ c, buildCss idleTools sampleRunConfig m l = .ok c → FullNumbers idleTools.ft c) ∧
      (∀ l ∈ m'.stations, ∀ c, buildCss idleTools slowConfig m' l = .ok c → FullNumbers idleTools.ft c) := by
  refine ⟨?_, rfl, by decide +kernel, by decide +kernel, ?_, fun id fl c v => ⟨_, rfl⟩, by decide, by decide, rfl, fun _ _ => ⟨rfl, rfl⟩,
    ok_of₄ (by decide +kernel), ok_of₄ (by decide +kernel), by decide +kernel, sampleLoaded sampleSectionInputs, sampleLoaded slowInputs,
    loaded_of₄ _ (by decide +kernel), loaded_of₄ _ (by decide +kernel), .inl ⟨rfl, rfl⟩,
    ⟨⟨"rhine_100".toList, 5, 0, 10, "rhine".toList, 100⟩, by decide +kernel, by decide +kernel⟩, by decide +kernel,
    full_of₄ _ _ _ (by decide +kernel), full_of₄ _ _ _ (by decide +kernel)⟩
  · exact sampleSectionInputs_consistent
  · intro y
    show y < y + 1 / 1000
    linarith

end Fm2prof.Props

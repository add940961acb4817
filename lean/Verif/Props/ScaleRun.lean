import Verif.Proofs.ScaleRun
import Verif.Props.InvarianceRun

/-!
# Properties of whole runs on a longer river and on a higher river

C105 and C104 for whole runs.
-/

set_option linter.unusedSectionVars false

namespace Fm2prof.Props

open Fm2prof Spec

variable {K : Type} [Field K] [LinearOrder K] [IsStrictOrderedRing K] [FloorRing K]

/-- **C105, whole runs.** Make all faces of the 2D model `k` times as large and all cross-sections `k` times as long. The run ends in
the same way and all result files but the table of volumes are the same. The minimiser has to find `k` times the volumes for `k` times
the volumes. -/
theorem C105_run (k : K) (hk : 0 < k) (x : Tools K) (cfg : RunConfig K) (o : Surroundings) (i : Inputs K)
    (hopt : ∀ css, i.css = .ok css → ∀ l ∈ css, ScaledOptimiser k (x.opt l.id) (x.opt l.id)) (overwrite : Bool) (s : Store) :
    (run (jobOf x cfg (Inputs.scale k i) o) overwrite s).2 = (run (jobOf x cfg i o) overwrite s).2 ∧
    ∀ f, IsResult f → f ≠ "volumes.csv".toList →
      (run (jobOf x cfg (Inputs.scale k i) o) overwrite s).1 f = (run (jobOf x cfg i o) overwrite s).1 f :=
  run_sim (sameJobs_scale k hk x cfg o i hopt) overwrite s

private theorem ok_of_some {α : Type} {e : Except PyErr α} {a : α} (h : e.toOption = some a) : e = .ok a := by
  cases e with
  | error e => cases h
  | ok b => exact congrArg Except.ok (Option.some.inj h)

/-- The sample river with sections, three times as long. -/
example : (0 : ℚ) < 3 ∧
    (∀ css, sampleSectionInputs.css = .ok css → ∀ l ∈ css, ScaledOptimiser 3 (idleTools.opt l.id) (idleTools.opt l.id)) ∧
    (run (jobOf idleTools sampleRunConfig sampleSectionInputs sampleSurroundings) false noFiles).2 = .ok true ∧
    Inputs.scale 3 sampleSectionInputs ≠ sampleSectionInputs := by
  refine ⟨by norm_num, fun _ _ _ _ => ⟨fun _ _ _ => rfl, fun _ _ _ => rfl, fun _ _ _ => rfl⟩, ok_of_some (by decide +kernel), fun h => ?_⟩
  have h1 : (Inputs.scale 3 sampleSectionInputs).map.map (fun m => m.faces.area) = sampleSectionInputs.map.map fun m => m.faces.area := by
    rw [h]
  exact absurd (Except.ok.inj h1) (by decide +kernel)

/-- **C104, whole runs.** Raise all bed and water levels of the 2D model by `d`. The run ends in the same way. If it reports success
and the directory can be written to, the files with the locations are the same and the definition files can be read. Each definition
of the raised river has the same widths and areas as that of the given river and levels that are, before printing, `d` higher; for
corrected cross-sections the crest level and the base level of the floodplain are higher as well. Missing: the base level without
correction, see `C104_floodplain_violated`. The minimiser has to find the raised crest for raised levels. -/
theorem C104_run_partial (d : K) (x : Tools K) (cfg : RunConfig K) (o : Surroundings) (i : Inputs K) (hi : Consistent i)
    (hb : ∀ y, x.bump (y + d) = x.bump y + d) (hr : ∀ z c h, x.release (z + d) (c + d) h = x.release z c h)
    (m : Model2d K) (hm : setModelData x.nn i = .ok m) (hopt : ∀ l ∈ m.stations, RaisedOptimiser d (x.opt l.id) (x.opt l.id))
    (hnd : NoNodataIn d m) (overwrite : Bool) (s : Store) :
    (run (jobOf x cfg (Inputs.raise d i) o) overwrite s).2 = (run (jobOf x cfg i o) overwrite s).2 ∧
    ((run (jobOf x cfg i o) overwrite s).2 = .ok true → o.dirExists = true → (∀ f, IsResult f → Sound o.faults f) →
      ∀ xs, Requested cfg.cssSelection m.stations xs → (∃ l ∈ xs, Usable m l) → (∀ l ∈ xs, PlainName l.id) →
      (∀ l ∈ xs, ∀ c, buildCss x cfg m l = .ok c → FullNumbers x.ft c) →
      (∀ l ∈ xs, ∀ c, buildCss x cfg (Model2d.raise d m) l = .ok c → FullNumbers x.ft c) →
      (run (jobOf x cfg (Inputs.raise d i) o) overwrite s).1 "CrossSectionLocations.ini".toList =
        (run (jobOf x cfg i o) overwrite s).1 "CrossSectionLocations.ini".toList ∧
      ∃ fs text text' defs, (run (jobOf x cfg i o) overwrite s).1 "CrossSectionDefinitions.ini".toList = some text ∧
        (run (jobOf x cfg (Inputs.raise d i) o) overwrite s).1 "CrossSectionDefinitions.ini".toList = some text' ∧
        readDefinitions x.ft text = .ok (fs.map fun c => definitionOf x.ft c.out) ∧ readDefinitions x.ft text' = .ok defs ∧
        List.Forall₂ (fun l c => buildCss x cfg m l = .ok c) (xs.filter fun l => decide (Usable m l)) fs ∧
        List.Forall₂ (fun c e =>
          { e with sdBaseLevel := none } =
            { definitionOf x.ft (ExportCss.raise c.css.isCorrected d c.out) with sdBaseLevel := none } ∧
          (c.css.isCorrected = true → e = definitionOf x.ft (ExportCss.raise true d c.out))) fs defs) := by
  have hout := (run_sim (sameJobs_raise d x cfg o i hb hr (fun e he => by rw [hm] at he; cases he; exact hopt)
    (fun e he => by rw [hm] at he; cases he; exact hnd)) overwrite s).1
  refine ⟨hout, fun hok hdir hw xs hx hu hn hfull hfull' => ?_⟩
  have hm' : setModelData x.nn (Inputs.raise d i) = .ok (Model2d.raise d m) := by rw [setModelData_raise, hm]; rfl
  have hok' : (run (jobOf x cfg (Inputs.raise d i) o) overwrite s).2 = .ok true := by rw [hout]; exact hok
  have hreq : ∀ l ∈ xs, l ∈ m.stations := by
    rcases hx with ⟨_, rfl⟩ | ⟨_, h⟩
    · exact fun l hl => hl
    · intro l hl
      obtain ⟨n, _, hn⟩ := forall₂_mem h l hl
      rcases hn with hn | hn
      · exact List.mem_of_getElem? hn.2
      · exact List.mem_of_getElem? hn.2.2
  obtain ⟨cs, hcs, hfiles⟩ := run_exports_of x cfg i o overwrite s hi m hm xs hx (C52_in_order (jobOf x cfg i o) overwrite s hok)
  obtain ⟨cs', hcs', hfiles'⟩ := run_exports_of x cfg (Inputs.raise d i) o overwrite s (consistent_raise d i hi) (Model2d.raise d m) hm'
    xs hx (C52_in_order (jobOf x cfg (Inputs.raise d i) o) overwrite s hok')
  obtain ⟨fs, text, hfs, htext, hread⟩ := run_definitions x cfg i hi o hdir hw overwrite s hok m hm xs hx hu hn hfull
  obtain ⟨fs', text', hfs', htext', hread'⟩ := run_definitions x cfg (Inputs.raise d i) (consistent_raise d i hi) o hdir hw overwrite s
    hok' (Model2d.raise d m) hm' xs hx hu hn hfull'
  have huse : (xs.filter fun l => decide (Usable (Model2d.raise d m) l)) = xs.filter fun l => decide (Usable m l) := rfl
  rw [huse] at hcs' hfs'
  have hrel : ∀ ls : List (Loc K), (∀ l ∈ ls, l ∈ m.stations) → ∀ as as' : List (Finished K),
      List.Forall₂ (fun l c => buildCss x cfg m l = .ok c) ls as →
      List.Forall₂ (fun l c => buildCss x cfg (Model2d.raise d m) l = .ok c) ls as' →
      List.Forall₂ (fun c c' => { c'.out with floodplainBase := none } =
          { ExportCss.raise c.css.isCorrected d c.out with floodplainBase := none } ∧
        (c.css.isCorrected = true → c'.out = ExportCss.raise true d c.out)) as as' := by
    intro ls hls as as' h1
    induction h1 generalizing as' with
    | nil => intro h2; cases h2; exact List.Forall₂.nil
    | @cons l c ls as hc _ ih =>
      intro h2
      cases h2 with
      | @cons _ c' _ as'' hc' h2 =>
        refine List.Forall₂.cons ?_ (ih (fun l hl => hls l (List.mem_cons_of_mem _ hl)) as'' h2)
        obtain ⟨f', hf', h3, h4⟩ := (C104_levels_partial d x cfg m l (hopt l (hls l List.mem_cons_self)) hb hr hnd).2 c hc
        rw [hc'] at hf'
        obtain rfl := Except.ok.inj hf'
        exact ⟨h3, h4⟩
  have hsub : ∀ l ∈ xs.filter fun l => decide (Usable m l), l ∈ m.stations := fun l hl => hreq l (List.mem_filter.1 hl).1
  constructor
  · have hne : ∀ as : List (Finished K), ∀ R : Loc K → Finished K → Prop,
        List.Forall₂ R (xs.filter fun l => decide (Usable m l)) as → harmoniseCss as ≠ [] := by
      intro as R h e
      obtain ⟨l, hl, hlu⟩ := hu
      have hmem : l ∈ xs.filter fun l => decide (Usable m l) := List.mem_filter.2 ⟨hl, by simpa using hlu⟩
      have h2 : (harmoniseCss as).length = as.length := harmoniseCss_length as
      rw [e] at h2
      have h3 := h.length_eq
      rw [← h2] at h3
      rw [List.eq_nil_of_length_eq_zero h3] at hmem
      cases hmem
    rw [hfiles _ ⟨"CrossSectionLocations.ini", by decide, rfl⟩, hfiles' _ ⟨"CrossSectionLocations.ini", by decide, rfl⟩, hdir,
      writeOutput_locations _ _ _ (hne _ _ hcs) _ hw, writeOutput_locations _ _ _ (hne _ _ hcs') _ hw]
    have e1 : ((exporterOf x).locations (harmoniseCss cs)).1 = exportLocations x.ft (cs.map (·.out)) := locations_harmonised x.ft cs
    have e2 : ((exporterOf x).locations (harmoniseCss cs')).1 = exportLocations x.ft (cs'.map (·.out)) := locations_harmonised x.ft cs'
    rw [e1, e2]
    have hl : cs'.map (fun c => locationBlock x.ft c.out) = cs.map fun c => locationBlock x.ft c.out := by
      have := hrel _ hsub cs cs' hcs hcs'
      clear hfiles hfiles' hcs hcs' e1 e2
      induction this with
      | nil => rfl
      | @cons c c' _ _ h _ ih =>
        rw [List.map_cons, List.map_cons, ih]
        have h1 : locationBlock x.ft c'.out = locationBlock x.ft { c'.out with floodplainBase := none } := rfl
        rw [h1, h.1]
        rfl
    unfold exportLocations
    rw [List.map_map, List.map_map]
    have hl' : List.map (locationBlock x.ft ∘ fun x => x.out) cs' = List.map (locationBlock x.ft ∘ fun x => x.out) cs := hl
    rw [hl']
  · refine ⟨fs, text, text', fs'.map fun c => definitionOf x.ft c.out, htext, htext', hread, hread', hfs, ?_⟩
    have := hrel _ hsub fs fs' hfs hfs'
    clear hfs hfs' hread hread'
    induction this with
    | nil => exact List.Forall₂.nil
    | @cons c c' _ _ h _ ih =>
      refine List.Forall₂.cons ⟨?_, fun hc => congrArg (definitionOf x.ft) (h.2 hc)⟩ ih
      have h1 : ({ definitionOf x.ft c'.out with sdBaseLevel := none } : CssDef K)
          = { definitionOf x.ft { c'.out with floodplainBase := none } with sdBaseLevel := none } := rfl
      rw [h1, h.1]
      rfl

/-- The numbers that are printed in full are short. -/
noncomputable def shortNumbers (m : Model2d ℚ) : Bool :=
  m.stations.all fun l => (buildCss idleTools sampleRunConfig m l).toOption.all fun c =>
    decide (roundTo 6 c.out.extraFlowArea = c.out.extraFlowArea) && c.out.floodplainBase.all fun b => decide (roundTo 6 b = b)

theorem fullNumbers_of (m : Model2d ℚ) (h : shortNumbers m = true) (l : Loc ℚ) (hl : l ∈ m.stations) (c : Finished ℚ)
    (hc : buildCss idleTools sampleRunConfig m l = .ok c) : FullNumbers idleTools.ft c := by
  have h := List.all_eq_true.1 h l hl
  rw [hc] at h
  have h : (decide (roundTo 6 c.out.extraFlowArea = c.out.extraFlowArea) &&
          c.out.floodplainBase.all fun b => decide (roundTo 6 b = b)) = true := h
  rw [Bool.and_eq_true] at h
  refine ⟨of_decide_eq_true (p := roundTo 6 _ = _) h.1, fun b hb => ?_⟩
  have h2 := h.2
  rw [hb] at h2
  exact of_decide_eq_true (p := roundTo 6 _ = _) h2

/-- The sample river with sections, 100 higher. -/
example : Consistent sampleSectionInputs ∧ (∀ y, idleTools.bump (y + 100) = idleTools.bump y + 100) ∧
    (∀ z c h, idleTools.release (z + 100) (c + 100) h = idleTools.release z c h) ∧
    (run (jobOf idleTools sampleRunConfig sampleSectionInputs sampleSurroundings) false noFiles).2 = .ok true ∧
    sampleSurroundings.dirExists = true ∧ (∀ f, IsResult f → Sound sampleSurroundings.faults f) ∧
    ∃ m, setModelData idleTools.nn sampleSectionInputs = .ok m ∧
      (∀ l ∈ m.stations, RaisedOptimiser 100 (idleTools.opt l.id) (idleTools.opt l.id)) ∧ NoNodataIn 100 m ∧
      Requested sampleRunConfig.cssSelection m.stations m.stations ∧ (∃ l ∈ m.stations, Usable m l) ∧
      (∀ l ∈ m.stations, PlainName l.id) ∧
      (∀ l ∈ m.stations, ∀ c, buildCss idleTools sampleRunConfig m l = .ok c → FullNumbers idleTools.ft c) ∧
      ∀ l ∈ m.stations, ∀ c, buildCss idleTools sampleRunConfig (Model2d.raise 100 m) l = .ok c → FullNumbers idleTools.ft c := by
  refine ⟨sampleSectionInputs_consistent, fun y => ?_, ramp_raised 100, ok_of_some (by decide +kernel), rfl, fun f _ => ⟨rfl, rfl⟩,
    sampleLoaded sampleSectionInputs, ?_, fun _ _ => ⟨fun _ _ _ => rfl, fun _ _ _ => rfl, fun _ _ _ => rfl⟩,
    by unfold NoNodataIn; decide +kernel, .inl ⟨rfl, rfl⟩, by decide +kernel, by decide +kernel,
    fullNumbers_of _ (by decide +kernel), fullNumbers_of (Model2d.raise 100 (sampleLoaded sampleSectionInputs)) (by decide +kernel)⟩
  · show y + 100 + 1 / 1000 = y + 1 / 1000 + 100
    ring
  · have h : (setModelData firstNearest sampleSectionInputs).toOption.isSome = true := by decide +kernel
    unfold sampleLoaded
    show setModelData firstNearest sampleSectionInputs = _
    cases hm : setModelData firstNearest sampleSectionInputs with
    | error e => rw [hm] at h; cases h
    | ok m => rfl

end Fm2prof.Props

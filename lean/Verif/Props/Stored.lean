import Verif.Proofs.Stored
import Verif.Props.Pipeline
import Verif.Props.Build

/-!
# Stored data and flow masks

C194: what a run stores for each location when the data of the cross-sections are to be exported.
-/

set_option linter.unusedSectionVars false

namespace Fm2prof.Props

open Spec

variable {K : Type} [Field K] [LinearOrder K] [IsStrictOrderedRing K] [FloorRing K]

private theorem stored_run (x : Tools K) (cfg : RunConfig K) (i : Inputs K) (o : Surroundings) (overwrite : Bool) (s : Store)
    (h : (run (jobOf x cfg i o) overwrite s).2 = .ok true) (m : Model2d K) (hm : setModelData x.nn i = .ok m)
    (xs : List (Loc K)) (hx : Requested cfg.cssSelection m.stations xs) (n : Text) :
    (run (jobOf x cfg i o) overwrite s).1 (n ++ ".pickle".toList) =
      writeAll s (xs.flatMap (storedFiles (jobOf x cfg i o))) (n ++ ".pickle".toList) := by
  obtain ⟨m', xs', h1, h2, h3⟩ := run_stored (jobOf x cfg i o) overwrite s h
  have e1 : m' = ⟨m.stations, m.nMaps⟩ := by
    have : (jobOf x cfg i o).load = .ok ⟨m.stations, m.nMaps⟩ := by
      show (setModelData x.nn i).map _ = _
      rw [hm]; rfl
    rw [this] at h1
    exact (Except.ok.inj h1).symm
  subst e1
  have e2 : xs' = xs := by
    have a := (requested_iff _ _ _).2 h2
    have b := (requested_iff _ _ _).2 hx
    exact Except.ok.inj (a.symm.trans b)
  subst e2
  exact h3 n

private theorem append_cancel {a b c : Text} (h : a ++ c = b ++ c) : a = b := List.append_cancel_right h

/-- **C194.** After a run that reports success, with the data of cross-sections to be exported and each location having files of its
own: the file of each requested location with a name holds its data, also when it has too few faces. If it has at least ten faces, its
second file holds a mask with a row for each of its faces and in each row a value for each map that is used, and this is the mask its
profile is made with: only faces with water at a map are marked at it, and each flow area at or above the lowest observed level is the total area of the faces that the mask marks at one of
the maps. If it has fewer, its second file is left as it was. -/
theorem C194_stored_partial (x : Tools K) (cfg : RunConfig K) (hexp : cfg.exportCssData = true) (i : Inputs K) (hi : Consistent i)
    (o : Surroundings) (overwrite : Bool) (s : Store) (h : (run (jobOf x cfg i o) overwrite s).2 = .ok true) (m : Model2d K)
    (hm : setModelData x.nn i = .ok m) (xs : List (Loc K)) (hx : Requested cfg.cssSelection m.stations xs) (hown : OwnFiles xs)
    (l : Loc K) (hl : l ∈ xs) (hid : l.id ≠ []) :
    (run (jobOf x cfg i o) overwrite s).1 (dataFile l.id) = some (x.pickle l (getSelection x.sqrt m.faces m.edges l.id)) ∧
      (Usable m l → ∃ c mask, buildCss x cfg m l = .ok c ∧
        (run (jobOf x cfg i o) overwrite s).1 (maskFile l.id) =
          some (x.pickleMask l (getSelection x.sqrt m.faces m.edges l.id) mask) ∧
        mask.length = (rowsOf m.faces.sclass l.id).length ∧
        (∀ row ∈ mask, row.length = usedMaps m.nMaps cfg.pipeline.build.skipMaps) ∧
        (∀ (k t : Nat) (row : List Bool), mask[k]? = some row → row[t]? = some true →
          ∃ depths d, (getSelection x.sqrt m.faces m.edges l.id).waterdepth[k]? = some depths ∧
            depths[m.nMaps - usedMaps m.nMaps cfg.pipeline.build.skipMaps + t]? = some (some d) ∧ 0 < d) ∧
        ∀ a ∈ c.css.raw.flowArea.drop 10, ∃ t, t < usedMaps m.nMaps cfg.pipeline.build.skipMaps ∧
          a = markedArea (getSelection x.sqrt m.faces m.edges l.id).area mask t) ∧
      (¬ Usable m l → (run (jobOf x cfg i o) overwrite s).1 (maskFile l.id) = s (maskFile l.id)) := by
  have hld := loaded2d x.nn i hi m hm
  have hrun := stored_run x cfg i o overwrite s h m hm xs hx
  obtain ⟨cs, hcs, -⟩ := run_exports_of x cfg i o overwrite s hi m hm xs hx (C52_in_order (jobOf x cfg i o) overwrite s h)
  have hname : ∀ l : Loc K, (jobOf x cfg i o).name l = l.id := fun _ => rfl
  have hvalid : ∀ l : Loc K, (jobOf x cfg i o).valid l = decide (l.id ≠ []) := fun _ => rfl
  have hfaces : ∀ l : Loc K, (jobOf x cfg i o).faces l = (rowsOf m.faces.sclass l.id).length := by
    intro l
    rw [← selection_x x m hld l.id]
    show (match setModelData x.nn i with | .error _ => 0 | .ok m => _) = _
    rw [hm]
  have hpick : (jobOf x cfg i o).pickle l = x.pickle l (getSelection x.sqrt m.faces m.edges l.id) := by
    show (match setModelData x.nn i with | .error _ => [] | .ok m => _) = _
    rw [hm]
  have hexp' : (jobOf x cfg i o).exportCssData = true := hexp
  have hdata : (jobOf x cfg i o).name l ++ ".pickle".toList = dataFile l.id := rfl
  -- the writes with the name of a file of the location
  have hown1 : ∀ w ∈ xs.flatMap (storedFiles (jobOf x cfg i o)), w.1 = dataFile l.id → w.2 = (jobOf x cfg i o).pickle l := by
    intro w hw hw1
    obtain ⟨l', hl', hw'⟩ := List.mem_flatMap.1 hw
    rcases (storedFiles_cases _ _ _ hw').2 with e | ⟨-, t, -, e⟩
    · rw [e] at hw1
      have := append_cancel (show l'.id ++ _ = l.id ++ _ from hw1)
      rw [e, ((hown l' hl' l hl).1 this)]
    · rw [e] at hw1
      have h1 : l'.id ++ "_flowmask.pickle".toList = l.id ++ ".pickle".toList := hw1
      rw [mask_name] at h1
      exact absurd (append_cancel h1).symm (hown l' hl' l hl).2
  have hown2 : ∀ w ∈ xs.flatMap (storedFiles (jobOf x cfg i o)), w.1 = maskFile l.id →
      10 ≤ (rowsOf m.faces.sclass l.id).length ∧ (jobOf x cfg i o).mask l = some w.2 := by
    intro w hw hw1
    obtain ⟨l', hl', hw'⟩ := List.mem_flatMap.1 hw
    rcases (storedFiles_cases _ _ _ hw').2 with e | ⟨h10, t, ht, e⟩
    · rw [e] at hw1
      have h1 : l'.id ++ ".pickle".toList = l.id ++ "_flowmask.pickle".toList := hw1
      rw [mask_name] at h1
      exact absurd (append_cancel h1) (hown l hl l' hl').2
    · rw [e] at hw1
      have := append_cancel (show l'.id ++ _ = l.id ++ _ from hw1)
      obtain rfl := (hown l' hl' l hl).1 this
      rw [e]
      exact ⟨by rw [← hfaces]; exact h10, ht⟩
  refine ⟨?_, ?_, ?_⟩
  · rw [← hpick]
    have := hrun l.id
    refine this.trans (writeAll_const _ _ _ _ ?_ hown1)
    refine List.mem_map.2 ⟨(dataFile l.id, (jobOf x cfg i o).pickle l), List.mem_flatMap.2 ⟨l, hl, ?_⟩, rfl⟩
    unfold storedFiles
    rw [hvalid, decide_eq_true hid, hexp']
    exact List.mem_cons_self
  · intro hu
    have hmem : l ∈ xs.filter fun l => decide (Usable m l) := List.mem_filter.2 ⟨hl, by simpa using hu⟩
    obtain ⟨c, -, hc⟩ := forall₂_mem hcs.flip l hmem
    obtain ⟨hgeo, -⟩ := buildCss_ok x cfg m l c hc
    obtain ⟨b, g, hb, -, hraw, -⟩ := geometry_parts _ _ _ _ _ _ _ _ _ hgeo
    have hreach := reachesMask_of_built _ _ _ _ _ _ hb
    have hmask : (jobOf x cfg i o).mask l = some (x.pickleMask l (getSelection x.sqrt m.faces m.edges l.id)
        (flowMasks cfg.pipeline.build (controlVolumeOf m.nMaps (getSelection x.sqrt m.faces m.edges l.id)))) := by
      show (match setModelData x.nn i with | .error _ => none | .ok m => _) = _
      rw [hm]
      simp only
      rw [if_pos hreach]
    have harea := cells_area x.sqrt m hld l.id m.nMaps
    have hlen : (getSelection x.sqrt m.faces m.edges l.id).area.length = (rowsOf m.faces.sclass l.id).length := by
      rw [← selection_x x m hld l.id]
      exact maskSelect_size _ _ _ (by rw [List.length_map, hld.area]) (by rw [List.length_map, hld.x])
    refine ⟨c, flowMasks cfg.pipeline.build (controlVolumeOf m.nMaps (getSelection x.sqrt m.faces m.edges l.id)), hc, ?_, ?_, ?_, ?_, ?_⟩
    rotate_left
    · show (flowMasks cfg.pipeline.build (controlVolumeOf m.nMaps (getSelection x.sqrt m.faces m.edges l.id))).length = _
      unfold flowMasks
      rw [List.length_map, List.length_zipIdx, ← hlen, ← harea, List.length_map]
      unfold getTimeseries
      rw [List.length_map]
    · intro row hrow
      unfold flowMasks at hrow
      obtain ⟨p, -, rfl⟩ := List.mem_map.1 hrow
      simp only [List.length_map, List.length_range]
      exact (usedMaps_eq m.nMaps cfg.pipeline.build.skipMaps).symm
    · intro k t row hk ht
      exact marked_wet _ _ _ k t row hk ht
    · intro a ha
      have e : c.css.raw.flowArea = b.flowArea := by rw [hraw]
      rw [e] at ha
      obtain ⟨c0, L, z0, d0, zs, accs, -, -, hzr, hacc, -, -, -, -, -, hfa, -⟩ := built_parts hb
      rw [hfa, List.drop_append_of_le_length (by simp [linspace10]), List.drop_eq_nil_of_le (by simp [linspace10]),
        List.nil_append] at ha
      obtain ⟨t, ht, rfl⟩ := List.mem_map.1 ha
      have hlt := ((hacc.2 t).1 ht).1
      rw [hzr, centreLevels_length] at hlt
      refine ⟨t, lt_of_lt_of_eq hlt (usedMaps_eq m.nMaps cfg.pipeline.build.skipMaps).symm, ?_⟩
      rw [← harea]
      exact maskedArea_marked _ _ t hlt
    · have h0 := hrun (l.id ++ "_flowmask".toList)
      rw [← mask_name] at h0
      refine h0.trans (writeAll_const _ _ _ _ ?_ fun w hw hw1 => ?_)
      · refine List.mem_map.2 ⟨(maskFile l.id, x.pickleMask l (getSelection x.sqrt m.faces m.edges l.id)
            (flowMasks cfg.pipeline.build (controlVolumeOf m.nMaps (getSelection x.sqrt m.faces m.edges l.id)))),
          List.mem_flatMap.2 ⟨l, hl, ?_⟩, rfl⟩
        unfold storedFiles
        rw [hvalid, decide_eq_true hid, hexp', if_pos (by rfl), if_neg (by rw [hfaces]; exact Nat.not_lt.2 hu.2), hmask]
        exact List.mem_cons_of_mem _ (List.mem_singleton.2 rfl)
      · exact Option.some.inj ((hown2 w hw hw1).2.symm.trans hmask)
  · intro hu
    have h0 := hrun (l.id ++ "_flowmask".toList)
    rw [← mask_name] at h0
    refine h0.trans (writeAll_other _ _ _ ?_)
    intro hf
    obtain ⟨w, hw, hw1⟩ := List.mem_map.1 hf
    exact hu ⟨hid, (hown2 w hw hw1).1⟩

/-! ## The sample run -/

/-- Libraries that write other texts for data and for masks. -/
noncomputable def storingTools : Tools ℚ :=
  { sampleTools with pickle := fun _ _ => "data".toList, pickleMask := fun _ _ _ => "mask".toList }

/-- The data of cross-sections are to be exported. -/
def storingConfig : RunConfig ℚ := { sampleRunConfig with exportCssData := true }

/-- The sample locations, the second one under the name of the flow mask of the first one. -/
def clashingInputs : Inputs ℚ :=
  { sampleInputs with
    css := .ok [⟨"rhine_100".toList, 5, 0, 10, "rhine".toList, 100⟩,
      ⟨"rhine_100_flowmask".toList, 20, 0, 10, "rhine".toList, 900⟩] }

private theorem loaded_of (i : Inputs ℚ) (h : (setModelData firstNearest i).toOption.isSome = true) :
    setModelData storingTools.nn i = .ok (sampleLoaded i) := by
  show setModelData firstNearest i = _
  unfold sampleLoaded
  cases hm : setModelData firstNearest i with
  | error e => rw [hm] at h; cases h
  | ok m => rfl

/-- The hypotheses hold for the sample run; the first of its locations has at least ten faces, the second one has not. -/
example : Consistent sampleInputs ∧
    (run (jobOf storingTools storingConfig sampleInputs sampleSurroundings) false noFiles).2.toOption = some true ∧
    setModelData storingTools.nn sampleInputs = .ok (sampleLoaded sampleInputs) ∧
    OwnFiles (sampleLoaded sampleInputs).stations ∧
    (sampleLoaded sampleInputs).stations.map (fun l => decide (Usable (sampleLoaded sampleInputs) l)) = [true, false] := by
  refine ⟨sampleInputs_consistent, by decide +kernel, loaded_of _ (by decide +kernel), ?_, by decide +kernel⟩
  have : ∀ l ∈ (sampleLoaded sampleInputs).stations, ∀ l' ∈ (sampleLoaded sampleInputs).stations,
      (l.id = l'.id → l = l') ∧ l'.id ≠ l.id ++ "_flowmask".toList := by decide +kernel
  exact this

/-- **C194 (violated).** A location may be called like the flow mask of another one. Then a run reports success although the file for
the flow mask of the one holds the data of the other. -/
theorem C194_clash_violated : ∃ (x : Tools ℚ) (cfg : RunConfig ℚ) (i : Inputs ℚ) (o : Surroundings) (m : Model2d ℚ) (l l' : Loc ℚ),
    cfg.exportCssData = true ∧ (run (jobOf x cfg i o) false noFiles).2 = .ok true ∧ setModelData x.nn i = .ok m ∧
    m.stations = [l, l'] ∧ l.id ≠ l'.id ∧ Usable m l ∧
    (∀ sel mask sel', x.pickle l' sel' ≠ x.pickleMask l sel mask) ∧
    (run (jobOf x cfg i o) false noFiles).1 (maskFile l.id) = some (x.pickle l' (getSelection x.sqrt m.faces m.edges l'.id)) := by
  refine ⟨storingTools, storingConfig, clashingInputs, sampleSurroundings, sampleLoaded clashingInputs,
    ⟨"rhine_100".toList, 5, 0, 10, "rhine".toList, 100⟩, ⟨"rhine_100_flowmask".toList, 20, 0, 10, "rhine".toList, 900⟩, rfl, ?_,
    loaded_of _ (by decide +kernel), by decide +kernel, by decide +kernel, by decide +kernel, fun _ _ _ => ?_, ?_⟩
  · have : (run (jobOf storingTools storingConfig clashingInputs sampleSurroundings) false noFiles).2.toOption = some true := by
      decide +kernel
    revert this
    cases (run (jobOf storingTools storingConfig clashingInputs sampleSurroundings) false noFiles).2 with
    | error e => intro h; cases h
    | ok b => intro h; cases h; rfl
  · show "data".toList ≠ "mask".toList
    decide
  · show _ = some "data".toList
    decide +kernel

end Fm2prof.Props

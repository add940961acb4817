import Verif.Spec.FloodplainBase
import Verif.Props.Stricter

/-!
# Properties of runs that differ in the margin of the floodplain base level

C208: a larger `SDFloodplainBase` lowers the floodplain base level, by no more than the difference, and changes nothing else.
-/

set_option linter.unusedSectionVars false

namespace Fm2prof.Props

open Fm2prof Spec

variable {K : Type} [Field K] [LinearOrder K] [IsStrictOrderedRing K] [FloorRing K]

private theorem base_lower (crest t t' : K) (ht : t ≤ t') (faces : List (SectionFace K)) (hb : ∀ f ∈ faces, f.bed.isSome = true) :
    ∃ b b', floodplainBase (some crest) t faces = some b ∧ floodplainBase (some crest) t' faces = some b' ∧ b' ≤ b ∧ b ≤ b' + (t' - t) := by
  unfold floodplainBase
  cases hf : faces.filter fun f => f.label.is 2 with
  | nil => exact ⟨crest - t, crest - t', rfl, rfl, by linarith, by linarith⟩
  | cons f fs =>
    obtain ⟨m, hm⟩ : ∃ m, nanmean ((f :: fs).map (·.bed)) = some m := by
      have hmem : f ∈ faces := (List.mem_filter.1 (hf ▸ List.mem_cons_self : f ∈ faces.filter fun f => f.label.is 2)).1
      obtain ⟨z, hz⟩ := Option.isSome_iff_exists.1 (hb f hmem)
      unfold nanmean
      rw [List.map_cons, hz, List.reduceOption_cons_of_some]
      exact ⟨_, rfl⟩
    simp only [Option.map_some, hm]
    by_cases h1 : crest - t < m
    · rw [if_pos h1, if_pos (by linarith)]
      exact ⟨_, _, rfl, rfl, by linarith, by linarith⟩
    · rw [if_neg h1]
      by_cases h2 : crest - t' < m
      · rw [if_pos h2]
        exact ⟨_, _, rfl, rfl, h2.le, by linarith⟩
      · rw [if_neg h2]
        exact ⟨_, _, rfl, rfl, le_refl _, by linarith⟩

private theorem forall₂_pair₈ {α β γ : Type} {R : α → β → Prop} {S : α → γ → Prop} {as : List α} {bs : List β} {cs : List γ}
    (h : List.Forall₂ R as bs) (h' : List.Forall₂ S as cs) : List.Forall₂ (fun b c => ∃ a, R a b ∧ S a c) bs cs := by
  induction h generalizing cs with
  | nil => cases h'; exact .nil
  | cons hr _ ih =>
    cases h' with
    | cons hs h' => exact .cons ⟨_, hr, hs⟩ (ih h')

private theorem css_margin (x : Tools K) (cfg : RunConfig K) (t : K) (ht : cfg.floodplainTolerance ≤ t) (m : Model2d K) (l : Loc K)
    (c c' : Finished K) (hc : buildCss x cfg m l = .ok c) (hc' : buildCss x (RunConfig.withMargin t cfg) m l = .ok c') :
    LowerBase (t - cfg.floodplainTolerance) (definitionOf x.ft c.out) (definitionOf x.ft c'.out) := by
  obtain ⟨g, r, k1, k2, k3, _, n1, n2, n3, z1, z2, z3, _, _⟩ := buildCss_ok x cfg m l c hc
  obtain ⟨g', r', k1', k2', k3', _, n1', n2', n3', z1', z2', z3', _, _⟩ := buildCss_ok x (RunConfig.withMargin t cfg) m l c' hc'
  have hcss : c'.css = c.css := Except.ok.inj (g'.symm.trans g)
  obtain ⟨_, _, _, w, b⟩ := assignRoughness_ok _ _ _ _ _ _ _ _ r
  obtain ⟨_, _, _, w', b'⟩ := assignRoughness_ok _ _ _ _ _ _ _ _ r'
  rw [hcss] at k1' k2' k3' z1' z2' z3' w' b'
  have hw : c'.out.widths = c.out.widths := Except.ok.inj (w'.symm.trans w)
  have e1 : c'.out.crestLevel = c.out.crestLevel := Option.some.inj (k1'.symm.trans k1)
  have e2 : c'.out.extraFlowArea = c.out.extraFlowArea := Option.some.inj (k2'.symm.trans k2)
  have e3 : c'.out.extraTotalArea = c.out.extraTotalArea := Option.some.inj (k3'.symm.trans k3)
  refine ⟨?_, ?_, ?_, ?_, ?_⟩
  · unfold SameButDike definitionOf
    simp only [n1, n1', z1, z1', z2, z2', z3, z3', hw, and_self]
  · unfold definitionOf; simp only [e1]
  · unfold definitionOf; simp only [e2]
  · unfold definitionOf; simp only [e3]
  · obtain ⟨v, v', q1, q2, q3, q4⟩ := base_lower c.out.crestLevel cfg.floodplainTolerance t ht
      (sectionFacesOf m.numbered (getSelection x.sqrt m.faces m.edges l.id)) (by
        intro f hf
        obtain ⟨p, _, rfl⟩ := List.mem_map.1 hf
        rfl)
    rw [← k1] at q1 q2
    exact ⟨v, v', b.trans q1, b'.trans q2, q3, q4⟩

/-- **C208.** Of two runs that report success and differ in `SDFloodplainBase` only, the one with the larger value has the same
definitions but for the floodplain base levels: those are not higher, and lower by no more than the difference of the two values. -/
theorem C208_margin (x : Tools K) (cfg : RunConfig K) (t : K) (ht : cfg.floodplainTolerance ≤ t) (i : Inputs K) (hi : Consistent i)
    (o : Surroundings) (hdir : o.dirExists = true) (hw : ∀ f, IsResult f → Sound o.faults f) (overwrite : Bool) (s : Store)
    (h : (run (jobOf x cfg i o) overwrite s).2 = .ok true)
    (h' : (run (jobOf x (RunConfig.withMargin t cfg) i o) overwrite s).2 = .ok true)
    (m : Model2d K) (hm : setModelData x.nn i = .ok m) (xs : List (Loc K)) (hq : Requested cfg.cssSelection m.stations xs)
    (hu : ∃ l ∈ xs, Usable m l) (hn : ∀ l ∈ xs, PlainName l.id)
    (hfull : ∀ l ∈ xs, ∀ c, buildCss x cfg m l = .ok c → FullNumbers x.ft c)
    (hfull' : ∀ l ∈ xs, ∀ c, buildCss x (RunConfig.withMargin t cfg) m l = .ok c → FullNumbers x.ft c) :
    ∃ text text' defs defs', (run (jobOf x cfg i o) overwrite s).1 "CrossSectionDefinitions.ini".toList = some text ∧
      (run (jobOf x (RunConfig.withMargin t cfg) i o) overwrite s).1 "CrossSectionDefinitions.ini".toList = some text' ∧
      readDefinitions x.ft text = .ok defs ∧ readDefinitions x.ft text' = .ok defs' ∧ defs ≠ [] ∧
      List.Forall₂ (LowerBase (t - cfg.floodplainTolerance)) defs defs' := by
  obtain ⟨cs, text, hcs, e1, hdef⟩ := run_definitions x cfg i hi o hdir hw overwrite s h m hm xs hq hu hn hfull
  obtain ⟨cs', text', hcs', e1', hdef'⟩ := run_definitions x (RunConfig.withMargin t cfg) i hi o hdir hw overwrite s h' m hm xs hq hu hn hfull'
  refine ⟨text, text', _, _, e1, e1', hdef, hdef', ?_, ?_⟩
  · obtain ⟨l, hl, hlu⟩ := hu
    have hmem : l ∈ xs.filter fun l => decide (Usable m l) := List.mem_filter.2 ⟨hl, decide_eq_true hlu⟩
    intro e
    have h1 := congrArg List.length e
    rw [List.length_map, ← hcs.length_eq] at h1
    have := List.length_pos_of_mem hmem
    rw [h1] at this
    cases this
  · rw [List.forall₂_map_left_iff, List.forall₂_map_right_iff]
    refine (forall₂_pair₈ hcs hcs').imp fun c c' => ?_
    rintro ⟨l, h1, h2⟩
    exact css_margin x cfg t ht m l c c' h1 h2

/-- The base level of the first cross-section of the sample. -/
private noncomputable def firstBase (cfg : RunConfig ℚ) : Option ℚ :=
  ((sampleLoaded narrowInputs).stations.head?.bind fun l =>
    (buildCss idleTools cfg (sampleLoaded narrowInputs) l).toOption).bind fun c => c.out.floodplainBase

/-- The sample with a margin that is 1 m larger: the base level gets lower. -/
example : Consistent narrowInputs ∧ sampleSurroundings.dirExists = true ∧ (∀ f, IsResult f → Sound sampleSurroundings.faults f) ∧
    sampleRunConfig.floodplainTolerance ≤ sampleRunConfig.floodplainTolerance + 1 ∧
    (run (jobOf idleTools sampleRunConfig narrowInputs sampleSurroundings) false noFiles).2 = .ok true ∧
    (run (jobOf idleTools (RunConfig.withMargin (sampleRunConfig.floodplainTolerance + 1) sampleRunConfig) narrowInputs
      sampleSurroundings) false noFiles).2 = .ok true ∧
    (∃ m, setModelData idleTools.nn narrowInputs = .ok m ∧ Requested sampleRunConfig.cssSelection m.stations m.stations ∧
      (∃ l ∈ m.stations, Usable m l) ∧ (∀ l ∈ m.stations, PlainName l.id) ∧
      (∀ l ∈ m.stations, ∀ c, buildCss idleTools sampleRunConfig m l = .ok c → FullNumbers idleTools.ft c) ∧
      (∀ l ∈ m.stations, ∀ c, buildCss idleTools (RunConfig.withMargin (sampleRunConfig.floodplainTolerance + 1) sampleRunConfig) m l = .ok c →
        FullNumbers idleTools.ft c)) ∧
    ∃ b b', firstBase sampleRunConfig = some b ∧
      firstBase (RunConfig.withMargin (sampleRunConfig.floodplainTolerance + 1) sampleRunConfig) = some b' ∧ b' < b := by
  refine ⟨narrow_consistent, rfl, fun _ _ => ⟨rfl, rfl⟩, by linarith, ok_of₅ (by decide +kernel), ok_of₅ (by decide +kernel),
    ⟨sampleLoaded narrowInputs, loaded_of₅ _ (by decide +kernel), .inl ⟨rfl, rfl⟩, ?_, by decide +kernel,
    full_of₅ _ (by decide +kernel), full_of₅ _ (by decide +kernel)⟩, ?_⟩
  · exact ⟨⟨"rhine_100".toList, 5, 0, 10, "rhine".toList, 100⟩, by decide +kernel, by decide +kernel⟩
  · have h : (match firstBase sampleRunConfig, firstBase (RunConfig.withMargin (sampleRunConfig.floodplainTolerance + 1) sampleRunConfig) with
        | some b, some b' => decide (b' < b)
        | _, _ => false) = true := by decide +kernel
    split at h
    · rename_i b b' h1 h2
      exact ⟨b, b', h1, h2, of_decide_eq_true h⟩
    · cases h

end Fm2prof.Props

import Verif.Proofs.Api

/-! Lemmas on printing the configuration of a script and running it from the command line. -/

set_option linter.unusedSectionVars false

namespace Fm2prof.ApiProof

open Fm2prof Spec Props SettingsProof ProjectProof ProgramProof HistoryProof

variable {K : Type} [Field K] [LinearOrder K] [IsStrictOrderedRing K] [FloorRing K]
variable {S C : Type}

/-! ## The log file makes no difference -/

theorem opened_other (l : Text) (s : Store) (f : Text) (h : f ≠ "fm2prof.log".toList) : opened l s f = s f :=
  store_set_other _ _ _ _ h

theorem opened_exists (l : Text) (s : Store) : outputExists (opened l s) = outputExists s := by
  unfold outputExists
  have hn : ∀ f ∈ outputFiles, f ≠ "fm2prof.log".toList := by decide +kernel
  revert hn
  generalize outputFiles = fs
  intro hn
  induction fs with
  | nil => rfl
  | cons f fs ih =>
    rw [List.any_cons, List.any_cons, opened_other _ _ _ (hn f List.mem_cons_self), ih fun g hg => hn g (List.mem_cons_of_mem _ hg)]

theorem writeAll_at (ws : List (Text × Text)) (s t : Store) (f : Text) (h : s f = t f) : writeAll s ws f = writeAll t ws f := by
  rcases writeAll_either ws s t f with h1 | ⟨h1, h2⟩
  · exact h1
  · rw [h1, h2, h]

theorem run_opened (j : Job S C) (overwrite : Bool) (l : Text) (s : Store) :
    (run j overwrite (opened l s)).2 = (run j overwrite s).2 ∧
      ∀ f, f ≠ "fm2prof.log".toList → (run j overwrite (opened l s)).1 f = (run j overwrite s).1 f := by
  constructor
  · cases overwrite with
    | true => exact run_outcome j _ _
    | false =>
      unfold run
      rw [opened_exists]
      have h := run_outcome j (opened l s) s
      unfold run at h
      rw [Bool.not_true, Bool.and_false, Bool.and_false] at h
      cases hj : j.configured with
      | false => rfl
      | true =>
        rw [hj] at h
        cases outputExists s with
        | true => rfl
        | false => exact h
  · intro f hf
    rw [run_writes, run_writes]
    have : runWrites j overwrite (opened l s) = runWrites j overwrite s := by
      unfold runWrites
      rw [opened_exists]
    rw [this]
    exact writeAll_at _ _ _ _ (opened_other l s f hf)

/-! ## The settings of a printed configuration -/

section Printed

variable {ft : FloatText K} {disk : Disk} {c : Config K} {out : Text}

theorem printed_text (h : keysOf c = keysOf (template (K := K))) (sec k : Text) (v : ConfigValue K)
    (hv : getValue sec k c = .ok v) : fileValue (printedContent ft c) sec k = some (strip ((valueText ft v).takeWhile (· ≠ '#'))) := by
  rw [printed_value ft c h]
  unfold getValue at hv
  cases hd : dictGet c sec with
  | none => rw [hd] at hv; cases hv
  | some es =>
    rw [hd] at hv
    simp only at hv
    cases hf : findEntry k es with
    | none => rw [hf] at hv; cases hv
    | some e =>
      rw [hf] at hv
      obtain rfl := Except.ok.inj hv
      rw [Option.bind_some, hf]
      rfl

theorem portable_input (h : Portable ft disk c out) (dir : Text) (hdir : dir ∉ disk.files) (key : String) (v : ConfigValue K)
    (hv : getInputFile key.toList c = .ok v) :
    (v = .str [] ∧ namedFile dir disk.files (printedContent ft c) key = none) ∨
      (valueText ft v ≠ [] ∧ (∃ p, v = .path p ∨ v = .str p) ∧ valueText ft v ∈ disk.files ∧
        namedFile dir disk.files (printedContent ft c) key = some (valueText ft v)) := by
  have ht := printed_text (ft := ft) h.keys _ _ v hv
  unfold namedFile
  rw [ht]
  rcases h.inputs _ v hv with rfl | ⟨p, hp, h1, h2, h3, h4⟩
  · left
    refine ⟨rfl, ?_⟩
    have e1 : strip ((valueText ft (ConfigValue.str (K := K) [])).takeWhile (· ≠ '#')) = [] := rfl
    rw [e1]
    have e2 : joinPath dir [] = dir := by
      unfold joinPath
      rw [if_neg (by intro h; cases h), if_pos rfl]
    rw [Option.map_some, e2]
    exact if_neg fun h => hdir (of_decide_eq_true h)
  · right
    have hvt : valueText ft v = p := by rcases hp with rfl | rfl <;> rfl
    refine ⟨?_, ⟨p, hp⟩, by rw [hvt]; exact h1, ?_⟩
    · rw [hvt]
      rintro rfl
      cases h2
    · rw [hvt, takeWhile_of_not_mem _ _ h4, h3, Option.map_some]
      have e2 : joinPath dir p = p := by
        unfold joinPath
        rw [if_pos h2]
      rw [e2]
      exact if_pos (decide_eq_true h1)

theorem input_value (h : keysOf c = keysOf (template (K := K))) (key : String)
    (hk : ∃ e ∈ inputTemplate (K := K), lower e.key = lower key.toList) : ∃ v, getInputFile key.toList c = .ok v := by
  obtain ⟨v, hv⟩ := Option.isSome_iff_exists.1 ((look_known c h _ _ template_input key.toList).2 hk)
  refine ⟨v, ?_⟩
  unfold getInputFile
  rw [getValue_look _ _ _ (known_input c h), hv]

theorem input_keys (key : String) (hk : key ∈ ["2DMapOutput", "CrossSectionLocationFile", "RegionPolygonFile", "SectionPolygonFile"]) :
    ∃ e ∈ inputTemplate (K := K), lower e.key = lower key.toList := by
  have hm : key.toList ∈ (inputTemplate (K := K)).map (·.key) := by
    rcases List.mem_cons.1 hk with rfl | hk
    · exact List.mem_cons_self
    rcases List.mem_cons.1 hk with rfl | hk
    · exact List.mem_cons_of_mem _ List.mem_cons_self
    rcases List.mem_cons.1 hk with rfl | hk
    · exact List.mem_cons_of_mem _ (List.mem_cons_of_mem _ List.mem_cons_self)
    rcases List.mem_cons.1 hk with rfl | hk
    · exact List.mem_cons_of_mem _ (List.mem_cons_of_mem _ (List.mem_cons_of_mem _ List.mem_cons_self))
    cases hk
  obtain ⟨e, he, hek⟩ := List.mem_map.1 hm
  exact ⟨e, he, by rw [hek]⟩

theorem portable_settings (h : Portable ft disk c out) (dir : Text) (hdir : dir ∉ disk.files) :
    ∃ p b, settingsOf ft c = some p ∧ settingsIn ft dir disk.files (printedContent ft c) = { p with mapIsText := b } ∧
      (b = p.mapIsText ∨ (p.regionPath = [] ∧ p.sectionPath = [])) := by
  obtain ⟨o, ho, hot⟩ := h.output
  obtain ⟨s', hs'⟩ := C42_loads ft (fun _ => true) dir disk c h.keys h.plain fun _ _ => .inr rfl
  have hkeys : keysOf s'.config = keysOf (template (K := K)) := by
    have := (C39_keys_kept ft (fun _ => true) ⟨template, disk⟩ rfl).2 dir (some (printConfiguration ft c))
    rw [hs'] at this
    exact this
  have hpar : ∀ k, getParameter k s'.config = getParameter k c := by
    intro k
    cases hg : getParameter k c with
    | error er => rw [getParameter_look _ h.keys] at hg; cases hg
    | ok v =>
      cases v with
      | some v => exact C42_restored ft _ dir disk c h.keys h.plain s' hs' k v hg (h.parameters k v hg)
      | none =>
        rw [getParameter_look _ h.keys] at hg
        rw [getParameter_look _ hkeys]
        have hn := Except.ok.inj hg
        have hnone : ∀ sec es, dictGet (template (K := K)) sec = some es → look c sec k = none → look s'.config sec k = none := by
          intro sec es hes hl
          have h1 := look_known c h.keys sec es hes k
          have h2 := look_known s'.config hkeys sec es hes k
          cases hl' : look s'.config sec k with
          | none => rfl
          | some v =>
            rw [hl'] at h2
            rw [hl] at h1
            cases h1.2 (h2.1 rfl)
        obtain ⟨n1, n2⟩ := Option.or_eq_none_iff.1 hn
        rw [hnone _ _ template_parameters n1, hnone _ _ template_debug n2]
        rfl
  have hload := hs'
  rw [print_eq] at hload
  have hset := loaded_settings (printed_plain ft c h.keys h.plain) hload
  obtain ⟨q0, q1, q2, q3, q4, q5, q6, q7⟩ := (settingsOf_iff ft _ _).1 hset
  have hrun := run_unchanged hpar
  have htext : ∀ key, textSetting key s'.config = textSetting key c := by
    intro key; unfold textSetting; rw [hpar]
  rw [hrun] at q0
  rw [htext] at q1 q2
  have hin : ∀ key, key ∈ ["2DMapOutput", "CrossSectionLocationFile", "RegionPolygonFile", "SectionPolygonFile"] →
      inputPath ft key c = some ((namedFile dir disk.files (printedContent ft c) key).getD []) := by
    intro key hk
    obtain ⟨v, hv⟩ := input_value h.keys key (input_keys key hk)
    unfold inputPath
    rw [hv]
    simp only
    rcases portable_input h dir hdir key v hv with ⟨rfl, hn⟩ | ⟨-, -, -, hn⟩
    · rw [hn]; rfl
    · rw [hn]; rfl
  have i1 := hin "2DMapOutput" List.mem_cons_self
  have i2 := hin "CrossSectionLocationFile" (List.mem_cons_of_mem _ List.mem_cons_self)
  have i3 := hin "RegionPolygonFile" (List.mem_cons_of_mem _ (List.mem_cons_of_mem _ List.mem_cons_self))
  have i4 := hin "SectionPolygonFile" (List.mem_cons_of_mem _ (List.mem_cons_of_mem _ (List.mem_cons_of_mem _ List.mem_cons_self)))
  refine ⟨{ settingsIn ft dir disk.files (printedContent ft c) with mapIsText := inputIsText "2DMapOutput" c },
    (settingsIn ft dir disk.files (printedContent ft c)).mapIsText, (settingsOf_iff ft _ _).2 ⟨q0, q1, q2, i1, i2, i3, i4, rfl⟩, rfl, ?_⟩
  simp only
  rcases h.map with ⟨p, hp⟩ | ⟨hr, hs⟩
  · left
    unfold inputIsText
    rw [hp]
    show (namedFile dir disk.files (printedContent ft c) "2DMapOutput").isNone = false
    rcases portable_input h dir hdir "2DMapOutput" _ hp with ⟨hv, -⟩ | ⟨-, -, -, hn⟩
    · cases hv
    · rw [hn]; rfl
  · right
    unfold inputPath at i3 i4
    rw [hr] at i3
    rw [hs] at i4
    exact ⟨(Option.some.inj i3).symm, (Option.some.inj i4).symm⟩

theorem portable_isFile (h : Portable ft disk c out) (dir : Text) (hdir : dir ∉ disk.files) (key : String)
    (hk : key ∈ ["2DMapOutput", "CrossSectionLocationFile", "RegionPolygonFile", "SectionPolygonFile"]) :
    inputIsFile ft key c disk = (namedFile dir disk.files (printedContent ft c) key).isSome := by
  obtain ⟨v, hv⟩ := input_value h.keys key (input_keys key hk)
  unfold inputIsFile
  rw [hv]
  simp only
  rcases portable_input h dir hdir key v hv with ⟨rfl, hn⟩ | ⟨-, -, hm, hn⟩
  · rw [hn]; exact decide_eq_false h.real
  · rw [hn]; exact decide_eq_true hm

end Printed

theorem inputs_kind (ft : FloatText K) (g : Geometries K) (c : Settings K) (m : MapFile K) (d : ProjectFiles K) (b : Bool)
    (h : b = c.mapIsText ∨ (c.regionPath = [] ∧ c.sectionPath = [])) :
    projectInputs ft g { c with mapIsText := b } m d = projectInputs ft g c m d := by
  rcases h with rfl | ⟨hr, hs⟩
  · rfl
  · have h1 : optionalRegions d c.regionPath = .ok none := by unfold optionalRegions; rw [if_pos hr]
    have h2 : optionalSections d c.sectionPath = .ok none := by unfold optionalSections; rw [if_pos hs]
    unfold projectInputs
    simp only
    rw [h1, h2]
    cases m.data with
    | error e => rfl
    | ok a => cases (cssFile ft ',' (d.texts c.cssPath)).map locationsOf <;> rfl

/-- The printed configuration is a project. -/
theorem portable_project (ft : FloatText K) (w : AllFiles K) (c : Config K) (out : Text) (h : Portable ft w.disk c out) (name path : Text)
    (hn : withSuffix ".ini".toList name = .ok path) :
    ProjectAt (withText w path (printConfiguration ft c)) name path (printedContent ft c) out := by
  have hsec : ∀ n : Text, (dictGet c n).isSome → lower n = n → ∃ t ∈ printedContent ft c, lower t.1 = n := by
    intro n hn hl
    rw [dictGet_isSome] at hn
    obtain ⟨s, hs, rfl⟩ := List.mem_map.1 hn
    exact ⟨_, List.mem_map.2 ⟨s, hs, rfl⟩, hl⟩
  obtain ⟨v, hv, ho⟩ := h.output
  refine ⟨hn, printed_plain ft c h.keys h.plain, ?_, hsec _ (known_input c h.keys) (by decide), hsec _ (known_output c h.keys) (by decide),
    ⟨out, ?_, ?_⟩, h.exists'.2, h.real⟩
  · show Store.set w.inputs.texts path (printConfiguration ft c) path = _
    rw [store_set_same, print_eq]
  · rw [printed_text h.keys _ _ v hv, ho, takeWhile_of_not_mem _ _ h.absolute.2.2, h.absolute.2.1]
  · unfold joinPath
    rw [if_pos h.absolute.1]

end Fm2prof.ApiProof

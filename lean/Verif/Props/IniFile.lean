import Verif.Proofs.Decimal
import Verif.Proofs.IniPrint

/-!
# The configuration (C39-C42, C84-C86)

A user reads and sets parameters and input files, loads a configuration file and prints the configuration. Histories of
changes, plain files and printable values are defined in `Spec/IniFile.lean`. Configurations range over those with the
keys of the template (`keysOf c = keysOf template`); `C39_keys_kept` shows that there are no others.
-/

set_option linter.unusedSectionVars false

namespace Fm2prof.Props

open Spec

variable {K : Type} [Field K] [LinearOrder K] [IsStrictOrderedRing K] [FloorRing K]

private abbrev s_in : Text := "input".toList
private abbrev s_par : Text := "parameters".toList
private abbrev s_deb : Text := "debug".toList
private abbrev s_out : Text := "output".toList

private theorem known_in (c : Config K) (h : TemplateKeys c) : (dictGet c s_in).isSome :=
  section_known c h _ List.mem_cons_self

private theorem known_par (c : Config K) (h : TemplateKeys c) : (dictGet c s_par).isSome :=
  section_known c h _ (List.mem_cons_of_mem _ List.mem_cons_self)

private theorem known_out (c : Config K) (h : TemplateKeys c) : (dictGet c s_out).isSome :=
  section_known c h _ (List.mem_cons_of_mem _ (List.mem_cons_of_mem _ (List.mem_cons_of_mem _ List.mem_cons_self)))

theorem findEntry_mem (es : List (Entry K)) (hn : (es.map fun e => lower e.key).Nodup) (e : Entry K) (he : e ∈ es)
    (k : Text) (hk : lower k = lower e.key) : findEntry k es = some e := by
  unfold findEntry
  induction es with
  | nil => cases he
  | cons a es ih =>
    rw [List.map_cons, List.nodup_cons] at hn
    rw [List.find?_cons]
    rcases List.mem_cons.1 he with rfl | he
    · rw [hk]; simp
    · have : ¬ lower a.key = lower k := by
        intro h
        exact hn.1 (by rw [h, hk]; exact List.mem_map.2 ⟨e, he, rfl⟩)
      rw [decide_eq_false this]
      exact ih hn.2 he

theorem parameter_nodup : ((parameterTemplate (K := K)).map fun e => lower e.key).Nodup :=
  template_nodup (s_par, parameterTemplate) (dictGet_mem _ _ _ template_parameters)

theorem debug_nodup : ((debugTemplate (K := K)).map fun e => lower e.key).Nodup :=
  template_nodup (s_deb, debugTemplate) (dictGet_mem _ _ _ template_debug)

private theorem input_nodup : ((inputTemplate (K := K)).map fun e => lower e.key).Nodup :=
  template_nodup (s_in, inputTemplate) (dictGet_mem _ _ _ template_input)

private theorem debug_not_parameter : ∀ a ∈ (debugTemplate (K := K)).map (fun e => lower e.key),
    a ∉ (parameterTemplate (K := K)).map fun e => lower e.key := by
  unfold debugTemplate parameterTemplate
  simp only [List.map_cons, List.map_nil]
  decide +kernel

theorem debug_find (e : Entry K) (he : e ∈ debugTemplate) (k : Text) (hk : lower k = lower e.key) :
    findEntry k (parameterTemplate (K := K)) = none := by
  unfold findEntry
  rw [List.find?_eq_none]
  intro x hx h
  have h' : lower x.key = lower k := by simpa using h
  exact debug_not_parameter (lower e.key) (List.mem_map.2 ⟨e, he, rfl⟩)
    (by rw [← hk, ← h']; exact List.mem_map.2 ⟨x, hx, rfl⟩)

private theorem look_applyOp (creatable : Text → Bool) (s : IniState K) (hs : TemplateKeys s.config) (op : ConfigOp K) :
    keysOf (applyOp creatable s op).config = keysOf s.config ∧
    (∀ sec k, (sec = s_par ∨ sec = s_in ∨ sec = s_deb) → look (applyOp creatable s op).config sec k =
      match op with
      | .parameter key v => if sec = s_par ∧ lower k = lower key then (look s.config sec k).map fun _ => v
          else look s.config sec k
      | .input key v => if sec = s_in ∧ lower k = lower key then (look s.config sec k).map fun _ => v
          else look s.config sec k
      | .output _ => look s.config sec k) := by
  cases op with
  | parameter key v =>
    unfold applyOp setParameter
    simp only
    obtain ⟨c', b, h⟩ := setValue_ok s.config s_par (known_par s.config hs) key v
    rw [h]
    exact ⟨keysOf_setValue _ _ _ _ _ _ h, fun sec k _ => look_setValue _ _ _ _ _ _ h sec k⟩
  | input key v =>
    unfold applyOp setInputFile
    simp only
    obtain ⟨c', b, h⟩ := setValue_ok s.config s_in (known_in s.config hs) key v
    rw [h]
    exact ⟨keysOf_setValue _ _ _ _ _ _ h, fun sec k _ => look_setValue _ _ _ _ _ _ h sec k⟩
  | output d =>
    cases ho : setOutputDirectory creatable d s with
    | mk s' e =>
      have hst : applyOp creatable s (.output d) = s' := by
        show (setOutputDirectory creatable d s).1 = s'
        rw [ho]
      rw [hst]
      cases e with
      | none =>
        obtain ⟨_, _, _, hk, _, hl⟩ := setOutputDirectory_spec creatable d s s' ho
        refine ⟨hk, fun sec k hsec => ?_⟩
        simp only
        rw [hl, if_neg]
        rintro ⟨h, _⟩
        obtain ⟨_, _, _, n4, n5, n6⟩ := sec_ne
        rcases hsec with h' | h' | h'
        · exact n5 (h.symm.trans h')
        · exact n4 (h.symm.trans h')
        · exact n6 (h.symm.trans h')
      | some e =>
        have : s' = s := by
          unfold setOutputDirectory at ho
          split at ho
          · cases (Prod.mk.inj ho).2
          · split at ho
            · cases (Prod.mk.inj ho).2
            · exact (Prod.mk.inj ho).1.symm
        simp only
        rw [this]
        exact ⟨rfl, fun _ _ _ => rfl⟩

private theorem lastParameter_cons (op : ConfigOp K) (ops : List (ConfigOp K)) (key : Text) :
    lastParameter (op :: ops) key = (lastParameter ops key).or (match op with
      | .parameter k v => if lower k = lower key then some v else none
      | _ => none) := by
  unfold lastParameter
  rw [List.reverse_cons, List.findSome?_append, List.findSome?_singleton]
  cases op <;> rfl

private theorem lastInput_cons (op : ConfigOp K) (ops : List (ConfigOp K)) (key : Text) :
    lastInput (op :: ops) key = (lastInput ops key).or (match op with
      | .input k v => if lower k = lower key then some v else none
      | _ => none) := by
  unfold lastInput
  rw [List.reverse_cons, List.findSome?_append, List.findSome?_singleton]
  cases op <;> rfl

private theorem map_keep {α : Type} (o : Option α) : o.map (fun old => (none : Option α).getD old) = o := keep_map o

private theorem look_applyOps (creatable : Text → Bool) (ops : List (ConfigOp K)) (s : IniState K)
    (hs : TemplateKeys s.config) :
    TemplateKeys (applyOps creatable ops s).config ∧ ∀ k,
      look (applyOps creatable ops s).config s_par k =
        (look s.config s_par k).map (fun old => (lastParameter ops k).getD old) ∧
      look (applyOps creatable ops s).config s_in k =
        (look s.config s_in k).map (fun old => (lastInput ops k).getD old) ∧
      look (applyOps creatable ops s).config s_deb k = look s.config s_deb k := by
  unfold applyOps
  obtain ⟨n1, n2, n3, n4, n5, n6⟩ := sec_ne
  induction ops generalizing s with
  | nil =>
    refine ⟨hs, fun k => ⟨?_, ?_, rfl⟩⟩
    · simp [lastParameter]
    · simp [lastInput]
  | cons op ops ih =>
    obtain ⟨h1, h2⟩ := look_applyOp creatable s hs op
    obtain ⟨h3, h4⟩ := ih (applyOp creatable s op) (h1.trans hs)
    rw [List.foldl_cons]
    refine ⟨h3, fun k => ?_⟩
    obtain ⟨e1, e2, e3⟩ := h4 k
    rw [e1, e2, e3, h2 s_par k (Or.inl rfl), h2 s_in k (Or.inr (Or.inl rfl)), h2 s_deb k (Or.inr (Or.inr rfl)),
      lastParameter_cons, lastInput_cons]
    cases op with
    | output d => simp only [Option.or_none]; exact ⟨trivial, trivial, trivial⟩
    | parameter key v =>
      simp only
      refine ⟨?_, ?_, ?_⟩
      · by_cases hk : lower k = lower key
        · rw [if_pos ⟨trivial, hk⟩, if_pos hk.symm, Option.map_map]
          refine congrArg (fun f => Option.map f _) ?_
          funext old
          rw [Function.comp_apply]
          cases lastParameter ops k <;> rfl
        · rw [if_neg fun h => hk h.2, if_neg fun h => hk h.symm, Option.or_none]
      · rw [if_neg fun h => n1 h.1.symm, Option.or_none]
      · rw [if_neg fun h => n3 h.1]
    | input key v =>
      simp only
      refine ⟨?_, ?_, ?_⟩
      · rw [if_neg fun h => n1 h.1, Option.or_none]
      · by_cases hk : lower k = lower key
        · rw [if_pos ⟨trivial, hk⟩, if_pos hk.symm, Option.map_map]
          refine congrArg (fun f => Option.map f _) ?_
          funext old
          rw [Function.comp_apply]
          cases lastInput ops k <;> rfl
        · rw [if_neg fun h => hk h.2, if_neg fun h => hk h.symm, Option.or_none]
      · rw [if_neg fun h => n2 h.1]

/-! ## C39 -/

/-- **C39, keys.** Neither changes nor loading a file, whether it succeeds or not, add, remove or rename keys, or change
their types. -/
theorem C39_keys_kept (ft : FloatText K) (creatable : Text → Bool) (s : IniState K)
    (hs : keysOf s.config = keysOf (template (K := K))) :
    (∀ ops, keysOf (applyOps creatable ops s).config = keysOf (template (K := K))) ∧
    ∀ dir text, keysOf (loadConfiguration ft creatable dir text s).1.config = keysOf (template (K := K)) :=
  ⟨fun ops => (look_applyOps creatable ops s hs).1, fun dir text =>
    (loadConfiguration_keys ft creatable dir text s).trans hs⟩

/-- **C39, partial.** After any history of setting parameters, input files and the output directory, starting with the
defaults: reading a parameter in any capitalisation gives the last value set for it in any capitalisation, or its
default; reading an input file likewise; unknown names give nothing, or a `KeyError`. What is missing: parameters of the
section `debug` can be read but not set, see `C39_debug_violated`. -/
theorem C39_history_partial (creatable : Text → Bool) (disk : Disk) (ops : List (ConfigOp K)) (key : Text) :
    getParameter key (applyOps creatable ops ⟨template, disk⟩).config =
      .ok (match defaultOf parameterTemplate key with
        | some d => some ((lastParameter ops key).getD d)
        | none => defaultOf debugTemplate key) ∧
    getInputFile key (applyOps creatable ops ⟨template, disk⟩).config =
      match defaultOf inputTemplate key with
      | some d => .ok ((lastInput ops key).getD d)
      | none => .error .keyError := by
  obtain ⟨hk, hl⟩ := look_applyOps creatable ops ⟨template, disk⟩ rfl
  obtain ⟨h1, h2, h3⟩ := hl key
  constructor
  · rw [getParameter_look _ hk, h1, h3]
    simp only
    rw [look_template _ _ template_parameters, look_template _ _ template_debug]
    have e1 : defaultOf (parameterTemplate (K := K)) key = (findEntry key parameterTemplate).map (·.value) := rfl
    have e2 : defaultOf (debugTemplate (K := K)) key = (findEntry key debugTemplate).map (·.value) := rfl
    rw [e1, e2]
    cases findEntry key (parameterTemplate (K := K)) <;> rfl
  · unfold getInputFile
    rw [getValue_look _ _ _ (known_in _ hk), h2]
    simp only
    rw [look_template _ _ template_input]
    have e1 : defaultOf (inputTemplate (K := K)) key = (findEntry key inputTemplate).map (·.value) := rfl
    rw [e1]
    cases findEntry key (inputTemplate (K := K)) <;> rfl

/-- **C39, one change.** Setting a parameter reports whether the name is known. If it is, reading the same name in any
capitalisation gives the value and every other name reads as before; if it is not, nothing changes. No error is raised. -/
theorem C39_set_one (c : Config K) (hc : keysOf c = keysOf (template (K := K))) (key : Text) (v : ConfigValue K) :
    ∃ c' known, setParameter key v c = .ok (c', known) ∧
      (known = true ↔ ∃ e ∈ parameterTemplate (K := K), lower e.key = lower key) ∧
      (known = false → c' = c) ∧
      (∀ k, getParameter k c' = if known = true ∧ lower k = lower key then .ok (some v) else getParameter k c) ∧
      (∀ k, getInputFile k c' = getInputFile k c) ∧
      ∀ ft : FloatText K, ∀ dir, getOutputDirectory ft dir c' = getOutputDirectory ft dir c := by
  have hin := known_in c hc
  obtain ⟨n1, n2, n3, n4, n5, n6⟩ := sec_ne
  obtain ⟨c', b, h⟩ := setValue_ok c s_par (known_par c hc) key v
  have hk' : TemplateKeys c' := (keysOf_setValue _ _ _ _ _ _ h).trans hc
  have hl := look_setValue _ _ _ _ _ _ h
  have hb := setValue_known _ _ _ _ _ _ h
  have hkn : (look c s_par key).isSome ↔ ∃ e ∈ parameterTemplate (K := K), lower e.key = lower key := by
    have hkeys : ∀ d : Config K, keysOf d = keysOf (template (K := K)) →
        ((look d s_par key).isSome ↔ lower key ∈ ((templateKeys.find? fun s => decide (s.1 = s_par)).map fun s =>
          s.2.map fun k => lower k.1).getD []) := by
      intro d hd
      have : (look d s_par key).isSome ↔ lower key ∈ (((keysOf d).find? fun s => decide (s.1 = s_par)).map fun s =>
          s.2.map fun k => lower k.1).getD [] := by
        unfold look dictGet keysOf
        rw [find_map]
        simp only
        cases d.find? fun s => decide (s.1 = s_par) with
        | none => simp
        | some s =>
          simp only [Option.map_some, Option.bind_some, Option.getD_some, Option.isSome_map]
          unfold findEntry
          rw [List.find?_isSome, List.map_map, List.mem_map]
          constructor
          · rintro ⟨e, he, h⟩; exact ⟨e, he, by simpa using h⟩
          · rintro ⟨e, he, h⟩; exact ⟨e, he, by simpa using h⟩
      rw [this, hd, keysOf_template]
    rw [hkeys c hc, ← hkeys template rfl, look_template _ _ template_parameters, Option.isSome_map]
    unfold findEntry
    rw [List.find?_isSome]
    constructor
    · rintro ⟨e, he, h⟩; exact ⟨e, he, by simpa using h⟩
    · rintro ⟨e, he, h⟩; exact ⟨e, he, by simpa using h⟩
  refine ⟨c', b, h, hb.trans hkn, ?_, fun k => ?_, fun k => ?_, fun ft dir => ?_⟩
  · intro hf
    rw [hf] at h
    exact setValue_unknown _ _ _ _ _ h
  · rw [getParameter_look _ hk', getParameter_look _ hc, hl, hl]
    rw [if_neg (show ¬ ("debug".toList = s_par ∧ lower k = lower key) from fun h => n3 h.1)]
    by_cases hkk : lower k = lower key
    · rw [if_pos ⟨rfl, hkk⟩, look_congr c s_par hkk]
      cases hlk : look c s_par key with
      | none =>
        have : b = false := by
          cases b with
          | false => rfl
          | true => have := hb.1 rfl; rw [hlk] at this; cases this
        rw [this]
        simp
      | some w =>
        have : b = true := hb.2 (by rw [hlk]; rfl)
        rw [this, if_pos ⟨rfl, hkk⟩]; rfl
    · rw [if_neg fun h => hkk h.2, if_neg fun h => hkk h.2]
  · unfold getInputFile
    rw [getValue_look c _ _ hin, getValue_look c' _ _ (known_in c' hk'), hl, if_neg fun h => n1 h.1.symm]
  · unfold getOutputDirectory
    rw [getValue_look c _ _ (known_out c hc), getValue_look c' _ _ (known_out c' hk'), hl,
      if_neg fun h => n5 h.1]

/-- **C39, violated for debug parameters.** They can be read in any capitalisation, but setting one changes nothing: the
old value is read back, whatever value was set. -/
theorem C39_debug_violated (disk : Disk) (creatable : Text → Bool) (e : Entry K) (he : e ∈ debugTemplate) (k : Text)
    (hk : lower k = lower e.key) (v : ConfigValue K) :
    getParameter k (applyOps creatable [.parameter k v] ⟨template, disk⟩).config = .ok (some e.value) := by
  rw [(C39_history_partial creatable disk [.parameter k v] k).1]
  have e1 : defaultOf (parameterTemplate (K := K)) k = (findEntry k parameterTemplate).map (·.value) := rfl
  have e2 : defaultOf (debugTemplate (K := K)) k = (findEntry k debugTemplate).map (·.value) := rfl
  rw [e1, e2, debug_find e he k hk, findEntry_mem debugTemplate debug_nodup e he k hk]
  rfl

example : getParameter (K := ℚ) "SKIPMAPS".toList (applyOps (fun _ => true) [.parameter "skipMaps".toList (.int 3),
      .input "2dmapoutput".toList (.path "map.nc".toList), .parameter "LakeTimesteps".toList (.int 4),
      .parameter "SkipMaps".toList (.int 5), .parameter "nonsense".toList (.int 6), .output "out".toList]
      ⟨template, ⟨[], []⟩⟩).config = .ok (some (.int 5)) ∧
    getParameter (K := ℚ) "nonsense".toList (applyOps (fun _ => true) [.parameter "nonsense".toList (.int 6)]
      ⟨template, ⟨[], []⟩⟩).config = .ok none := by
  decide +kernel

/-! ## C40 -/

/-- **C40.** Loading a plain configuration file into a fresh configuration, when it succeeds: every parameter, read in any
capitalisation, has the value the file gives for it if that is a value of its type, and its default otherwise. Keys not in
the template are still unknown. -/
theorem C40_loaded (ft : FloatText K) (creatable : Text → Bool) (dir : Text) (disk : Disk) (f : FileContent)
    (hf : PlainFile f) (s' : IniState K)
    (h : loadConfiguration ft creatable dir (some (fileText f)) ⟨template, disk⟩ = (s', none)) :
    (∀ e ∈ parameterTemplate (K := K), ∀ k, lower k = lower e.key →
      getParameter k s'.config = .ok (some (loadedValue ft e (fileValue f "parameters".toList e.key)))) ∧
    (∀ e ∈ debugTemplate (K := K), ∀ k, lower k = lower e.key →
      getParameter k s'.config = .ok (some (loadedValue ft e (fileValue f "debug".toList e.key)))) ∧
    ∀ k, (∀ e ∈ parameterTemplate (K := K) ++ debugTemplate, lower e.key ≠ lower k) →
      getParameter k s'.config = .ok none := by
  rw [loadConfiguration_iff ft creatable dir _ _ s' rfl] at h
  obtain ⟨hk, supplied, hp, h1, h2, h3, h4⟩ := loaded_parameter ft creatable dir _ disk s' h
  rw [iniParams_file f hf] at hp
  obtain rfl := Except.ok.inj hp
  have hfv : ∀ (sec a b : Text), lower a = lower b → fileValue f sec a = fileValue f sec b := by
    intro sec a b hab; unfold fileValue; rw [hab]
  refine ⟨fun e he k hek => ?_, fun e he k hek => ?_, fun k hek => ?_⟩
  · rw [getParameter_look _ hk, h1 k e (findEntry_mem _ parameter_nodup e he k hek), contentOf_value, hfv _ k e.key hek]
    rfl
  · rw [getParameter_look _ hk, h3 k (debug_find e he k hek), h2 k e (findEntry_mem _ debug_nodup e he k hek),
      contentOf_value, hfv _ k e.key hek]
    rfl
  · rw [getParameter_look _ hk, h3, h4]
    · rfl
    all_goals
      unfold findEntry
      rw [List.find?_eq_none]
      intro x hx hxk
      refine hek x ?_ (by simpa using hxk)
    · exact List.mem_append_right _ hx
    · exact List.mem_append_left _ hx

/-- **C40, any text.** The same for every text that is loaded, plain or not, in terms of what the parser finds in it: in
no section a key occurs twice. -/
theorem C40_any_text (ft : FloatText K) (creatable : Text → Bool) (dir text : Text) (disk : Disk) (s' : IniState K)
    (h : loadConfiguration ft creatable dir (some text) ⟨template, disk⟩ = (s', none)) :
    ∃ found, iniParams text = .ok found ∧ (∀ s ∈ found, (s.2.map (·.1)).Nodup) ∧
      ∀ e ∈ parameterTemplate (K := K), ∀ k, lower k = lower e.key → getParameter k s'.config =
        .ok (some (loadedValue ft e ((dictGet found "parameters".toList).bind fun items => dictGet items (lower e.key)))) := by
  rw [loadConfiguration_iff ft creatable dir _ _ s' rfl] at h
  obtain ⟨hk, supplied, hp, h1, h2, h3, h4⟩ := loaded_parameter ft creatable dir _ disk s' h
  refine ⟨supplied, hp, fun s hs => (iniParams_good text supplied hp s hs).1, fun e he k hek => ?_⟩
  rw [getParameter_look _ hk, h1 k e (findEntry_mem _ parameter_nodup e he k hek), hek]
  rfl

private theorem fileValue_iff (f : FileContent) (hf : PlainFile f) (sec k t : Text) :
    fileValue f sec k = some t ↔ ∃ s ∈ f, lower s.1 = sec ∧ ∃ i ∈ s.2, lower (rstrip i.1) = lower k ∧
      t = strip (i.2.takeWhile (· ≠ '#')) := by
  have uniq : ∀ {α : Type} (l : List α) (key : α → Text), (l.map key).Nodup → ∀ x ∈ l,
      l.find? (fun y => decide (key y = key x)) = some x := by
    intro α l key hn x hx
    induction l with
    | nil => cases hx
    | cons a l ih =>
      rw [List.map_cons, List.nodup_cons] at hn
      rw [List.find?_cons]
      rcases List.mem_cons.1 hx with rfl | hx
      · simp
      · have : ¬ key a = key x := fun e => hn.1 (by rw [e]; exact List.mem_map.2 ⟨x, hx, rfl⟩)
        rw [decide_eq_false this]
        exact ih hn.2 hx
  unfold fileValue
  constructor
  · intro h
    obtain ⟨s, hs, h⟩ := Option.bind_eq_some_iff.1 h
    obtain ⟨i, hi, rfl⟩ := Option.map_eq_some_iff.1 h
    have h1 := List.find?_some hs
    have h2 := List.find?_some hi
    exact ⟨s, List.mem_of_find?_eq_some hs, by simpa using h1, i, List.mem_of_find?_eq_some hi, by simpa using h2, rfl⟩
  · rintro ⟨s, hs, rfl, i, hi, hik, rfl⟩
    rw [uniq f (fun s => lower s.1) hf.2.1 s hs, Option.bind_some, ← hik,
      uniq s.2 (fun i => lower (rstrip i.1)) (hf.2.2 s hs).1 i hi]
    rfl

/-- **C40, order.** Two plain files that give the same texts for the keys of the template lead to the same configuration,
whatever else they contain and whatever configuration they are loaded into. -/
theorem C40_same_texts (ft : FloatText K) (creatable : Text → Bool) (dir : Text) (f g : FileContent)
    (hf : PlainFile f) (hg : PlainFile g) (s sf sg : IniState K) (hs : keysOf s.config = keysOf (template (K := K)))
    (hfg : ∀ sec ∈ template (K := K), ∀ e ∈ sec.2, fileValue f sec.1 e.key = fileValue g sec.1 e.key)
    (h1 : loadConfiguration ft creatable dir (some (fileText f)) s = (sf, none))
    (h2 : loadConfiguration ft creatable dir (some (fileText g)) s = (sg, none)) : sf.config = sg.config := by
  rw [loadConfiguration_iff ft creatable dir _ _ _ hs] at h1 h2
  obtain ⟨sup1, p1, _, _, _, _, _, k1, _, l1⟩ := readInifile_spec ft creatable dir _ s sf h1
  obtain ⟨sup2, p2, _, _, _, _, _, k2, _, l2⟩ := readInifile_spec ft creatable dir _ s sg h2
  have p1' := p1
  have p2' := p2
  rw [iniParams_file f hf] at p1
  rw [iniParams_file g hg] at p2
  obtain rfl := Except.ok.inj p1
  obtain rfl := Except.ok.inj p2
  refine config_ext _ _ (k1.trans hs) (k2.trans hs) fun sec k => ?_
  rw [l1, l2]
  cases hl : look s.config sec k with
  | none => rfl
  | some old =>
    simp only [Option.map_some]
    have hknown : fileValue f sec k = fileValue g sec k := by
      have hks : ∃ t ∈ template (K := K), t.1 = sec ∧ ∃ e ∈ t.2, lower e.key = lower k := by
        unfold look at hl
        obtain ⟨es, hes, hl⟩ := Option.bind_eq_some_iff.1 hl
        obtain ⟨e, he, _⟩ := Option.map_eq_some_iff.1 hl
        have hm : (sec, es.map fun e => (e.key, e.type, e.hint)) ∈ keysOf (template (K := K)) := by
          rw [← hs]; exact List.mem_map.2 ⟨_, dictGet_mem _ _ _ hes, rfl⟩
        obtain ⟨t, ht, e2⟩ := List.mem_map.1 hm
        obtain ⟨e3, e4⟩ := Prod.mk.inj e2
        refine ⟨t, ht, e3, ?_⟩
        have hem : (e.key, e.type, e.hint) ∈ t.2.map fun e => (e.key, e.type, e.hint) := by
          rw [e4]; exact List.mem_map.2 ⟨e, List.mem_of_find?_eq_some he, rfl⟩
        obtain ⟨e', he', e5⟩ := List.mem_map.1 hem
        exact ⟨e', he', by rw [(Prod.mk.inj e5).1]; exact findEntry_key _ _ _ he⟩
      obtain ⟨t, ht, rfl, e, he, hek⟩ := hks
      have hc : ∀ h : FileContent, fileValue h t.1 k = fileValue h t.1 e.key := by
        intro h; unfold fileValue; rw [hek]
      rw [hc f, hc g]
      exact hfg t ht e he
    refine congrArg some (congrArg (fun x => Option.getD x old) ?_)
    have hout : ∀ items : List (Text × Text),
        (outputDirs items).getLast?.map (ConfigValue.path (K := K)) =
          newest (fun it => some (.path it.2)) items "OutputDirectory".toList := by
      intro items
      induction items with
      | nil => rfl
      | cons it items ih =>
        rw [newest_cons, ← ih]
        by_cases hk : lower it.1 = lower "OutputDirectory".toList
        · rw [outputDirs_pos _ _ hk, if_pos hk, List.getLast?_cons]
          cases (outputDirs items).getLast? <;> rfl
        · rw [outputDirs_neg _ _ hk, if_neg hk, Option.or_none]
    unfold suppliedValue
    by_cases c1 : sec = s_in
    · rw [if_pos c1, if_pos c1, newest_supplied _ _ _ p1', newest_supplied _ _ _ p2', contentOf_value, contentOf_value,
        hknown]
    rw [if_neg c1, if_neg c1]
    by_cases c2 : sec = s_par
    · rw [if_pos c2, if_pos c2, newest_supplied _ _ _ p1', newest_supplied _ _ _ p2', contentOf_value, contentOf_value,
        hknown]
    rw [if_neg c2, if_neg c2]
    by_cases c3 : sec = s_deb
    · rw [if_pos c3, if_pos c3, newest_supplied _ _ _ p1', newest_supplied _ _ _ p2', contentOf_value, contentOf_value,
        hknown]
    rw [if_neg c3, if_neg c3]
    by_cases c4 : sec = s_out ∧ lower k = lower "OutputDirectory".toList
    · rw [if_pos c4, if_pos c4, hout, hout, newest_supplied _ _ _ p1', newest_supplied _ _ _ p2', contentOf_value,
        contentOf_value]
      have hc : ∀ h : FileContent, fileValue h sec "OutputDirectory".toList = fileValue h sec k := by
        intro h; unfold fileValue; rw [c4.2]
      rw [hc f, hc g, hknown]
    · rw [if_neg c4, if_neg c4]

/-- **C40, order.** In particular the order of sections and of lines has no influence: two plain files with the same lines
in the same sections give the same texts. -/
theorem C40_order (f g : FileContent) (hf : PlainFile f) (hg : PlainFile g)
    (hfg : ∀ name i, (∃ s ∈ f, lower s.1 = name ∧ i ∈ s.2) ↔ ∃ s ∈ g, lower s.1 = name ∧ i ∈ s.2) (sec k : Text) :
    fileValue f sec k = fileValue g sec k := by
  refine Option.ext fun t => ?_
  rw [fileValue_iff f hf, fileValue_iff g hg]
  constructor
  · rintro ⟨s, hs, hn, i, hi, h⟩
    obtain ⟨s', hs', hn', hi'⟩ := (hfg sec i).1 ⟨s, hs, hn, hi⟩
    exact ⟨s', hs', hn', i, hi', h⟩
  · rintro ⟨s, hs, hn, i, hi, h⟩
    obtain ⟨s', hs', hn', hi'⟩ := (hfg sec i).2 ⟨s, hs, hn, hi⟩
    exact ⟨s', hs', hn', i, hi', h⟩

/-- **C40, when loading succeeds.** A plain file with sections `input` and `output` is loaded if its output directories
exist or can be created. -/
theorem C40_succeeds (ft : FloatText K) (creatable : Text → Bool) (dir : Text) (f : FileContent) (hf : PlainFile f)
    (s : IniState K) (hs : keysOf s.config = keysOf (template (K := K)))
    (hi : ∃ t ∈ f, lower t.1 = "input".toList) (ho : ∃ t ∈ f, lower t.1 = "output".toList)
    (hd : ∀ d, fileValue f "output".toList "OutputDirectory".toList = some d →
      d ∈ s.disk.files ∨ d ∈ s.disk.dirs ∨ creatable d = true) :
    ∃ s', loadConfiguration ft creatable dir (some (fileText f)) s = (s', none) := by
  have sec_some : ∀ n : Text, (∃ t ∈ f, lower t.1 = n) → (dictGet (contentOf f) n).isSome := by
    rintro n ⟨t, ht, hn⟩
    rw [dictGet_isSome]
    unfold contentOf
    rw [List.map_map, List.mem_map]
    exact ⟨t, ht, hn⟩
  obtain ⟨items, hitems⟩ := Option.isSome_iff_exists.1 (sec_some _ hi)
  obtain ⟨outs, houts⟩ := Option.isSome_iff_exists.1 (sec_some _ ho)
  have hp := iniParams_file f hf
  have hgood := iniParams_good _ _ hp _ (dictGet_mem _ _ _ houts)
  have hall : ∀ d ∈ outputDirs outs, d ∈ s.disk.files ∨ d ∈ s.disk.dirs ∨ creatable d = true := by
    intro d hdm
    refine hd d ?_
    rw [← contentOf_value, houts, Option.bind_some]
    unfold outputDirs at hdm
    obtain ⟨it, hit, rfl⟩ := List.mem_map.1 hdm
    obtain ⟨hit1, hit2⟩ := List.mem_filter.1 hit
    have hk : lower it.1 = lower "OutputDirectory".toList := of_decide_eq_true hit2
    rw [← hk, hgood.2 it hit1]
    have : ∀ l : List (Text × Text), (l.map (·.1)).Nodup → it ∈ l → dictGet l it.1 = some it.2 := by
      intro l hn hm
      induction l with
      | nil => cases hm
      | cons a l ih =>
        rw [List.map_cons, List.nodup_cons] at hn
        rw [dictGet_cons]
        rcases List.mem_cons.1 hm with rfl | hm
        · rw [if_pos rfl]
        · rw [if_neg fun e => hn.1 (by rw [e]; exact List.mem_map.2 ⟨it, hm, rfl⟩)]
          exact ih hn.2 hm
    exact this outs hgood.1 hit1
  have hout : ∀ (os : List (Text × Text)) (st : IniState K),
      (∀ d ∈ outputDirs os, d ∈ st.disk.files ∨ d ∈ st.disk.dirs ∨ creatable d = true) →
      ∃ s', outputItems creatable os st = (s', none) := by
    intro os
    induction os with
    | nil => intro st _; exact ⟨st, rfl⟩
    | cons it os ih =>
      intro st hst
      rw [outputItems]
      by_cases hk : lower it.1 = "outputdirectory".toList
      · have hk' : lower it.1 = lower "OutputDirectory".toList := hk.trans lower_output.symm
        rw [outputDirs_pos _ _ hk'] at hst
        rw [if_pos hk]
        have hone : ∃ st', setOutputDirectory creatable it.2 st = (st', none) := by
          unfold setOutputDirectory
          rcases hst it.2 List.mem_cons_self with h | h | h
          · rw [if_pos (Or.inl h)]; exact ⟨_, rfl⟩
          · rw [if_pos (Or.inr h)]; exact ⟨_, rfl⟩
          · by_cases hh : it.2 ∈ st.disk.files ∨ it.2 ∈ st.disk.dirs
            · rw [if_pos hh]; exact ⟨_, rfl⟩
            · rw [if_neg hh, h, if_pos rfl]; exact ⟨_, rfl⟩
        obtain ⟨st', hst'⟩ := hone
        rw [hst']
        obtain ⟨_, a2, a3, _, _, _⟩ := setOutputDirectory_spec creatable it.2 st st' hst'
        refine ih st' fun d hdm => ?_
        rcases hst d (List.mem_cons_of_mem _ hdm) with h | h | h
        · left; rw [a2]; exact h
        · right; left; exact a3 d h
        · right; right; exact h
      · have hk' : ¬ lower it.1 = lower "OutputDirectory".toList := fun e => hk (e.trans lower_output)
        rw [outputDirs_neg _ _ hk'] at hst
        rw [if_neg hk]
        exact ih st hst
  have hin := input_setter (K := K) dir s.disk.files
  obtain ⟨k2, d2⟩ := extract_keys ft s_par parameterTemplate (contentOf f) (items.foldl (inputItem dir) s)
  obtain ⟨k3, d3⟩ := extract_keys ft s_deb debugTemplate (contentOf f)
    (extractParameters ft s_par parameterTemplate (contentOf f) (items.foldl (inputItem dir) s))
  obtain ⟨s', hs'⟩ := hout outs (extractParameters ft s_deb debugTemplate (contentOf f)
    (extractParameters ft s_par parameterTemplate (contentOf f) (items.foldl (inputItem dir) s)))
    (by rw [d3.trans (d2.trans (hin.fold_disk items s))]; exact hall)
  refine ⟨s', ?_⟩
  rw [loadConfiguration_iff ft creatable dir _ _ _ hs]
  unfold readInifile
  rw [hp]
  simp only
  rw [hitems]
  simp only
  rw [houts]
  exact hs'

/-- A plain file: two sections in unusual capitalisation, a comment, an unknown key, a value of the wrong type. -/
def sampleFile : FileContent :=
  [("Input".toList, [("2dmapoutput ".toList, " map.nc # the map".toList)]),
    ("PARAMETERS".toList, [("skipmaps".toList, " 7".toList), ("unknown".toList, " 1".toList),
      ("LakeTimesteps ".toList, "many".toList), ("casename".toList, "Waal".toList)]),
    ("output".toList, [("OutputDirectory".toList, " out".toList)])]

theorem sampleFile_plain : PlainFile sampleFile := by
  have key : ∀ t : Text, (t ≠ [] ∧ (t.headD '#' ≠ '#' ∧ isSpace (t.headD '#') = false ∧ t.headD '#' ≠ ';' ∧
      t.headD '#' ≠ '[') ∧ '=' ∉ t ∧ ':' ∉ t ∧ '\n' ∉ t) → PlainKey t := by
    intro t ⟨h1, h2, h3⟩
    refine ⟨h1, ?_, h3⟩
    intro c hc
    cases t with
    | nil => cases hc
    | cons d t =>
      obtain rfl := Option.some.inj hc
      exact ⟨h2.2.1, h2.1, h2.2.2⟩
  refine ⟨by decide +kernel, by decide +kernel, ?_⟩
  have hall : ∀ s ∈ sampleFile, (s.2.map fun i => lower (rstrip i.1)).Nodup ∧ ∀ i ∈ s.2,
      (i.1 ≠ [] ∧ (i.1.headD '#' ≠ '#' ∧ isSpace (i.1.headD '#') = false ∧ i.1.headD '#' ≠ ';' ∧
        i.1.headD '#' ≠ '[') ∧ '=' ∉ i.1 ∧ ':' ∉ i.1 ∧ '\n' ∉ i.1) ∧ '\n' ∉ i.2 ∧ '%' ∉ i.2 := by decide +kernel
  exact fun s hs => ⟨(hall s hs).1, fun i hi => ⟨key _ ((hall s hs).2 i hi).1, ((hall s hs).2 i hi).2⟩⟩

example : fileText sampleFile =
    "[Input]\n2dmapoutput = map.nc # the map\n\n[PARAMETERS]\nskipmaps= 7\nunknown= 1\nLakeTimesteps =many\ncasename=Waal\n\n[output]\nOutputDirectory= out\n\n".toList := by
  decide +kernel

example :
    let r := loadConfiguration (decimalText ℚ) (fun _ => true) ".".toList (some (fileText sampleFile))
      ⟨template, ⟨["map.nc".toList], []⟩⟩
    r.2 = none ∧ getParameter "SkipMaps".toList r.1.config = .ok (some (.int 7)) ∧
      getParameter "LakeTimesteps".toList r.1.config = .ok (some (.int 10)) ∧
      getInputFile "2DMapOutput".toList r.1.config = .ok (.path "map.nc".toList) := by
  decide +kernel

/-! ## C41 -/

/-- **C41.** Loading a file a second time changes nothing, neither the configuration nor the disk, and succeeds; and
reading the file once would have given the same as the two readings of one load. -/
theorem C41_idempotent (ft : FloatText K) (creatable : Text → Bool) (dir text : Text) (s s' : IniState K)
    (hs : keysOf s.config = keysOf (template (K := K)))
    (h : loadConfiguration ft creatable dir (some text) s = (s', none)) :
    loadConfiguration ft creatable dir (some text) s' = (s', none) ∧ readInifile ft creatable dir text s = (s', none) := by
  have h' := (loadConfiguration_iff ft creatable dir text s s' hs).1 h
  have hk : TemplateKeys s'.config := by
    have := readInifile_keys ft creatable dir text s
    rw [h'] at this
    exact this.trans hs
  exact ⟨(loadConfiguration_iff ft creatable dir text s' s' hk).2 (readInifile_idem ft creatable dir text s s' hs h'), h'⟩

/-! ## C42 -/

private theorem list_default : ∀ e ∈ parameterTemplate (K := K) ++ debugTemplate, e.type = .list → e.value = .str [] := by
  intro e he ht
  unfold parameterTemplate debugTemplate at he
  simp only [List.cons_append, List.nil_append, List.mem_cons, List.not_mem_nil, or_false] at he
  rcases he with h | h | h | h | h | h | h | h | h | h | h | h | h | h | h | h | h | h | h | h | h <;>
    rw [h] at ht ⊢ <;> first | rfl | cases ht

private theorem same_type (c : Config K) (hc : TemplateKeys c) (sec : Text) (es es' : List (Entry K)) (hes : dictGet c sec = some es)
    (hes' : dictGet (template (K := K)) sec = some es') (k : Text) (e : Entry K) (he : findEntry k es = some e) :
    ∃ e', findEntry k es' = some e' ∧ e'.type = e.type := by
  have hm : (sec, es.map fun e => (e.key, e.type, e.hint)) ∈ keysOf (template (K := K)) := by
    rw [← hc]; exact List.mem_map.2 ⟨_, dictGet_mem _ _ _ hes, rfl⟩
  obtain ⟨t, ht, e2⟩ := List.mem_map.1 hm
  obtain ⟨e3, e4⟩ := Prod.mk.inj e2
  have htes : t.2 = es' := by
    have hn := template_names (K := K)
    have hm' := dictGet_mem _ _ _ hes'
    have : dictGet (template (K := K)) sec = some t.2 := by
      clear hm' hes' hes hm e2
      revert hn ht
      generalize template (K := K) = T
      intro ht hn
      induction T with
      | nil => cases ht
      | cons a T ih =>
        rw [List.map_cons, List.nodup_cons] at hn
        rw [dictGet_cons]
        rcases List.mem_cons.1 ht with rfl | ht
        · rw [if_pos e3]
        · rw [if_neg fun e => hn.1 (by rw [e, ← e3]; exact List.mem_map.2 ⟨t, ht, rfl⟩)]
          exact ih ht hn.2
    rw [this] at hes'
    exact Option.some.inj hes'
  rw [htes] at e4
  clear hm e2 hes hes' ht htes e3
  unfold findEntry at he ⊢
  induction es generalizing es' with
  | nil => cases he
  | cons a es ih =>
    cases es' with
    | nil => cases e4
    | cons b es' =>
      rw [List.map_cons, List.map_cons] at e4
      obtain ⟨h1, h2⟩ := List.cons.inj e4
      have hkey : b.key = a.key := (Prod.mk.inj h1).1
      rw [List.find?_cons] at he ⊢
      rw [hkey]
      by_cases hk : lower a.key = lower k
      · rw [decide_eq_true hk] at he ⊢
        obtain rfl := Option.some.inj he
        exact ⟨b, rfl, (Prod.mk.inj (Prod.mk.inj h1).2).1⟩
      · rw [decide_eq_false hk] at he ⊢
        exact ih es' he h2

private theorem restored (ft : FloatText K) (e e' : Entry K) (ht : e'.type = e.type) (hp : Printable ft e.type e.value)
    (hdef : e'.type = .list → e'.value = .str []) :
    loadedValue ft e' (some (strip ((valueText ft e.value).takeWhile (· ≠ '#')))) = e.value := by
  obtain ⟨h1, h2⟩ := valueText_trimmed ft e.type e.value hp
  rw [takeWhile_of_not_mem _ _ h2, h1]
  simp only [loadedValue]
  rw [ht]
  rcases cast_valueText ft e.type e.value hp with h | ⟨h3, h4, h5⟩
  · rw [h]; rfl
  · rw [h5, h4]
    exact hdef (ht.trans h3)

/-- **C42.** Printing a configuration whose values print on one line without percent signs, and loading the text into a
fresh configuration, restores every parameter that has a printable value of its type. -/
theorem C42_restored (ft : FloatText K) (creatable : Text → Bool) (dir : Text) (disk : Disk) (c : Config K)
    (hc : keysOf c = keysOf (template (K := K))) (hp : PrintsPlain ft c) (s' : IniState K)
    (h : loadConfiguration ft creatable dir (some (printConfiguration ft c)) ⟨template, disk⟩ = (s', none)) (k : Text)
    (v : ConfigValue K) (hv : getParameter k c = .ok (some v))
    (hpv : ∀ e ∈ parameterTemplate (K := K) ++ debugTemplate, lower e.key = lower k → Printable ft e.type v) :
    getParameter k s'.config = .ok (some v) := by
  rw [loadConfiguration_iff ft creatable dir _ _ s' rfl] at h
  obtain ⟨hk, supplied, hsup, h1, h2, h3, h4⟩ := loaded_parameter ft creatable dir _ disk s' h
  rw [print_eq, iniParams_file _ (printed_plain ft c hc hp)] at hsup
  obtain rfl := Except.ok.inj hsup
  rw [getParameter_look _ hc] at hv
  have hv' := Except.ok.inj hv
  rw [getParameter_look _ hk]
  refine congrArg Except.ok ?_
  obtain ⟨ps, hps⟩ := Option.isSome_iff_exists.1 (known_par c hc)
  obtain ⟨ds, hds⟩ := Option.isSome_iff_exists.1 (section_known c hc s_deb
    (List.mem_cons_of_mem _ (List.mem_cons_of_mem _ List.mem_cons_self)))
  have lp : look c s_par k = (findEntry k ps).map (·.value) := by unfold look; rw [hps]; rfl
  have ld : look c s_deb k = (findEntry k ds).map (·.value) := by unfold look; rw [hds]; rfl
  cases hfp : findEntry k ps with
  | some e =>
    obtain ⟨e', he', hty⟩ := same_type c hc s_par ps _ hps template_parameters k e hfp
    have hmem : e' ∈ parameterTemplate (K := K) ++ debugTemplate :=
      List.mem_append_left _ (List.mem_of_find?_eq_some he')
    have hev : e.value = v := by
      rw [show look c "parameters".toList k = some e.value from by rw [lp, hfp]; rfl] at hv'
      exact Option.some.inj hv'
    have hpr := hpv e' hmem (findEntry_key _ _ _ he')
    rw [hty, ← hev] at hpr
    rw [h1 k e' he', contentOf_value, printed_value ft c hc, hps, Option.bind_some, hfp, Option.map_some,
      restored ft e e' hty hpr (list_default e' hmem), hev]
    rfl
  | none =>
    have hnp : findEntry k (parameterTemplate (K := K)) = none := by
      cases hcase : findEntry k (parameterTemplate (K := K)) with
      | none => rfl
      | some e =>
        obtain ⟨e', he', _⟩ : ∃ e', findEntry k ps = some e' ∧ True := by
          have := C39_set_one c hc k (.int 0)
          obtain ⟨c', b, hset, hb, _⟩ := this
          have hbt := hb.2 ⟨e, List.mem_of_find?_eq_some hcase, findEntry_key _ _ _ hcase⟩
          have := (setValue_known _ _ _ _ _ _ hset).1 hbt
          rw [show look c "parameters".toList k = _ from lp, hfp] at this
          cases this
        rw [hfp] at he'; cases he'
    rw [h3 k hnp]
    rw [show look c "parameters".toList k = none from by rw [lp, hfp]; rfl, Option.none_or,
      show look c "debug".toList k = _ from ld] at hv'
    cases hfd : findEntry k ds with
    | none => rw [hfd] at hv'; cases hv'
    | some e =>
      rw [hfd] at hv'
      have hev : e.value = v := Option.some.inj hv'
      obtain ⟨e', he', hty⟩ := same_type c hc s_deb ds _ hds template_debug k e hfd
      have hmem : e' ∈ parameterTemplate (K := K) ++ debugTemplate :=
        List.mem_append_right _ (List.mem_of_find?_eq_some he')
      have hpr := hpv e' hmem (findEntry_key _ _ _ he')
      rw [hty, ← hev] at hpr
      rw [h2 k e' he', contentOf_value, printed_value ft c hc, hds, Option.bind_some, hfd, Option.map_some,
        restored ft e e' hty hpr (list_default e' hmem), hev]
      rfl

/-- **C42, loading succeeds.** The printed text is loaded if the printed output directory exists or can be created. -/
theorem C42_loads (ft : FloatText K) (creatable : Text → Bool) (dir : Text) (disk : Disk) (c : Config K)
    (hc : keysOf c = keysOf (template (K := K))) (hp : PrintsPlain ft c)
    (hd : ∀ v, getValue "output".toList "OutputDirectory".toList c = .ok v →
      strip ((valueText ft v).takeWhile (· ≠ '#')) ∈ disk.dirs ∨
      creatable (strip ((valueText ft v).takeWhile (· ≠ '#'))) = true) :
    ∃ s', loadConfiguration ft creatable dir (some (printConfiguration ft c)) ⟨template, disk⟩ = (s', none) := by
  rw [print_eq]
  have hsec : ∀ n : Text, (dictGet c n).isSome → lower n = n → ∃ t ∈ printedContent ft c, lower t.1 = n := by
    intro n hn hl
    rw [dictGet_isSome] at hn
    obtain ⟨s, hs, rfl⟩ := List.mem_map.1 hn
    exact ⟨_, List.mem_map.2 ⟨s, hs, rfl⟩, hl⟩
  refine C40_succeeds ft creatable dir _ (printed_plain ft c hc hp) _ rfl (hsec _ (known_in c hc) (by decide))
    (hsec _ (known_out c hc) (by decide)) fun d hdv => ?_
  rw [printed_value ft c hc] at hdv
  obtain ⟨es, hes, hdv⟩ := Option.bind_eq_some_iff.1 hdv
  obtain ⟨e, he, rfl⟩ := Option.map_eq_some_iff.1 hdv
  right
  refine hd e.value ?_
  rw [getValue_look c _ _ (known_out c hc)]
  have : look c s_out "OutputDirectory".toList = some e.value := by
    unfold look
    rw [hes, Option.bind_some, he]; rfl
  rw [show look c "output".toList "OutputDirectory".toList = some e.value from this]

/-- The default configuration prints plainly. -/
theorem template_prints : PrintsPlain (decimalText ℚ) (template (K := ℚ)) := by
  unfold PrintsPlain
  decide +kernel

example :
    let c := (applyOps (fun _ => true) [.parameter "SkipMaps".toList (.int 3), .parameter "casename".toList
      (.str "Waal bocht".toList), .parameter "MinimumTotalWidth".toList (.float (3 / 4)),
      .parameter "SDCorrection".toList (.bool false)] ⟨template (K := ℚ), ⟨[], []⟩⟩).config
    let r := loadConfiguration (decimalText ℚ) (fun _ => true) ".".toList (some (printConfiguration (decimalText ℚ) c))
      ⟨template, ⟨[], []⟩⟩
    r.2 = none ∧ r.1.config.take 3 = c.take 3 := by
  decide +kernel

/-! ## C84: a rejected file -/

/-- **C84, partial.** A file that is not found, cannot be parsed or has no section `input` raises an error and leaves the
configuration and the disk as they were. What is missing: files without a section `output`, and files whose output
directory cannot be created, see `C84_violated`. -/
theorem C84_rejected_partial (ft : FloatText K) (creatable : Text → Bool) (dir : Text) (s : IniState K) :
    loadConfiguration ft creatable dir none s = (s, some .osError) ∧
    (∀ text e, iniParams text = .error e → loadConfiguration ft creatable dir (some text) s = (s, some e)) ∧
    (∀ text found, iniParams text = .ok found → (∀ t ∈ found, t.1 ≠ "input".toList) →
      loadConfiguration ft creatable dir (some text) s = (s, some .attributeError)) := by
  refine ⟨rfl, fun text e h => ?_, fun text found h hn => ?_⟩
  · unfold loadConfiguration readInifile
    simp only
    rw [h]
  · have hd : dictGet found "input".toList = none := by
      rw [dictGet_none]
      intro hm
      obtain ⟨t, ht, e⟩ := List.mem_map.1 hm
      exact hn t ht e
    unfold loadConfiguration readInifile
    simp only
    rw [h]
    simp only
    rw [hd]

/-- **C84, violated.** A file without a section `output` is rejected with an error, but its parameters are in force
afterwards. -/
theorem C84_violated :
    ∃ text, (loadConfiguration (decimalText ℚ) (fun _ => true) ".".toList (some text) ⟨template, ⟨[], []⟩⟩).2 =
        some .attributeError ∧
      getParameter "SkipMaps".toList (loadConfiguration (decimalText ℚ) (fun _ => true) ".".toList (some text)
        ⟨template, ⟨[], []⟩⟩).1.config = .ok (some (.int 7)) ∧
      getParameter "SkipMaps".toList (template (K := ℚ)) = .ok (some (.int 0)) :=
  ⟨"[input]\n[parameters]\nSkipMaps = 7\n".toList, by decide +kernel⟩

example : (iniParams "SkipMaps = 7\n".toList).toOption = none ∧ (iniParams "[input\n".toList).toOption = none ∧
    (iniParams "[parameters]\nSkipMaps = 7\nskipmaps = 8\n".toList).toOption = none ∧
    (iniParams "[parameters]\nSkipMaps : 7 # all\n\n".toList).toOption =
      some [("parameters".toList, [("skipmaps".toList, "7".toList)])] := by
  decide +kernel

/-! ## C85: input files of a printed configuration -/

/-- **C85, partial.** Printing a configuration and loading the text restores an input file that exists and whose path has
no `#` and no space at its ends, if the path is absolute or the configuration file lies in the current directory. What is
missing: relative paths and configuration files elsewhere, see `C85_violated`. -/
theorem C85_restored_partial (ft : FloatText K) (creatable : Text → Bool) (dir : Text) (disk : Disk) (c : Config K)
    (hc : keysOf c = keysOf (template (K := K))) (hp : PrintsPlain ft c) (s' : IniState K)
    (h : loadConfiguration ft creatable dir (some (printConfiguration ft c)) ⟨template, disk⟩ = (s', none)) (k p : Text)
    (hv : getInputFile k c = .ok (.path p)) (hf : p ∈ disk.files) (hne : p ≠ []) (ht : strip p = p) (hh : '#' ∉ p)
    (hdir : dir = ".".toList ∨ p.head? = some '/') : getInputFile k s'.config = .ok (.path p) := by
  rw [loadConfiguration_iff ft creatable dir _ _ s' rfl] at h
  obtain ⟨supplied, hsup, _, _, _, _, _, hk, _, hl⟩ := readInifile_spec ft creatable dir _ _ s' h
  have hsup' := hsup
  rw [print_eq, iniParams_file _ (printed_plain ft c hc hp)] at hsup
  obtain rfl := Except.ok.inj hsup
  obtain ⟨es, hes⟩ := Option.isSome_iff_exists.1 (known_in c hc)
  unfold getInputFile at hv ⊢
  rw [getValue_look c _ _ (known_in c hc)] at hv
  rw [getValue_look _ _ _ (known_in _ hk), hl]
  have hlk : look c s_in k = (findEntry k es).map (·.value) := by unfold look; rw [hes]; rfl
  cases hfe : findEntry k es with
  | none =>
    rw [show look c "input".toList k = none from by rw [hlk, hfe]; rfl] at hv
    cases hv
  | some e =>
    rw [show look c "input".toList k = some e.value from by rw [hlk, hfe]; rfl] at hv
    have hev : e.value = .path p := Except.ok.inj hv
    obtain ⟨e', he', _⟩ := same_type c hc s_in es _ hes template_input k e hfe
    have hjoin : joinPath dir p = p := by
      unfold joinPath
      by_cases hab : p.head? = some '/'
      · rw [if_pos hab]
      · rw [if_neg hab, if_neg hne, if_pos]
        rcases hdir with h | h
        · exact h
        · exact absurd h hab
    have hsv : suppliedValue ft dir disk.files (contentOf (printedContent ft c)) "input".toList k = some (.path p) := by
      unfold suppliedValue
      rw [if_pos rfl, newest_supplied _ _ _ hsup', contentOf_value, printed_value ft c hc,
        show dictGet c "input".toList = some es from hes, Option.bind_some, hfe, Option.map_some, Option.bind_some, hev]
      have : strip ((valueText ft (ConfigValue.path (K := K) p)).takeWhile (· ≠ '#')) = p := by
        simp only [valueText]
        rw [takeWhile_of_not_mem _ _ hh, ht]
      rw [this]
      unfold inputValue
      simp only
      rw [findEntry_congr _ (lower_lower k), he', Option.bind_some, hjoin, if_pos hf]
    simp only
    rw [hsv, look_template _ _ template_input, he']
    rfl

/-- **C85, violated.** The configuration of a project in the directory `project` has been loaded, with the map file next
to it. Printed to the same directory and loaded again, the map file is lost. -/
theorem C85_violated :
    let disk : Disk := ⟨["project/map.nc".toList], ["out".toList]⟩
    let first := loadConfiguration (decimalText ℚ) (fun _ => true) "project".toList
      (some "[input]\n2DMapOutput = map.nc\n[output]\nOutputDirectory = out\n".toList) ⟨template, disk⟩
    let second := loadConfiguration (decimalText ℚ) (fun _ => true) "project".toList
      (some (printConfiguration (decimalText ℚ) first.1.config)) ⟨template, disk⟩
    first.2 = none ∧ second.2 = none ∧
      getInputFile "2DMapOutput".toList first.1.config = .ok (.path "project/map.nc".toList) ∧
      getInputFile "2DMapOutput".toList second.1.config = .ok (.str []) := by
  decide +kernel

/-! ## C86: the output directory -/

/-- **C86, asking.** If the project says that it has an output directory, the directory it names exists afterwards; the
configuration is unchanged and nothing is removed. -/
theorem C86_has_directory (ft : FloatText K) (mkdir : Text → MkdirResult) (dir : Text) (s s' : IniState K)
    (h : hasOutputDirectory ft mkdir dir s = .ok (true, s')) :
    s'.config = s.config ∧ (∀ p, getOutputDirectory ft dir s'.config = .ok p → p ∈ s'.disk.files ∨ p ∈ s'.disk.dirs) ∧
      s'.disk.files = s.disk.files ∧ ∀ p ∈ s.disk.dirs, p ∈ s'.disk.dirs := by
  unfold hasOutputDirectory at h
  cases hg : getOutputDirectory ft dir s.config with
  | error e => rw [hg] at h; cases h
  | ok p =>
    rw [hg] at h
    simp only at h
    by_cases hp : p ∈ s.disk.files ∨ p ∈ s.disk.dirs
    · rw [if_pos hp] at h
      obtain rfl := (Prod.mk.inj (Except.ok.inj h)).2
      refine ⟨rfl, fun q hq => ?_, rfl, fun _ h => h⟩
      rw [hg] at hq
      obtain rfl := Except.ok.inj hq
      exact hp
    · rw [if_neg hp] at h
      cases hm : mkdir p with
      | notFound => rw [hm] at h; cases (Prod.mk.inj (Except.ok.inj h)).1
      | refused => rw [hm] at h; cases h
      | made =>
        rw [hm] at h
        obtain rfl := (Prod.mk.inj (Except.ok.inj h)).2
        refine ⟨rfl, fun q hq => ?_, rfl, fun q hq => List.mem_append_left _ hq⟩
        simp only at hq
        rw [hg] at hq
        obtain rfl := Except.ok.inj hq
        right; simp

/-- **C86, partial.** After setting the output directory without an error the directory that the project names exists, if
the path is absolute or the configuration file lies in the current directory. What is missing: relative paths and
configuration files elsewhere, see `C86_violated`. -/
theorem C86_set_partial (ft : FloatText K) (creatable : Text → Bool) (dir d : Text) (s s' : IniState K)
    (hs : keysOf s.config = keysOf (template (K := K))) (hne : d ≠ []) (hdir : dir = ".".toList ∨ d.head? = some '/')
    (h : setOutputDirectory creatable d s = (s', none)) :
    getOutputDirectory ft dir s'.config = .ok d ∧ (d ∈ s'.disk.files ∨ d ∈ s'.disk.dirs) := by
  obtain ⟨h1, _, _, h4, _, h6⟩ := setOutputDirectory_spec creatable d s s' h
  refine ⟨?_, h1⟩
  have hk : TemplateKeys s'.config := h4.trans hs
  unfold getOutputDirectory
  rw [getValue_look _ _ _ (known_out _ hk), h6, if_pos ⟨rfl, rfl⟩]
  obtain ⟨es, hes⟩ := Option.isSome_iff_exists.1 (known_out _ hs)
  have hsome : (look s.config s_out "OutputDirectory".toList).isSome := by
    have hm : (s_out, es.map fun e => (e.key, e.type, e.hint)) ∈ templateKeys := by
      rw [← keysOf_template (K := K), ← hs]; exact List.mem_map.2 ⟨_, dictGet_mem _ _ _ hes, rfl⟩
    have hall : ∀ t ∈ templateKeys, t.1 = "output".toList → ∃ k ∈ t.2, lower k.1 = lower "OutputDirectory".toList := by
      decide +kernel
    obtain ⟨k, hkm, hkl⟩ := hall _ hm rfl
    obtain ⟨e, he, rfl⟩ := List.mem_map.1 hkm
    unfold look
    rw [hes, Option.bind_some, Option.isSome_map]
    unfold findEntry
    rw [List.find?_isSome]
    exact ⟨e, he, decide_eq_true hkl⟩
  obtain ⟨old, hold⟩ := Option.isSome_iff_exists.1 hsome
  rw [show look s.config "output".toList "OutputDirectory".toList = some old from hold]
  simp only [Option.map_some, valueText]
  refine congrArg Except.ok ?_
  unfold joinPath
  by_cases hab : d.head? = some '/'
  · rw [if_pos hab]
  · rw [if_neg hab, if_neg hne, if_pos]
    rcases hdir with h | h
    · exact h
    · exact absurd h hab

/-- **C86, violated.** With the configuration file in the directory `project`, setting the output directory creates one
directory and names another one, which does not exist. -/
theorem C86_violated :
    let r := setOutputDirectory (fun _ => true) "out".toList (⟨template, ⟨[], ["project".toList]⟩⟩ : IniState ℚ)
    r.2 = none ∧ "out".toList ∈ r.1.disk.dirs ∧
      getOutputDirectory (decimalText ℚ) "project".toList r.1.config = .ok "project/out".toList ∧
      "project/out".toList ∉ r.1.disk.files ∧ "project/out".toList ∉ r.1.disk.dirs := by
  decide +kernel

example :
    (hasOutputDirectory (decimalText ℚ) (fun _ => .made) "project".toList
      (⟨template, ⟨[], []⟩⟩ : IniState ℚ)).toOption.map (fun r => (r.1, r.2.disk.dirs)) =
      some (true, ["project/output".toList]) := by
  decide +kernel

end Fm2prof.Props

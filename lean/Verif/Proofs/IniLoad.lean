import Verif.Proofs.IniFile

/-! Helper lemmas about loading a configuration. -/

set_option linter.unusedSectionVars false

namespace Fm2prof

open Spec

variable {K : Type} [Field K] [LinearOrder K] [IsStrictOrderedRing K] [FloorRing K]

/-- The value a list of items gives for a key: that of the last item with this key that has a value. -/
def newest (val : Text × Text → Option (ConfigValue K)) (items : List (Text × Text)) (k : Text) :
    Option (ConfigValue K) :=
  items.reverse.findSome? fun it => if lower it.1 = lower k then val it else none

theorem newest_cons (val : Text × Text → Option (ConfigValue K)) (it : Text × Text) (items : List (Text × Text))
    (k : Text) :
    newest val (it :: items) k = (newest val items k).or (if lower it.1 = lower k then val it else none) := by
  unfold newest
  rw [List.reverse_cons, List.findSome?_append, List.findSome?_singleton]

/-- With different keys there is at most one. -/
theorem newest_nodup (val : Text × Text → Option (ConfigValue K)) (items : List (Text × Text)) (k : Text)
    (hn : (items.map (·.1)).Nodup) (hl : ∀ it ∈ items, lower it.1 = it.1) :
    newest val items k = (dictGet items (lower k)).bind fun t => val (lower k, t) := by
  induction items with
  | nil => rfl
  | cons it items ih =>
    rw [List.map_cons, List.nodup_cons] at hn
    rw [newest_cons, dictGet_cons, ih hn.2 fun i hi => hl i (List.mem_cons_of_mem _ hi)]
    have hit := hl it (by simp)
    rw [hit]
    by_cases h : it.1 = lower k
    · rw [if_pos h, if_pos h]
      have : dictGet items (lower k) = none := by
        cases hd : dictGet items (lower k) with
        | none => rfl
        | some t =>
          have hm := (dictGet_isSome items (lower k)).1 (by rw [hd]; rfl)
          rw [← h] at hm
          exact absurd hm hn.1
      rw [this]
      simp [← h]
    · rw [if_neg h, if_neg h, Option.or_none]

/-- A step that gives a value to a key of a section. -/
structure Setter (op : IniState K → Text × Text → IniState K) (sec : Text) (files : List Text)
    (val : Text × Text → Option (ConfigValue K)) : Prop where
  value : ∀ st it s k, st.disk.files = files → look (op st it).config s k =
    if s = sec ∧ lower it.1 = lower k then (look st.config s k).map fun old => (val it).getD old else look st.config s k
  keys : ∀ st it, keysOf (op st it).config = keysOf st.config
  disk : ∀ st it, (op st it).disk = st.disk

theorem Setter.fold {op : IniState K → Text × Text → IniState K} {sec : Text} {files : List Text}
    {val : Text × Text → Option (ConfigValue K)} (h : Setter op sec files val) (items : List (Text × Text))
    (st : IniState K) (hf : st.disk.files = files) (s k : Text) :
    look (items.foldl op st).config s k =
      if s = sec then (look st.config s k).map fun old => (newest val items k).getD old else look st.config s k := by
  induction items generalizing st with
  | nil =>
    rw [List.foldl_nil]
    by_cases hs : s = sec
    · rw [if_pos hs]; simp [newest]
    · rw [if_neg hs]
  | cons it items ih =>
    rw [List.foldl_cons, ih _ (by rw [h.disk]; exact hf), h.value st it s k hf]
    by_cases hs : s = sec
    · rw [if_pos hs, if_pos hs]
      rw [newest_cons]
      by_cases hk : lower it.1 = lower k
      · rw [if_pos ⟨hs, hk⟩, if_pos hk, Option.map_map]
        refine congrArg (fun f => Option.map f _) ?_
        funext old
        simp only [Function.comp_apply]
        cases newest val items k <;> rfl
      · rw [if_neg fun h => hk h.2, if_neg hk, Option.or_none]
    · rw [if_neg hs, if_neg hs, if_neg fun h => hs h.1]

theorem Setter.fold_keys {op : IniState K → Text × Text → IniState K} {sec : Text} {files : List Text}
    {val : Text × Text → Option (ConfigValue K)} (h : Setter op sec files val) (items : List (Text × Text))
    (st : IniState K) : keysOf (items.foldl op st).config = keysOf st.config := by
  induction items generalizing st with
  | nil => rfl
  | cons it items ih => rw [List.foldl_cons, ih, h.keys]

theorem Setter.fold_disk {op : IniState K → Text × Text → IniState K} {sec : Text} {files : List Text}
    {val : Text × Text → Option (ConfigValue K)} (h : Setter op sec files val) (items : List (Text × Text))
    (st : IniState K) : (items.foldl op st).disk = st.disk := by
  induction items generalizing st with
  | nil => rfl
  | cons it items ih => rw [List.foldl_cons, ih, h.disk]

theorem findEntry_key (k : Text) (es : List (Entry K)) (e : Entry K) (h : findEntry k es = some e) :
    lower e.key = lower k := by
  unfold findEntry at h
  have := List.find?_some h
  simpa using this

/-- The value of an item with a parameter. -/
def parameterValue (ft : FloatText K) (entries : List (Entry K)) (it : Text × Text) : Option (ConfigValue K) :=
  (findEntry it.1 entries).bind fun e => castValue ft e.type it.2

/-- The value of an item with an input file. -/
def inputValue (dir : Text) (files : List Text) (it : Text × Text) : Option (ConfigValue K) :=
  (findEntry it.1 (inputTemplate (K := K))).bind fun _ =>
    if joinPath dir it.2 ∈ files then some (.path (joinPath dir it.2)) else none

theorem keep_map {α : Type} (o : Option α) : o.map (fun old => (none : Option α).getD old) = o := by
  cases o <;> rfl

theorem parameter_setter (ft : FloatText K) (sec : Text) (entries : List (Entry K)) (files : List Text) :
    Setter (parameterItem ft sec entries) sec files (parameterValue ft entries) where
  value st it s k _ := by
    unfold parameterItem parameterValue
    cases he : findEntry it.1 entries with
    | none => simp only [Option.bind_none]; rw [keep_map]; split <;> rfl
    | some e =>
      simp only [Option.bind_some]
      cases castValue ft e.type it.2 with
      | none => simp only; rw [keep_map]; split <;> rfl
      | some v =>
        simp only
        rw [look_set, findEntry_key _ _ _ he]
        by_cases h : s = sec ∧ lower k = lower it.1
        · rw [if_pos h, if_pos ⟨h.1, h.2.symm⟩]; rfl
        · rw [if_neg h, if_neg fun h' => h ⟨h'.1, h'.2.symm⟩]
  keys st it := by
    unfold parameterItem
    cases findEntry it.1 entries with
    | none => rfl
    | some e =>
      simp only
      cases castValue ft e.type it.2 with
      | none => rfl
      | some v => exact keysOf_set _ _ _ _
  disk st it := by
    unfold parameterItem
    cases findEntry it.1 entries with
    | none => rfl
    | some e =>
      simp only
      cases castValue ft e.type it.2 with
      | none => rfl
      | some v => exact disk_set _ _ _ _

theorem input_setter (dir : Text) (files : List Text) :
    Setter (K := K) (inputItem dir) "input".toList files (inputValue dir files) where
  value st it s k hf := by
    unfold inputItem inputValue
    cases he : findEntry it.1 (inputTemplate (K := K)) with
    | none => simp only [Option.bind_none]; rw [keep_map]; split <;> rfl
    | some e =>
      simp only [Option.bind_some]
      rw [hf]
      by_cases hm : joinPath dir it.2 ∈ files
      · rw [if_pos hm, if_pos hm, look_set, findEntry_key _ _ _ he]
        by_cases h : s = "input".toList ∧ lower k = lower it.1
        · rw [if_pos h, if_pos ⟨h.1, h.2.symm⟩]; rfl
        · rw [if_neg h, if_neg fun h' => h ⟨h'.1, h'.2.symm⟩]
      · rw [if_neg hm, if_neg hm, keep_map]; split <;> rfl
  keys st it := by
    unfold inputItem
    cases findEntry it.1 (inputTemplate (K := K)) with
    | none => rfl
    | some e =>
      simp only
      split
      · exact keysOf_set _ _ _ _
      · rfl
  disk st it := by
    unfold inputItem
    cases findEntry it.1 (inputTemplate (K := K)) with
    | none => rfl
    | some e =>
      simp only
      split
      · exact disk_set _ _ _ _
      · rfl

/-! ## The output directory -/

/-- Whether a path exists. -/
def Disk.has (d : Disk) (p : Text) : Prop := p ∈ d.files ∨ p ∈ d.dirs

theorem setOutputDirectory_spec (creatable : Text → Bool) (dir : Text) (s s' : IniState K)
    (h : setOutputDirectory creatable dir s = (s', none)) :
    s'.disk.has dir ∧ s'.disk.files = s.disk.files ∧ (∀ d ∈ s.disk.dirs, d ∈ s'.disk.dirs) ∧
      keysOf s'.config = keysOf s.config ∧ (s.disk.has dir → s'.disk = s.disk) ∧
      ∀ sec k, look s'.config sec k = if sec = "output".toList ∧ lower k = lower "OutputDirectory".toList
        then (look s.config sec k).map fun _ => .path dir else look s.config sec k := by
  unfold setOutputDirectory at h
  by_cases hd : dir ∈ s.disk.files ∨ dir ∈ s.disk.dirs
  · rw [if_pos hd] at h
    obtain rfl := (Prod.mk.inj h).1
    refine ⟨?_, by rw [disk_set], fun d hd => by rw [disk_set]; exact hd, keysOf_set _ _ _ _, fun _ => disk_set _ _ _ _,
      look_set _ _ _ _⟩
    unfold Disk.has; rw [disk_set]; exact hd
  · rw [if_neg hd] at h
    cases hc : creatable dir with
    | false => rw [hc] at h; cases (Prod.mk.inj h).2
    | true =>
      rw [hc, if_pos rfl] at h
      obtain rfl := (Prod.mk.inj h).1
      refine ⟨?_, by rw [disk_set], fun d hd => by rw [disk_set]; exact List.mem_append_left _ hd, keysOf_set _ _ _ _,
        fun hh => absurd hh hd, look_set _ _ _ _⟩
      unfold Disk.has; rw [disk_set]; right; simp

/-- The directories given in the section `output`. -/
def outputDirs (items : List (Text × Text)) : List Text :=
  (items.filter fun it => lower it.1 = lower "OutputDirectory".toList).map (·.2)

theorem outputDirs_pos (it : Text × Text) (items : List (Text × Text))
    (h : lower it.1 = lower "OutputDirectory".toList) : outputDirs (it :: items) = it.2 :: outputDirs items := by
  unfold outputDirs
  rw [List.filter_cons, if_pos (decide_eq_true h), List.map_cons]

theorem outputDirs_neg (it : Text × Text) (items : List (Text × Text))
    (h : ¬ lower it.1 = lower "OutputDirectory".toList) : outputDirs (it :: items) = outputDirs items := by
  unfold outputDirs
  rw [List.filter_cons, if_neg]
  rw [decide_eq_true_iff]; exact h

theorem lower_output : lower "OutputDirectory".toList = "outputdirectory".toList := by decide

theorem outputItems_spec (creatable : Text → Bool) (items : List (Text × Text)) (s s' : IniState K)
    (h : outputItems creatable items s = (s', none)) :
    (∀ d ∈ outputDirs items, s'.disk.has d) ∧ s'.disk.files = s.disk.files ∧ (∀ d ∈ s.disk.dirs, d ∈ s'.disk.dirs) ∧
      keysOf s'.config = keysOf s.config ∧ ((∀ d ∈ outputDirs items, s.disk.has d) → s'.disk = s.disk) ∧
      ∀ sec k, look s'.config sec k = if sec = "output".toList ∧ lower k = lower "OutputDirectory".toList
        then (look s.config sec k).map fun old => ((outputDirs items).getLast?.map ConfigValue.path).getD old
        else look s.config sec k := by
  induction items generalizing s with
  | nil =>
    obtain rfl := (Prod.mk.inj h).1
    refine ⟨by simp [outputDirs], rfl, fun _ h => h, rfl, fun _ => rfl, fun sec k => ?_⟩
    split
    · simp [outputDirs]
    · rfl
  | cons it items ih =>
    rw [outputItems] at h
    by_cases hk : lower it.1 = "outputdirectory".toList
    · rw [if_pos hk] at h
      have hk' : lower it.1 = lower "OutputDirectory".toList := hk.trans lower_output.symm
      rw [outputDirs_pos it items hk']
      cases ho : setOutputDirectory creatable it.2 s with
      | mk s1 e1 =>
        rw [ho] at h
        cases e1 with
        | some e => cases (Prod.mk.inj h).2
        | none =>
          simp only at h
          obtain ⟨a1, a2, a3, a4, a5, a6⟩ := setOutputDirectory_spec creatable it.2 s s1 ho
          obtain ⟨b1, b2, b3, b4, b5, b6⟩ := ih s1 h
          refine ⟨?_, b2.trans a2, fun d hd => b3 d (a3 d hd), b4.trans a4, ?_, ?_⟩
          · intro d hd
            rw [List.mem_cons] at hd
            rcases hd with e | hd
            · rw [e]
              rcases a1 with h1 | h1
              · left; rw [b2]; exact h1
              · right; exact b3 _ h1
            · exact b1 d hd
          · intro hh
            have e1 := a5 (hh it.2 List.mem_cons_self)
            rw [b5, e1]
            intro d hd
            rw [e1]
            exact hh d (List.mem_cons_of_mem _ hd)
          · intro sec k
            rw [b6, a6]
            by_cases hc : sec = "output".toList ∧ lower k = lower "OutputDirectory".toList
            · rw [if_pos hc, if_pos hc, if_pos hc, Option.map_map]
              refine congrArg (fun f => Option.map f _) ?_
              funext old
              rw [Function.comp_apply, List.getLast?_cons]
              cases (outputDirs items).getLast? <;> rfl
            · rw [if_neg hc, if_neg hc, if_neg hc]
    · rw [if_neg hk] at h
      have hk' : ¬ lower it.1 = lower "OutputDirectory".toList := fun e => hk (e.trans lower_output)
      rw [outputDirs_neg it items hk']
      exact ih s h

theorem outputItems_again (creatable : Text → Bool) (items : List (Text × Text)) (s : IniState K)
    (h : ∀ d ∈ outputDirs items, s.disk.has d) : ∃ s', outputItems creatable items s = (s', none) := by
  induction items generalizing s with
  | nil => exact ⟨s, rfl⟩
  | cons it items ih =>
    rw [outputItems]
    by_cases hk : lower it.1 = "outputdirectory".toList
    · have hk' : lower it.1 = lower "OutputDirectory".toList := hk.trans lower_output.symm
      rw [outputDirs_pos it items hk'] at h
      rw [if_pos hk]
      have hd : it.2 ∈ s.disk.files ∨ it.2 ∈ s.disk.dirs := h it.2 List.mem_cons_self
      have ho : setOutputDirectory creatable it.2 s =
          (s.set "output".toList "OutputDirectory".toList (.path it.2), none) := by
        unfold setOutputDirectory; rw [if_pos hd]
      rw [ho]
      simp only
      refine ih _ fun d hd => ?_
      unfold Disk.has; rw [disk_set]
      exact h d (List.mem_cons_of_mem _ hd)
    · have hk' : ¬ lower it.1 = lower "OutputDirectory".toList := fun e => hk (e.trans lower_output)
      rw [outputDirs_neg it items hk'] at h
      rw [if_neg hk]
      exact ih s h

/-! ## Reading a file -/

/-- The value a file gives for a key of a section. -/
def suppliedValue (ft : FloatText K) (dir : Text) (files : List Text) (supplied : List (Text × List (Text × Text)))
    (sec k : Text) : Option (ConfigValue K) :=
  if sec = "input".toList then newest (inputValue dir files) ((dictGet supplied sec).getD []) k
  else if sec = "parameters".toList then newest (parameterValue ft parameterTemplate) ((dictGet supplied sec).getD []) k
  else if sec = "debug".toList then newest (parameterValue ft debugTemplate) ((dictGet supplied sec).getD []) k
  else if sec = "output".toList ∧ lower k = lower "OutputDirectory".toList then
    (outputDirs ((dictGet supplied sec).getD [])).getLast?.map ConfigValue.path
  else none

theorem extract_look (ft : FloatText K) (sec : Text) (entries : List (Entry K))
    (supplied : List (Text × List (Text × Text))) (st : IniState K) (s k : Text) :
    look (extractParameters ft sec entries supplied st).config s k =
      if s = sec then (look st.config s k).map fun old =>
        (newest (parameterValue ft entries) ((dictGet supplied sec).getD []) k).getD old
      else look st.config s k := by
  unfold extractParameters
  cases dictGet supplied sec with
  | none =>
    simp only [Option.getD_none]
    split
    · simp [newest]
    · rfl
  | some items =>
    simp only [Option.getD_some]
    exact (parameter_setter ft sec entries st.disk.files).fold items st rfl s k

theorem extract_keys (ft : FloatText K) (sec : Text) (entries : List (Entry K))
    (supplied : List (Text × List (Text × Text))) (st : IniState K) :
    keysOf (extractParameters ft sec entries supplied st).config = keysOf st.config ∧
      (extractParameters ft sec entries supplied st).disk = st.disk := by
  unfold extractParameters
  cases dictGet supplied sec with
  | none => exact ⟨rfl, rfl⟩
  | some items =>
    exact ⟨(parameter_setter ft sec entries st.disk.files).fold_keys items st,
      (parameter_setter ft sec entries st.disk.files).fold_disk items st⟩

theorem sec_ne : "parameters".toList ≠ "input".toList ∧ "debug".toList ≠ "input".toList ∧
    "debug".toList ≠ "parameters".toList ∧ "output".toList ≠ "input".toList ∧ "output".toList ≠ "parameters".toList ∧
    "output".toList ≠ "debug".toList := by decide

/-- What reading a file does to the values, when it succeeds. -/
theorem readInifile_spec (ft : FloatText K) (creatable : Text → Bool) (dir text : Text) (s s' : IniState K)
    (h : readInifile ft creatable dir text s = (s', none)) :
    ∃ supplied, iniParams text = .ok supplied ∧ (dictGet supplied "input".toList).isSome ∧
      (dictGet supplied "output".toList).isSome ∧
      (∀ d ∈ outputDirs ((dictGet supplied "output".toList).getD []), s'.disk.has d) ∧
      s'.disk.files = s.disk.files ∧ (∀ d ∈ s.disk.dirs, d ∈ s'.disk.dirs) ∧
      keysOf s'.config = keysOf s.config ∧
      ((∀ d ∈ outputDirs ((dictGet supplied "output".toList).getD []), s.disk.has d) → s'.disk = s.disk) ∧
      ∀ sec k, look s'.config sec k =
        (look s.config sec k).map fun old => (suppliedValue ft dir s.disk.files supplied sec k).getD old := by
  unfold readInifile at h
  cases hp : iniParams text with
  | error e => rw [hp] at h; cases (Prod.mk.inj h).2
  | ok supplied =>
    rw [hp] at h
    simp only at h
    cases hi : dictGet supplied "input".toList with
    | none => rw [hi] at h; cases (Prod.mk.inj h).2
    | some items =>
      rw [hi] at h
      simp only at h
      cases ho : dictGet supplied "output".toList with
      | none => rw [ho] at h; cases (Prod.mk.inj h).2
      | some outs =>
        rw [ho] at h
        simp only at h
        have hin := input_setter (K := K) dir s.disk.files
        obtain ⟨k2, d2⟩ := extract_keys ft "parameters".toList parameterTemplate supplied (items.foldl (inputItem dir) s)
        obtain ⟨k3, d3⟩ := extract_keys ft "debug".toList debugTemplate supplied
          (extractParameters ft "parameters".toList parameterTemplate supplied (items.foldl (inputItem dir) s))
        have hd := d3.trans (d2.trans (hin.fold_disk items s))
        have hk := k3.trans (k2.trans (hin.fold_keys items s))
        obtain ⟨b1, b2, b3, b4, b5, b6⟩ := outputItems_spec creatable outs _ s' h
        rw [hd] at b2 b3 b5
        rw [hk] at b4
        refine ⟨supplied, rfl, by rw [hi]; rfl, by rw [ho]; rfl, by rw [ho]; exact b1, b2, b3, b4,
          by rw [ho]; exact b5, fun sec k => ?_⟩
        rw [b6, extract_look, extract_look, hin.fold items s rfl]
        obtain ⟨n1, n2, n3, n4, n5, n6⟩ := sec_ne
        unfold suppliedValue
        by_cases c1 : sec = "input".toList
        · rw [c1, if_neg fun h => n4 h.1.symm, if_neg n2.symm, if_neg n1.symm, if_pos rfl, if_pos rfl, hi]; rfl
        · rw [if_neg c1, if_neg c1]
          by_cases c2 : sec = "parameters".toList
          · rw [c2, if_neg fun h => n5 h.1.symm, if_neg n3.symm, if_pos rfl, if_pos rfl]
          · rw [if_neg c2, if_neg c2]
            by_cases c3 : sec = "debug".toList
            · rw [c3, if_neg fun h => n6 h.1.symm, if_pos rfl, if_pos rfl]
            · rw [if_neg c3, if_neg c3]
              by_cases c4 : sec = "output".toList ∧ lower k = lower "OutputDirectory".toList
              · rw [if_pos c4, if_pos c4, c4.1, ho]; rfl
              · rw [if_neg c4, if_neg c4, keep_map]

theorem setOutputDirectory_keys (creatable : Text → Bool) (dir : Text) (s : IniState K) :
    keysOf (setOutputDirectory creatable dir s).1.config = keysOf s.config := by
  unfold setOutputDirectory
  split
  · exact keysOf_set _ _ _ _
  · split
    · exact keysOf_set _ _ _ _
    · rfl

theorem outputItems_keys (creatable : Text → Bool) (items : List (Text × Text)) (s : IniState K) :
    keysOf (outputItems creatable items s).1.config = keysOf s.config := by
  induction items generalizing s with
  | nil => rfl
  | cons it items ih =>
    rw [outputItems]
    split
    · have := setOutputDirectory_keys creatable it.2 s
      cases h : setOutputDirectory creatable it.2 s with
      | mk s1 e1 =>
        rw [h] at this
        cases e1 with
        | some e => exact this
        | none => exact (ih s1).trans this
    · exact ih s

theorem readInifile_keys (ft : FloatText K) (creatable : Text → Bool) (dir text : Text) (s : IniState K) :
    keysOf (readInifile ft creatable dir text s).1.config = keysOf s.config := by
  unfold readInifile
  cases iniParams text with
  | error e => rfl
  | ok supplied =>
    simp only
    cases dictGet supplied "input".toList with
    | none => rfl
    | some items =>
      simp only
      have hin := input_setter (K := K) dir s.disk.files
      have k2 := (extract_keys ft "parameters".toList parameterTemplate supplied (items.foldl (inputItem dir) s)).1
      have k3 := (extract_keys ft "debug".toList debugTemplate supplied
        (extractParameters ft "parameters".toList parameterTemplate supplied (items.foldl (inputItem dir) s))).1
      have hk := k3.trans (k2.trans (hin.fold_keys items s))
      cases dictGet supplied "output".toList with
      | none => exact hk
      | some outs => exact (outputItems_keys creatable outs _).trans hk

theorem loadConfiguration_keys (ft : FloatText K) (creatable : Text → Bool) (dir : Text) (text : Option Text)
    (s : IniState K) : keysOf (loadConfiguration ft creatable dir text s).1.config = keysOf s.config := by
  unfold loadConfiguration
  cases text with
  | none => rfl
  | some t =>
    simp only
    have h1 := readInifile_keys ft creatable dir t s
    cases h : readInifile ft creatable dir t s with
    | mk s1 e1 =>
      rw [h] at h1
      cases e1 with
      | some e => exact h1
      | none => exact (readInifile_keys ft creatable dir t s1).trans h1

/-- Reading succeeds again when it has succeeded. -/
theorem readInifile_again (ft : FloatText K) (creatable : Text → Bool) (dir text : Text)
    (supplied : List (Text × List (Text × Text))) (s : IniState K) (hp : iniParams text = .ok supplied)
    (hi : (dictGet supplied "input".toList).isSome) (ho : (dictGet supplied "output".toList).isSome)
    (hd : ∀ d ∈ outputDirs ((dictGet supplied "output".toList).getD []), s.disk.has d) :
    ∃ s', readInifile ft creatable dir text s = (s', none) := by
  obtain ⟨items, hi⟩ := Option.isSome_iff_exists.1 hi
  obtain ⟨outs, ho⟩ := Option.isSome_iff_exists.1 ho
  rw [ho] at hd
  have hin := input_setter (K := K) dir s.disk.files
  obtain ⟨k2, d2⟩ := extract_keys ft "parameters".toList parameterTemplate supplied (items.foldl (inputItem dir) s)
  obtain ⟨k3, d3⟩ := extract_keys ft "debug".toList debugTemplate supplied
    (extractParameters ft "parameters".toList parameterTemplate supplied (items.foldl (inputItem dir) s))
  obtain ⟨s', h⟩ := outputItems_again creatable outs (extractParameters ft "debug".toList debugTemplate supplied
    (extractParameters ft "parameters".toList parameterTemplate supplied (items.foldl (inputItem dir) s))) (by
      rw [d3.trans (d2.trans (hin.fold_disk items s))]; exact hd)
  refine ⟨s', ?_⟩
  unfold readInifile
  rw [hp]
  simp only
  rw [hi]
  simp only
  rw [ho]
  exact h

/-- Reading a file that was read changes nothing. -/
theorem readInifile_idem (ft : FloatText K) (creatable : Text → Bool) (dir text : Text) (s s' : IniState K)
    (hs : TemplateKeys s.config) (h : readInifile ft creatable dir text s = (s', none)) :
    readInifile ft creatable dir text s' = (s', none) := by
  obtain ⟨supplied, hp, hi, ho, hd, hf, hdirs, hk, hd', hl⟩ := readInifile_spec ft creatable dir text s s' h
  obtain ⟨s2, h2⟩ := readInifile_again ft creatable dir text supplied s' hp hi ho hd
  obtain ⟨sup2, hp2, _, _, _, hf2, _, hk2, hd2, hl2⟩ := readInifile_spec ft creatable dir text s' s2 h2
  obtain rfl : supplied = sup2 := Except.ok.inj (hp.symm.trans hp2)
  rw [h2]
  have e1 : s2.disk = s'.disk := hd2 hd
  have e2 : s2.config = s'.config := by
    refine config_ext _ _ (hk2.trans (hk.trans hs)) (hk.trans hs) fun sec k => ?_
    rw [hl2, hl, hf, Option.map_map]
    refine congrArg (fun f => Option.map f _) ?_
    funext old
    simp only [Function.comp_apply]
    cases suppliedValue ft dir s.disk.files supplied sec k <;> rfl
  cases s2; cases s'
  simp only at e1 e2
  rw [e1, e2]

theorem loadConfiguration_iff (ft : FloatText K) (creatable : Text → Bool) (dir text : Text) (s s' : IniState K)
    (hs : TemplateKeys s.config) :
    loadConfiguration ft creatable dir (some text) s = (s', none) ↔ readInifile ft creatable dir text s = (s', none) := by
  unfold loadConfiguration
  simp only
  cases h : readInifile ft creatable dir text s with
  | mk s1 e1 =>
    cases e1 with
    | some e => simp
    | none =>
      simp only
      rw [readInifile_idem ft creatable dir text s s1 hs h]

end Fm2prof

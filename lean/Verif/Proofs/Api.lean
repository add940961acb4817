import Verif.Spec.Api
import Verif.Proofs.History
import Verif.Props.MapPath

/-! Lemmas on scripts. -/

set_option linter.unusedSectionVars false

namespace Fm2prof.ApiProof

open Fm2prof Spec Props SettingsProof ProjectProof ProgramProof HistoryProof

variable {K : Type} [Field K] [LinearOrder K] [IsStrictOrderedRing K] [FloorRing K]

private abbrev a_in : Text := "input".toList
private abbrev a_par : Text := "parameters".toList
private abbrev a_deb : Text := "debug".toList
private abbrev a_out : Text := "output".toList

theorem known_input (c : Config K) (h : TemplateKeys c) : (dictGet c a_in).isSome :=
  section_known c h _ List.mem_cons_self

theorem known_parameters (c : Config K) (h : TemplateKeys c) : (dictGet c a_par).isSome :=
  section_known c h _ (List.mem_cons_of_mem _ List.mem_cons_self)

theorem known_output (c : Config K) (h : TemplateKeys c) : (dictGet c a_out).isSome :=
  section_known c h _ (List.mem_cons_of_mem _ (List.mem_cons_of_mem _ (List.mem_cons_of_mem _ List.mem_cons_self)))

/-- What a call leaves alone of the files: everything that is read except for the cache files. -/
structure SameInput (w w' : AllFiles K) : Prop where
  maps : w'.inputs.maps = w.inputs.maps
  texts : w'.inputs.texts = w.inputs.texts
  polygons : w'.inputs.polygons = w.inputs.polygons
  files : w'.disk.files = w.disk.files
  dirs : ∀ d ∈ w.disk.dirs, d ∈ w'.disk.dirs

theorem SameInput.refl (w : AllFiles K) : SameInput w w := ⟨rfl, rfl, rfl, rfl, fun _ h => h⟩

theorem SameInput.trans {a b c : AllFiles K} (h : SameInput a b) (g : SameInput b c) : SameInput a c :=
  ⟨g.maps.trans h.maps, g.texts.trans h.texts, g.polygons.trans h.polygons, g.files.trans h.files, fun d hd => g.dirs d (h.dirs d hd)⟩

theorem call_run (e : Computer K) (s : Script K) (ov : Bool) (out : Text) (ho : getOutputDirectory e.tools.ft s.dir s.config = .ok out) :
    call e s (.run ov) = ({ s with files := ⟨{ s.files.inputs with
        caches := e.cachesAfterRun s.files.inputs (some (s.dir, s.config)) ov s.files.world }, s.files.disk,
        fun d => if d = out then (run (e.job s.files.inputs s.dir s.config s.files.disk) ov (s.files.results out)).1
          else s.files.results d⟩ },
      match (run (e.job s.files.inputs s.dir s.config s.files.disk) ov (s.files.results out)).2 with
      | .error er => .error er
      | .ok b => .ok (some b)) := by
  have h : runProject (e.setup s.files.inputs) (some (s.dir, s.config)) ov s.files.world =
      (⟨s.files.inputs.texts, s.files.disk, fun d => if d = out then (run (e.job s.files.inputs s.dir s.config s.files.disk) ov
        (s.files.results out)).1 else s.files.results d⟩,
        (run (e.job s.files.inputs s.dir s.config s.files.disk) ov (s.files.results out)).2) := by
    unfold runProject
    simp only
    have ho' : getOutputDirectory (e.setup s.files.inputs).ft s.dir s.config = .ok out := ho
    rw [ho']
    rfl
  unfold call
  simp only
  rw [h]
  simp only
  cases (run (e.job s.files.inputs s.dir s.config s.files.disk) ov (s.files.results out)).2 <;> rfl

theorem section_keys (c c' : Config K) (h : keysOf c = keysOf c') (s : Text) :
    (dictGet c s).map (fun es => es.map fun e => (e.key, e.type, e.hint)) =
      (dictGet c' s).map (fun es => es.map fun e => (e.key, e.type, e.hint)) := by
  induction c generalizing c' with
  | nil =>
    cases c' with
    | nil => rfl
    | cons p c' => cases h
  | cons p c ih =>
    cases c' with
    | nil => cases h
    | cons p' c' =>
      unfold keysOf at h
      rw [List.map_cons, List.map_cons] at h
      obtain ⟨h1, h2⟩ := List.cons.inj h
      obtain ⟨h1', h3⟩ := Prod.mk.inj h1
      rw [dictGet_cons, dictGet_cons, h1']
      by_cases e : p'.1 = s
      · rw [if_pos e, if_pos e]; exact congrArg some h3
      · rw [if_neg e, if_neg e]; exact ih c' h2

/-- Whether a key is known does not depend on the values. -/
theorem look_known (c : Config K) (h : TemplateKeys c) (s : Text) (es : List (Entry K)) (hes : dictGet (template (K := K)) s = some es)
    (k : Text) : (look c s k).isSome ↔ ∃ e ∈ es, lower e.key = lower k := by
  have hd := section_keys c template h s
  rw [hes] at hd
  unfold look
  cases he : dictGet c s with
  | none => rw [he] at hd; cases hd
  | some es' =>
    rw [he] at hd
    have hd' := congrArg (List.map (·.1)) (Option.some.inj hd)
    rw [List.map_map, List.map_map] at hd'
    rw [Option.bind_some, Option.isSome_map]
    unfold findEntry
    rw [List.find?_isSome]
    have hk : ∀ es : List (Entry K), (∃ e ∈ es, lower e.key = lower k) ↔ lower k ∈ (es.map (·.key)).map lower := by
      intro es
      rw [List.map_map, List.mem_map]
      rfl
    have e1 : es'.map (·.key) = es.map (·.key) := hd'
    rw [hk es, ← e1, ← hk es']
    constructor
    · rintro ⟨x, hx, h⟩; exact ⟨x, hx, of_decide_eq_true h⟩
    · rintro ⟨x, hx, h⟩; exact ⟨x, hx, decide_eq_true h⟩

theorem output_known (ft : FloatText K) (dir : Text) (c : Config K) (h : TemplateKeys c) :
    ∃ v, look c a_out "OutputDirectory".toList = some v ∧ getOutputDirectory ft dir c = .ok (joinPath dir (valueText ft v)) := by
  have hk : (look c a_out "OutputDirectory".toList).isSome := by
    exact (look_known c h a_out _ template_output _).2 ⟨_, List.mem_cons_self, rfl⟩
  obtain ⟨v, hv⟩ := Option.isSome_iff_exists.1 hk
  refine ⟨v, hv, ?_⟩
  unfold getOutputDirectory
  rw [getValue_look _ _ _ (known_output c h), hv]

/-- What a call does to the configuration and to the files. -/
theorem call_look (e : Computer K) (s s' : Script K) (hs : TemplateKeys s.config) (a : Call K) (r : Option Bool)
    (h : call e s a = (s', .ok r)) :
    TemplateKeys s'.config ∧ s'.dir = s.dir ∧ SameInput s.files s'.files ∧
    ∀ sec k, look s'.config sec k =
      match a with
      | .setParameter key v => if sec = a_par ∧ lower k = lower key then (look s.config sec k).map fun _ => v else look s.config sec k
      | .setInputFile key v => if sec = a_in ∧ lower k = lower key then (look s.config sec k).map fun _ => v else look s.config sec k
      | .setOutputDirectory p => if sec = a_out ∧ lower k = lower "OutputDirectory".toList then
          (look s.config sec k).map fun _ => .path p else look s.config sec k
      | .run _ => look s.config sec k := by
  cases a with
  | setParameter key v =>
    obtain ⟨c', b, hc⟩ := setValue_ok s.config a_par (known_parameters s.config hs) key v
    unfold call setParameter at h
    simp only at h
    rw [hc] at h
    obtain rfl := (Prod.mk.inj h).1
    exact ⟨(keysOf_setValue _ _ _ _ _ _ hc).trans hs, rfl, .refl _, fun sec k => look_setValue _ _ _ _ _ _ hc sec k⟩
  | setInputFile key v =>
    obtain ⟨c', b, hc⟩ := setValue_ok s.config a_in (known_input s.config hs) key v
    unfold call setInputFile at h
    simp only at h
    rw [hc] at h
    obtain rfl := (Prod.mk.inj h).1
    exact ⟨(keysOf_setValue _ _ _ _ _ _ hc).trans hs, rfl, .refl _, fun sec k => look_setValue _ _ _ _ _ _ hc sec k⟩
  | setOutputDirectory p =>
    unfold call at h
    simp only at h
    cases ho : setOutputDirectory (fun d => decide (e.mkdir d = .made)) p ⟨s.config, s.files.disk⟩ with
    | mk t er =>
      rw [ho] at h
      cases er with
      | some er => cases (Prod.mk.inj h).2
      | none =>
        obtain rfl := (Prod.mk.inj h).1
        obtain ⟨-, h2, h3, h4, -, h6⟩ := setOutputDirectory_spec _ _ _ _ ho
        exact ⟨h4.trans hs, rfl, ⟨rfl, rfl, rfl, h2, h3⟩, h6⟩
  | run ov =>
    obtain ⟨v, -, ho⟩ := output_known e.tools.ft s.dir s.config hs
    rw [call_run e s ov _ ho] at h
    obtain rfl := (Prod.mk.inj h).1
    exact ⟨hs, rfl, ⟨rfl, rfl, rfl, rfl, fun _ hd => hd⟩, fun _ _ => rfl⟩

theorem setLast_cons (a : Call K) (as : List (Call K)) (key : Text) :
    setLast (a :: as) key = (setLast as key).or (match a with
      | .setParameter k v => if lower k = lower key then some v else none
      | _ => none) := by
  unfold setLast
  rw [List.reverse_cons, List.findSome?_append, List.findSome?_singleton]
  cases a <;> rfl

theorem inputLast_cons (a : Call K) (as : List (Call K)) (key : Text) :
    inputLast (a :: as) key = (inputLast as key).or (match a with
      | .setInputFile k v => if lower k = lower key then some v else none
      | _ => none) := by
  unfold inputLast
  rw [List.reverse_cons, List.findSome?_append, List.findSome?_singleton]
  cases a <;> rfl

theorem outputLast_cons (a : Call K) (as : List (Call K)) :
    outputLast (a :: as) = (outputLast as).or (match a with
      | .setOutputDirectory p => some p
      | _ => none) := by
  unfold outputLast
  rw [List.reverse_cons, List.findSome?_append, List.findSome?_singleton]
  cases a <;> rfl

theorem map_or {α : Type} (o a b : Option α) :
    (o.map fun old => b.getD old).map (fun old => a.getD old) = o.map fun old => (a.or b).getD old := by
  cases o <;> cases a <;> rfl

/-- What a script does to the configuration and to the files. -/
theorem script_look (e : Computer K) (calls : List (Call K)) (s s' : Script K) (hs : TemplateKeys s.config)
    (h : script e calls s = (s', none)) :
    TemplateKeys s'.config ∧ s'.dir = s.dir ∧ SameInput s.files s'.files ∧ ∀ k,
      look s'.config a_par k = (look s.config a_par k).map (fun old => (setLast calls k).getD old) ∧
      look s'.config a_in k = (look s.config a_in k).map (fun old => (inputLast calls k).getD old) ∧
      look s'.config a_deb k = look s.config a_deb k ∧
      look s'.config a_out k = (look s.config a_out k).map (fun old =>
        if lower k = lower "OutputDirectory".toList then ((outputLast calls).map ConfigValue.path).getD old else old) ∧
      ∀ sec, sec ≠ a_par → sec ≠ a_in → sec ≠ a_out → look s'.config sec k = look s.config sec k := by
  obtain ⟨n1, n2, n3, n4, n5, n6⟩ := sec_ne
  have hid : ∀ {α : Type} (o : Option α), o = o.map fun x => x := fun o => by cases o <;> rfl
  induction calls generalizing s with
  | nil =>
    obtain rfl := (Prod.mk.inj h).1
    refine ⟨hs, rfl, .refl _, fun k => ⟨hid _, hid _, rfl, ?_, fun _ _ _ _ => rfl⟩⟩
    rw [show (fun old : ConfigValue K => if lower k = lower "OutputDirectory".toList then
      ((outputLast ([] : List (Call K))).map ConfigValue.path).getD old else old) = fun x => x from by
        funext old; split <;> rfl]
    exact hid _
  | cons a as ih =>
    rw [script] at h
    cases hc : call e s a with
    | mk s1 r =>
      rw [hc] at h
      cases r with
      | error er => cases (Prod.mk.inj h).2
      | ok r =>
        simp only at h
        obtain ⟨g1, g2, g3, g4⟩ := call_look e s s1 hs a r hc
        obtain ⟨i1, i2, i3, i4⟩ := ih s1 g1 h
        refine ⟨i1, i2.trans g2, g3.trans i3, fun k => ?_⟩
        obtain ⟨j1, j2, j3, j4, j5⟩ := i4 k
        rw [j1, j2, j3, j4, g4 a_par, g4 a_in, g4 a_deb, g4 a_out, setLast_cons, inputLast_cons, outputLast_cons]
        have j5' : ∀ sec, sec ≠ a_par → sec ≠ a_in → sec ≠ a_out → look s'.config sec k = look s.config sec k := by
          intro sec h1 h2 h3
          rw [j5 sec h1 h2 h3, g4 sec]
          cases a with
          | setParameter key v => exact if_neg fun h => h1 h.1
          | setInputFile key v => exact if_neg fun h => h2 h.1
          | setOutputDirectory p => exact if_neg fun h => h3 h.1
          | run ov => rfl
        refine ⟨?_, ?_, ?_, ?_, j5'⟩
        · cases a with
          | setParameter key v =>
            simp only
            by_cases hk : lower k = lower key
            · rw [if_pos ⟨trivial, hk⟩, if_pos hk.symm, ← map_or]; rfl
            · rw [if_neg fun h => hk h.2, if_neg fun h => hk h.symm, Option.or_none]
          | setInputFile key v => simp only; rw [if_neg fun h => n1 h.1, Option.or_none]
          | setOutputDirectory p => simp only; rw [if_neg fun h => n5 h.1.symm, Option.or_none]
          | run ov => simp only [Option.or_none]
        · cases a with
          | setParameter key v => simp only; rw [if_neg fun h => n1 h.1.symm, Option.or_none]
          | setInputFile key v =>
            simp only
            by_cases hk : lower k = lower key
            · rw [if_pos ⟨trivial, hk⟩, if_pos hk.symm, ← map_or]; rfl
            · rw [if_neg fun h => hk h.2, if_neg fun h => hk h.symm, Option.or_none]
          | setOutputDirectory p => simp only; rw [if_neg fun h => n4 h.1.symm, Option.or_none]
          | run ov => simp only [Option.or_none]
        · cases a with
          | setParameter key v => exact if_neg fun h => n3 h.1
          | setInputFile key v => exact if_neg fun h => n2 h.1
          | setOutputDirectory p => exact if_neg fun h => n6 h.1.symm
          | run ov => rfl
        · by_cases hk : lower k = lower "OutputDirectory".toList
          · cases a with
            | setParameter key v => simp only [if_pos hk]; rw [if_neg fun h => n5 h.1, Option.or_none]
            | setInputFile key v => simp only [if_pos hk]; rw [if_neg fun h => n4 h.1, Option.or_none]
            | setOutputDirectory p =>
              simp only [if_pos hk]
              rw [if_pos ⟨trivial, hk⟩]
              cases look s.config a_out k with
              | none => rfl
              | some v => cases outputLast as <;> rfl
            | run ov => simp only [Option.or_none]
          · cases a with
            | setParameter key v => simp only [if_neg hk]; rw [if_neg fun h => n5 h.1]
            | setInputFile key v => simp only [if_neg hk]; rw [if_neg fun h => n4 h.1]
            | setOutputDirectory p => simp only [if_neg hk]; rw [if_neg fun h => hk h.2]
            | run ov => simp only [if_neg hk]

end Fm2prof.ApiProof

import Verif.Proofs.Runner
import Verif.Model.Pipeline

/-!
# Two runs that do the same

Two jobs whose cross-sections correspond end in the same way with the same result files.
-/

set_option linter.unusedSectionVars false

namespace Fm2prof

open Spec

section
variable {S S' C C' V : Type}

theorem collect_mem {α β : Type} (f : α → Except PyErr β) (l : List α) (r : List β) (h : collect f l = .ok r) :
    ∀ b ∈ r, ∃ a ∈ l, f a = .ok b := by
  induction l generalizing r with
  | nil => cases h; intro b hb; cases hb
  | cons a as ih =>
    rw [collect] at h
    cases hf : f a with
    | error e => rw [hf] at h; cases h
    | ok y =>
      rw [hf] at h
      simp only at h
      cases hc : collect f as with
      | error e => rw [hc] at h; cases h
      | ok ys =>
        rw [hc] at h
        cases h
        intro b hb
        rcases List.mem_cons.1 hb with rfl | hb
        · exact ⟨a, List.mem_cons_self, hf⟩
        · obtain ⟨a', h1, h2⟩ := ih ys hc b hb
          exact ⟨a', List.mem_cons_of_mem _ h1, h2⟩

theorem pickStation_map (t : S → S') (l : List S) (i : Int) : pickStation (l.map t) i = (pickStation l i).map t := by
  unfold pickStation
  rw [List.length_map]
  cases pyIndex l.length i with
  | error e => rfl
  | ok k =>
    simp only
    rw [List.getElem?_map]
    cases l[k]? <;> rfl

theorem collect_map_result {α β γ : Type} (f : α → Except PyErr β) (g : α → Except PyErr γ) (t : β → γ)
    (h : ∀ a, g a = (f a).map t) (l : List α) : collect g l = (collect f l).map (List.map t) := by
  induction l with
  | nil => rfl
  | cons a as ih =>
    rw [collect, collect, h a, ih]
    cases f a with
    | error e => rfl
    | ok b =>
      show (match (collect f as).map (List.map t) with | .error e => _ | .ok bs => _) = _
      cases collect f as <;> rfl

theorem requested_map (t : S → S') (sel : List Int) (l : List S) :
    requested sel (l.map t) = (requested sel l).map (List.map t) := by
  unfold requested
  split
  · rfl
  · exact collect_map_result _ _ t (pickStation_map t l) sel

theorem requested_mem (sel : List Int) (l xs : List S) (h : requested sel l = .ok xs) : ∀ x ∈ xs, x ∈ l := by
  unfold requested at h
  split at h
  · cases h; exact fun x hx => hx
  · intro x hx
    obtain ⟨i, _, hi⟩ := collect_mem _ _ _ h x hx
    unfold pickStation at hi
    cases hp : pyIndex l.length i with
    | error e => rw [hp] at hi; cases hi
    | ok k =>
      rw [hp] at hi
      simp only at hi
      cases hk : l[k]? with
      | none => rw [hk] at hi; cases hi
      | some y =>
        rw [hk] at hi
        cases hi
        exact List.mem_of_getElem? hk

theorem writeFile_raises (w : WriteFaults) (file text text' : Text) (r : Option PyErr) (s s' : Store) :
    (writeFile w file text r s).2 = (writeFile w file text' r s').2 := by
  unfold writeFile
  split
  · rfl
  · split <;> rfl

theorem storeData_sim (j : Job S C) (j' : Job S' C') (l : S) (l' : S') (s s' : Store) (h1 : j'.exportCssData = j.exportCssData)
    (h2 : j'.faults = j.faults) (h3 : j'.name l' = j.name l) : (storeData j' l' s').2 = (storeData j l s).2 := by
  unfold storeData
  rw [h1, h2, h3]
  split
  · exact writeFile_raises _ _ _ _ _ _ _
  · rfl

theorem storeMask_sim (j : Job S C) (j' : Job S' C') (l : S) (l' : S') (s s' : Store) (h1 : j'.exportCssData = j.exportCssData)
    (h2 : j'.faults = j.faults) (h3 : j'.name l' = j.name l) (h4 : (j'.mask l').isSome = (j.mask l).isSome) :
    (storeMask j' l' s').2 = (storeMask j l s).2 := by
  unfold storeMask
  rw [h1, h2, h3]
  split
  · revert h4
    cases j'.mask l' <;> cases j.mask l <;> intro h4
    · rfl
    · cases h4
    · cases h4
    · exact writeFile_raises _ _ _ _ _ _ _
  · rfl

theorem storePickle_of (j : Job S C) (j' : Job S' C') (l : S) (l' : S')
    (h1 : ∀ s s', (storeData j' l' s').2 = (storeData j l s).2) (h2 : j'.faces l' = j.faces l)
    (h3 : 10 ≤ j.faces l → ∀ s s', (storeMask j' l' s').2 = (storeMask j l s).2) :
    (storePickle j' l' noFiles).2 = (storePickle j l noFiles).2 := by
  unfold storePickle
  have h := h1 noFiles noFiles
  cases ha : storeData j' l' noFiles with
  | mk a e =>
    cases hb : storeData j l noFiles with
    | mk b e' =>
      rw [ha, hb] at h
      simp only at h
      subst h
      cases e with
      | some e => rfl
      | none =>
        simp only
        rw [h2]
        by_cases hf : j.faces l < 10
        · rw [if_pos hf, if_pos hf]
        · rw [if_neg hf, if_neg hf]
          exact h3 (by omega) b a

theorem jobOf_mask {K : Type} [Field K] [LinearOrder K] [IsStrictOrderedRing K] [FloorRing K] (x : Tools K) (cfg : RunConfig K) (i : Inputs K)
    (o : Surroundings) (m : Loaded (Loc K)) (h : (jobOf x cfg i o).load = .ok m) (l : Loc K) :
    ((jobOf x cfg i o).mask l).isSome = reachesMask cfg.pipeline.build m.nMaps := by
  have h : (setModelData x.nn i).map (fun m => (⟨m.stations, m.nMaps⟩ : Loaded (Loc K))) = .ok m := h
  show Option.isSome (match setModelData x.nn i with | .error _ => none | .ok m => _) = _
  cases hm : setModelData x.nn i with
  | error e => rw [hm] at h; cases h
  | ok d =>
    rw [hm] at h
    obtain rfl := Except.ok.inj h
    simp only
    split
    · rename_i e; exact e.symm
    · rename_i e; exact (Bool.eq_false_iff.2 e).symm

/-- Two runs of projects with the same settings and as many maps. -/
theorem jobOf_storeMask {K : Type} [Field K] [LinearOrder K] [IsStrictOrderedRing K] [FloorRing K] (x y : Tools K) (cfg : RunConfig K)
    (i i' : Inputs K) (o : Surroundings) (m m' : Loaded (Loc K)) (h : (jobOf x cfg i o).load = .ok m)
    (h' : (jobOf y cfg i' o).load = .ok m') (hn : m'.nMaps = m.nMaps) (l l' : Loc K) (hl : l'.id = l.id) (s s' : Store) :
    (storeMask (jobOf y cfg i' o) l' s').2 = (storeMask (jobOf x cfg i o) l s).2 := by
  refine storeMask_sim _ _ _ _ _ _ rfl rfl hl ?_
  rw [jobOf_mask x cfg i o m h l, jobOf_mask y cfg i' o m' h' l', hn]

/-- Two jobs that do the same for the files `P`: `t` gives the location in the second one, `v` and `v'` what matters of a
cross-section. -/
structure SameJobs (j : Job S C) (j' : Job S' C') (t : S → S') (v : C → V) (v' : C' → V) (P : Text → Prop) : Prop where
  configured : j'.configured = j.configured
  mapIsFile : j'.mapIsFile = j.mapIsFile
  cssIsFile : j'.cssIsFile = j.cssIsFile
  skipMaps : j'.skipMaps = j.skipMaps
  cssSelection : j'.cssSelection = j.cssSelection
  exportCssData : j'.exportCssData = j.exportCssData
  faults : j'.faults = j.faults
  load : j'.load = j.load.map fun m => ⟨m.stations.map t, m.nMaps⟩
  valid : ∀ m, j.load = .ok m → ∀ l ∈ m.stations, j'.valid (t l) = j.valid l
  stored : ∀ m, j.load = .ok m → ∀ l ∈ m.stations, ∀ s s', (storeData j' (t l) s').2 = (storeData j l s).2
  masked : ∀ m, j.load = .ok m → j'.load = .ok ⟨m.stations.map t, m.nMaps⟩ → ∀ l ∈ m.stations, ∀ s s',
    (storeMask j' (t l) s').2 = (storeMask j l s).2
  faces : ∀ m, j.load = .ok m → ∀ l ∈ m.stations, j.valid l = true → j'.faces (t l) = j.faces l
  build : ∀ m, j.load = .ok m → ∀ l ∈ m.stations, j.valid l = true → 10 ≤ j.faces l →
    (j'.build (t l)).map v' = (j.build l).map v
  output : ∀ cs cs', cs'.map v' = cs.map v → ∀ s f, P f → writeOutput j'.faults j'.exporter j'.dirExists (j'.harmonise cs') s f
    = writeOutput j.faults j.exporter j.dirExists (j.harmonise cs) s f

theorem outcome_sim {j : Job S C} {j' : Job S' C'} {t : S → S'} {v : C → V} {v' : C' → V} {P : Text → Prop} (h : SameJobs j j' t v v' P)
    (m : Loaded S) (hm : j.load = .ok m) (l : S) (hl : l ∈ m.stations) :
    (outcome j' (t l)).map (Option.map v') = (outcome j l).map (Option.map v) := by
  unfold outcome
  rw [h.valid m hm l hl]
  by_cases hv : (!j.valid l) = true
  · rw [if_pos hv, if_pos hv]; rfl
  · rw [if_neg hv, if_neg hv, storePickle_of j j' l (t l) (h.stored m hm l hl) (h.faces m hm l hl (by simpa using hv))
      fun _ => h.masked m hm (by rw [h.load, hm]; rfl) l hl]
    cases (storePickle j l noFiles).2 with
    | some e => rfl
    | none =>
      simp only
      rw [h.faces m hm l hl (by simpa using hv)]
      by_cases hf : j.faces l < 10
      · rw [if_pos hf, if_pos hf]; rfl
      · rw [if_neg hf, if_neg hf]
        have hb := h.build m hm l hl (by simpa using hv) (by omega)
        cases h1 : j'.build (t l) <;> cases h2 : j.build l <;> rw [h1, h2] at hb
        · exact congrArg Except.error (Except.error.inj hb)
        · cases hb
        · cases hb
        · exact congrArg (fun c => Except.ok (some c)) (Except.ok.inj hb)

theorem outcomes_sim {j : Job S C} {j' : Job S' C'} {t : S → S'} {v : C → V} {v' : C' → V} {P : Text → Prop} (h : SameJobs j j' t v v' P)
    (m : Loaded S) (hm : j.load = .ok m) (xs : List S) (hxs : ∀ x ∈ xs, x ∈ m.stations) :
    (outcomes j' (xs.map t)).map (List.map v') = (outcomes j xs).map (List.map v) := by
  induction xs with
  | nil => rfl
  | cons x xs ih =>
    have h1 := outcome_sim h m hm x (hxs x List.mem_cons_self)
    have h2 := ih fun y hy => hxs y (List.mem_cons_of_mem _ hy)
    rw [List.map_cons, outcomes, outcomes]
    cases ha : outcome j' (t x) <;> cases hb : outcome j x <;> rw [ha, hb] at h1
    · exact congrArg Except.error (Except.error.inj h1)
    · cases h1
    · cases h1
    · rename_i a b
      have hab : a.map v' = b.map v := Except.ok.inj h1
      simp only
      cases hc : outcomes j' (xs.map t) <;> cases hd : outcomes j xs <;> rw [hc, hd] at h2
      · exact congrArg Except.error (Except.error.inj h2)
      · cases h2
      · cases h2
      · rename_i as bs
        have habs : as.map v' = bs.map v := Except.ok.inj h2
        show Except.ok ((a.toList ++ as).map v') = Except.ok ((b.toList ++ bs).map v)
        rw [List.map_append, List.map_append, habs]
        have : a.toList.map v' = b.toList.map v := by
          cases a <;> cases b <;> first | rfl | cases hab | exact congrArg (fun c => [c]) (Option.some.inj hab)
        rw [this]

theorem initialise_sim {j : Job S C} {j' : Job S' C'} {t : S → S'} {v : C → V} {v' : C' → V} {P : Text → Prop} (h : SameJobs j j' t v v' P) :
    initialise j' = (initialise j).map fun m => ⟨m.stations.map t, m.nMaps⟩ := by
  unfold initialise
  rw [h.mapIsFile, h.cssIsFile, h.load, h.skipMaps]
  split
  · rfl
  · cases j.load with
    | error e => cases e <;> rfl
    | ok m =>
      show (if (m.nMaps : Int) ≤ j.skipMaps then Except.error PyErr.initializationError else .ok _) = Except.map _ (if (m.nMaps : Int) ≤ j.skipMaps then Except.error PyErr.initializationError else .ok m)
      split <;> rfl

theorem initialise_load (j : Job S C) (m : Loaded S) (h : initialise j = .ok m) : j.load = .ok m :=
  ((initialise_ok j m).1 h).2.2.1

theorem generate_result (j : Job S C) (m : Loaded S) (s : Store) (f : Text) (hf : IsResult f) : (generate j m s).1 f = s f := by
  unfold generate
  cases requested j.cssSelection m.stations with
  | error e => rfl
  | ok xs => exact attemptAll_result j xs s f hf

/-- The same outcome and the same result files. -/
theorem runInifile_sim {j : Job S C} {j' : Job S' C'} {t : S → S'} {v : C → V} {v' : C' → V} {P : Text → Prop} (h : SameJobs j j' t v v' P)
    (s : Store) : (runInifile j' s).2 = (runInifile j s).2 ∧ ∀ f, IsResult f → P f → (runInifile j' s).1 f = (runInifile j s).1 f := by
  unfold runInifile
  rw [initialise_sim h]
  cases hi : initialise j with
  | error e => cases e <;> exact ⟨rfl, fun _ _ _ => rfl⟩
  | ok m =>
    simp only [Except.map]
    have hm := initialise_load j m hi
    have hg : ((generate j' ⟨m.stations.map t, m.nMaps⟩ s).2).map (List.map v') = ((generate j m s).2).map (List.map v) := by
      rw [generate_outcome, generate_outcome, h.cssSelection, requested_map]
      cases hr : requested j.cssSelection m.stations with
      | error e => rfl
      | ok xs => exact outcomes_sim h m hm xs (requested_mem _ _ _ hr)
    have hr' := generate_result j' ⟨m.stations.map t, m.nMaps⟩ s
    have hr := generate_result j m s
    revert hg hr hr'
    cases generate j' ⟨m.stations.map t, m.nMaps⟩ s with
    | mk s₁' r' =>
      cases generate j m s with
      | mk s₁ r =>
        intro hg hr' hr
        cases r' <;> cases r
        · exact ⟨congrArg Except.error (Except.error.inj hg), fun f hf _ => (hr' f hf).trans (hr f hf).symm⟩
        · cases hg
        · cases hg
        · rename_i cs' cs
          refine ⟨rfl, fun f hf hP => ?_⟩
          show finalise j' cs' s₁' f = finalise j cs s₁ f
          rw [finalise_result j' cs' s₁' f hf, finalise_result j cs s₁ f hf, h.output cs cs' (Except.ok.inj hg) _ f hP]
          exact writeOutput_local _ _ _ _ _ _ _ ((hr' f hf).trans (hr f hf).symm)

theorem run_sim {j : Job S C} {j' : Job S' C'} {t : S → S'} {v : C → V} {v' : C' → V} {P : Text → Prop} (h : SameJobs j j' t v v' P)
    (overwrite : Bool) (s : Store) :
    (run j' overwrite s).2 = (run j overwrite s).2 ∧ ∀ f, IsResult f → P f → (run j' overwrite s).1 f = (run j overwrite s).1 f := by
  unfold run
  rw [h.configured]
  split
  · exact ⟨rfl, fun _ _ _ => rfl⟩
  · split
    · exact ⟨rfl, fun _ _ _ => rfl⟩
    · exact runInifile_sim h s

end
end Fm2prof

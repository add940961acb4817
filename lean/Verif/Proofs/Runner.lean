import Verif.Spec.Runner
import Verif.Proofs.Export
import Verif.Proofs.Roughness

/-!
# Lemmas about runs
-/

set_option linter.unusedSectionVars false

namespace Fm2prof

open Spec

variable {S C : Type}

theorem outputExists_iff (s : Store) : outputExists s = true ↔ HasResults s := by
  have hm : outputFiles = resultFiles.map String.toList := rfl
  unfold outputExists HasResults IsResult
  rw [hm, List.any_eq_true]
  constructor
  · rintro ⟨f, hf, h⟩
    obtain ⟨r, hr, rfl⟩ := List.mem_map.1 hf
    exact ⟨_, ⟨r, hr, rfl⟩, h⟩
  · rintro ⟨f, ⟨r, hr, rfl⟩, h⟩
    exact ⟨_, List.mem_map.2 ⟨r, hr, rfl⟩, h⟩

/-! ## Overlays -/

theorem overlay_assoc (a b c : Store) : overlay (overlay a b) c = overlay a (overlay b c) := by
  funext f; unfold overlay; cases a f <;> rfl

theorem overlay_noFiles (a : Store) : overlay a noFiles = a := by
  funext f; unfold overlay noFiles; cases a f <;> rfl

theorem noFiles_overlay (a : Store) : overlay noFiles a = a := by
  funext f; rfl

theorem set_overlay (a s : Store) (file text : Text) : (overlay a s).set file text = overlay (a.set file text) s := by
  funext f
  simp only [Store.set, overlay]
  by_cases h : f = file
  · rw [if_pos h, if_pos h]; rfl
  · rw [if_neg h, if_neg h]

theorem writeFile_overlay (w : WriteFaults) (file text : Text) (r : Option PyErr) (a s : Store) :
    writeFile w file text r (overlay a s) = (overlay (writeFile w file text r a).1 s, (writeFile w file text r a).2) := by
  unfold writeFile
  by_cases h : w.refuses file = true
  · rw [if_pos h, if_pos h]
  · rw [if_neg h, if_neg h]
    cases w.breaks file with
    | some t => simp only [set_overlay]
    | none => simp only [set_overlay]

theorem step_overlay (w : WriteFaults) (x : ExportStep) (a s : Store) :
    x.run w (overlay a s) = (overlay (x.run w a).1 s, (x.run w a).2) := by
  cases x with
  | write file text r => exact writeFile_overlay w file text r a s
  | fail e => rfl

theorem tryBlock_overlay (w : WriteFaults) (xs : List ExportStep) (a s : Store) :
    tryBlock w xs (overlay a s) = overlay (tryBlock w xs a) s := by
  induction xs generalizing a with
  | nil => rfl
  | cons x xs ih =>
    rw [tryBlock, tryBlock, step_overlay]
    cases h : x.run w a with
    | mk a' e =>
      cases e with
      | none => exact ih a'
      | some e => rfl

theorem writeOutput_overlay (w : WriteFaults) (x : Exporter C) (d : Bool) (cs : List C) (a s : Store) :
    writeOutput w x d cs (overlay a s) = overlay (writeOutput w x d cs a) s := by
  unfold writeOutput
  split
  · rfl
  · rw [tryBlock_overlay, tryBlock_overlay, tryBlock_overlay]

theorem writeMapFiles_overlay (w : WriteFaults) (x : Exporter C) (cs : List C) (a s : Store) :
    writeMapFiles w x cs (overlay a s) = overlay (writeMapFiles w x cs a) s := by
  unfold writeMapFiles
  rw [tryBlock_overlay, tryBlock_overlay]

theorem finalise_overlay (j : Job S C) (cs : List C) (a s : Store) :
    finalise j cs (overlay a s) = overlay (finalise j cs a) s := by
  unfold finalise
  simp only
  rw [writeOutput_overlay]
  split
  · rw [writeMapFiles_overlay, tryBlock_overlay]
  · rw [tryBlock_overlay]

/-- What an attempt stores. -/
def storePickle (j : Job S C) (x : S) (s : Store) : Store × Option PyErr :=
  match storeData j x s with
  | (s', some e) => (s', some e)
  | (s', none) => if j.faces x < 10 then (s', none) else storeMask j x s'

/-- The outcome of an attempt. -/
def outcome (j : Job S C) (x : S) : Except PyErr (Option C) :=
  if !j.valid x then .ok none
  else
    match (storePickle j x noFiles).2 with
    | some e => .error e
    | none => if j.faces x < 10 then .ok none else
        match j.build x with
        | .error e => .error e
        | .ok c => .ok (some c)

theorem storePickle_overlay (j : Job S C) (x : S) (a s : Store) :
    storePickle j x (overlay a s) = (overlay (storePickle j x a).1 s, (storePickle j x a).2) := by
  have h1 : ∀ a, storeData j x (overlay a s) = (overlay (storeData j x a).1 s, (storeData j x a).2) := by
    intro a
    unfold storeData
    split
    · exact writeFile_overlay _ _ _ _ _ _
    · rfl
  have h2 : ∀ a, storeMask j x (overlay a s) = (overlay (storeMask j x a).1 s, (storeMask j x a).2) := by
    intro a
    unfold storeMask
    split
    · split
      · exact writeFile_overlay _ _ _ _ _ _
      · rfl
    · rfl
  unfold storePickle
  rw [h1]
  cases storeData j x a with
  | mk b e =>
    cases e with
    | some e => rfl
    | none =>
      simp only
      split
      · rfl
      · exact h2 b

theorem storePickle_error (j : Job S C) (x : S) (s : Store) : (storePickle j x s).2 = (storePickle j x noFiles).2 := by
  have := storePickle_overlay j x noFiles s
  rw [noFiles_overlay] at this
  rw [this]

theorem attempt_eq (j : Job S C) (x : S) (s : Store) :
    attempt j x s = (if !j.valid x then s else (storePickle j x s).1, outcome j x) := by
  unfold attempt outcome
  by_cases hv : (!j.valid x) = true
  · rw [if_pos hv, if_pos hv, if_pos hv]
  · rw [if_neg hv, if_neg hv, if_neg hv, ← storePickle_error j x s]
    unfold storePickle
    cases storeData j x s with
    | mk s' e =>
      cases e with
      | some e => rfl
      | none =>
        simp only
        by_cases hf : j.faces x < 10
        · simp only [if_pos hf]
        · simp only [if_neg hf]
          cases storeMask j x s' with
          | mk s'' e =>
            cases e with
            | some e => rfl
            | none => simp only; cases j.build x <;> rfl

/-- The outcome of the attempts of a list of locations. -/
def outcomes (j : Job S C) : List S → Except PyErr (List C)
  | [] => .ok []
  | x :: xs =>
    match outcome j x with
    | .error e => .error e
    | .ok r =>
      match outcomes j xs with
      | .error e => .error e
      | .ok cs => .ok (r.toList ++ cs)

theorem attemptAll_outcome (j : Job S C) (xs : List S) (s : Store) : (attemptAll j xs s).2 = outcomes j xs := by
  induction xs generalizing s with
  | nil => rfl
  | cons x xs ih =>
    rw [attemptAll, outcomes, attempt_eq]
    cases h : outcome j x with
    | error e => rfl
    | ok r =>
      simp only
      have := ih (if !j.valid x then s else (storePickle j x s).1)
      cases hr : attemptAll j xs (if !j.valid x then s else (storePickle j x s).1) with
      | mk s' e =>
        rw [hr] at this
        rw [← this]
        cases e <;> rfl

theorem attemptAll_overlay (j : Job S C) (xs : List S) (a s : Store) :
    (attemptAll j xs (overlay a s)).1 = overlay (attemptAll j xs a).1 s := by
  induction xs generalizing a with
  | nil => rfl
  | cons x xs ih =>
    rw [attemptAll, attemptAll, attempt_eq, attempt_eq]
    have hs : (if (!j.valid x) = true then overlay a s else (storePickle j x (overlay a s)).1) =
        overlay (if (!j.valid x) = true then a else (storePickle j x a).1) s := by
      split
      · rfl
      · rw [storePickle_overlay]
    rw [hs]
    generalize (if (!j.valid x) = true then a else (storePickle j x a).1) = b
    cases h : outcome j x with
    | error e => rfl
    | ok r =>
      simp only
      have hi := ih b
      have ho := (attemptAll_outcome j xs (overlay b s)).trans (attemptAll_outcome j xs b).symm
      cases h1 : attemptAll j xs (overlay b s) with
      | mk s1 e1 =>
        cases h2 : attemptAll j xs b with
        | mk s2 e2 =>
          rw [h1, h2] at hi ho
          simp only at hi ho
          subst ho
          rw [hi]
          cases e1 <;> rfl

theorem generate_overlay (j : Job S C) (m : Loaded S) (a s : Store) :
    generate j m (overlay a s) = (overlay (generate j m a).1 s, (generate j m a).2) := by
  unfold generate
  cases requested j.cssSelection m.stations with
  | error e => rfl
  | ok xs =>
    refine Prod.ext (attemptAll_overlay j xs a s) ?_
    exact (attemptAll_outcome j xs _).trans (attemptAll_outcome j xs a).symm

theorem runInifile_overlay (j : Job S C) (a s : Store) :
    runInifile j (overlay a s) = (overlay (runInifile j a).1 s, (runInifile j a).2) := by
  unfold runInifile
  cases initialise j with
  | error e => cases e <;> rfl
  | ok m =>
    simp only
    rw [generate_overlay]
    cases h : generate j m a with
    | mk a' e =>
      cases e with
      | error e => rfl
      | ok cs => simp only [finalise_overlay]

/-! ## Blocks -/

/-- The file of a step. -/
def ExportStep.file? : ExportStep → Option Text
  | .write file _ _ => some file
  | .fail _ => none

/-- The files of a block, in order. -/
def blockFiles (xs : List ExportStep) : List Text := xs.filterMap ExportStep.file?

theorem step_other (w : WriteFaults) (x : ExportStep) (s : Store) (f : Text) (h : x.file? ≠ some f) :
    (x.run w s).1 f = s f := by
  cases x with
  | fail e => rfl
  | write file text r =>
    have hne : f ≠ file := fun e => h (by rw [e]; rfl)
    unfold ExportStep.run writeFile
    simp only
    split
    · rfl
    · cases w.breaks file with
      | some t => exact if_neg hne
      | none => exact if_neg hne

theorem tryBlock_other (w : WriteFaults) (xs : List ExportStep) (s : Store) (f : Text) (h : f ∉ blockFiles xs) :
    tryBlock w xs s f = s f := by
  induction xs generalizing s with
  | nil => rfl
  | cons x xs ih =>
    have hx : x.file? ≠ some f := fun e => h (List.mem_filterMap.2 ⟨x, List.mem_cons_self, e⟩)
    have hxs : f ∉ blockFiles xs := fun e => h (by
      obtain ⟨y, hy, e⟩ := List.mem_filterMap.1 e
      exact List.mem_filterMap.2 ⟨y, List.mem_cons_of_mem _ hy, e⟩)
    rw [tryBlock]
    have ho := step_other w x s f hx
    cases hr : x.run w s with
    | mk s' e =>
      rw [hr] at ho
      cases e with
      | none => exact (ih s' hxs).trans ho
      | some e => exact ho

theorem step_same (w w' : WriteFaults) (p : Text) (hw : SameFaultsBut p w w') (x : ExportStep) (s s' : Store) (f : Text)
    (hs : s f = s' f) (h : x.file? ≠ some p) :
    (x.run w s).1 f = (x.run w' s').1 f ∧ (x.run w s).2 = (x.run w' s').2 := by
  cases x with
  | fail e => exact ⟨hs, rfl⟩
  | write file text r =>
    have hne : file ≠ p := fun e => h (by rw [e]; rfl)
    obtain ⟨h1, h2⟩ := hw file hne
    unfold ExportStep.run writeFile
    simp only
    rw [← h1, ← h2]
    split
    · exact ⟨hs, rfl⟩
    · cases w.breaks file with
      | some t => refine ⟨?_, rfl⟩; simp only [Store.set, hs]
      | none => refine ⟨?_, rfl⟩; simp only [Store.set, hs]

theorem tryBlock_same (w w' : WriteFaults) (p : Text) (hw : SameFaultsBut p w w') (xs : List ExportStep) (s s' : Store)
    (f : Text) (hf : f ≠ p) (hs : s f = s' f) (ha : ¬ List.Sublist [p, f] (blockFiles xs)) :
    tryBlock w xs s f = tryBlock w' xs s' f := by
  induction xs generalizing s s' with
  | nil => exact hs
  | cons x xs ih =>
    by_cases hx : x.file? = some p
    · have hb : blockFiles (x :: xs) = p :: blockFiles xs := by
        unfold blockFiles; rw [List.filterMap_cons, hx]
      have hxs : f ∉ blockFiles xs := fun h => ha (by
        rw [hb]; exact List.Sublist.cons_cons p (List.singleton_sublist.2 h))
      have hne : x.file? ≠ some f := by rw [hx]; exact fun e => hf (Option.some.inj e).symm
      have : ∀ v : WriteFaults, ∀ t : Store, tryBlock v (x :: xs) t f = t f := by
        intro v t
        rw [tryBlock]
        have ho := step_other v x t f hne
        cases hr : x.run v t with
        | mk t' e =>
          rw [hr] at ho
          cases e with
          | none => exact (tryBlock_other v xs t' f hxs).trans ho
          | some e => exact ho
      rw [this, this, hs]
    · obtain ⟨h1, h2⟩ := step_same w w' p hw x s s' f hs hx
      rw [tryBlock, tryBlock]
      cases hr : x.run w s with
      | mk t e =>
        cases hr' : x.run w' s' with
        | mk t' e' =>
          rw [hr, hr'] at h1 h2
          simp only at h1 h2
          subst h2
          cases e with
          | some e => exact h1
          | none =>
            refine ih t t' h1 fun h => ha ?_
            unfold blockFiles
            rw [List.filterMap_cons]
            cases x.file? with
            | none => exact h
            | some g => exact h.cons g

end Fm2prof

namespace Fm2prof

open Spec

variable {S C : Type}

/-! ## The blocks of a run -/

/-- The roughness file of a section. -/
def roughnessName (s : Text) : Option Text := (sectionFile s).map (·.1)

theorem roughnessStep_file (x : Exporter C) (cs : List C) (s : Text) : (roughnessStep x cs s).file? = roughnessName s := by
  unfold roughnessStep roughnessName
  cases sectionFile s with
  | none => rfl
  | some p => rfl

theorem known_sections (s : Text) (f : Text) (h : roughnessName s = some f) :
    s ∈ ["floodplain1".toList, "floodplain2".toList, "main".toList] := by
  unfold roughnessName sectionFile at h
  by_cases h1 : s = "main".toList
  · rw [h1]; decide
  · by_cases h2 : s = "floodplain1".toList
    · rw [h2]; decide
    · by_cases h3 : s = "floodplain2".toList
      · rw [h3]; decide
      · rw [if_neg h1, if_neg h2, if_neg h3] at h; cases h

theorem npUnique_sorted {σ : Type} [LinearOrder σ] (l : List σ) : (npUnique l).Pairwise (· < ·) := by
  have h1 : (npUnique l).Pairwise (· ≤ ·) := List.pairwise_insertionSort _ _
  have h2 : (npUnique l).Nodup := nodup_npUnique l
  have := h1.and h2
  exact this.imp fun h => lt_of_le_of_ne h.1 h.2

theorem sorted_sublist {σ : Type} [LinearOrder σ] (a b : List σ) (ha : a.Pairwise (· < ·)) (hb : b.Pairwise (· < ·))
    (h : ∀ x ∈ a, x ∈ b) : List.Sublist a b := by
  induction b generalizing a with
  | nil =>
    cases a with
    | nil => exact List.Sublist.slnil
    | cons x xs => exact absurd (h x List.mem_cons_self) (by simp)
  | cons y ys ih =>
    cases a with
    | nil => exact List.nil_sublist _
    | cons x xs =>
      rw [List.pairwise_cons] at ha hb
      by_cases e : x = y
      · subst e
        refine List.Sublist.cons_cons _ (ih xs ha.2 hb.2 fun z hz => ?_)
        rcases List.mem_cons.1 (h z (List.mem_cons_of_mem _ hz)) with e | hm
        · exact absurd (ha.1 z hz) (by rw [e]; exact lt_irrefl _)
        · exact hm
      · refine List.Sublist.cons _ (ih (x :: xs) (List.pairwise_cons.2 ha) hb.2 fun z hz => ?_)
        have hy : y < x := by
          rcases List.mem_cons.1 (h x List.mem_cons_self) with e' | hm
          · exact absurd e' e
          · exact hb.1 x hm
        rcases List.mem_cons.1 (h z hz) with e' | hm
        · rcases List.mem_cons.1 hz with e'' | hz'
          · exact absurd (e''.symm.trans e') e
          · exact absurd (ha.1 z hz') (by rw [e']; exact not_lt_of_gt hy)
        · exact hm

theorem roughness_files (l : List Text) (hl : l.Pairwise (· < ·)) :
    List.Sublist (l.filterMap roughnessName)
      ["roughness-FloodPlain1.ini".toList, "roughness-FloodPlain2.ini".toList, "roughness-Main.ini".toList] := by
  have h1 : l.filterMap roughnessName = (l.filter fun s => (roughnessName s).isSome).filterMap roughnessName := by
    rw [List.filterMap_filter]
    refine List.filterMap_congr fun s _ => ?_
    cases roughnessName s <;> rfl
  have hk : ["floodplain1".toList, "floodplain2".toList, "main".toList].Pairwise (· < ·) := by decide
  have h2 := sorted_sublist (l.filter fun s => (roughnessName s).isSome)
    ["floodplain1".toList, "floodplain2".toList, "main".toList] (hl.sublist List.filter_sublist) hk fun s hs => by
      obtain ⟨f, hf⟩ := Option.isSome_iff_exists.1 (List.mem_filter.1 hs).2
      exact known_sections s f hf
  rw [h1]
  have h3 := h2.filterMap roughnessName
  have h4 : ["floodplain1".toList, "floodplain2".toList, "main".toList].filterMap roughnessName =
    ["roughness-FloodPlain1.ini".toList, "roughness-FloodPlain2.ini".toList, "roughness-Main.ini".toList] := by decide
  rw [h4] at h3
  exact h3

theorem dimr_files (x : Exporter C) (cs : List C) : ∃ g ∈ groups, List.Sublist (blockFiles (dimrBlock x cs)) g := by
  refine ⟨_, List.mem_cons_self, ?_⟩
  unfold blockFiles dimrBlock
  rw [List.filterMap_cons, List.filterMap_cons]
  simp only [ExportStep.file?]
  refine List.Sublist.cons_cons _ (List.Sublist.cons_cons _ ?_)
  rw [List.filterMap_map]
  have : (ExportStep.file? ∘ roughnessStep x cs) = roughnessName := by
    funext s; exact roughnessStep_file x cs s
  rw [this]
  exact roughness_files _ (npUnique_sorted _)

theorem sobek_files (x : Exporter C) (cs : List C) : ∃ g ∈ groups, List.Sublist (blockFiles (sobekBlock' x cs)) g :=
  ⟨_, List.mem_cons_of_mem _ List.mem_cons_self, List.Sublist.refl _⟩

theorem other_files (x : Exporter C) (cs : List C) : ∃ g ∈ groups, List.Sublist (blockFiles (otherBlock x cs)) g :=
  ⟨_, List.mem_cons_of_mem _ (List.mem_cons_of_mem _ List.mem_cons_self), List.Sublist.refl _⟩

theorem group_same (w w' : WriteFaults) (p f : Text) (hw : SameFaultsBut p w w') (hf : f ≠ p) (ha : ¬ After p f)
    (xs : List ExportStep) (hx : ∃ g ∈ groups, List.Sublist (blockFiles xs) g) (s s' : Store) (hs : s f = s' f) :
    tryBlock w xs s f = tryBlock w' xs s' f := by
  obtain ⟨g, hg, hb⟩ := hx
  exact tryBlock_same w w' p hw xs s s' f hf hs fun h => ha ⟨g, hg, h.trans hb⟩

theorem writeOutput_same (w w' : WriteFaults) (p f : Text) (hw : SameFaultsBut p w w') (hf : f ≠ p) (ha : ¬ After p f)
    (x : Exporter C) (d : Bool) (cs : List C) (s s' : Store) (hs : s f = s' f) :
    writeOutput w x d cs s f = writeOutput w' x d cs s' f := by
  unfold writeOutput
  split
  · exact hs
  · refine group_same w w' p f hw hf ha _ (other_files x cs) _ _ ?_
    refine group_same w w' p f hw hf ha _ (sobek_files x cs) _ _ ?_
    exact group_same w w' p f hw hf ha _ (dimr_files x cs) _ _ hs

theorem single_same (w w' : WriteFaults) (p f : Text) (hw : SameFaultsBut p w w') (hf : f ≠ p) (x : ExportStep)
    (s s' : Store) (hs : s f = s' f) : tryBlock w [x] s f = tryBlock w' [x] s' f := by
  refine tryBlock_same w w' p hw [x] s s' f hf hs fun h => ?_
  have h1 := h.length_le
  have h2 : (blockFiles [x]).length ≤ 1 := List.length_filterMap_le _ _
  simp only [List.length_cons, List.length_nil] at h1
  omega

theorem finalise_same (j : Job S C) (w w' : WriteFaults) (p f : Text) (hw : SameFaultsBut p w w') (hf : f ≠ p)
    (ha : ¬ After p f) (cs : List C) (s s' : Store) (hs : s f = s' f) :
    finalise { j with faults := w } cs s f = finalise { j with faults := w' } cs s' f := by
  unfold finalise
  simp only
  refine single_same w w' p f hw hf _ _ _ ?_
  have h1 := writeOutput_same w w' p f hw hf ha j.exporter j.dirExists (j.harmonise cs) s s' hs
  by_cases hm : j.exportMapFiles = true
  · rw [if_pos hm, if_pos hm]
    unfold writeMapFiles
    exact single_same w w' p f hw hf _ _ _ (single_same w w' p f hw hf _ _ _ h1)
  · rw [if_neg hm, if_neg hm]
    exact h1

theorem pickle_not_result (n : Text) : ¬ IsResult (n ++ ".pickle".toList) := by
  rintro ⟨r, hr, h⟩
  have hl : (n ++ ".pickle".toList).getLast? = some 'e' := by
    rw [List.getLast?_append]; rfl
  have hall : ∀ r ∈ resultFiles, r.toList.getLast? ≠ some 'e' := by decide
  exact hall r hr (by rw [← h, hl])

theorem mask_name (n : Text) : n ++ "_flowmask.pickle".toList = (n ++ "_flowmask".toList) ++ ".pickle".toList := by
  rw [List.append_assoc]
  rfl

theorem mask_not_result (n : Text) : ¬ IsResult (n ++ "_flowmask.pickle".toList) := by
  rw [mask_name]
  exact pickle_not_result _

theorem attemptAll_same (j : Job S C) (w w' : WriteFaults) (p : Text) (hw : SameFaultsBut p w w') (hp : IsResult p)
    (xs : List S) (s : Store) :
    attemptAll { j with faults := w } xs s = attemptAll { j with faults := w' } xs s := by
  have ha : ∀ x s, attempt { j with faults := w } x s = attempt { j with faults := w' } x s := by
    intro x s
    have hne : j.name x ++ ".pickle".toList ≠ p := fun e => pickle_not_result (j.name x) (by rw [e]; exact hp)
    obtain ⟨h1, h2⟩ := hw _ hne
    have hwf : ∀ t r s, writeFile w (j.name x ++ ".pickle".toList) t r s =
        writeFile w' (j.name x ++ ".pickle".toList) t r s := by
      intro t r s; unfold writeFile; rw [h1, h2]
    have hne' : j.name x ++ "_flowmask.pickle".toList ≠ p := fun e => mask_not_result (j.name x) (by rw [e]; exact hp)
    obtain ⟨h3, h4⟩ := hw _ hne'
    have hwf' : ∀ t r s, writeFile w (j.name x ++ "_flowmask.pickle".toList) t r s =
        writeFile w' (j.name x ++ "_flowmask.pickle".toList) t r s := by
      intro t r s; unfold writeFile; rw [h3, h4]
    unfold attempt storeData storeMask
    simp only [hwf, hwf']
  induction xs generalizing s with
  | nil => rfl
  | cons x xs ih =>
    rw [attemptAll, attemptAll, ha]
    cases attempt { j with faults := w' } x s with
    | mk s' e =>
      cases e with
      | error e => rfl
      | ok r => simp only; rw [ih]

/-! ## Requested cross-sections -/

theorem pyIndex_at (l : List S) (i : Int) (x : S) :
    pickStation l i = .ok x ↔ IsAt l i x := by
  unfold pickStation pyIndex IsAt
  by_cases h0 : 0 ≤ i
  · rw [if_pos h0]
    have hn : ¬ i < 0 := not_lt.2 h0
    by_cases h1 : i.toNat < l.length
    · rw [if_pos h1]
      simp only
      cases hx : l[i.toNat]? with
      | none => rw [List.getElem?_eq_none_iff] at hx; omega
      | some y =>
        constructor
        · intro h; exact Or.inl ⟨h0, congrArg some (Except.ok.inj h)⟩
        · rintro (⟨_, h⟩ | ⟨h, _⟩)
          · exact congrArg Except.ok (Option.some.inj h)
          · exact absurd h hn
    · rw [if_neg h1]
      constructor
      · intro h; cases h
      · rintro (⟨_, h⟩ | ⟨h, _⟩)
        · rw [List.getElem?_eq_none_iff.2 (by omega)] at h; cases h
        · exact absurd h hn
  · rw [if_neg h0]
    by_cases h1 : (-i).toNat ≤ l.length
    · rw [if_pos h1]
      simp only
      have hk : l.length - (-i).toNat < l.length := by omega
      cases hx : l[l.length - (-i).toNat]? with
      | none => rw [List.getElem?_eq_none_iff] at hx; omega
      | some y =>
        constructor
        · intro h; exact Or.inr ⟨by omega, h1, congrArg some (Except.ok.inj h)⟩
        · rintro (⟨h, _⟩ | ⟨_, _, h⟩)
          · exact absurd h h0
          · exact congrArg Except.ok (Option.some.inj h)
    · rw [if_neg h1]
      constructor
      · intro h; cases h
      · rintro (⟨h, _⟩ | ⟨_, h, _⟩)
        · exact absurd h h0
        · exact absurd h h1

theorem requested_iff (selection : List Int) (l xs : List S) :
    requested selection l = .ok xs ↔ Requested selection l xs := by
  unfold requested Requested
  cases selection with
  | nil =>
    constructor
    · intro h; exact Or.inl ⟨rfl, (Except.ok.inj h).symm⟩
    · rintro (⟨_, h⟩ | ⟨h, _⟩)
      · rw [h]; rfl
      · exact absurd rfl h
  | cons i is =>
    rw [if_neg (by simp)]
    have key : ∀ (sel : List Int) (xs : List S), collect (pickStation l) sel = .ok xs ↔ List.Forall₂ (IsAt l) sel xs := by
      intro sel
      induction sel with
      | nil =>
        intro xs
        constructor
        · intro h; rw [← Except.ok.inj h]; exact List.Forall₂.nil
        · intro h; cases h; rfl
      | cons i sel ih =>
        intro xs
        rw [collect]
        have hp := pyIndex_at l i
        cases hr : pickStation l i with
        | error e =>
          constructor
          · intro h; cases h
          · intro h
            cases h with
            | cons h1 h2 => rw [← hp, hr] at h1; cases h1
        | ok y =>
          simp only
          have hy : IsAt l i y := (hp y).1 hr
          constructor
          · intro h
            cases hc : collect (pickStation l) sel with
            | error e => rw [hc] at h; cases h
            | ok ys =>
              rw [hc] at h
              rw [← Except.ok.inj h]
              exact List.Forall₂.cons hy ((ih ys).1 hc)
          · intro h
            cases h with
            | cons h1 h2 =>
              rw [(ih _).2 h2]
              rw [← hp, hr] at h1
              exact congrArg Except.ok (congrArg (· :: _) (Except.ok.inj h1))
    rw [key]
    constructor
    · intro h; exact Or.inr ⟨by simp, h⟩
    · rintro (⟨h, _⟩ | ⟨_, h⟩)
      · cases h
      · exact h

end Fm2prof

namespace Fm2prof

open Spec

variable {S C : Type}

/-! ## Outcomes -/

/-- Storing the data of a location raises. -/
def PickleFails (j : Job S C) (x : S) (e : PyErr) : Prop := (storePickle j x noFiles).2 = some e

theorem writeFile_fails (w : WriteFaults) (file text : Text) (s : Store) (e : PyErr) :
    (writeFile w file text none s).2 = some e ↔ e = .osError ∧ ¬ Sound w file := by
  unfold writeFile Sound
  by_cases hr : w.refuses file = true
  · rw [if_pos hr, hr]
    constructor
    · intro e'; exact ⟨(Option.some.inj e').symm, fun hc => Bool.noConfusion hc.1⟩
    · rintro ⟨rfl, _⟩; rfl
  · rw [if_neg hr]
    cases hb : w.breaks file with
    | some t =>
      constructor
      · intro e'; exact ⟨(Option.some.inj e').symm, fun hc => by cases hc.2⟩
      · rintro ⟨rfl, _⟩; rfl
    | none =>
      constructor
      · intro e'; cases e'
      · rintro ⟨_, hc⟩; exact absurd ⟨Bool.eq_false_iff.2 hr, rfl⟩ hc

theorem storeData_fails (j : Job S C) (x : S) (s : Store) (e : PyErr) :
    (storeData j x s).2 = some e ↔ j.exportCssData = true ∧ e = .osError ∧ ¬ Sound j.faults (j.name x ++ ".pickle".toList) := by
  unfold storeData
  by_cases h : j.exportCssData = true
  · rw [if_pos h, writeFile_fails]
    exact ⟨fun k => ⟨h, k⟩, fun k => k.2⟩
  · rw [if_neg h]
    exact ⟨fun k => (nomatch k), fun k => absurd k.1 h⟩

theorem storeMask_fails (j : Job S C) (x : S) (s : Store) (e : PyErr) :
    (storeMask j x s).2 = some e ↔ j.exportCssData = true ∧ e = .osError ∧ (j.mask x).isSome ∧
      ¬ Sound j.faults (j.name x ++ "_flowmask.pickle".toList) := by
  unfold storeMask
  by_cases h : j.exportCssData = true
  · rw [if_pos h]
    cases j.mask x with
    | none => exact ⟨fun k => (nomatch k), fun k => (nomatch k.2.2.1)⟩
    | some text =>
      simp only
      rw [writeFile_fails]
      exact ⟨fun k => ⟨h, k.1, rfl, k.2⟩, fun k => ⟨k.2.1, k.2.2.2⟩⟩
  · rw [if_neg h]
    exact ⟨fun k => (nomatch k), fun k => absurd k.1 h⟩

theorem pickleFails_iff (j : Job S C) (x : S) (e : PyErr) : PickleFails j x e ↔ Unstorable j x ∧ e = .osError := by
  have h1 := fun e => storeData_fails j x noFiles e
  unfold PickleFails storePickle Unstorable
  cases hd : storeData j x noFiles with
  | mk s' r =>
    rw [hd] at h1
    simp only at h1 ⊢
    cases r with
    | some r =>
      obtain ⟨k1, k2, k3⟩ := (h1 r).1 rfl
      simp only
      constructor
      · intro e'; exact ⟨⟨k1, Or.inl k3⟩, by rw [← Option.some.inj e']; exact k2⟩
      · rintro ⟨_, rfl⟩; rw [k2]
    | none =>
      simp only
      have hs : j.exportCssData = true → ¬ ¬ Sound j.faults (j.name x ++ ".pickle".toList) :=
        fun k1 k2 => (nomatch (h1 .osError).2 ⟨k1, rfl, k2⟩)
      by_cases hf : j.faces x < 10
      · rw [if_pos hf]
        constructor
        · intro e'; cases e'
        · rintro ⟨⟨k1, k2 | ⟨k2, _⟩⟩, _⟩
          · exact absurd k2 (hs k1)
          · omega
      · rw [if_neg hf, storeMask_fails]
        constructor
        · rintro ⟨k1, k2, k3⟩; exact ⟨⟨k1, Or.inr ⟨by omega, k3⟩⟩, k2⟩
        · rintro ⟨⟨k1, k2 | ⟨_, k2⟩⟩, k3⟩
          · exact absurd k2 (hs k1)
          · exact ⟨k1, k3, k2⟩

/-- A location at which a run raises `e`. -/
def Fails (j : Job S C) (x : S) (e : PyErr) : Prop :=
  j.valid x = true ∧ (PickleFails j x e ∨ ((∀ e', ¬ PickleFails j x e') ∧ 10 ≤ j.faces x ∧ j.build x = .error e))

theorem outcome_error (j : Job S C) (x : S) (e : PyErr) : outcome j x = .error e ↔ Fails j x e := by
  unfold outcome Fails PickleFails
  by_cases hv : j.valid x = true
  · rw [if_neg (by rw [hv]; decide)]
    cases hp : (storePickle j x noFiles).2 with
    | some e' =>
      simp only
      constructor
      · intro h; exact ⟨hv, Or.inl (congrArg some (Except.error.inj h))⟩
      · rintro ⟨_, h | ⟨h, _⟩⟩
        · exact congrArg Except.error (Option.some.inj h)
        · exact absurd rfl (h e')
    | none =>
      simp only
      by_cases hf : j.faces x < 10
      · rw [if_pos hf]
        constructor
        · intro h; cases h
        · rintro ⟨_, h | ⟨_, h, _⟩⟩
          · cases h
          · omega
      · rw [if_neg hf]
        cases hb : j.build x with
        | error e' =>
          constructor
          · intro h
            exact ⟨hv, Or.inr ⟨(by intro e'' h; cases h), by omega, congrArg Except.error (Except.error.inj h)⟩⟩
          · rintro ⟨_, h | ⟨_, _, h⟩⟩
            · cases h
            · exact congrArg Except.error (Except.error.inj h)
        | ok c =>
          constructor
          · intro h; cases h
          · rintro ⟨_, h | ⟨_, _, h⟩⟩
            · cases h
            · cases h
  · have hv' : j.valid x = false := Bool.eq_false_iff.2 hv
    rw [if_pos (by rw [hv']; decide)]
    constructor
    · intro h; cases h
    · rintro ⟨h, _⟩; exact absurd h hv

theorem outcome_ok (j : Job S C) (x : S) (r : Option C) (h : outcome j x = .ok r) :
    (Eligible j x = false ∧ r = none) ∨ (Eligible j x = true ∧ ∃ c, r = some c ∧ j.build x = .ok c) := by
  unfold outcome at h
  unfold Eligible
  by_cases hv : j.valid x = true
  · rw [if_neg (by rw [hv]; decide)] at h
    rw [hv, Bool.true_and]
    cases hp : (storePickle j x noFiles).2 with
    | some e' => rw [hp] at h; cases h
    | none =>
      rw [hp] at h
      simp only at h
      by_cases hf : j.faces x < 10
      · rw [if_pos hf] at h
        exact Or.inl ⟨decide_eq_false (by omega), (Except.ok.inj h).symm⟩
      · rw [if_neg hf] at h
        refine Or.inr ⟨decide_eq_true (by omega), ?_⟩
        cases hb : j.build x with
        | error e => rw [hb] at h; cases h
        | ok c => rw [hb] at h; exact ⟨c, (Except.ok.inj h).symm, rfl⟩
  · have hv' : j.valid x = false := Bool.eq_false_iff.2 hv
    rw [if_pos (by rw [hv']; decide)] at h
    rw [hv', Bool.false_and]
    exact Or.inl ⟨rfl, (Except.ok.inj h).symm⟩

theorem outcomes_ok (j : Job S C) (xs : List S) (cs : List C) (h : outcomes j xs = .ok cs) :
    List.Forall₂ (fun x c => j.build x = .ok c) (xs.filter (Eligible j)) cs := by
  induction xs generalizing cs with
  | nil => rw [← Except.ok.inj h]; exact List.Forall₂.nil
  | cons x xs ih =>
    rw [outcomes] at h
    cases ho : outcome j x with
    | error e => rw [ho] at h; cases h
    | ok r =>
      rw [ho] at h
      simp only at h
      cases hs : outcomes j xs with
      | error e => rw [hs] at h; cases h
      | ok cs' =>
        rw [hs] at h
        rw [← Except.ok.inj h]
        rcases outcome_ok j x r ho with ⟨he, hr⟩ | ⟨he, c, hr, hb⟩
        · rw [List.filter_cons_of_neg (by rw [he]; decide), hr]
          exact ih cs' hs
        · rw [List.filter_cons_of_pos he, hr]
          exact List.Forall₂.cons hb (ih cs' hs)

theorem outcomes_error (j : Job S C) (xs : List S) (e : PyErr) :
    outcomes j xs = .error e ↔
      ∃ pre x post, xs = pre ++ x :: post ∧ (∀ y ∈ pre, ∀ e', ¬ Fails j y e') ∧ Fails j x e := by
  induction xs with
  | nil =>
    constructor
    · intro h; cases h
    · rintro ⟨pre, x, post, h, _⟩; cases pre <;> cases h
  | cons x xs ih =>
    rw [outcomes]
    cases ho : outcome j x with
    | error e' =>
      simp only
      constructor
      · intro h
        refine ⟨[], x, xs, rfl, by simp, ?_⟩
        rw [← outcome_error, ho]; exact congrArg Except.error (Except.error.inj h)
      · rintro ⟨pre, y, post, h, hn, hf⟩
        cases pre with
        | nil =>
          obtain ⟨rfl, rfl⟩ := List.cons.inj h
          have := (outcome_error j x e).2 hf
          rw [ho] at this
          exact congrArg Except.error (Except.error.inj this)
        | cons z pre =>
          obtain ⟨rfl, rfl⟩ := List.cons.inj h
          exact absurd ((outcome_error j x e').1 ho) (hn x List.mem_cons_self e')
    | ok r =>
      simp only
      have hno : ∀ e', ¬ Fails j x e' := by
        intro e' hf; rw [← outcome_error, ho] at hf; cases hf
      have hi : (match outcomes j xs with
          | .error e => Except.error e
          | .ok cs => .ok (r.toList ++ cs)) = .error e ↔ outcomes j xs = .error e := by
        cases outcomes j xs with
        | error e' => constructor <;> (intro h; exact congrArg Except.error (Except.error.inj h))
        | ok cs => constructor <;> (intro h; cases h)
      rw [hi, ih]
      constructor
      · rintro ⟨pre, y, post, rfl, hn, hf⟩
        refine ⟨x :: pre, y, post, rfl, ?_, hf⟩
        intro z hz
        rcases List.mem_cons.1 hz with rfl | hz
        · exact hno
        · exact hn z hz
      · rintro ⟨pre, y, post, h, hn, hf⟩
        cases pre with
        | nil =>
          obtain ⟨rfl, rfl⟩ := List.cons.inj h
          exact absurd hf (hno e)
        | cons z pre =>
          obtain ⟨rfl, rfl⟩ := List.cons.inj h
          exact ⟨pre, y, post, rfl, fun z hz => hn z (List.mem_cons_of_mem _ hz), hf⟩

theorem fails_iff (j : Job S C) (x : S) (e : PyErr) : Fails j x e ↔ FailsWith j x e := by
  unfold Fails FailsWith
  simp only [pickleFails_iff]
  constructor
  · rintro ⟨hv, h | ⟨h1, h2⟩⟩
    · exact ⟨hv, Or.inl h⟩
    · exact ⟨hv, Or.inr ⟨fun h => h1 .osError ⟨h, rfl⟩, h2⟩⟩
  · rintro ⟨hv, h | ⟨h1, h2⟩⟩
    · exact ⟨hv, Or.inl h⟩
    · exact ⟨hv, Or.inr ⟨fun e' h => h1 h.1, h2⟩⟩

theorem run_of_configured (j : Job S C) (s : Store) (h : j.configured = true) : run j true s = runInifile j s := by
  unfold run
  rw [h, Bool.not_true, if_neg (by decide), Bool.and_false, if_neg (by decide)]

theorem run_of_no_results (j : Job S C) (overwrite : Bool) (s : Store) (h : ¬ HasResults s) :
    run j overwrite s = run j true s := by
  have : outputExists s = false := Bool.eq_false_iff.2 fun e => h ((outputExists_iff s).1 e)
  unfold run
  rw [this, Bool.false_and, Bool.false_and]

/-! ## Contents -/

theorem tryBlock_written (w : WriteFaults) (pre post : List ExportStep) (f t : Text) (r : Option PyErr) (s : Store)
    (hpre : ∀ x ∈ pre, ∃ g u, x = .write g u none ∧ Sound w g) (hf : Sound w f) (hpost : f ∉ blockFiles post) :
    tryBlock w (pre ++ .write f t r :: post) s f = some t := by
  induction pre generalizing s with
  | nil =>
    rw [List.nil_append, tryBlock]
    simp only [ExportStep.run, writeFile]
    rw [hf.1, hf.2]
    cases r with
    | none =>
      simp only [Bool.false_eq_true, if_false]
      rw [tryBlock_other w post _ f hpost]
      exact if_pos rfl
    | some e => exact if_pos rfl
  | cons x pre ih =>
    obtain ⟨g, u, rfl, hg⟩ := hpre x List.mem_cons_self
    rw [List.cons_append, tryBlock]
    simp only [ExportStep.run, writeFile]
    rw [hg.1, hg.2]
    simp only [Bool.false_eq_true, if_false]
    exact ih _ fun y hy => hpre y (List.mem_cons_of_mem _ hy)

theorem group_disjoint (f : Text) (g g' : List Text) (hg : g ∈ groups) (hg' : g' ∈ groups) (hne : g ≠ g') (h : f ∈ g) :
    f ∉ g' := by
  have : ∀ g ∈ groups, ∀ g' ∈ groups, g ≠ g' → ∀ f ∈ g, f ∉ g' := by decide
  exact this g hg g' hg' hne f h

theorem dimr_mem (x : Exporter C) (cs : List C) (f : Text) (h : f ∈ blockFiles (dimrBlock x cs)) :
    f ∈ ["CrossSectionLocations.ini".toList, "CrossSectionDefinitions.ini".toList, "roughness-FloodPlain1.ini".toList,
      "roughness-FloodPlain2.ini".toList, "roughness-Main.ini".toList] := by
  have hs : List.Sublist (blockFiles (dimrBlock x cs))
      ["CrossSectionLocations.ini".toList, "CrossSectionDefinitions.ini".toList, "roughness-FloodPlain1.ini".toList,
      "roughness-FloodPlain2.ini".toList, "roughness-Main.ini".toList] := by
    unfold blockFiles dimrBlock
    rw [List.filterMap_cons, List.filterMap_cons]
    simp only [ExportStep.file?]
    refine List.Sublist.cons_cons _ (List.Sublist.cons_cons _ ?_)
    rw [List.filterMap_map]
    have : (ExportStep.file? ∘ roughnessStep x cs) = roughnessName := by
      funext s; exact roughnessStep_file x cs s
    rw [this]
    exact roughness_files _ (npUnique_sorted _)
  exact hs.subset h

theorem finalise_result (j : Job S C) (cs : List C) (s : Store) (f : Text) (hf : IsResult f) :
    finalise j cs s f = writeOutput j.faults j.exporter j.dirExists (j.harmonise cs) s f := by
  have hne : f ∉ ["face_output.geojson".toList, "edge_output.geojson".toList, "cross_section_volumes.geojson".toList] := by
    obtain ⟨r, hr, rfl⟩ := hf
    have : ∀ r ∈ resultFiles, r.toList ∉
      ["face_output.geojson".toList, "edge_output.geojson".toList, "cross_section_volumes.geojson".toList] := by decide
    exact this r hr
  have hone : ∀ (g : Text) r t, f ≠ g → tryBlock j.faults [preparedStep g r] t f = t f := by
    intro g r t hg
    refine tryBlock_other _ _ _ _ fun h => ?_
    cases r with
    | error e => cases h
    | ok p => exact hg (List.mem_singleton.1 h)
  have h1 : f ≠ "face_output.geojson".toList := fun e => hne (by rw [e]; exact List.mem_cons_self)
  have h2 : f ≠ "edge_output.geojson".toList := fun e => hne (by
    rw [e]; exact List.mem_cons_of_mem _ List.mem_cons_self)
  have h3 : f ≠ "cross_section_volumes.geojson".toList := fun e => hne (by
    rw [e]; exact List.mem_cons_of_mem _ (List.mem_cons_of_mem _ List.mem_cons_self))
  unfold finalise
  rw [hone _ _ _ h3]
  split
  · unfold writeMapFiles
    rw [hone _ _ _ h2, hone _ _ _ h1]
  · rfl

theorem attemptAll_result (j : Job S C) (xs : List S) (s : Store) (f : Text) (hf : IsResult f) :
    (attemptAll j xs s).1 f = s f := by
  induction xs generalizing s with
  | nil => rfl
  | cons x xs ih =>
    have hs : (if !j.valid x then s else (storePickle j x s).1) f = s f := by
      split
      · rfl
      · have h1 : (storeData j x s).1 f = s f := by
          unfold storeData
          split
          · have := step_other j.faults (.write (j.name x ++ ".pickle".toList) (j.pickle x) none) s f (by
              intro e
              exact pickle_not_result (j.name x) (by rw [Option.some.inj e]; exact hf))
            exact this
          · rfl
        have h2 : ∀ s, (storeMask j x s).1 f = s f := by
          intro s
          unfold storeMask
          split
          · split
            · rename_i text _
              have := step_other j.faults (.write (j.name x ++ "_flowmask.pickle".toList) text none) s f (by
                intro e
                exact mask_not_result (j.name x) (by rw [Option.some.inj e]; exact hf))
              exact this
            · rfl
          · rfl
        unfold storePickle
        cases hd : storeData j x s with
        | mk s' e =>
          rw [hd] at h1
          cases e with
          | some e => exact h1
          | none =>
            simp only
            split
            · exact h1
            · exact (h2 s').trans h1
    rw [attemptAll, attempt_eq]
    cases outcome j x with
    | error e => exact hs
    | ok r =>
      simp only
      have := ih (if !j.valid x then s else (storePickle j x s).1)
      cases h : attemptAll j xs (if !j.valid x then s else (storePickle j x s).1) with
      | mk s' e =>
        rw [h] at this
        cases e <;> exact this.trans hs

theorem requested_error (selection : List Int) (l : List S) (e : PyErr) (h : requested selection l = .error e) :
    e = .indexError ∧ ∀ xs, ¬ Requested selection l xs := by
  refine ⟨?_, fun xs hx => by rw [← requested_iff, h] at hx; cases hx⟩
  unfold requested at h
  cases selection with
  | nil => cases h
  | cons i is =>
    rw [if_neg (by simp)] at h
    generalize i :: is = sel at h
    induction sel with
    | nil => cases h
    | cons i sel ih =>
      rw [collect] at h
      have hp : ∀ e, pickStation l i = .error e → e = .indexError := by
        intro e h
        unfold pickStation pyIndex at h
        split at h
        · rename_i e' h'
          split at h'
          · split at h'
            · cases h'
            · rw [← Except.error.inj h, ← Except.error.inj h']
          · split at h'
            · cases h'
            · rw [← Except.error.inj h, ← Except.error.inj h']
        · split at h
          · cases h
          · exact (Except.error.inj h).symm
      cases hr : pickStation l i with
      | error e' =>
        rw [hr] at h
        rw [← Except.error.inj h]; exact hp e' hr
      | ok y =>
        rw [hr] at h
        simp only at h
        cases hc : collect (pickStation l) sel with
        | error e' => rw [hc] at h ih; exact ih (by rw [← Except.error.inj h])
        | ok ys => rw [hc] at h; cases h

/-- What a run does once it is not refused. -/
theorem run_spec (j : Job S C) (overwrite : Bool) (s : Store) (hc : j.configured = true)
    (ho : overwrite = true ∨ ¬ HasResults s) : run j overwrite s = runInifile j s := by
  have h1 : run j overwrite s = run j true s := by
    rcases ho with rfl | h
    · rfl
    · exact run_of_no_results j overwrite s h
  rw [h1, run_of_configured j s hc]

theorem generate_outcome (j : Job S C) (m : Loaded S) (s : Store) :
    (generate j m s).2 = match requested j.cssSelection m.stations with
      | .error e => .error e
      | .ok xs => outcomes j xs := by
  unfold generate
  cases requested j.cssSelection m.stations with
  | error e => rfl
  | ok xs => exact attemptAll_outcome j xs s

theorem initialise_ok (j : Job S C) (m : Loaded S) :
    initialise j = .ok m ↔ j.mapIsFile = true ∧ j.cssIsFile = true ∧ j.load = .ok m ∧ j.skipMaps < m.nMaps := by
  unfold initialise
  cases h1 : j.mapIsFile <;> cases h2 : j.cssIsFile
  · exact ⟨fun h => (by cases h), fun h => (by cases h.1)⟩
  · exact ⟨fun h => (by cases h), fun h => (by cases h.1)⟩
  · exact ⟨fun h => (by cases h), fun h => (by cases h.2.1)⟩
  · rw [if_neg (by decide)]
    cases hl : j.load with
    | error e => 
      constructor
      · intro h; cases e <;> cases h
      · intro h; cases h.2.2.1
    | ok m' =>
      simp only
      split
      · rename_i hs
        constructor
        · intro h; cases h
        · rintro ⟨_, _, h, hlt⟩
          obtain rfl := Except.ok.inj h
          omega
      · rename_i hs
        constructor
        · intro h
          obtain rfl := Except.ok.inj h
          exact ⟨by trivial, by trivial, rfl, by omega⟩
        · rintro ⟨_, _, h, _⟩
          exact congrArg Except.ok (Except.ok.inj h)

theorem initialise_error (j : Job S C) (e : PyErr) (he : e ≠ .initializationError) :
    initialise j = .error e ↔ j.mapIsFile = true ∧ j.cssIsFile = true ∧ j.load = .error e ∧ e ≠ .polygonError := by
  unfold initialise
  cases h1 : j.mapIsFile <;> cases h2 : j.cssIsFile
  · exact ⟨fun h => absurd (Except.error.inj h).symm he, fun h => by cases h.1⟩
  · exact ⟨fun h => absurd (Except.error.inj h).symm he, fun h => by cases h.1⟩
  · exact ⟨fun h => absurd (Except.error.inj h).symm he, fun h => by cases h.2.1⟩
  · rw [if_neg (by decide)]
    cases hl : j.load with
    | error e' =>
      constructor
      · intro h
        refine ⟨rfl, rfl, ?_⟩
        cases e' <;> first
          | exact absurd (Except.error.inj h).symm he
          | exact ⟨congrArg Except.error (Except.error.inj h), by rw [← Except.error.inj h]; exact nofun⟩
      · rintro ⟨_, _, h, hp⟩
        obtain rfl := Except.error.inj h
        cases e' <;> first | rfl | exact absurd rfl hp
    | ok m' =>
      simp only
      constructor
      · intro h
        split at h
        · exact absurd (Except.error.inj h).symm he
        · cases h
      · rintro ⟨_, _, h, _⟩; cases h

theorem not_mem_roughness (x : Exporter C) (cs : List C) (f : Text)
    (hf : f ∉ ["roughness-FloodPlain1.ini".toList, "roughness-FloodPlain2.ini".toList, "roughness-Main.ini".toList]) :
    f ∉ blockFiles ((npUnique (cs.flatMap x.sections)).map (roughnessStep x cs)) := by
  intro h
  unfold blockFiles at h
  rw [List.filterMap_map] at h
  have : (ExportStep.file? ∘ roughnessStep x cs) = roughnessName := by
    funext s; exact roughnessStep_file x cs s
  rw [this] at h
  exact hf ((roughness_files _ (npUnique_sorted _)).subset h)

theorem not_mem_rest (x : Exporter C) (cs : List C) (f : Text)
    (hf : f ∉ ["roughness-FloodPlain1.ini".toList, "roughness-FloodPlain2.ini".toList, "roughness-Main.ini".toList])
    (hd : f ≠ "CrossSectionDefinitions.ini".toList) :
    f ∉ blockFiles (.write "CrossSectionDefinitions.ini".toList (x.definitions cs).1 (x.definitions cs).2 ::
      (npUnique (cs.flatMap x.sections)).map (roughnessStep x cs)) := by
  intro h
  unfold blockFiles at h
  rw [List.filterMap_cons] at h
  simp only [ExportStep.file?] at h
  rcases List.mem_cons.1 h with e | h
  · exact hd e
  · exact not_mem_roughness x cs f hf h

theorem known_file (t : Text) (h : t ∈ ["main".toList, "floodplain1".toList, "floodplain2".toList]) :
    ∃ g i, sectionFile t = some (g, i) ∧ IsResult g := by
  rcases List.mem_cons.1 h with e | h
  · exact ⟨_, _, by rw [e]; rfl, "roughness-Main.ini", by decide, rfl⟩
  rcases List.mem_cons.1 h with e | h
  · exact ⟨_, _, by rw [e]; rfl, "roughness-FloodPlain1.ini", by decide, rfl⟩
  · rw [List.mem_singleton.1 h]
    exact ⟨_, _, rfl, "roughness-FloodPlain2.ini", by decide, rfl⟩

theorem roughnessName_inj (s t f : Text) (hs : roughnessName s = some f) (ht : roughnessName t = some f) : s = t := by
  have h1 := known_sections s f hs
  have h2 := known_sections t f ht
  have : ∀ s ∈ ["floodplain1".toList, "floodplain2".toList, "main".toList],
      ∀ t ∈ ["floodplain1".toList, "floodplain2".toList, "main".toList], roughnessName s = roughnessName t → s = t := by
    decide
  exact this s h1 t h2 (hs.trans ht.symm)

theorem step_local (w : WriteFaults) (x : ExportStep) (s s' : Store) (f : Text) (h : s f = s' f) :
    (x.run w s).1 f = (x.run w s').1 f ∧ (x.run w s).2 = (x.run w s').2 := by
  cases x with
  | fail e => exact ⟨h, rfl⟩
  | write file text r =>
    simp only [ExportStep.run, writeFile]
    split
    · exact ⟨h, rfl⟩
    · cases w.breaks file <;> exact ⟨by simp only [Store.set, h], rfl⟩

theorem tryBlock_local (w : WriteFaults) (xs : List ExportStep) (s s' : Store) (f : Text) (h : s f = s' f) :
    tryBlock w xs s f = tryBlock w xs s' f := by
  induction xs generalizing s s' with
  | nil => exact h
  | cons x xs ih =>
    obtain ⟨h1, h2⟩ := step_local w x s s' f h
    rw [tryBlock, tryBlock]
    cases hr : x.run w s with
    | mk t e =>
      cases hr' : x.run w s' with
      | mk t' e' =>
        rw [hr, hr'] at h1 h2
        simp only at h1 h2
        subst h2
        cases e with
        | some e => exact h1
        | none => exact ih t t' h1

theorem writeOutput_local (w : WriteFaults) (x : Exporter C) (d : Bool) (cs : List C) (s s' : Store) (f : Text)
    (h : s f = s' f) : writeOutput w x d cs s f = writeOutput w x d cs s' f := by
  unfold writeOutput
  split
  · exact h
  · exact tryBlock_local w _ _ _ f (tryBlock_local w _ _ _ f (tryBlock_local w _ _ _ f h))

theorem outcomes_fail (j : Job S C) (xs : List S) (x : S) (hx : x ∈ xs) (e : PyErr) (h : Fails j x e) :
    ∃ e', outcomes j xs = .error e' := by
  induction xs with
  | nil => cases hx
  | cons y ys ih =>
    rw [outcomes]
    rcases List.mem_cons.1 hx with rfl | hx
    · rw [(outcome_error j x e).2 h]; exact ⟨e, rfl⟩
    · cases outcome j y with
      | error e' => exact ⟨e', rfl⟩
      | ok r =>
        obtain ⟨e', he'⟩ := ih hx
        rw [he']
        exact ⟨e', rfl⟩

theorem runInifile_result (j : Job S C) (m : Loaded S) (s : Store) (h : initialise j = .ok m) :
    ((runInifile j s).2 = .ok true ↔ ∃ cs, (generate j m s).2 = .ok cs) ∧
    ∀ e, (runInifile j s).2 = .error e ↔ (generate j m s).2 = .error e := by
  unfold runInifile
  rw [h]
  simp only
  cases generate j m s with
  | mk s' r =>
    cases r with
    | error e =>
      refine ⟨⟨nofun, ?_⟩, fun e' => ⟨fun h => congrArg Except.error (Except.error.inj h), fun h =>
        congrArg Except.error (Except.error.inj h)⟩⟩
      rintro ⟨_, h⟩
      cases h
    | ok cs => exact ⟨⟨fun _ => ⟨cs, rfl⟩, fun _ => rfl⟩, fun e => ⟨nofun, nofun⟩⟩

end Fm2prof

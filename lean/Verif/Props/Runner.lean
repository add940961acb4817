import Verif.Proofs.Runner

/-!
# Runs

C49 to C54 and C87. The theorems hold for every input, every configuration, every way of computing cross-sections and
texts, and every combination of files that cannot be opened or written.
-/

set_option linter.unusedSectionVars false

namespace Fm2prof.Props

open Spec

variable {S C : Type}

/-! ## C49: existing results -/

/-- **C49, refusing.** Without the overwrite option a run on a directory with any of the result files changes no file and
reports failure. -/
theorem C49_refused (j : Job S C) (s : Store) (h : HasResults s) : run j false s = (s, .ok false) := by
  unfold run
  rw [(outputExists_iff s).2 h]
  cases j.configured <;> rfl

/-- **C49, overwriting.** With the overwrite option a run proceeds: it reports what it reports on an empty directory, it
puts the files that it writes there on top of those that were there, and leaves all other files as they were. -/
theorem C49_overwrites (j : Job S C) (s : Store) :
    run j true s = (overlay (run j true noFiles).1 s, (run j true noFiles).2) := by
  by_cases hc : j.configured = true
  · rw [run_of_configured j _ hc, run_of_configured j _ hc]
    have := runInifile_overlay j noFiles s
    rw [noFiles_overlay] at this
    exact this
  · have : j.configured = false := Bool.eq_false_iff.2 hc
    unfold run
    rw [this]
    rfl

/-- **C49, nothing to overwrite.** On a directory without result files the option makes no difference. -/
theorem C49_no_results (j : Job S C) (overwrite : Bool) (s : Store) (h : ¬ HasResults s) :
    run j overwrite s = run j true s := run_of_no_results j overwrite s h

/-! ## C50: repeated runs -/

/-- **C50.** After a run that has left a result file, any number of runs without the overwrite option, with whatever input
and configuration, change nothing and report failure. -/
theorem C50_refused_again (j : Job S C) (overwrite : Bool) (s : Store) (h : HasResults (run j overwrite s).1)
    (js : List (Job S C)) :
    runs (js.map fun j => (j, false)) (run j overwrite s).1 = ((run j overwrite s).1, js.map fun _ => .ok false) := by
  generalize (run j overwrite s).1 = s' at h
  induction js with
  | nil => rfl
  | cons i js ih =>
    rw [List.map_cons, runs, C49_refused i s' h]
    simp only
    rw [ih]
    rfl

/-- **C50, exporting.** A run that has changed or created any result file has left a result file. -/
theorem C50_exported (j : Job S C) (overwrite : Bool) (s : Store) (f : Text) (hf : IsResult f)
    (hd : (run j overwrite s).1 f ≠ s f) : HasResults (run j overwrite s).1 := by
  by_cases hs : HasResults s
  · obtain ⟨g, hg, hp⟩ := hs
    cases overwrite with
    | false => rw [C49_refused j s ⟨g, hg, hp⟩]; exact ⟨g, hg, hp⟩
    | true =>
      refine ⟨g, hg, ?_⟩
      rw [C49_overwrites]
      simp only [overlay]
      cases (run j true noFiles).1 g with
      | none => exact hp
      | some t => rfl
  · refine ⟨f, hf, ?_⟩
    rw [C49_no_results j overwrite s hs, C49_overwrites] at hd ⊢
    simp only [overlay] at hd ⊢
    cases h : (run j true noFiles).1 f with
    | none => rw [h] at hd; exact absurd rfl hd
    | some t => rfl

/-- **C50, results are never removed.** In any history of runs, a result file once there stays there. -/
theorem C50_kept (history : List (Job S C × Bool)) (s : Store) (f : Text) (h : (s f).isSome) :
    ((runs history s).1 f).isSome := by
  induction history generalizing s with
  | nil => exact h
  | cons p rest ih =>
    obtain ⟨j, o⟩ := p
    rw [runs]
    refine ih _ ?_
    by_cases hs : HasResults s ∧ o = false
    · rw [hs.2, C49_refused j s hs.1]; exact h
    · have : run j o s = run j true s := by
        cases o with
        | true => rfl
        | false => exact C49_no_results j false s fun h => hs ⟨h, rfl⟩
      rw [this, C49_overwrites]
      simp only [overlay]
      cases (run j true noFiles).1 f with
      | none => exact h
      | some t => rfl

/-! ## C51: a file that cannot be written -/

/-- **C51, partial.** Whatever happens to one result file, the run reports the same and writes every other file exactly as
it would otherwise, except those that follow it in its group. What is missing: the files that follow it in its group, see
`C51_violated`. -/
theorem C51_others_partial (j : Job S C) (w w' : WriteFaults) (p : Text) (hp : IsResult p) (hw : SameFaultsBut p w w')
    (overwrite : Bool) (s : Store) :
    (run { j with faults := w } overwrite s).2 = (run { j with faults := w' } overwrite s).2 ∧
    ∀ f, f ≠ p → ¬ After p f →
      (run { j with faults := w } overwrite s).1 f = (run { j with faults := w' } overwrite s).1 f := by
  have key : (runInifile { j with faults := w } s).2 = (runInifile { j with faults := w' } s).2 ∧
      ∀ f, f ≠ p → ¬ After p f →
        (runInifile { j with faults := w } s).1 f = (runInifile { j with faults := w' } s).1 f := by
    unfold runInifile
    have hi : initialise { j with faults := w } = initialise { j with faults := w' } := rfl
    rw [hi]
    cases initialise { j with faults := w' } with
    | error e => cases e <;> exact ⟨rfl, fun _ _ _ => rfl⟩
    | ok m =>
      have hg : generate { j with faults := w } m s = generate { j with faults := w' } m s := by
        unfold generate
        simp only
        cases requested j.cssSelection m.stations with
        | error e => rfl
        | ok xs => exact attemptAll_same j w w' p hw hp xs s
      simp only
      rw [hg]
      cases generate { j with faults := w' } m s with
      | mk s' e =>
        cases e with
        | error e => exact ⟨rfl, fun _ _ _ => rfl⟩
        | ok cs => exact ⟨rfl, fun f hf ha => finalise_same j w w' p f hw hf ha cs s' s' rfl⟩
  unfold run
  simp only
  split
  · exact ⟨rfl, fun _ _ _ => rfl⟩
  · split
    · exact ⟨rfl, fun _ _ _ => rfl⟩
    · exact key

/-- **C51, exporting does not raise.** Once the cross-sections have been made a run reports success, whatever happens to
the files. -/
theorem C51_never_raises (j : Job S C) (overwrite : Bool) (s : Store) (hc : j.configured = true)
    (ho : overwrite = true ∨ ¬ HasResults s) (m : Loaded S) (hm : initialise j = .ok m) (cs : List C)
    (hg : (generate j m noFiles).2 = .ok cs) : (run j overwrite s).2 = .ok true := by
  have h1 : run j overwrite s = run j true s := by
    rcases ho with rfl | h
    · rfl
    · exact C49_no_results j overwrite s h
  rw [h1, C49_overwrites, run_of_configured j _ hc]
  unfold runInifile
  rw [hm]
  simp only
  cases h : generate j m noFiles with
  | mk s' e =>
    rw [h] at hg
    simp only at hg
    subst hg
    rfl

/-- **C51, contents.** What a finished run leaves in the output directory: in each group, as long as nothing goes wrong
with the earlier files of the group, every file holds what its exporter has made of the cross-sections. -/
theorem C51_contents (w : WriteFaults) (x : Exporter C) (cs : List C) (hcs : cs ≠ []) (s : Store)
    (hw : ∀ f, IsResult f → Sound w f) :
    ((x.locations cs).2 = none → (x.definitions cs).2 = none → (∀ id, (x.roughness cs id).2 = none) →
      (∀ c ∈ cs, ∀ r ∈ x.sections c, r ∈ ["main".toList, "floodplain1".toList, "floodplain2".toList]) →
      writeOutput w x true cs s "CrossSectionLocations.ini".toList = some (x.locations cs).1 ∧
      writeOutput w x true cs s "CrossSectionDefinitions.ini".toList = some (x.definitions cs).1 ∧
      ((∃ c ∈ cs, "main".toList ∈ x.sections c) →
        writeOutput w x true cs s "roughness-Main.ini".toList = some (x.roughness cs "Main".toList).1) ∧
      ((∃ c ∈ cs, "floodplain1".toList ∈ x.sections c) →
        writeOutput w x true cs s "roughness-FloodPlain1.ini".toList = some (x.roughness cs "FloodPlain1".toList).1) ∧
      ((∃ c ∈ cs, "floodplain2".toList ∈ x.sections c) →
        writeOutput w x true cs s "roughness-FloodPlain2.ini".toList = some (x.roughness cs "FloodPlain2".toList).1)) ∧
    ((x.sobekGeometry cs).2 = none →
      writeOutput w x true cs s "geometry.csv".toList = some (x.sobekGeometry cs).1 ∧
      writeOutput w x true cs s "roughness.csv".toList = some (x.sobekRoughness cs).1) ∧
    ((x.testGeometry cs).2 = none →
      writeOutput w x true cs s "geometry_test.csv".toList = some (x.testGeometry cs).1 ∧
      writeOutput w x true cs s "volumes.csv".toList = some (x.volumes cs).1) := by
  have hres : ∀ r ∈ resultFiles, Sound w r.toList := fun r hr => hw _ ⟨r, hr, rfl⟩
  have hout : ∀ f, writeOutput w x true cs s f =
      tryBlock w (otherBlock x cs) (tryBlock w (sobekBlock' x cs) (tryBlock w (dimrBlock x cs) s)) f := by
    intro f
    have h : cs.isEmpty = false := by cases cs with | nil => exact absurd rfl hcs | cons _ _ => rfl
    unfold writeOutput
    rw [h]; rfl
  have hdimr : ∀ f, f ∉ ["geometry.csv".toList, "roughness.csv".toList, "geometry_test.csv".toList, "volumes.csv".toList] →
      writeOutput w x true cs s f = tryBlock w (dimrBlock x cs) s f := by
    intro f hf
    rw [hout, tryBlock_other w (otherBlock x cs), tryBlock_other w (sobekBlock' x cs)]
    · intro h
      exact hf ((List.mem_cons.1 h).elim (fun e => by rw [e]; exact List.mem_cons_self) fun h => by
        rw [List.mem_singleton.1 h]; exact List.mem_cons_of_mem _ List.mem_cons_self)
    · intro h
      exact hf ((List.mem_cons.1 h).elim (fun e => by
        rw [e]; exact List.mem_cons_of_mem _ (List.mem_cons_of_mem _ List.mem_cons_self)) fun h => by
        rw [List.mem_singleton.1 h]
        exact List.mem_cons_of_mem _ (List.mem_cons_of_mem _ (List.mem_cons_of_mem _ List.mem_cons_self)))
  have hsobek : ∀ f, f ∉ ["geometry_test.csv".toList, "volumes.csv".toList] →
      writeOutput w x true cs s f = tryBlock w (sobekBlock' x cs) (tryBlock w (dimrBlock x cs) s) f := by
    intro f hf
    rw [hout, tryBlock_other w (otherBlock x cs)]
    exact hf
  refine ⟨fun h1 h2 h3 h4 => ⟨?_, ?_, ?_⟩, fun h1 => ⟨?_, ?_⟩, fun h1 => ⟨?_, ?_⟩⟩
  · rw [hdimr _ (by decide)]
    refine tryBlock_written w [] _ _ _ _ s (by simp) (hres "CrossSectionLocations.ini" (by decide)) fun h => ?_
    exact absurd h (not_mem_rest x cs _ (by decide) (by decide))
  · rw [hdimr _ (by decide)]
    refine tryBlock_written w [_] _ _ _ _ s ?_ (hres "CrossSectionDefinitions.ini" (by decide)) ?_
    · intro y hy
      rw [List.mem_singleton.1 hy]
      exact ⟨_, _, by rw [h1], hres "CrossSectionLocations.ini" (by decide)⟩
    · exact not_mem_roughness x cs _ (by decide)
  · have key : ∀ sec file id : String, sectionFile sec.toList = some (file.toList, id.toList) → file ∈ resultFiles →
        file.toList ∉ ["geometry.csv".toList, "roughness.csv".toList, "geometry_test.csv".toList, "volumes.csv".toList] →
        (∃ c ∈ cs, sec.toList ∈ x.sections c) →
        writeOutput w x true cs s file.toList = some (x.roughness cs id.toList).1 := by
      intro sec file id hsec hfile hnot hex
      rw [hdimr _ hnot]
      obtain ⟨c, hc, hm⟩ := hex
      have hmem : sec.toList ∈ npUnique (cs.flatMap x.sections) := by
        rw [mem_npUnique]; exact List.mem_flatMap.2 ⟨c, hc, hm⟩
      obtain ⟨pre, post, hpp⟩ := List.append_of_mem hmem
      have hnd : (pre ++ sec.toList :: post).Nodup := by rw [← hpp]; exact nodup_npUnique _
      have hstep : roughnessStep x cs sec.toList = .write file.toList (x.roughness cs id.toList).1 none := by
        unfold roughnessStep; rw [hsec]; simp only; rw [h3]
      have hblock : dimrBlock x cs =
          (.write "CrossSectionLocations.ini".toList (x.locations cs).1 none ::
            .write "CrossSectionDefinitions.ini".toList (x.definitions cs).1 none ::
            pre.map (roughnessStep x cs)) ++
          .write file.toList (x.roughness cs id.toList).1 none :: post.map (roughnessStep x cs) := by
        unfold dimrBlock
        rw [hpp, List.map_append, List.map_cons, hstep, h1, h2]
        rfl
      rw [hblock]
      refine tryBlock_written w _ _ _ _ _ s ?_ (hres file hfile) ?_
      · intro y hy
        rcases List.mem_cons.1 hy with rfl | hy
        · exact ⟨_, _, rfl, hres "CrossSectionLocations.ini" (by decide)⟩
        rcases List.mem_cons.1 hy with rfl | hy
        · exact ⟨_, _, rfl, hres "CrossSectionDefinitions.ini" (by decide)⟩
        obtain ⟨t, ht, rfl⟩ := List.mem_map.1 hy
        have htm : t ∈ npUnique (cs.flatMap x.sections) := by rw [hpp]; exact List.mem_append_left _ ht
        rw [mem_npUnique] at htm
        obtain ⟨c', hc', hm'⟩ := List.mem_flatMap.1 htm
        obtain ⟨g, i, hg, hgr⟩ := known_file t (h4 c' hc' t hm')
        refine ⟨g, (x.roughness cs i).1, ?_, hw g hgr⟩
        unfold roughnessStep; rw [hg]; simp only; rw [h3]
      · intro hm
        obtain ⟨y, hy, hyf⟩ := List.mem_filterMap.1 hm
        obtain ⟨t, ht, rfl⟩ := List.mem_map.1 hy
        rw [roughnessStep_file] at hyf
        have : t = sec.toList := roughnessName_inj t sec.toList file.toList hyf (by
          unfold roughnessName; rw [hsec]; rfl)
        rw [List.nodup_append, List.nodup_cons] at hnd
        exact hnd.2.1.1 (this ▸ ht)
    exact ⟨key "main" "roughness-Main.ini" "Main" (by decide) (by decide) (by decide),
      key "floodplain1" "roughness-FloodPlain1.ini" "FloodPlain1" (by decide) (by decide) (by decide),
      key "floodplain2" "roughness-FloodPlain2.ini" "FloodPlain2" (by decide) (by decide) (by decide)⟩
  · rw [hsobek _ (by decide)]
    exact tryBlock_written w [] [_] _ _ _ _ (by simp) (hres "geometry.csv" (by decide))
      (show "geometry.csv".toList ∉ ["roughness.csv".toList] by decide)
  · rw [hsobek _ (by decide)]
    refine tryBlock_written w [_] [] _ _ _ _ ?_ (hres "roughness.csv" (by decide)) List.not_mem_nil
    intro y hy
    rw [List.mem_singleton.1 hy]
    exact ⟨_, _, by rw [h1], hres "geometry.csv" (by decide)⟩
  · rw [hout]
    exact tryBlock_written w [] [_] _ _ _ _ (by simp) (hres "geometry_test.csv" (by decide))
      (show "geometry_test.csv".toList ∉ ["volumes.csv".toList] by decide)
  · rw [hout]
    refine tryBlock_written w [_] [] _ _ _ _ ?_ (hres "volumes.csv" (by decide)) List.not_mem_nil
    intro y hy
    rw [List.mem_singleton.1 hy]
    exact ⟨_, _, by rw [h1], hres "geometry_test.csv" (by decide)⟩

/-! ## C52: the cross-sections of a run -/

/-- **C52.** The result files of a successful run are those of the cross-sections built for the requested locations with
data and at least ten faces, each once and in the order requested. -/
theorem C52_in_order (j : Job S C) (overwrite : Bool) (s : Store) (h : (run j overwrite s).2 = .ok true) :
    ∃ m xs cs, j.load = .ok m ∧ Requested j.cssSelection m.stations xs ∧
      List.Forall₂ (fun x c => j.build x = .ok c) (xs.filter (Eligible j)) cs ∧
      ∀ f, IsResult f →
        (run j overwrite s).1 f = writeOutput j.faults j.exporter j.dirExists (j.harmonise cs) s f := by
  have hrun : run j overwrite s = runInifile j s := by
    unfold run at h ⊢
    split at h
    · cases h
    · rename_i h1
      rw [if_neg h1]
      split at h
      · cases h
      · rename_i h2
        rw [if_neg h2]
  rw [hrun] at h ⊢
  unfold runInifile at h ⊢
  cases hi : initialise j with
  | error e => rw [hi] at h; cases e <;> cases h
  | ok m =>
    rw [hi] at h
    simp only at h ⊢
    obtain ⟨_, _, hl, _⟩ := (initialise_ok j m).1 hi
    have hg := generate_outcome j m s
    cases hr : requested j.cssSelection m.stations with
    | error e =>
      rw [hr] at hg
      cases hgen : generate j m s with
      | mk s' r => rw [hgen] at h hg; simp only at hg; subst hg; cases h
    | ok xs =>
      rw [hr] at hg
      simp only at hg
      have hs : ∀ f, IsResult f → (generate j m s).1 f = s f := by
        intro f hf
        unfold generate
        rw [hr]
        exact attemptAll_result j xs s f hf
      cases hgen : generate j m s with
      | mk s' r =>
        rw [hgen] at h hg hs
        simp only at hg hs
        subst hg
        cases ho : outcomes j xs with
        | error e => rw [ho] at h; cases h
        | ok cs =>
          refine ⟨m, xs, cs, hl, (requested_iff _ _ _).1 hr, outcomes_ok j xs cs ho, fun f hf => ?_⟩
          simp only
          rw [finalise_result j cs s' f hf]
          exact writeOutput_local j.faults j.exporter j.dirExists _ s' s f (hs f hf)

/-- **C52, stopping.** When a run raises while cross-sections are made, it is at the first requested location that cannot be
made: all locations requested before it have been made or left out. -/
theorem C52_first_failure (j : Job S C) (m : Loaded S) (s : Store) (xs : List S)
    (hr : Requested j.cssSelection m.stations xs) (e : PyErr) :
    (generate j m s).2 = .error e ↔
      ∃ pre x post, xs = pre ++ x :: post ∧ (∀ y ∈ pre, ∀ e', ¬ FailsWith j y e') ∧ FailsWith j x e := by
  rw [generate_outcome, (requested_iff _ _ _).2 hr]
  simp only
  rw [outcomes_error]
  simp only [fails_iff]

/-! ## C53: what a run returns -/

/-- **C53, partial.** A run that returns false has changed no file. A run returns true exactly when it is not refused,
the input exists and loads, fewer maps are skipped than there are, and all requested cross-sections can be made. What is
missing: runs raise when the input does not load or a cross-section cannot be made, and return true without having
written anything when there is no cross-section, see `C53_raises_violated` and `C53_true_violated`. -/
theorem C53_returns_partial (j : Job S C) (overwrite : Bool) (s : Store) :
    ((run j overwrite s).2 = .ok false → (run j overwrite s).1 = s) ∧
    ((run j overwrite s).2 = .ok true ↔
      j.configured = true ∧ (overwrite = true ∨ ¬ HasResults s) ∧ j.mapIsFile = true ∧ j.cssIsFile = true ∧
      ∃ m xs, j.load = .ok m ∧ j.skipMaps < m.nMaps ∧ Requested j.cssSelection m.stations xs ∧
        ∀ x ∈ xs, ∀ e, ¬ FailsWith j x e) := by
  have hini : (runInifile j s).2 = .ok false → (runInifile j s).1 = s := by
    unfold runInifile
    cases initialise j with
    | error e => cases e <;> (intro h; first | rfl | cases h)
    | ok m =>
      simp only
      cases generate j m s with
      | mk s' r => cases r <;> (intro h; cases h)
  have htrue : (runInifile j s).2 = .ok true ↔ j.mapIsFile = true ∧ j.cssIsFile = true ∧
      ∃ m xs, j.load = .ok m ∧ j.skipMaps < m.nMaps ∧ Requested j.cssSelection m.stations xs ∧
        ∀ x ∈ xs, ∀ e, ¬ FailsWith j x e := by
    cases hi : initialise j with
    | error e =>
      have hno : ∀ m, initialise j ≠ .ok m := fun m hm => by rw [hi] at hm; cases hm
      constructor
      · intro h
        unfold runInifile at h
        rw [hi] at h
        cases e <;> cases h
      · rintro ⟨h1, h2, m, xs, hl, hsk, _⟩
        exact absurd ((initialise_ok j m).2 ⟨h1, h2, hl, hsk⟩) (hno m)
    | ok m =>
      obtain ⟨h1, h2, hl, hsk⟩ := (initialise_ok j m).1 hi
      rw [(runInifile_result j m s hi).1, generate_outcome]
      cases hr : requested j.cssSelection m.stations with
      | error e =>
        obtain ⟨_, hn⟩ := requested_error _ _ _ hr
        constructor
        · rintro ⟨_, h⟩; cases h
        · rintro ⟨_, _, m', xs, hl', _, hreq, _⟩
          rw [hl] at hl'
          obtain rfl := Except.ok.inj hl'
          exact absurd hreq (hn xs)
      | ok xs =>
        have hx := (requested_iff _ _ _).1 hr
        simp only
        constructor
        · rintro ⟨cs, hcs⟩
          refine ⟨h1, h2, m, xs, hl, hsk, hx, fun x hxm e hf => ?_⟩
          obtain ⟨e', he'⟩ := outcomes_fail j xs x hxm e ((fails_iff j x e).2 hf)
          rw [he'] at hcs; cases hcs
        · rintro ⟨_, _, m', xs', hl', _, hreq, hnf⟩
          rw [hl] at hl'
          obtain rfl := Except.ok.inj hl'
          have hxx : xs' = xs := by
            have := (requested_iff _ _ _).2 hreq
            rw [hr] at this
            exact (Except.ok.inj this).symm
          subst hxx
          cases ho : outcomes j xs' with
          | ok cs => exact ⟨cs, rfl⟩
          | error e =>
            obtain ⟨pre, x, post, rfl, _, hf⟩ := (outcomes_error j xs' e).1 ho
            exact absurd ((fails_iff j x e).1 hf) (hnf x (List.mem_append_right _ List.mem_cons_self) e)
  by_cases hc : j.configured = true
  · by_cases hres : overwrite = true ∨ ¬ HasResults s
    · rw [run_spec j overwrite s hc hres]
      refine ⟨hini, htrue.trans ⟨fun h => ⟨hc, hres, h⟩, fun h => h.2.2⟩⟩
    · push Not at hres
      have ho : overwrite = false := Bool.eq_false_iff.2 hres.1
      subst ho
      rw [C49_refused j s hres.2]
      refine ⟨fun _ => rfl, fun h => (by cases h), ?_⟩
      rintro ⟨_, h | h, _⟩
      · cases h
      · exact absurd hres.2 h
  · have hrun : run j overwrite s = (s, .ok false) := by
      unfold run
      rw [Bool.eq_false_iff.2 hc]; rfl
    rw [hrun]
    exact ⟨fun _ => rfl, fun h => (by cases h), fun h => absurd h.1 hc⟩

/-- **C53, raising.** Exactly when a run raises, and what. -/
theorem C53_raises (j : Job S C) (overwrite : Bool) (s : Store) (hc : j.configured = true)
    (ho : overwrite = true ∨ ¬ HasResults s) (hm : j.mapIsFile = true) (hcss : j.cssIsFile = true) (e : PyErr)
    (he : e ≠ .initializationError) :
    (run j overwrite s).2 = .error e ↔
      (j.load = .error e ∧ e ≠ .polygonError) ∨
      (∃ m, j.load = .ok m ∧ j.skipMaps < m.nMaps ∧ (∀ xs, ¬ Requested j.cssSelection m.stations xs) ∧ e = .indexError) ∨
      (∃ m xs pre x post, j.load = .ok m ∧ j.skipMaps < m.nMaps ∧ Requested j.cssSelection m.stations xs ∧
        xs = pre ++ x :: post ∧ (∀ y ∈ pre, ∀ e', ¬ FailsWith j y e') ∧ FailsWith j x e) := by
  rw [run_spec j overwrite s hc ho]
  cases hi : initialise j with
  | error e' =>
    have hno : ∀ m, initialise j ≠ .ok m := fun m h => by rw [hi] at h; cases h
    have hno' : ∀ m, j.load = .ok m → ¬ j.skipMaps < m.nMaps := fun m hl hs =>
      hno m ((initialise_ok j m).2 ⟨hm, hcss, hl, hs⟩)
    unfold runInifile
    rw [hi]
    constructor
    · intro h
      have hee : e' = e := by
        cases e' <;> first | exact Except.error.inj h | cases h
      subst hee
      obtain ⟨_, _, hl, hp⟩ := (initialise_error j e' he).1 hi
      exact Or.inl ⟨hl, hp⟩
    · rintro (⟨hl, hp⟩ | ⟨m, hl, hs, _⟩ | ⟨m, _, _, _, _, hl, hs, _⟩)
      · have := (initialise_error j e he).2 ⟨hm, hcss, hl, hp⟩
        rw [hi] at this
        obtain rfl := Except.error.inj this
        cases e' <;> first | rfl | exact absurd rfl he
      · exact absurd hs (hno' m hl)
      · exact absurd hs (hno' m hl)
  | ok m =>
    obtain ⟨_, _, hl, hsk⟩ := (initialise_ok j m).1 hi
    rw [(runInifile_result j m s hi).2]
    constructor
    · intro h
      rw [generate_outcome] at h
      cases hr : requested j.cssSelection m.stations with
      | error e' =>
        rw [hr] at h
        obtain ⟨rfl, hn⟩ := requested_error _ _ _ hr
        exact Or.inr (Or.inl ⟨m, hl, hsk, hn, (Except.error.inj h).symm⟩)
      | ok xs =>
        have hx := (requested_iff _ _ _).1 hr
        rw [← generate_outcome j m s] at h
        obtain ⟨pre, x, post, h1, h2, h3⟩ := (C52_first_failure j m s xs hx e).1 h
        exact Or.inr (Or.inr ⟨m, xs, pre, x, post, hl, hsk, hx, h1, h2, h3⟩)
    · rintro (⟨hl', _⟩ | ⟨m', hl', _, hn, rfl⟩ | ⟨m', xs, pre, x, post, hl', _, hx, h1, h2, h3⟩)
      · rw [hl] at hl'; cases hl'
      · rw [hl] at hl'
        obtain rfl := Except.ok.inj hl'
        rw [generate_outcome]
        cases hr : requested j.cssSelection m.stations with
        | error e' =>
          obtain ⟨rfl, _⟩ := requested_error _ _ _ hr
          rfl
        | ok xs => exact absurd ((requested_iff _ _ _).1 hr) (hn xs)
      · rw [hl] at hl'
        obtain rfl := Except.ok.inj hl'
        exact (C52_first_failure j m s xs hx e).2 ⟨pre, x, post, h1, h2, h3⟩

/-! ## C54: skipped maps -/

/-- **C54.** When no fewer maps are skipped than there are, the run reports failure and changes no file, whatever building
the cross-sections would do. -/
theorem C54_stopped (j : Job S C) (overwrite : Bool) (s : Store) (m : Loaded S) (hl : j.load = .ok m)
    (h : (m.nMaps : Int) ≤ j.skipMaps) : run j overwrite s = (s, .ok false) := by
  have hi : initialise j = .error .initializationError := by
    unfold initialise
    split
    · rfl
    · rw [hl]
      exact if_pos h
  unfold run
  split
  · rfl
  · split
    · rfl
    · unfold runInifile
      rw [hi]

/-- **C54, going on.** When fewer maps are skipped than there are and the input is there, a run that is not refused does not
report failure. -/
theorem C54_goes_on (j : Job S C) (overwrite : Bool) (s : Store) (hc : j.configured = true)
    (ho : overwrite = true ∨ ¬ HasResults s) (hm : j.mapIsFile = true) (hcss : j.cssIsFile = true) (m : Loaded S)
    (hl : j.load = .ok m) (h : j.skipMaps < m.nMaps) : (run j overwrite s).2 ≠ .ok false := by
  rw [run_spec j overwrite s hc ho]
  unfold runInifile
  rw [(initialise_ok j m).2 ⟨hm, hcss, hl, h⟩]
  simp only
  cases generate j m s with
  | mk s' r => cases r <;> exact nofun

/-! ## C87: results of earlier runs -/

/-- **C87, partial.** If every result file that was there is also written by the run on an empty directory, the result files
after an overwriting run are those of a run on an empty directory. What is missing: directories with other result files,
see `C87_violated`. -/
theorem C87_fresh_partial (j : Job S C) (s : Store)
    (h : ∀ f, IsResult f → (s f).isSome → ((run j true noFiles).1 f).isSome) (f : Text) (hf : IsResult f) :
    (run j true s).1 f = (run j true noFiles).1 f := by
  rw [C49_overwrites j s]
  simp only [overlay]
  cases hn : (run j true noFiles).1 f with
  | some t => rfl
  | none =>
    cases hs : s f with
    | none => rfl
    | some t =>
      have := h f hf (by rw [hs]; rfl)
      rw [hn] at this
      cases this

/-! ## A concrete project -/

/-- Cross-sections are names with their sections; every file lists the names. -/
def sampleExporter : Exporter (Text × List Text) where
  locations cs := ((cs.map (·.1)).flatten, none)
  definitions cs := ((cs.map (·.1)).flatten, none)
  sections c := c.2
  roughness cs id := (id ++ (cs.map (·.1)).flatten, none)
  sobekGeometry cs := ((cs.map (·.1)).flatten, none)
  sobekRoughness cs := ((cs.map (·.1)).flatten, none)
  testGeometry cs := ((cs.map (·.1)).flatten, none)
  volumes cs := ((cs.map (·.1)).flatten, none)
  mapFile cs t := if cs.isEmpty then .error .valueError else .ok (t, none)
  envelope cs := .ok ((cs.map (·.1)).flatten, none)

/-- Four locations: names, numbers of faces and sections. Building the last one raises. -/
def sampleStations : List (Text × Nat × List Text) :=
  [("a".toList, 12, ["main".toList, "floodplain2".toList]), ("b".toList, 9, []), ("c".toList, 10, ["main".toList]),
    ("broken".toList, 30, [])]

/-- A run on the first three locations, in reverse order. -/
def sampleJob : Job (Text × Nat × List Text) (Text × List Text) where
  configured := true
  mapIsFile := true
  cssIsFile := true
  skipMaps := 1
  cssSelection := [2, 1, 0]
  exportCssData := false
  exportMapFiles := true
  dirExists := true
  load := .ok ⟨sampleStations, 5⟩
  valid _ := true
  name x := x.1
  faces x := x.2.1
  pickle x := x.1
  mask x := some (x.1 ++ x.1)
  build x := if x.1 = "broken".toList then .error .indexError else .ok (x.1, x.2.2)
  harmonise cs := cs
  exporter := sampleExporter
  faults := ⟨fun _ => false, fun _ => none⟩

example : (run sampleJob false noFiles).2.toOption = some true ∧
    (run sampleJob false noFiles).1 "geometry.csv".toList = some "ca".toList ∧
    (run sampleJob false noFiles).1 "roughness-Main.ini".toList = some "Mainca".toList ∧
    (run sampleJob false noFiles).1 "roughness-FloodPlain1.ini".toList = none := by
  decide +kernel

/-- The hypotheses of `C50_refused_again` and `C51_never_raises` are met. -/
example : HasResults (run sampleJob false noFiles).1 :=
  ⟨"geometry.csv".toList, ⟨"geometry.csv", by decide, rfl⟩, by decide +kernel⟩

/-- The hypotheses of `C52_first_failure` are met: with all locations requested the fourth one raises. -/
example : Requested [] sampleStations sampleStations ∧ FailsWith { sampleJob with cssSelection := [] }
    ("broken".toList, 30, []) .indexError ∧
    ((run { sampleJob with cssSelection := [] } false noFiles).1 "geometry.csv".toList) = none := by
  refine ⟨Or.inl ⟨rfl, rfl⟩, ⟨rfl, Or.inr ⟨fun h => ?_, ?_, ?_⟩⟩, ?_⟩
  · cases h.1
  · decide
  · rfl
  · decide +kernel

/-- The hypotheses of `C54_stopped` are met. -/
example : ∃ m, sampleJob.load = .ok m ∧ (m.nMaps : Int) ≤ ({ sampleJob with skipMaps := 5 } : Job _ _).skipMaps :=
  ⟨⟨sampleStations, 5⟩, rfl, by decide⟩

/-- **C51, violated.** If the location file cannot be opened, the definition and roughness files are not written either. -/
theorem C51_violated :
    let j : Job _ _ := { sampleJob with faults := ⟨fun f => f = "CrossSectionLocations.ini".toList, fun _ => none⟩ }
    (run j false noFiles).2.toOption = some true ∧
      (run sampleJob false noFiles).1 "CrossSectionDefinitions.ini".toList = some "ca".toList ∧
      (run j false noFiles).1 "CrossSectionDefinitions.ini".toList = none ∧
      (run j false noFiles).1 "roughness-Main.ini".toList = none ∧
      (run j false noFiles).1 "geometry.csv".toList = some "ca".toList := by
  decide +kernel

/-- **C53, violated: raising.** A selection of a location that does not exist raises an exception, and so does a location
that cannot be built. -/
theorem C53_raises_violated :
    (run { sampleJob with cssSelection := [4] } false noFiles).2 = .error .indexError ∧
    (run { sampleJob with cssSelection := [3] } false noFiles).2 = .error .indexError ∧
    (run { sampleJob with load := .error .keyError } false noFiles).2 = .error .keyError :=
  ⟨rfl, rfl, rfl⟩

/-- **C53, violated: nothing written.** A run without cross-sections reports success without having written a result file, and
so does a run whose output directory has been removed. -/
theorem C53_true_violated :
    ((run { sampleJob with cssSelection := [1] } false noFiles).2.toOption = some true ∧
      ¬ HasResults (run { sampleJob with cssSelection := [1] } false noFiles).1) ∧
    ((run { sampleJob with dirExists := false, faults := ⟨fun _ => true, fun _ => none⟩ } false noFiles).2.toOption =
        some true ∧
      ¬ HasResults
        (run { sampleJob with dirExists := false, faults := ⟨fun _ => true, fun _ => none⟩ } false noFiles).1) := by
  simp only [← outputExists_iff]
  decide +kernel

/-- **C87, violated.** A first run leaves a roughness file for a section that the second run, which overwrites, does not have:
the file stays, with the roughness of a cross-section that is no longer there. -/
theorem C87_violated :
    let first := (run sampleJob false noFiles).1
    let j : Job _ _ := { sampleJob with cssSelection := [2] }
    let second := (run j true first).1
    (run j true first).2.toOption = some true ∧ second "CrossSectionDefinitions.ini".toList = some "c".toList ∧
      second "roughness-FloodPlain2.ini".toList = some "FloodPlain2ca".toList ∧
      (run j true noFiles).1 "roughness-FloodPlain2.ini".toList = none := by
  decide +kernel

end Fm2prof.Props

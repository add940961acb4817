import Verif.Spec.Parallel
import Verif.Proofs.ProjectCrash

/-!
# Helper lemmas: runs at the same time
-/

set_option linter.unusedSectionVars false

namespace Fm2prof.ParallelProof

open Spec Props ProjectProof

variable {K : Type} [Field K] [LinearOrder K] [IsStrictOrderedRing K] [FloorRing K] {R : Type}

/-! ## Programs on common files -/

/-- A file that a program can use. -/
inductive Place where
  | file (dir file : Text)
  | cache (key : Text)

/-- Two states of the files that agree at some places. -/
def Agree (S : Place → Prop) (σ τ : Shared) : Prop :=
  (∀ d f, S (.file d f) → σ.results d f = τ.results d f) ∧ ∀ k, S (.cache k) → σ.caches k = τ.caches k

theorem Agree.trans {S : Place → Prop} {σ τ υ : Shared} (h : Agree S σ τ) (h' : Agree S τ υ) : Agree S σ υ :=
  ⟨fun d f hs => (h.1 d f hs).trans (h'.1 d f hs), fun k hs => (h.2 k hs).trans (h'.2 k hs)⟩

theorem Agree.mono {S T : Place → Prop} {σ τ : Shared} (h : Agree S σ τ) (hT : ∀ p, T p → S p) : Agree T σ τ :=
  ⟨fun d f hs => h.1 d f (hT _ hs), fun k hs => h.2 k (hT _ hs)⟩

theorem Agree.refl (S : Place → Prop) (σ : Shared) : Agree S σ σ := ⟨fun _ _ _ => rfl, fun _ _ => rfl⟩

/-- A program that looks at places of its own, or at places that stay as they are in `σ₀`, and changes only its own. -/
def Fits (own fixed : Place → Prop) (σ₀ : Shared) : Proc R → Prop
  | .done _ => True
  | .lookFile dir file k =>
    (own (.file dir file) ∧ ∀ v, Fits own fixed σ₀ (k v)) ∨ (fixed (.file dir file) ∧ Fits own fixed σ₀ (k (σ₀.results dir file)))
  | .changeFile dir file _ k => own (.file dir file) ∧ Fits own fixed σ₀ k
  | .lookCache key k =>
    (own (.cache key) ∧ ∀ v, Fits own fixed σ₀ (k v)) ∨ (fixed (.cache key) ∧ Fits own fixed σ₀ (k (σ₀.caches key)))
  | .changeCache key _ k => own (.cache key) ∧ Fits own fixed σ₀ k

theorem setFile_at (σ : Shared) (dir file t d f : Text) :
    (σ.setFile dir file t).results d f = if d = dir ∧ f = file then some t else σ.results d f := by
  unfold Shared.setFile Store.set
  simp only
  by_cases h : d = dir
  · subst h
    rw [if_pos rfl]
    by_cases h' : f = file
    · rw [if_pos h', if_pos ⟨rfl, h'⟩]
    · rw [if_neg h', if_neg fun hc => h' hc.2]
  · rw [if_neg h, if_neg fun hc => h hc.1]

theorem setCache_at (σ : Shared) (key : Text) (c : CacheContent) (k : Text) :
    (σ.setCache key c).caches k = if k = key then some c else σ.caches k := rfl

theorem step_fits (own fixed : Place → Prop) (σ₀ : Shared) (p : Proc R) (hp : Fits own fixed σ₀ p) (σ : Shared)
    (hf : Agree fixed σ σ₀) : Fits own fixed σ₀ (p.step σ).1 ∧ Agree (fun q => ¬ own q) (p.step σ).2 σ := by
  cases p with
  | done r => exact ⟨trivial, .refl _ _⟩
  | lookFile dir file k =>
    refine ⟨?_, .refl _ _⟩
    rcases hp with ⟨-, h⟩ | ⟨h1, h2⟩
    · exact h _
    · show Fits own fixed σ₀ (k (σ.results dir file))
      rw [hf.1 _ _ h1]; exact h2
  | changeFile dir file f k =>
    refine ⟨hp.2, fun d g hn => ?_, fun _ _ => rfl⟩
    show (σ.setFile dir file _).results d g = _
    rw [setFile_at, if_neg]
    rintro ⟨rfl, rfl⟩
    exact hn hp.1
  | lookCache key k =>
    refine ⟨?_, .refl _ _⟩
    rcases hp with ⟨-, h⟩ | ⟨h1, h2⟩
    · exact h _
    · show Fits own fixed σ₀ (k (σ.caches key))
      rw [hf.2 _ h1]; exact h2
  | changeCache key c k =>
    refine ⟨hp.2, fun _ _ _ => rfl, fun q hn => ?_⟩
    show (σ.setCache key c).caches q = _
    rw [setCache_at, if_neg]
    rintro rfl
    exact hn hp.1

theorem step_same (own fixed : Place → Prop) (σ₀ : Shared) (p : Proc R) (hp : Fits own fixed σ₀ p) (σ τ : Shared)
    (hs : Agree fixed σ σ₀) (ht : Agree fixed τ σ₀) (h : Agree own σ τ) :
    (p.step σ).1 = (p.step τ).1 ∧ Agree own (p.step σ).2 (p.step τ).2 := by
  cases p with
  | done r => exact ⟨rfl, h⟩
  | lookFile dir file k =>
    refine ⟨?_, h⟩
    show k (σ.results dir file) = k (τ.results dir file)
    rcases hp with ⟨h1, -⟩ | ⟨h1, -⟩
    · rw [h.1 _ _ h1]
    · rw [hs.1 _ _ h1, ht.1 _ _ h1]
  | changeFile dir file f k =>
    refine ⟨rfl, fun d g hg => ?_, h.2⟩
    show (σ.setFile dir file _).results d g = (τ.setFile dir file _).results d g
    rw [setFile_at, setFile_at, h.1 _ _ hp.1, h.1 _ _ hg]
  | lookCache key k =>
    refine ⟨?_, h⟩
    show k (σ.caches key) = k (τ.caches key)
    rcases hp with ⟨h1, -⟩ | ⟨h1, -⟩
    · rw [h.2 _ h1]
    · rw [hs.2 _ h1, ht.2 _ h1]
  | changeCache key c k =>
    refine ⟨rfl, h.1, fun q hq => ?_⟩
    show (σ.setCache key c).caches q = (τ.setCache key c).caches q
    rw [setCache_at, setCache_at, h.2 _ hq]

/-- Some steps of a program on its own. -/
def go : Nat → Proc R → Shared → Proc R × Shared
  | 0, p, σ => (p, σ)
  | n + 1, p, σ => go n (p.step σ).1 (p.step σ).2

theorem go_done (n : Nat) (r : R) (σ : Shared) : go n (.done r) σ = (.done r, σ) := by
  induction n with
  | zero => rfl
  | succ n ih => exact ih

theorem go_alone (p : Proc R) (σ : Shared) : ∃ n, ∀ m, n ≤ m → go m p σ = (.done (p.alone σ).2, (p.alone σ).1) := by
  induction p generalizing σ with
  | done r => exact ⟨0, fun m _ => go_done m r σ⟩
  | lookFile dir file k ih =>
    obtain ⟨n, h⟩ := ih (σ.results dir file) σ
    refine ⟨n + 1, fun m hm => ?_⟩
    obtain ⟨m, rfl⟩ : ∃ q, m = q + 1 := ⟨m - 1, by omega⟩
    exact h m (by omega)
  | changeFile dir file f k ih =>
    obtain ⟨n, h⟩ := ih (σ.setFile dir file (f (σ.results dir file)))
    refine ⟨n + 1, fun m hm => ?_⟩
    obtain ⟨m, rfl⟩ : ∃ q, m = q + 1 := ⟨m - 1, by omega⟩
    exact h m (by omega)
  | lookCache key k ih =>
    obtain ⟨n, h⟩ := ih (σ.caches key) σ
    refine ⟨n + 1, fun m hm => ?_⟩
    obtain ⟨m, rfl⟩ : ∃ q, m = q + 1 := ⟨m - 1, by omega⟩
    exact h m (by omega)
  | changeCache key c k ih =>
    obtain ⟨n, h⟩ := ih (σ.setCache key c)
    refine ⟨n + 1, fun m hm => ?_⟩
    obtain ⟨m, rfl⟩ : ∃ q, m = q + 1 := ⟨m - 1, by omega⟩
    exact h m (by omega)

variable {ι : Type} [DecidableEq ι]

/-- Programs that fit stay so; places that are fixed stay, and so do places that belong to none. -/
theorem turns_frame (own fixed : ι → Place → Prop) (σ₀ : Shared) (hof : ∀ j k q, own j q → ¬ fixed k q) (sched : List ι)
    (ps : ι → Proc R) (σ : Shared) (hp : ∀ j, Fits (own j) (fixed j) σ₀ (ps j)) (hf : ∀ j, Agree (fixed j) σ σ₀) :
    (∀ j, Fits (own j) (fixed j) σ₀ ((turns sched ps σ).1 j)) ∧ (∀ j, Agree (fixed j) (turns sched ps σ).2 σ₀) ∧
      Agree (fun q => ∀ j, ¬ own j q) (turns sched ps σ).2 σ := by
  induction sched generalizing ps σ with
  | nil => exact ⟨hp, hf, .refl _ _⟩
  | cons i is ih =>
    obtain ⟨h1, h2⟩ := step_fits _ _ _ _ (hp i) σ (hf i)
    obtain ⟨r1, r2, r3⟩ := ih (fun j => if j = i then ((ps i).step σ).1 else ps j) ((ps i).step σ).2
      (fun j => by
        by_cases hj : j = i
        · subst hj; simp only [if_pos]; exact h1
        · simp only [if_neg hj]; exact hp j)
      (fun j => (h2.mono fun q hq ho => hof i j q ho hq).trans (hf j))
    exact ⟨r1, r2, r3.trans (h2.mono fun q hq => hq i)⟩

/-- A program whose places no other one changes runs as on its own. -/
theorem turns_own (own fixed : ι → Place → Prop) (σ₀ : Shared) (hof : ∀ j k q, own j q → ¬ fixed k q) (i : ι)
    (hoo : ∀ j, j ≠ i → ∀ q, own j q → ¬ own i q) (sched : List ι)
    (ps : ι → Proc R) (σ τ : Shared) (hp : ∀ j, Fits (own j) (fixed j) σ₀ (ps j)) (hf : ∀ j, Agree (fixed j) σ σ₀)
    (ht : Agree (fixed i) τ σ₀) (h : Agree (own i) σ τ) :
    (turns sched ps σ).1 i = (go (sched.count i) (ps i) τ).1 ∧
      Agree (own i) (turns sched ps σ).2 (go (sched.count i) (ps i) τ).2 ∧
      Agree (fixed i) (go (sched.count i) (ps i) τ).2 σ₀ := by
  induction sched generalizing ps σ τ with
  | nil => exact ⟨rfl, h, ht⟩
  | cons j js ih =>
    obtain ⟨h1, h2⟩ := step_fits _ _ _ _ (hp j) σ (hf j)
    have hp' : ∀ k, Fits (own k) (fixed k) σ₀ ((fun k => if k = j then ((ps j).step σ).1 else ps k) k) := fun k => by
      by_cases hj : k = j
      · subst hj; simp only [if_pos]; exact h1
      · simp only [if_neg hj]; exact hp k
    have hf' : ∀ k, Agree (fixed k) ((ps j).step σ).2 σ₀ := fun k => (h2.mono fun q hq ho => hof j k q ho hq).trans (hf k)
    by_cases hj : j = i
    · subst hj
      obtain ⟨e1, e2⟩ := step_same _ _ _ _ (hp j) σ τ (hf j) ht h
      obtain ⟨-, e3⟩ := step_fits _ _ _ _ (hp j) τ ht
      have := ih _ _ ((ps j).step τ).2 hp' hf' ((e3.mono fun q hq ho => hof j j q ho hq).trans ht) e2
      rw [List.count_cons_self]
      simp only [if_pos] at this
      rw [e1] at this
      have e4 : turns (j :: js) ps σ = turns js (fun k => if k = j then ((ps j).step τ).1 else ps k) ((ps j).step σ).2 := by
        rw [← e1]; rfl
      rw [e4]
      exact this
    · have := ih _ _ τ hp' hf' ht ((h2.mono fun q hq ho => hoo j hj q ho hq).trans h)
      rw [List.count_cons_of_ne hj]
      simp only [if_neg fun hc : i = j => hj hc.symm] at this
      exact this

/-! ## The steps of a run on its own -/

theorem alone_check (dir : Text) (fs : List Text) (k : Bool → Proc R) (σ : Shared) :
    (outputCheck dir fs k).alone σ = (k (fs.any fun f => (σ.results dir f).isSome)).alone σ := by
  induction fs with
  | nil => rfl
  | cons f fs ih =>
    show (if (σ.results dir f).isSome then k true else outputCheck dir fs k).alone σ = _
    rw [List.any_cons]
    cases (σ.results dir f).isSome with
    | true => rfl
    | false => simpa using ih

theorem setCache_twice (σ : Shared) (key : Text) (a b : CacheContent) : (σ.setCache key a).setCache key b = σ.setCache key b := by
  unfold Shared.setCache storeCache
  congr 1
  funext k
  by_cases h : k = key
  · simp only [if_pos h]
  · simp only [if_neg h]

/-- Labels that are computed, and the cache files afterwards. -/
def freshPair (g : Geometries K) (property default : String) (ps : List (Polygon K)) (m : MapFile K) (key : Text) (caches : Caches) :
    Except PyErr Labels × Caches :=
  match freshLabels g property default ps m with
  | .error e => (.error e, caches)
  | .ok ls => (.ok ls, storeCache key (.labels ⟨m.stamp, ls⟩) caches)

theorem alone_labels (isText : Bool) (g : Geometries K) (property default : String) (ps : List (Polygon K)) (path : Text)
    (m : MapFile K) (k : Except PyErr Labels → Proc R) (σ : Shared) :
    (labelSteps isText g property default ps path m k).alone σ =
      (k (gridLabelsAt isText g property default ps path m σ.caches).1).alone
        { σ with caches := (gridLabelsAt isText g property default ps path m σ.caches).2 } := by
  have fresh : ∀ key, (freshStep g property default ps m key k).alone σ =
      (k (freshPair g property default ps m key σ.caches).1).alone
        { σ with caches := (freshPair g property default ps m key σ.caches).2 } := by
    intro key
    unfold freshStep freshPair
    cases freshLabels g property default ps m with
    | error e => rfl
    | ok ls =>
      show (k (.ok ls)).alone ((σ.setCache key .damaged).setCache key _) = _
      rw [setCache_twice]
      rfl
  unfold labelSteps gridLabelsAt gridLabels
  cases isText with
  | true => rfl
  | false =>
    simp only [Bool.false_eq_true, if_false]
    cases withSuffix ('.' :: property.toList ++ "_cache.json".toList) path with
    | error e => rfl
    | ok key =>
      simp only [Proc.alone]
      cases hc : σ.caches key with
      | none =>
        simp only [Option.isSome_none, Bool.false_eq_true, if_false, Proc.alone, hc]
        rw [fresh key]
        rfl
      | some f =>
        simp only [Option.isSome_some, if_true, Proc.alone, hc]
        cases f with
        | damaged => rfl
        | labels c =>
          by_cases hs : c.stamp = m.stamp
          · simp only [readCache, Option.filter_some, hs, decide_true, if_true]
          · simp only [readCache, Option.filter_some, hs, decide_false, if_false, Bool.false_eq_true]
            exact fresh key

theorem alone_inputs (ft : FloatText K) (g : Geometries K) (c : Settings K) (m : MapFile K) (d : ProjectFiles K)
    (k : Inputs K → Proc R) (σ : Shared) :
    (inputSteps ft g c m d k).alone σ =
      (k (projectInputs ft g c m { d with caches := σ.caches }).1).alone
        { σ with caches := (projectInputs ft g c m { d with caches := σ.caches }).2 } := by
  have hr : optionalRegions { d with caches := σ.caches } c.regionPath = optionalRegions d c.regionPath := rfl
  have hs : optionalSections { d with caches := σ.caches } c.sectionPath = optionalSections d c.sectionPath := rfl
  unfold inputSteps projectInputs
  simp only
  rw [hr, hs]
  cases m.data with
  | error e => rfl
  | ok a =>
    cases (cssFile ft ',' (d.texts c.cssPath)).map locationsOf with
    | error e => rfl
    | ok l =>
      cases optionalRegions d c.regionPath with
      | error e => rfl
      | ok rs =>
        cases optionalSections d c.sectionPath with
        | error e => cases rs <;> rfl
        | ok ss =>
          cases rs with
          | none =>
            cases ss with
            | none => rfl
            | some ss =>
              simp only
              rw [alone_labels]
          | some rs =>
            simp only
            rw [alone_labels]
            cases hl : gridLabelsAt c.mapIsText g "region" (String.ofList c.defaultRegion) rs c.mapPath m σ.caches with
            | mk r k' =>
              cases r with
              | error e => rfl
              | ok labels =>
                cases ss with
                | none => rfl
                | some ss =>
                  simp only [regionSteps]
                  rw [alone_labels]

theorem putAt_end (t p : Text) : putAt t.length p (some t) = t ++ p := by
  unfold putAt
  simp

theorem setFile_twice (σ : Shared) (dir file a b : Text) : (σ.setFile dir file a).setFile dir file b = σ.setFile dir file b := by
  unfold Shared.setFile Store.set
  congr 1
  funext d
  by_cases h : d = dir
  · simp only [if_pos h, if_true]
    funext f
    by_cases hf : f = file
    · simp only [if_pos hf]
    · simp only [if_neg hf]
  · simp only [if_neg h]

theorem alone_pieces (dir file : Text) (ps : List Text) (k : Proc R) (σ : Shared) (t : Text) :
    (pieceSteps dir file t.length ps k).alone (σ.setFile dir file t) = k.alone (σ.setFile dir file (t ++ ps.flatten)) := by
  induction ps generalizing t with
  | nil => rw [List.flatten_nil, List.append_nil]; rfl
  | cons p ps ih =>
    show (pieceSteps dir file (t.length + p.length) ps k).alone ((σ.setFile dir file t).setFile dir file
      (putAt t.length p ((σ.setFile dir file t).results dir file))) = _
    rw [setFile_twice, setFile_at, if_pos ⟨rfl, rfl⟩, putAt_end, ← List.length_append, ih, List.flatten_cons, List.append_assoc]

theorem alone_writes (dir : Text) (cut : Text → Text → List Text) (hc : ∀ f t, (cut f t).flatten = t) (ws : List (Text × Text))
    (k : Proc R) (σ : Shared) :
    (writeSteps dir cut ws k).alone σ =
      k.alone { σ with results := fun d => if d = dir then writeAll (σ.results dir) ws else σ.results d } := by
  induction ws generalizing σ with
  | nil =>
    show k.alone σ = _
    congr 1
    obtain ⟨r, c⟩ := σ
    simp only [Shared.mk.injEq, and_true]
    funext d
    by_cases h : d = dir
    · rw [if_pos h, h]; rfl
    · rw [if_neg h]
  | cons w ws ih =>
    show (pieceSteps dir w.1 ([] : Text).length (cut w.1 w.2) (writeSteps dir cut ws k)).alone (σ.setFile dir w.1 []) = _
    rw [alone_pieces, hc, List.nil_append, ih]
    congr 1
    unfold Shared.setFile
    simp only [Shared.mk.injEq, and_true]
    funext d
    by_cases h : d = dir
    · simp only [if_pos h, if_true]; rfl
    · simp only [if_neg h]

/-- How a run ends does not depend on the files in its output directory. -/
theorem inifile_outcome {S C : Type} (j : Job S C) (s t : Store) : (runInifile j s).2 = (runInifile j t).2 := by
  unfold runInifile
  cases initialise j with
  | error e => cases e <;> rfl
  | ok m =>
    unfold generate
    simp only
    cases requested j.cssSelection m.stations with
    | error e => rfl
    | ok xs =>
      simp only
      have h2 : (attemptAll j xs s).2 = (attemptAll j xs t).2 := by rw [attemptAll_outcome, attemptAll_outcome]
      cases hx : attemptAll j xs s with
      | mk s' r =>
        cases hy : attemptAll j xs t with
        | mk t' r' =>
          rw [hx, hy] at h2
          simp only at h2
          subst h2
          cases r <;> rfl

/-- A run from the place where it has looked for results. -/
def afterCheck (a : Launch K) (d : ProjectFiles K) : Proc (Except PyErr Bool) :=
  match d.maps a.settings.mapPath, d.texts a.settings.cssPath with
  | some m, some _ =>
    inputSteps a.tools.ft a.geometries a.settings m d fun i =>
      writeSteps a.dir a.cut (inifileWrites (a.job i)) (.done (runInifile (a.job i) fun _ => none).2)
  | _, _ => .done (.ok false)

theorem steps_eq (a : Launch K) (d : ProjectFiles K) : a.steps d =
    outputCheck a.dir outputFiles fun found => if found && !a.overwrite then .done (.ok false) else afterCheck a d := rfl

/-- The files after a run on its own. -/
noncomputable def leaves (a : Launch K) (d : ProjectFiles K) (σ : Shared) : Shared :=
  { results := fun dir => if dir = a.dir then (onItsOwn a d σ).1 else σ.results dir
    caches := (onItsOwn a d σ).2.1.caches }

theorem shared_ext (σ : Shared) (r : Text → Store) (c : Caches) (h1 : ∀ d, σ.results d = r d) (h2 : σ.caches = c) : σ = ⟨r, c⟩ := by
  obtain ⟨r', c'⟩ := σ
  simp only [Shared.mk.injEq]
  exact ⟨funext h1, h2⟩

/-- A run that was not refused, from the place where it has looked for results. -/
theorem alone_after (a : Launch K) (d : ProjectFiles K) (σ : Shared) :
    (afterCheck a d).alone σ = (leaves { a with overwrite := true } d σ, (onItsOwn { a with overwrite := true } d σ).2.2) := by
  unfold afterCheck leaves onItsOwn projectRun
  simp only
  cases d.maps a.settings.mapPath with
  | none => exact Prod.ext (shared_ext σ _ _ (fun dir => by by_cases h : dir = a.dir <;> simp only [h, if_true, if_false]) rfl) rfl
  | some m =>
    cases d.texts a.settings.cssPath with
    | none => exact Prod.ext (shared_ext σ _ _ (fun dir => by by_cases h : dir = a.dir <;> simp only [h, if_true, if_false]) rfl) rfl
    | some t =>
      simp only
      rw [alone_inputs, alone_writes a.dir a.cut a.whole]
      have e : ∀ i : Inputs K, run (jobOf a.tools a.settings.run i
          { a.surroundings with configured := true, mapIsFile := true, cssIsFile := true }) true (σ.results a.dir) =
          runInifile (a.job i) (σ.results a.dir) := fun i => run_spec _ _ _ rfl (.inl rfl)
      rw [e]
      refine Prod.ext ?_ (inifile_outcome _ _ _)
      show Shared.mk _ _ = Shared.mk _ _
      rw [inifile_writes]
      simp only [Bool.not_true, Bool.and_false, Bool.false_eq_true, if_false]

theorem alone_steps (a : Launch K) (d : ProjectFiles K) (σ : Shared) :
    (a.steps d).alone σ = (leaves a d σ, (onItsOwn a d σ).2.2) := by
  rw [steps_eq, alone_check]
  show (if outputExists (σ.results a.dir) && !a.overwrite then _ else _ : Proc _).alone σ = _
  cases h : outputExists (σ.results a.dir) && !a.overwrite with
  | true =>
    simp only [if_true, Proc.alone]
    unfold leaves onItsOwn projectRun
    have e : ∀ j : Job (Loc K) (Finished K), run j a.overwrite (σ.results a.dir) = (σ.results a.dir, .ok false) := by
      intro j
      unfold run
      cases j.configured with
      | false => rfl
      | true => simp only [Bool.not_true, Bool.false_eq_true, if_false, h, if_true]
    simp only
    cases d.maps a.settings.mapPath with
    | none => exact Prod.ext (shared_ext σ _ _ (fun dir => by by_cases h : dir = a.dir <;> simp only [h, if_true, if_false]) rfl) rfl
    | some m =>
      cases d.texts a.settings.cssPath with
      | none => exact Prod.ext (shared_ext σ _ _ (fun dir => by by_cases h : dir = a.dir <;> simp only [h, if_true, if_false]) rfl) rfl
      | some t =>
        simp only [e, h, if_true]
        exact Prod.ext (shared_ext σ _ _ (fun dir => by by_cases h : dir = a.dir <;> simp only [h, if_true, if_false]) rfl) rfl
  | false =>
    simp only [Bool.false_eq_true, if_false]
    rw [alone_after]
    have e : onItsOwn { a with overwrite := true } d σ = onItsOwn a d σ := by
      unfold onItsOwn projectRun
      simp only
      cases d.maps a.settings.mapPath with
      | none => rfl
      | some m =>
        cases d.texts a.settings.cssPath with
        | none => rfl
        | some t =>
          have h' : a.overwrite = true ∨ ¬ HasResults (σ.results a.dir) := (refused_iff _ _).1 h
          simp only [h, Bool.not_true, Bool.and_false]
          rw [run_spec _ _ _ rfl h', run_spec _ _ _ rfl (.inl rfl)]
    unfold leaves
    rw [e]

/-! ## The places of a run -/

theorem check_fits {own fixed : Place → Prop} {σ₀ : Shared} (dir : Text) (h : ∀ f, own (.file dir f)) (fs : List Text)
    (k : Bool → Proc R) (hk : ∀ b, Fits own fixed σ₀ (k b)) : Fits own fixed σ₀ (outputCheck dir fs k) := by
  induction fs with
  | nil => exact hk _
  | cons f fs ih =>
    refine .inl ⟨h f, fun v => ?_⟩
    cases v with
    | some v => exact hk _
    | none => exact ih

theorem check_fixed {own fixed : Place → Prop} {σ₀ : Shared} (dir : Text) (h : ∀ f, fixed (.file dir f)) (fs : List Text)
    (k : Bool → Proc R) (hk : Fits own fixed σ₀ (k (fs.any fun f => (σ₀.results dir f).isSome))) :
    Fits own fixed σ₀ (outputCheck dir fs k) := by
  induction fs with
  | nil => exact hk
  | cons f fs ih =>
    refine .inr ⟨h f, ?_⟩
    rw [List.any_cons] at hk
    cases hf : σ₀.results dir f with
    | some v => rw [hf] at hk; exact hk
    | none => rw [hf] at hk; exact ih hk

theorem fresh_fits {own fixed : Place → Prop} {σ₀ : Shared} (g : Geometries K) (property default : String) (ps : List (Polygon K))
    (m : MapFile K) (key : Text) (k : Except PyErr Labels → Proc R) (h : own (.cache key)) (hk : ∀ r, Fits own fixed σ₀ (k r)) :
    Fits own fixed σ₀ (freshStep g property default ps m key k) := by
  unfold freshStep
  cases freshLabels g property default ps m with
  | error e => exact hk _
  | ok ls => exact ⟨h, h, hk _⟩

theorem labels_fits {own fixed : Place → Prop} {σ₀ : Shared} (isText : Bool) (g : Geometries K) (property default : String)
    (ps : List (Polygon K)) (path : Text) (m : MapFile K) (k : Except PyErr Labels → Proc R)
    (h : ∀ key, withSuffix ('.' :: property.toList ++ "_cache.json".toList) path = .ok key →
      own (.cache key) ∨ fixed (.cache key) ∧ ∃ f, σ₀.caches key = some (.labels f) ∧ f.stamp = m.stamp)
    (hk : ∀ r, Fits own fixed σ₀ (k r)) : Fits own fixed σ₀ (labelSteps isText g property default ps path m k) := by
  unfold labelSteps
  cases isText with
  | true => exact hk _
  | false =>
    simp only [Bool.false_eq_true, if_false]
    cases hx : withSuffix ('.' :: property.toList ++ "_cache.json".toList) path with
    | error e => exact hk _
    | ok key =>
      simp only
      rcases h key hx with ho | ⟨hf, f, h1, h2⟩
      · refine .inl ⟨ho, fun v => ?_⟩
        cases v with
        | none =>
          refine .inl ⟨ho, fun v => .inl ⟨ho, fun w => ?_⟩⟩
          cases w with
          | none => exact fresh_fits _ _ _ _ _ _ _ ho hk
          | some w => exact hk _
        | some v =>
          refine .inl ⟨ho, fun w => ?_⟩
          cases w with
          | none => exact hk _
          | some w =>
            cases w with
            | damaged => exact hk _
            | labels c =>
              by_cases hs : c.stamp = m.stamp
              · simp only [if_pos hs]; exact hk _
              · simp only [if_neg hs]; exact fresh_fits _ _ _ _ _ _ _ ho hk
      · refine .inr ⟨hf, ?_⟩
        rw [h1]
        refine .inr ⟨hf, ?_⟩
        rw [h1]
        simp only [if_pos h2]
        exact hk _

theorem regions_given (d : ProjectFiles K) (path : Text) (rs : List (Polygon K)) (h : optionalRegions d path = .ok (some rs)) :
    path ≠ [] := by
  intro he
  unfold optionalRegions at h
  rw [if_pos he] at h
  cases h

theorem sections_given (d : ProjectFiles K) (path : Text) (rs : List (Polygon K)) (h : optionalSections d path = .ok (some rs)) :
    path ≠ [] := by
  intro he
  unfold optionalSections at h
  rw [if_pos he] at h
  cases h

theorem region_suffix : '.' :: "region".toList ++ "_cache.json".toList = ".region_cache.json".toList := by decide +kernel
theorem section_suffix : '.' :: "section".toList ++ "_cache.json".toList = ".section_cache.json".toList := by decide +kernel

theorem inputs_fits {own fixed : Place → Prop} {σ₀ : Shared} (ft : FloatText K) (g : Geometries K) (c : Settings K)
    (m : MapFile K) (d : ProjectFiles K) (k : Inputs K → Proc R)
    (h : ∀ key, UsesCache c key →
      own (.cache key) ∨ fixed (.cache key) ∧ ∃ f, σ₀.caches key = some (.labels f) ∧ f.stamp = m.stamp)
    (hk : ∀ r, Fits own fixed σ₀ (k r)) : Fits own fixed σ₀ (inputSteps ft g c m d k) := by
  unfold inputSteps
  simp only
  cases m.data with
  | error e => exact hk _
  | ok a =>
    cases (cssFile ft ',' (d.texts c.cssPath)).map locationsOf with
    | error e => exact hk _
    | ok l =>
      cases hr : optionalRegions d c.regionPath with
      | error e => exact hk _
      | ok rs =>
        cases hs : optionalSections d c.sectionPath with
        | error e => cases rs <;> exact hk _
        | ok ss =>
          have sec : ∀ ss' : List (Polygon K), ss = some ss' → ∀ key,
              withSuffix ('.' :: "section".toList ++ "_cache.json".toList) c.mapPath = .ok key → UsesCache c key := by
            intro ss' he key hkey
            rw [section_suffix] at hkey
            exact .inr ⟨sections_given d _ ss' (by rw [hs, he]), hkey⟩
          cases rs with
          | none =>
            cases ss with
            | none => exact hk _
            | some ss => exact labels_fits _ _ _ _ _ _ _ _ (fun key hkey => h key (sec ss rfl key hkey)) fun r => hk _
          | some rs =>
            simp only
            refine labels_fits _ _ _ _ _ _ _ _ (fun key hkey => h key ?_) fun r => ?_
            · rw [region_suffix] at hkey
              exact .inl ⟨regions_given d _ rs hr, hkey⟩
            · cases r with
              | error e => exact hk _
              | ok labels =>
                cases ss with
                | none => exact hk _
                | some ss =>
                  unfold regionSteps
                  exact labels_fits _ _ _ _ _ _ _ _ (fun key hkey => h key (sec ss rfl key hkey)) fun r => hk _

theorem pieces_fits {own fixed : Place → Prop} {σ₀ : Shared} (dir file : Text) (h : own (.file dir file)) (ps : List Text) (n : Nat)
    (k : Proc R) (hk : Fits own fixed σ₀ k) : Fits own fixed σ₀ (pieceSteps dir file n ps k) := by
  induction ps generalizing n with
  | nil => exact hk
  | cons p ps ih => exact ⟨h, ih _⟩

theorem writes_fits {own fixed : Place → Prop} {σ₀ : Shared} (dir : Text) (h : ∀ f, own (.file dir f))
    (cut : Text → Text → List Text) (ws : List (Text × Text)) (k : Proc R) (hk : Fits own fixed σ₀ k) :
    Fits own fixed σ₀ (writeSteps dir cut ws k) := by
  induction ws with
  | nil => exact hk
  | cons w ws ih => exact ⟨h _, pieces_fits dir _ (h _) _ _ _ ih⟩

theorem after_fits {own fixed : Place → Prop} {σ₀ : Shared} (a : Launch K) (d : ProjectFiles K) (hd : ∀ f, own (.file a.dir f))
    (h : ∀ key, UsesCache a.settings key →
      own (.cache key) ∨ fixed (.cache key) ∧ UpToDate d σ₀.caches a.settings key) : Fits own fixed σ₀ (afterCheck a d) := by
  unfold afterCheck
  cases hm : d.maps a.settings.mapPath with
  | none => trivial
  | some m =>
    cases d.texts a.settings.cssPath with
    | none => trivial
    | some t =>
      refine inputs_fits _ _ _ _ _ _ (fun key hkey => ?_) fun i => writes_fits _ hd _ _ _ trivial
      rcases h key hkey with ho | ⟨hf, m', f, h1, h2, h3⟩
      · exact .inl ho
      · rw [hm] at h1
        cases h1
        exact .inr ⟨hf, f, h2, h3⟩

theorem steps_fits {own fixed : Place → Prop} {σ₀ : Shared} (a : Launch K) (d : ProjectFiles K) (hd : ∀ f, own (.file a.dir f))
    (h : ∀ key, UsesCache a.settings key →
      own (.cache key) ∨ fixed (.cache key) ∧ UpToDate d σ₀.caches a.settings key) : Fits own fixed σ₀ (a.steps d) := by
  rw [steps_eq]
  refine check_fits _ hd _ _ fun b => ?_
  cases b && !a.overwrite with
  | true => trivial
  | false => exact after_fits a d hd h

/-- A run that is refused changes nothing. -/
theorem steps_refused {own fixed : Place → Prop} {σ₀ : Shared} (a : Launch K) (d : ProjectFiles K)
    (hd : ∀ f, fixed (.file a.dir f)) (ho : a.overwrite = false) (hr : HasResults (σ₀.results a.dir)) :
    Fits own fixed σ₀ (a.steps d) := by
  rw [steps_eq]
  refine check_fixed _ hd _ _ ?_
  have e : (outputFiles.any fun f => (σ₀.results a.dir f).isSome) = true := (outputExists_iff _).2 hr
  rw [e, ho]
  trivial

/-! ## Schedules in which one run stops for a while -/

theorem go_add (m n : Nat) (p : Proc R) (σ : Shared) : go (m + n) p σ = go n (go m p σ).1 (go m p σ).2 := by
  induction m generalizing p σ with
  | zero => rw [Nat.zero_add]; rfl
  | succ m ih =>
    rw [Nat.succ_add]
    exact ih _ _

theorem turns_append (xs ys : List ι) (ps : ι → Proc R) (σ : Shared) :
    turns (xs ++ ys) ps σ = turns ys (turns xs ps σ).1 (turns xs ps σ).2 := by
  induction xs generalizing ps σ with
  | nil => rfl
  | cons x xs ih => exact ih _ _

theorem turns_replicate (n : Nat) (i : ι) (ps : ι → Proc R) (σ : Shared) :
    turns (List.replicate n i) ps σ = (fun j => if j = i then (go n (ps i) σ).1 else ps j, (go n (ps i) σ).2) := by
  induction n generalizing ps σ with
  | zero =>
    refine Prod.ext ?_ rfl
    funext j
    by_cases h : j = i
    · subst h; exact (if_pos rfl).symm
    · exact (if_neg h).symm
  | succ n ih =>
    show turns (List.replicate n i) _ _ = _
    rw [ih]
    simp only [if_true]
    refine Prod.ext ?_ rfl
    funext j
    by_cases h : j = i
    · simp only [if_pos h]; rfl
    · simp only [if_neg h]

theorem go_check (dir : Text) (fs : List Text) (k : Bool → Proc R) (σ : Shared) :
    ∃ n, go n (outputCheck dir fs k) σ = (k (fs.any fun f => (σ.results dir f).isSome), σ) := by
  induction fs with
  | nil => exact ⟨0, rfl⟩
  | cons f fs ih =>
    rw [List.any_cons]
    cases hf : σ.results dir f with
    | some v =>
      refine ⟨1, ?_⟩
      show ((if (σ.results dir f).isSome then k true else outputCheck dir fs k), σ) = _
      rw [hf]; rfl
    | none =>
      obtain ⟨n, h⟩ := ih
      refine ⟨n + 1, ?_⟩
      show go n (if (σ.results dir f).isSome then k true else outputCheck dir fs k) σ = _
      rw [hf]; exact h

/-- A run that is not refused has looked for results after some steps. -/
theorem go_steps (a : Launch K) (d : ProjectFiles K) (σ : Shared) (h : a.overwrite = true ∨ ¬ HasResults (σ.results a.dir)) :
    ∃ n, go n (a.steps d) σ = (afterCheck a d, σ) := by
  obtain ⟨n, hn⟩ := go_check a.dir outputFiles
    (fun found => if found && !a.overwrite then .done (.ok false) else afterCheck a d) σ
  refine ⟨n, ?_⟩
  rw [steps_eq, hn]
  have e : ((outputFiles.any fun f => (σ.results a.dir f).isSome) && !a.overwrite) = false := (refused_iff _ _).2 h
  simp only [e, Bool.false_eq_true, if_false]

theorem go_labels (isText : Bool) (g : Geometries K) (property default : String) (ps : List (Polygon K)) (path : Text)
    (m : MapFile K) (k : Except PyErr Labels → Proc R) (σ : Shared) :
    (callWrites isText g property default ps path m σ.caches = [] ∧
      ∃ n, go n (labelSteps isText g property default ps path m k) σ =
        (k (gridLabelsAt isText g property default ps path m σ.caches).1, σ)) ∨
    ∃ w, callWrites isText g property default ps path m σ.caches = [w] ∧
      ∃ n, (go n (labelSteps isText g property default ps path m k) σ).2 = σ.setCache w.1 .damaged := by
  have fresh : ∀ key, ((match freshLabels g property default ps m with
        | .error _ => []
        | .ok ls => [(key, (⟨m.stamp, ls⟩ : CacheFile (Nat × Nat) Labels))]) = [] ∧
      ∃ n, go n (freshStep g property default ps m key k) σ = (k (freshPair g property default ps m key σ.caches).1, σ)) ∨
      ∃ w, (match freshLabels g property default ps m with
        | .error _ => []
        | .ok ls => [(key, (⟨m.stamp, ls⟩ : CacheFile (Nat × Nat) Labels))]) = [w] ∧
        ∃ n, (go n (freshStep g property default ps m key k) σ).2 = σ.setCache w.1 .damaged := by
    intro key
    unfold freshStep freshPair
    cases freshLabels g property default ps m with
    | error e => exact .inl ⟨rfl, 0, rfl⟩
    | ok ls => exact .inr ⟨_, rfl, 1, rfl⟩
  have more : ∀ key (n : Nat) (p : Proc R), go n p σ = (freshStep g property default ps m key k, σ) → ∀ c r,
      (c = [] ∧ ∃ n, go n (freshStep g property default ps m key k) σ = (r, σ)) ∨
      (∃ w : Text × CacheFile (Nat × Nat) Labels, c = [w] ∧
        ∃ n, (go n (freshStep g property default ps m key k) σ).2 = σ.setCache w.1 .damaged) →
      (c = [] ∧ ∃ n, go n p σ = (r, σ)) ∨ ∃ w, c = [w] ∧ ∃ n, (go n p σ).2 = σ.setCache w.1 .damaged := by
    rintro key n p hn c r (⟨hc, n', h⟩ | ⟨w, hc, n', h⟩)
    · exact .inl ⟨hc, n + n', by rw [go_add, hn]; exact h⟩
    · exact .inr ⟨w, hc, n + n', by rw [go_add, hn]; exact h⟩
  unfold labelSteps gridLabelsAt gridLabels callWrites
  cases isText with
  | true => exact .inl ⟨rfl, 0, rfl⟩
  | false =>
    simp only [Bool.false_eq_true, if_false]
    cases withSuffix ('.' :: property.toList ++ "_cache.json".toList) path with
    | error e => exact .inl ⟨rfl, 0, rfl⟩
    | ok key =>
      simp only
      cases hc : σ.caches key with
      | none =>
        refine more key 3 _ ?_ _ _ (fresh key)
        simp only [go, Proc.step, hc, Option.isSome_none, Bool.false_eq_true, if_false]
      | some f =>
        cases f with
        | damaged =>
          refine .inl ⟨rfl, 2, ?_⟩
          simp only [go, Proc.step, hc, Option.isSome_some, if_true, readCache]
        | labels c =>
          by_cases hs : c.stamp = m.stamp
          · refine .inl ⟨?_, 2, ?_⟩
            · simp only [readCache, Option.filter_some, hs, decide_true, if_true]
            · simp only [go, Proc.step, hc, Option.isSome_some, if_true, readCache, Option.filter_some, hs, decide_true]
          · simp only [readCache, Option.filter_some, hs, decide_false, Bool.false_eq_true, if_false]
            refine more key 2 _ ?_ _ _ (fresh key)
            simp only [go, Proc.step, hc, Option.isSome_some, if_true, hs, if_false]

/-- Reading comes to a moment at which the first cache file that it writes is open. -/
theorem go_inputs (ft : FloatText K) (g : Geometries K) (c : Settings K) (m : MapFile K) (d : ProjectFiles K)
    (k : Inputs K → Proc R) (σ : Shared) (w : Text × CacheFile (Nat × Nat) Labels) (ws : List (Text × CacheFile (Nat × Nat) Labels))
    (h : cacheWrites ft g c m { d with caches := σ.caches } = w :: ws) :
    ∃ n, (go n (inputSteps ft g c m d k) σ).2 = σ.setCache w.1 .damaged := by
  have hr : optionalRegions { d with caches := σ.caches } c.regionPath = optionalRegions d c.regionPath := rfl
  have hs : optionalSections { d with caches := σ.caches } c.sectionPath = optionalSections d c.sectionPath := rfl
  unfold cacheWrites at h
  unfold inputSteps
  simp only at h ⊢
  rw [hr, hs] at h
  cases hd : m.data with
  | error e => rw [hd] at h; cases h
  | ok a =>
    rw [hd] at h
    cases hl : (cssFile ft ',' (d.texts c.cssPath)).map locationsOf with
    | error e => rw [hl] at h; cases h
    | ok l =>
      rw [hl] at h
      cases hrs : optionalRegions d c.regionPath with
      | error e => rw [hrs] at h; cases h
      | ok rs =>
        rw [hrs] at h
        cases hss : optionalSections d c.sectionPath with
        | error e => rw [hss] at h; cases rs <;> cases h
        | ok ss =>
          rw [hss] at h
          cases rs with
          | none =>
            cases ss with
            | none => cases h
            | some ss =>
              simp only at h ⊢
              rcases go_labels c.mapIsText g "section" (String.ofList c.defaultSection) ss c.mapPath m
                (fun ls => k ⟨.ok a, .ok l, none, some (ls.bind sectionLabels)⟩) σ with ⟨h1, -⟩ | ⟨w', h1, n, h2⟩
              · rw [h1] at h; cases h
              · rw [h1] at h
                obtain ⟨rfl, -⟩ := List.cons.inj h
                exact ⟨n, h2⟩
          | some rs =>
            simp only at h ⊢
            rcases go_labels c.mapIsText g "region" (String.ofList c.defaultRegion) rs c.mapPath m
              (regionSteps g c m a l rs ss k) σ with ⟨h1, n, h2⟩ | ⟨w', h1, n, h2⟩
            · cases ss with
              | none => simp only at h; rw [h1] at h; cases h
              | some ss =>
                simp only at h
                rw [h1, List.nil_append] at h
                have hk := call_written c.mapIsText g "region" (String.ofList c.defaultRegion) rs c.mapPath m σ.caches
                rw [h1] at hk
                cases hg : gridLabelsAt c.mapIsText g "region" (String.ofList c.defaultRegion) rs c.mapPath m σ.caches with
                | mk r k' =>
                  rw [hg] at h h2 hk
                  simp only [writeCaches] at hk
                  subst hk
                  cases r with
                  | error e => cases h
                  | ok labels =>
                    simp only [regionSteps] at h h2
                    rcases go_labels c.mapIsText g "section" (String.ofList c.defaultSection) ss c.mapPath m
                      (fun ls => k ⟨.ok a, .ok l, some (regionLabels g (String.ofList c.defaultRegion) rs l labels),
                        some (ls.bind sectionLabels)⟩) σ with ⟨h3, -⟩ | ⟨w', h3, n', h4⟩
                    · rw [h3] at h; cases h
                    · rw [h3] at h
                      obtain ⟨rfl, -⟩ := List.cons.inj h
                      exact ⟨n + n', by rw [go_add, h2]; exact h4⟩
            · refine ⟨n, ?_⟩
              have e : w' = w := by
                cases ss with
                | none =>
                  simp only at h
                  rw [h1] at h
                  exact (List.cons.inj h).1
                | some ss =>
                  simp only at h
                  rw [h1] at h
                  exact (List.cons.inj h).1
              rw [← e]
              exact h2

/-! ## Reading and writing up to a moment -/

theorem reach_labels (isText : Bool) (g : Geometries K) (property default : String) (ps : List (Polygon K)) (path : Text)
    (m : MapFile K) (k : Except PyErr Labels → Proc R) (σ : Shared) :
    ∃ n, go n (labelSteps isText g property default ps path m k) σ =
      (k (gridLabelsAt isText g property default ps path m σ.caches).1,
        { σ with caches := (gridLabelsAt isText g property default ps path m σ.caches).2 }) := by
  have fresh : ∀ key, ∃ n, go n (freshStep g property default ps m key k) σ =
      (k (freshPair g property default ps m key σ.caches).1,
        { σ with caches := (freshPair g property default ps m key σ.caches).2 }) := by
    intro key
    unfold freshStep freshPair
    cases freshLabels g property default ps m with
    | error e => exact ⟨0, rfl⟩
    | ok ls =>
      refine ⟨2, ?_⟩
      show (k (.ok ls), (σ.setCache key .damaged).setCache key _) = _
      rw [setCache_twice]
      rfl
  have more : ∀ key (n : Nat) (p : Proc R), go n p σ = (freshStep g property default ps m key k, σ) → ∀ r,
      (∃ n, go n (freshStep g property default ps m key k) σ = r) → ∃ n, go n p σ = r := by
    rintro key n p hn r ⟨n', h⟩
    exact ⟨n + n', by rw [go_add, hn]; exact h⟩
  unfold labelSteps gridLabelsAt gridLabels
  cases isText with
  | true => exact ⟨0, rfl⟩
  | false =>
    simp only [Bool.false_eq_true, if_false]
    cases withSuffix ('.' :: property.toList ++ "_cache.json".toList) path with
    | error e => exact ⟨0, rfl⟩
    | ok key =>
      simp only
      cases hc : σ.caches key with
      | none =>
        refine more key 3 _ ?_ _ (fresh key)
        simp only [go, Proc.step, hc, Option.isSome_none, Bool.false_eq_true, if_false]
      | some f =>
        cases f with
        | damaged =>
          refine ⟨2, ?_⟩
          simp only [go, Proc.step, hc, Option.isSome_some, if_true, readCache]
        | labels c =>
          by_cases hs : c.stamp = m.stamp
          · refine ⟨2, ?_⟩
            simp only [go, Proc.step, hc, Option.isSome_some, if_true, readCache, Option.filter_some, hs, decide_true]
          · simp only [readCache, Option.filter_some, hs, decide_false, Bool.false_eq_true, if_false]
            refine more key 2 _ ?_ _ (fresh key)
            simp only [go, Proc.step, hc, Option.isSome_some, if_true, hs, if_false]

theorem reach_inputs (ft : FloatText K) (g : Geometries K) (c : Settings K) (m : MapFile K) (d : ProjectFiles K)
    (k : Inputs K → Proc R) (σ : Shared) :
    ∃ n, go n (inputSteps ft g c m d k) σ =
      (k (projectInputs ft g c m { d with caches := σ.caches }).1,
        { σ with caches := (projectInputs ft g c m { d with caches := σ.caches }).2 }) := by
  have hr : optionalRegions { d with caches := σ.caches } c.regionPath = optionalRegions d c.regionPath := rfl
  have hs : optionalSections { d with caches := σ.caches } c.sectionPath = optionalSections d c.sectionPath := rfl
  unfold inputSteps projectInputs
  simp only
  rw [hr, hs]
  cases m.data with
  | error e => exact ⟨0, rfl⟩
  | ok a =>
    cases (cssFile ft ',' (d.texts c.cssPath)).map locationsOf with
    | error e => exact ⟨0, rfl⟩
    | ok l =>
      cases optionalRegions d c.regionPath with
      | error e => exact ⟨0, rfl⟩
      | ok rs =>
        cases optionalSections d c.sectionPath with
        | error e => cases rs <;> exact ⟨0, rfl⟩
        | ok ss =>
          cases rs with
          | none =>
            cases ss with
            | none => exact ⟨0, rfl⟩
            | some ss => exact reach_labels _ _ _ _ _ _ _ _ _
          | some rs =>
            simp only
            obtain ⟨n, h⟩ := reach_labels c.mapIsText g "region" (String.ofList c.defaultRegion) rs c.mapPath m
              (regionSteps g c m a l rs ss k) σ
            cases hl : gridLabelsAt c.mapIsText g "region" (String.ofList c.defaultRegion) rs c.mapPath m σ.caches with
            | mk r k' =>
              rw [hl] at h
              cases r with
              | error e => exact ⟨n, h⟩
              | ok labels =>
                cases ss with
                | none => exact ⟨n, h⟩
                | some ss =>
                  obtain ⟨n', h'⟩ := reach_labels c.mapIsText g "section" (String.ofList c.defaultSection) ss c.mapPath m
                    (fun ls => k ⟨.ok a, .ok l, some (regionLabels g (String.ofList c.defaultRegion) rs l labels),
                      some (ls.bind sectionLabels)⟩) { σ with caches := k' }
                  refine ⟨n + n', ?_⟩
                  rw [go_add, h]
                  exact h'

theorem reach_pieces (dir file : Text) (ps : List Text) (k : Proc R) (σ : Shared) (n : Nat) :
    ∃ τ, go ps.length (pieceSteps dir file n ps k) σ = (k, τ) ∧
      (∀ f, f ≠ file → τ.results dir f = σ.results dir f) ∧
      ∀ t, σ.results dir file = some t → n ≤ t.length →
        τ.results dir file = some (t.take n ++ ps.flatten ++ t.drop (n + ps.flatten.length)) := by
  induction ps generalizing n σ with
  | nil =>
    refine ⟨σ, rfl, fun _ _ => rfl, fun t ht hn => ?_⟩
    rw [ht, List.flatten_nil, List.append_nil, List.length_nil, Nat.add_zero, List.take_append_drop]
  | cons p ps ih =>
    obtain ⟨τ, h1, h2, h3⟩ := ih (σ.setFile dir file (putAt n p (σ.results dir file))) (n + p.length)
    refine ⟨τ, h1, fun f hf => ?_, fun t ht hn => ?_⟩
    · rw [h2 f hf, setFile_at, if_neg fun hc => hf hc.2]
    · have e : putAt n p (some t) = t.take n ++ p ++ t.drop (n + p.length) := by
        unfold putAt
        simp only [Option.getD_some, Nat.sub_eq_zero_of_le hn, List.replicate_zero, List.append_nil]
      rw [h3 (t.take n ++ p ++ t.drop (n + p.length)) (by rw [setFile_at, if_pos ⟨rfl, rfl⟩, ht, e])
        (by simp only [List.length_append, List.length_take]; omega)]
      congr 1
      have l1 : (t.take n ++ p).length = n + p.length := by simp only [List.length_append, List.length_take]; omega
      rw [List.take_append_of_le_length (by omega), List.take_of_length_le (by omega), List.flatten_cons, List.length_append,
        List.drop_append, List.drop_of_length_le (by omega), List.nil_append, List.drop_drop, l1]
      simp only [List.append_assoc]
      congr 4
      omega

theorem writeSteps_append (dir : Text) (cut : Text → Text → List Text) (xs ys : List (Text × Text)) (k : Proc R) :
    writeSteps dir cut (xs ++ ys) k = writeSteps dir cut xs (writeSteps dir cut ys k) := by
  induction xs with
  | nil => rfl
  | cons x xs ih =>
    show Proc.changeFile dir x.1 _ (pieceSteps dir x.1 0 (cut x.1 x.2) (writeSteps dir cut (xs ++ ys) k)) = _
    rw [ih]
    rfl

theorem reach_writes (dir : Text) (cut : Text → Text → List Text) (ws : List (Text × Text)) (k : Proc R) (σ : Shared) :
    ∃ n τ, go n (writeSteps dir cut ws k) σ = (k, τ) ∧ ∀ f, f ∉ ws.map (·.1) → τ.results dir f = σ.results dir f := by
  induction ws generalizing σ with
  | nil => exact ⟨0, σ, rfl, fun _ _ => rfl⟩
  | cons w ws ih =>
    obtain ⟨τ, h1, h2, -⟩ := reach_pieces dir w.1 (cut w.1 w.2) (writeSteps dir cut ws k) (σ.setFile dir w.1 []) 0
    obtain ⟨n, υ, h3, h4⟩ := ih τ
    refine ⟨1 + ((cut w.1 w.2).length + n), υ, ?_, fun f hf => ?_⟩
    · rw [go_add]
      show go _ (pieceSteps dir w.1 0 (cut w.1 w.2) (writeSteps dir cut ws k)) (σ.setFile dir w.1 []) = _
      rw [go_add, h1]
      exact h3
    · rw [List.map_cons, List.mem_cons, not_or] at hf
      rw [h4 f hf.2, h2 f hf.1, setFile_at, if_neg fun hc => hf.1 hc.2]

/-- The last write of a file. -/
theorem writeAll_last (ws : List (Text × Text)) (s : Store) (f t : Text) (hs : s f = none) (h : writeAll s ws f = some t) :
    ∃ p q, ws = p ++ (f, t) :: q ∧ f ∉ q.map (·.1) := by
  induction ws generalizing s with
  | nil =>
    have h' : s f = some t := h
    rw [hs] at h'
    cases h'
  | cons w ws ih =>
    by_cases hw : f ∈ ws.map (·.1)
    · have e : ∀ s', (writeAll s' ws f) = writeAll (s.set w.1 w.2) ws f := by
        intro s'
        clear h ih
        induction ws generalizing s s' with
        | nil => cases hw
        | cons v vs ihv =>
          by_cases hv : f ∈ vs.map (·.1)
          · exact (ihv s hs hv (s'.set v.1 v.2)).trans (ihv s hs hv ((s.set w.1 w.2).set v.1 v.2)).symm
          · have hfv : f = v.1 := by
              rw [List.map_cons, List.mem_cons] at hw
              exact hw.resolve_right hv
            subst hfv
            rw [show writeAll s' (v :: vs) v.1 = some v.2 from writeAll_mem_first s' v.1 v.2 vs hv]
            exact (writeAll_mem_first _ v.1 v.2 vs hv).symm
      obtain ⟨p, q, h1, h2⟩ := ih (fun _ => none) rfl ((e _).trans h)
      exact ⟨w :: p, q, by rw [h1]; rfl, h2⟩
    · by_cases hf : f = w.1
      · subst hf
        rw [show writeAll s (w :: ws) w.1 = some w.2 from writeAll_mem_first s w.1 w.2 ws hw] at h
        cases h
        exact ⟨[], ws, rfl, hw⟩
      · have e : writeAll s (w :: ws) f = s f := writeAll_other s (w :: ws) f (by
          rw [List.map_cons, List.mem_cons, not_or]; exact ⟨hf, hw⟩)
        rw [e, hs] at h
        cases h

/-- A run that writes a file has read its input after some steps. -/
theorem reach_writing (a : Launch K) (d : ProjectFiles K) (σ : Shared) (h : a.overwrite = true ∨ ¬ HasResults (σ.results a.dir))
    (f t : Text) (hs : σ.results a.dir f = none) (ht : (onItsOwn a d σ).1 f = some t) :
    ∃ n ws, go n (a.steps d) σ =
        (writeSteps a.dir a.cut ws (.done (onItsOwn a d σ).2.2), { σ with caches := (onItsOwn a d σ).2.1.caches }) ∧
      writeAll (σ.results a.dir) ws f = some t := by
  obtain ⟨n1, h1⟩ := go_steps a d σ h
  cases hm : d.maps a.settings.mapPath with
  | none =>
    unfold onItsOwn projectRun at ht
    simp only [hm] at ht
    rw [hs] at ht
    cases ht
  | some m =>
    cases hx : d.texts a.settings.cssPath with
    | none =>
      unfold onItsOwn projectRun at ht
      simp only [hm, hx] at ht
      rw [hs] at ht
      cases ht
    | some x =>
      obtain ⟨n2, h2⟩ := reach_inputs a.tools.ft a.geometries a.settings m d (fun i =>
        writeSteps a.dir a.cut (inifileWrites (a.job i)) (.done (runInifile (a.job i) fun _ => none).2)) σ
      have he : onItsOwn a d σ = _ := projectRun_eq a.tools a.geometries a.surroundings a.settings a.overwrite
        { d with caches := σ.caches } (σ.results a.dir) m x hm hx
      rw [run_spec _ _ _ rfl h] at he
      have e1 : (onItsOwn a d σ).1 = writeAll (σ.results a.dir)
          (inifileWrites (a.job (projectInputs a.tools.ft a.geometries a.settings m { d with caches := σ.caches }).1)) := by
        rw [he]; exact inifile_writes _ _
      have e2 : (onItsOwn a d σ).2.2 =
          (runInifile (a.job (projectInputs a.tools.ft a.geometries a.settings m { d with caches := σ.caches }).1) fun _ => none).2 := by
        rw [he]; exact inifile_outcome _ _ _
      have e3 : (onItsOwn a d σ).2.1.caches =
          (projectInputs a.tools.ft a.geometries a.settings m { d with caches := σ.caches }).2 := by
        rw [he, (refused_iff _ _).2 h]; rfl
      refine ⟨n1 + n2, _, ?_, by rw [← e1]; exact ht⟩
      rw [go_add, h1, e2, e3]
      simp only
      unfold afterCheck
      rw [hm, hx]
      exact h2

end Fm2prof.ParallelProof

import Verif.Proofs.Parallel
import Verif.Props.ProjectCrash

/-!
# C189: runs at the same time

Runs that are started at the same time take turns in using the files, in whatever order. `turns sched ps σ` are the states of the
runs and of the files after the steps in `sched`.
-/

set_option linter.unusedSectionVars false

namespace Fm2prof.Props

open Fm2prof Spec ParallelProof

variable {K : Type} [Field K] [LinearOrder K] [IsStrictOrderedRing K] [FloorRing K] {ι : Type} [DecidableEq ι]

/-- **C189, a run on its own.** The steps of a run, without others in between, lead to the files and the outcome of a run of the
project, and leave other directories alone. -/
theorem C189_alone (a : Launch K) (d : ProjectFiles K) (σ : Shared) :
    ((a.steps d).alone σ).2 = (onItsOwn a d σ).2.2 ∧
    ((a.steps d).alone σ).1.results a.dir = (onItsOwn a d σ).1 ∧
    ((a.steps d).alone σ).1.caches = (onItsOwn a d σ).2.1.caches ∧
    ∀ dir, dir ≠ a.dir → ((a.steps d).alone σ).1.results dir = σ.results dir := by
  rw [alone_steps]
  exact ⟨rfl, if_pos rfl, rfl, fun dir h => if_neg h⟩

/-- **C189, runs apart (partial).** Any number of runs go on at the same time. Consider one of them that shares its output directory
with no other, and of which every cache file that another one uses too is up to date for both. Whatever the order of the steps: after
enough turns this run has ended as on its own, and its output directory and its cache files are as if it had been on its own. What is
missing: runs with a common output directory, and with a common cache file that has to be made (`C189_same_directory_violated`,
`C189_cache_violated`). -/
theorem C189_apart_partial (d : ProjectFiles K) (runs : ι → Launch K) (σ : Shared) (i : ι)
    (hdir : ∀ j, j ≠ i → (runs j).dir ≠ (runs i).dir)
    (hcache : ∀ j, j ≠ i → ∀ key, UsesCache (runs i).settings key → UsesCache (runs j).settings key →
      UpToDate d σ.caches (runs i).settings key ∧ UpToDate d σ.caches (runs j).settings key) :
    ∃ n, ∀ sched : List ι, n ≤ sched.count i →
      (turns sched (fun j => (runs j).steps d) σ).1 i = .done (onItsOwn (runs i) d σ).2.2 ∧
      (turns sched (fun j => (runs j).steps d) σ).2.results (runs i).dir = (onItsOwn (runs i) d σ).1 ∧
      ∀ key, UsesCache (runs i).settings key →
        (turns sched (fun j => (runs j).steps d) σ).2.caches key = (onItsOwn (runs i) d σ).2.1.caches key := by
  obtain ⟨n, hn⟩ := go_alone ((runs i).steps d) σ
  refine ⟨n, fun sched hs => ?_⟩
  let common : Text → Prop := fun key => UsesCache (runs i).settings key ∧ UpToDate d σ.caches (runs i).settings key
  let own : ι → Place → Prop := fun j q => match q with
    | .file dir _ => dir = (runs j).dir
    | .cache key => UsesCache (runs j).settings key ∧ ¬ common key
  let fixed : ι → Place → Prop := fun _ q => match q with
    | .file _ _ => False
    | .cache key => common key
  have hfits : ∀ j, Fits (own j) (fixed j) σ ((runs j).steps d) := by
    intro j
    refine steps_fits _ _ (fun _ => rfl) fun key hkey => ?_
    by_cases hc : common key
    · refine .inr ⟨hc, ?_⟩
      by_cases hj : j = i
      · rw [hj]; exact hc.2
      · exact (hcache j hj key hc.1 hkey).2
    · exact .inl ⟨hkey, hc⟩
  have hof : ∀ j k q, own j q → ¬ fixed k q := by
    rintro j k (⟨dir, file⟩ | key) h1 h2
    · exact h2
    · exact h1.2 h2
  have hoo : ∀ j, j ≠ i → ∀ q, own j q → ¬ own i q := by
    rintro j hj (⟨dir, file⟩ | key) h1 h2
    · have h1' : dir = (runs j).dir := h1
      have h2' : dir = (runs i).dir := h2
      exact hdir j hj (h1'.symm.trans h2')
    · exact h2.2 ⟨h2.1, (hcache j hj key h2.1 h1.1).1⟩
  obtain ⟨e1, e2, e3⟩ := turns_own own fixed σ hof i hoo sched (fun j => (runs j).steps d) σ σ hfits (fun _ => .refl _ _)
    (.refl _ _) (.refl _ _)
  obtain ⟨-, e4, -⟩ := turns_frame own fixed σ hof sched (fun j => (runs j).steps d) σ hfits (fun _ => .refl _ _)
  rw [hn _ hs, alone_steps] at e1 e2 e3
  refine ⟨e1, ?_, fun key hkey => ?_⟩
  · funext file
    rw [e2.1 (runs i).dir file rfl]
    exact congrFun (if_pos rfl) file
  · by_cases hc : common key
    · rw [(e4 i).2 key hc, ← e3.2 key hc]
      rfl
    · exact e2.2 key ⟨hkey, hc⟩

/-- **C189, other files.** Whatever the order of the steps, and also when directories and cache files are shared: runs at the same time
change nothing in a directory that is not the output directory of one of them, and no cache file that belongs to none of them. -/
theorem C189_elsewhere (d : ProjectFiles K) (runs : ι → Launch K) (σ : Shared) (sched : List ι) :
    (∀ dir, (∀ j, dir ≠ (runs j).dir) → (turns sched (fun j => (runs j).steps d) σ).2.results dir = σ.results dir) ∧
    ∀ key, (∀ j, ¬ UsesCache (runs j).settings key) →
      (turns sched (fun j => (runs j).steps d) σ).2.caches key = σ.caches key := by
  let own : ι → Place → Prop := fun j q => match q with
    | .file dir _ => dir = (runs j).dir
    | .cache key => UsesCache (runs j).settings key
  obtain ⟨-, -, h⟩ := turns_frame own (fun _ _ => False) σ (fun _ _ _ _ h => h) sched (fun j => (runs j).steps d) σ
    (fun j => steps_fits _ _ (fun _ => rfl) fun key hkey => .inl hkey) (fun _ => ⟨fun _ _ h => h.elim, fun _ h => h.elim⟩)
  exact ⟨fun dir hd => funext fun file => h.1 dir file hd, fun key hk => h.2 key hk⟩

/-- **C189, results that are there.** Results in a directory survive any number of runs at the same time, in any order of the steps, as
long as those with this output directory are started without `--overwrite`; these end and return false. -/
theorem C189_kept (d : ProjectFiles K) (runs : ι → Launch K) (σ : Shared) (dir : Text) (hres : HasResults (σ.results dir))
    (how : ∀ j, (runs j).dir = dir → (runs j).overwrite = false) :
    (∀ sched, (turns sched (fun j => (runs j).steps d) σ).2.results dir = σ.results dir) ∧
    ∀ i, (runs i).dir = dir → ∃ n, ∀ sched : List ι, n ≤ sched.count i →
      (turns sched (fun j => (runs j).steps d) σ).1 i = .done (.ok false) := by
  let own : ι → Place → Prop := fun j q => match q with
    | .file e _ => (runs j).dir ≠ dir ∧ e ≠ dir
    | .cache _ => (runs j).dir ≠ dir
  let fixed : ι → Place → Prop := fun _ q => match q with
    | .file e _ => e = dir
    | .cache _ => False
  have hfits : ∀ j, Fits (own j) (fixed j) σ ((runs j).steps d) := by
    intro j
    by_cases hj : (runs j).dir = dir
    · exact steps_refused _ _ (fun _ => hj) (how j hj) (by rw [hj]; exact hres)
    · exact steps_fits _ _ (fun _ => ⟨hj, hj⟩) fun key _ => .inl hj
  have hof : ∀ j k q, own j q → ¬ fixed k q := by
    rintro j k (⟨e, file⟩ | key) h1 h2
    · exact h1.2 h2
    · exact h2
  refine ⟨fun sched => ?_, fun i hi => ?_⟩
  · obtain ⟨-, -, h⟩ := turns_frame own fixed σ hof sched (fun j => (runs j).steps d) σ hfits (fun _ => .refl _ _)
    exact funext fun file => h.1 dir file fun j hj => hj.2 rfl
  · obtain ⟨n, hn⟩ := go_alone ((runs i).steps d) σ
    refine ⟨n, fun sched hs => ?_⟩
    have hoo : ∀ j, j ≠ i → ∀ q, own j q → ¬ own i q := by
      rintro j hj (⟨e, file⟩ | key) h1 h2
      · exact h2.1 hi
      · exact h2 hi
    obtain ⟨e1, -, -⟩ := turns_own own fixed σ hof i hoo sched (fun j => (runs j).steps d) σ σ hfits (fun _ => .refl _ _)
      (.refl _ _) (.refl _ _)
    rw [hn _ hs, steps_eq, alone_check] at e1
    have e : (outputFiles.any fun f => (σ.results (runs i).dir f).isSome) = true := by
      rw [hi]; exact (outputExists_iff _).2 hres
    rw [e, how i hi] at e1
    exact e1

/-- **C189, one output directory, violated.** The check for results and the writing are not one step. Two runs with the same output
directory, in which there are no results: there is an order of the steps in which both do not see results of the other one. The second
run, although it is started without `--overwrite`, writes over what the first one has reported as its results, as if it were started with
`--overwrite`. -/
theorem C189_same_directory_violated (d : ProjectFiles K) (a b : Launch K) (σ : Shared) (hdir : b.dir = a.dir)
    (hres : ¬ HasResults (σ.results a.dir)) :
    ∃ sched : List Bool, ∀ r, r = turns sched (fun j => (if j then b else a).steps d) σ →
      ∀ σ₁, σ₁ = ((a.steps d).alone σ).1 →
      r.1 false = .done (onItsOwn a d σ).2.2 ∧
      r.1 true = .done (onItsOwn { b with overwrite := true } d σ₁).2.2 ∧
      r.2.results a.dir = (onItsOwn { b with overwrite := true } d σ₁).1 := by
  obtain ⟨n1, h1⟩ := go_steps a d σ (.inr hres)
  obtain ⟨n2, h2⟩ := go_steps b d σ (.inr (by rw [hdir]; exact hres))
  obtain ⟨n3, h3⟩ := go_alone (afterCheck a d) σ
  obtain ⟨n4, h4⟩ := go_alone (afterCheck b d) ((afterCheck a d).alone σ).1
  have h3' := h3 n3 (le_refl _)
  have h4' := h4 n4 (le_refl _)
  have ea : (a.steps d).alone σ = (afterCheck a d).alone σ := by
    obtain ⟨n, hn⟩ := go_alone (a.steps d) σ
    have e5 := hn (n1 + (n + n3)) (by omega)
    rw [go_add, h1, h3 (n + n3) (by omega)] at e5
    have e6 := congrArg Prod.snd e5
    have e7 := congrArg Prod.fst e5
    exact Prod.ext e6.symm (Proc.done.inj e7).symm
  refine ⟨List.replicate n1 false ++ (List.replicate n2 true ++ (List.replicate n3 false ++ List.replicate n4 true)), ?_⟩
  rintro r rfl σ₁ rfl
  rw [turns_append, turns_append, turns_append, turns_replicate, turns_replicate, turns_replicate, turns_replicate]
  simp only [Bool.true_eq_false, Bool.false_eq_true, if_true, if_false, h1, h2, h3', h4', reduceCtorEq]
  rw [← ea, alone_after, alone_steps]
  refine ⟨rfl, rfl, ?_⟩
  show (if a.dir = b.dir then _ else _) = _
  rw [if_pos hdir.symm]

/-- **C189, mixed files, violated.** Two runs with the same output directory, in which there are no results, that both write some file:
there is an order of the steps in which this file ends with the text of the second run and then what is left of the longer text of the
first run, and both runs end as on their own. -/
theorem C189_mixed_violated (d : ProjectFiles K) (a b : Launch K) (σ σ₁ : Shared) (hdir : b.dir = a.dir)
    (hres : ¬ HasResults (σ.results a.dir)) (hσ : σ₁ = { σ with caches := (onItsOwn a d σ).2.1.caches })
    (f ta tb : Text) (hf : σ.results a.dir f = none) (ha : (onItsOwn a d σ).1 f = some ta) (hb : (onItsOwn b d σ₁).1 f = some tb) :
    ∃ sched : List Bool, ∀ r, r = turns sched (fun j => (if j then b else a).steps d) σ →
      r.1 false = .done (onItsOwn a d σ).2.2 ∧
      r.1 true = .done (onItsOwn b d σ₁).2.2 ∧
      r.2.results a.dir f = some (tb ++ ta.drop tb.length) := by
  obtain ⟨n1, wa, g1, ea⟩ := reach_writing a d σ (.inr hres) f ta hf ha
  rw [← hσ] at g1
  have hr1 : σ₁.results b.dir = σ.results a.dir := by rw [hσ, hdir]
  obtain ⟨n2, wb, g2, eb⟩ := reach_writing b d σ₁ (.inr (by rw [hr1]; exact hres)) f tb (by rw [hr1]; exact hf) hb
  obtain ⟨pa, qa, rfl, ha2⟩ := writeAll_last wa _ f ta hf ea
  obtain ⟨pb, qb, rfl, hb2⟩ := writeAll_last wb _ f tb (by rw [hr1]; exact hf) eb
  rw [writeSteps_append] at g1 g2
  -- the first run writes up to the file and opens it
  obtain ⟨n3, σ₃, g3, -⟩ := reach_writes a.dir a.cut pa (writeSteps a.dir a.cut ((f, ta) :: qa) (.done (onItsOwn a d σ).2.2))
    { σ₁ with caches := (onItsOwn b d σ₁).2.1.caches }
  have g4 : go 1 (writeSteps a.dir a.cut ((f, ta) :: qa) (.done (onItsOwn a d σ).2.2)) σ₃ =
      (pieceSteps a.dir f 0 (a.cut f ta) (writeSteps a.dir a.cut qa (.done (onItsOwn a d σ).2.2)), σ₃.setFile a.dir f []) := rfl
  -- so does the second
  obtain ⟨n5, σ₅, g5, -⟩ := reach_writes b.dir b.cut pb (writeSteps b.dir b.cut ((f, tb) :: qb) (.done (onItsOwn b d σ₁).2.2))
    (σ₃.setFile a.dir f [])
  have g6 : go 1 (writeSteps b.dir b.cut ((f, tb) :: qb) (.done (onItsOwn b d σ₁).2.2)) σ₅ =
      (pieceSteps b.dir f 0 (b.cut f tb) (writeSteps b.dir b.cut qb (.done (onItsOwn b d σ₁).2.2)), σ₅.setFile b.dir f []) := rfl
  have c6 : (σ₅.setFile b.dir f []).results a.dir f = some [] := by rw [setFile_at, if_pos ⟨hdir.symm, rfl⟩]
  -- the first run goes on to its end
  obtain ⟨σ₇, g7, -, c7⟩ := reach_pieces a.dir f (a.cut f ta) (writeSteps a.dir a.cut qa (.done (onItsOwn a d σ).2.2))
    (σ₅.setFile b.dir f []) 0
  have c7' := c7 [] c6 (Nat.zero_le _)
  rw [a.whole, List.take_nil, List.nil_append, List.drop_nil, List.append_nil] at c7'
  obtain ⟨n8, σ₈, g8, c8⟩ := reach_writes a.dir a.cut qa (.done (onItsOwn a d σ).2.2 : Proc (Except PyErr Bool)) σ₇
  have c8' : σ₈.results b.dir f = some ta := by rw [hdir, c8 f ha2]; exact c7'
  -- and then the second
  obtain ⟨σ₉, g9, -, c9⟩ := reach_pieces b.dir f (b.cut f tb) (writeSteps b.dir b.cut qb (.done (onItsOwn b d σ₁).2.2)) σ₈ 0
  have c9' := c9 ta c8' (Nat.zero_le _)
  rw [b.whole, List.take_zero, List.nil_append, Nat.zero_add] at c9'
  obtain ⟨n10, σ₁₀, g10, c10⟩ := reach_writes b.dir b.cut qb (.done (onItsOwn b d σ₁).2.2 : Proc (Except PyErr Bool)) σ₉
  refine ⟨List.replicate n1 false ++ (List.replicate n2 true ++ (List.replicate (n3 + 1) false ++
    (List.replicate (n5 + 1) true ++ (List.replicate ((a.cut f ta).length + n8) false ++
      List.replicate ((b.cut f tb).length + n10) true)))), ?_⟩
  rintro r rfl
  simp only [turns_append, turns_replicate, Bool.true_eq_false, Bool.false_eq_true, if_true, if_false, reduceCtorEq, g1, g2, go_add,
    g3, g4, g5, g6, g7, g8, g9, g10, true_and]
  rw [← hdir, c10 f hb2]
  exact c9'

/-- **C189, one cache file, violated.** Two runs of the same settings with different output directories, started when a cache file has to
be made: both would succeed on their own, and there is an order of the steps in which the second one raises an error (`JSONDecodeError`)
and writes nothing, for it finds the cache file that the first one is writing. -/
theorem C189_cache_violated (d : ProjectFiles K) (a b : Launch K) (σ : Shared) (hsame : b = { a with dir := b.dir })
    (hdir : b.dir ≠ a.dir) (ha : (onItsOwn a d σ).2.2 = .ok true) (hb : a.overwrite = true ∨ ¬ HasResults (σ.results b.dir))
    (hcache : (onItsOwn a d σ).2.1.caches ≠ σ.caches) :
    (onItsOwn b d σ).2.2 = .ok true ∧
    ∃ sched : List Bool, ∀ r, r = turns sched (fun j => (if j then b else a).steps d) σ →
      r.1 true = .done (.error .valueError) ∧ r.2.results b.dir = σ.results b.dir := by
  obtain ⟨m, t, m2, hm, ht, -, -⟩ := ProjectProof.run_true _ _ _ _ _ _ _ _ (Prod.ext rfl ha)
  have hab : b.tools = a.tools ∧ b.geometries = a.geometries ∧ b.surroundings = a.surroundings ∧ b.settings = a.settings ∧
      b.overwrite = a.overwrite := by rw [hsame]; exact ⟨rfl, rfl, rfl, rfl, rfl⟩
  have he := fun (s : Store) => ProjectProof.projectRun_eq a.tools a.geometries a.surroundings a.settings a.overwrite
    { d with caches := σ.caches } s m t hm ht
  have hra : a.overwrite = true ∨ ¬ HasResults (σ.results a.dir) := by
    rw [← ProjectProof.refused_iff]
    cases hx : outputExists (σ.results a.dir) && !a.overwrite with
    | false => rfl
    | true =>
      have hc := hcache
      unfold onItsOwn at hc
      rw [he, hx] at hc
      exact absurd rfl hc
  have hne : cacheWrites a.tools.ft a.geometries a.settings m { d with caches := σ.caches } ≠ [] := by
    intro hw
    apply hcache
    unfold onItsOwn
    rw [he, (ProjectProof.refused_iff _ _).2 hra]
    show (projectInputs _ _ _ _ _).2 = _
    rw [inputs_written, hw]
    rfl
  obtain ⟨w, ws, hws⟩ := List.exists_cons_of_ne_nil hne
  obtain ⟨n1, h1⟩ := go_steps a d σ hra
  have h2 : ∃ n, (go n (afterCheck a d) σ).2 = σ.setCache w.1 .damaged := by
    unfold afterCheck
    have hm' : d.maps a.settings.mapPath = some m := hm
    have ht' : d.texts a.settings.cssPath = some t := ht
    rw [hm', ht']
    exact go_inputs _ _ _ _ _ _ _ w ws hws
  obtain ⟨n2, h2⟩ := h2
  obtain ⟨n3, h3⟩ := go_alone (b.steps d) (σ.setCache w.1 .damaged)
  have h3' := h3 n3 (le_refl _)
  have hcrash : cachesAfterCrash σ.caches (cacheWrites a.tools.ft a.geometries a.settings m { d with caches := σ.caches }) 0 true =
      storeCache w.1 .damaged σ.caches := by
    rw [hws]; rfl
  have htorn := (C168_torn_violated a.tools a.geometries a.surroundings a.settings a.overwrite { d with caches := σ.caches }
    (σ.results a.dir) m hm ha { d with caches := storeCache w.1 .damaged σ.caches } (σ.results a.dir)
    (by rw [← hcrash]; exact .caching 0 (by rw [hws]; exact Nat.zero_lt_succ _))).2 a.overwrite (σ.results b.dir) hb
  have hown : onItsOwn b d (σ.setCache w.1 .damaged) =
      (σ.results b.dir, { d with caches := storeCache w.1 .damaged σ.caches }, .error .valueError) := by
    unfold onItsOwn
    rw [hab.1, hab.2.1, hab.2.2.1, hab.2.2.2.1, hab.2.2.2.2]
    exact htorn
  refine ⟨?_, List.replicate (n1 + n2) false ++ List.replicate n3 true, ?_⟩
  · unfold onItsOwn at ha ⊢
    rw [hab.1, hab.2.1, hab.2.2.1, hab.2.2.2.1, hab.2.2.2.2, he]
    rw [he] at ha
    simp only at ha ⊢
    rw [run_spec _ _ _ rfl hra] at ha
    rw [run_spec _ _ _ rfl hb, ← ha]
    exact inifile_outcome _ _ _
  · rintro r rfl
    rw [turns_append, turns_replicate, turns_replicate]
    simp only [Bool.true_eq_false, if_true, if_false, reduceCtorEq, Bool.false_eq_true]
    rw [go_add, h1]
    simp only
    rw [h2, h3', alone_steps, hown]
    refine ⟨rfl, ?_⟩
    show (if b.dir = b.dir then (onItsOwn b d (σ.setCache w.1 .damaged)).1 else _) = _
    rw [if_pos rfl, hown]

/-! ## Examples -/

/-- A run of the sample project, of which texts are written in pieces of at most a thousand characters and the rest. -/
noncomputable def sampleLaunch (dir : String) (overwrite : Bool) : Launch ℚ :=
  { tools := sampleTools, geometries := sampleGeometries, surroundings := sampleSurroundings, settings := sampleSettings
    overwrite := overwrite, dir := dir.toList, cut := fun _ t => [t.take 1000, t.drop 1000]
    whole := fun _ t => by simp }

theorem sampleMap_there : sampleProject.maps sampleSettings.mapPath = some sampleMapFile := by
  show (if "map.nc".toList = "map.nc".toList then some sampleMapFile else none) = _
  exact if_pos rfl

/-- No files but the input. -/
def freshShared : Shared := ⟨fun _ => noFiles, fun _ => none⟩

/-- The cache files of an earlier run. -/
noncomputable def warmShared : Shared := ⟨fun _ => noFiles, (onItsOwn (sampleLaunch "out1" false) sampleProject freshShared).2.1.caches⟩

/-- Three runs of the sample project with different output directories after an earlier run: their cache files are up to date, and each
returns true. -/
example : ∀ runs : Fin 3 → Launch ℚ, (runs = fun i => sampleLaunch (["out1", "out2", "out3"][i]) false) →
    (∀ i j, j ≠ i → (runs j).dir ≠ (runs i).dir) ∧
    (∀ i key, UsesCache (runs i).settings key → UpToDate sampleProject warmShared.caches (runs i).settings key) ∧
    (∀ i, ∃ key, UsesCache (runs i).settings key) ∧
    ∀ i, (onItsOwn (runs i) sampleProject warmShared).2.2.toOption = some true := by
  rintro runs rfl
  have k1 : ∀ key, withSuffix ".region_cache.json".toList sampleSettings.mapPath = .ok key → key = "map.region_cache.json".toList := by
    intro key h
    have e : withSuffix ".region_cache.json".toList sampleSettings.mapPath = .ok "map.region_cache.json".toList := by decide +kernel
    rw [e] at h
    exact (Except.ok.inj h).symm
  have k2 : ∀ key, withSuffix ".section_cache.json".toList sampleSettings.mapPath = .ok key → key = "map.section_cache.json".toList := by
    intro key h
    have e : withSuffix ".section_cache.json".toList sampleSettings.mapPath = .ok "map.section_cache.json".toList := by decide +kernel
    rw [e] at h
    exact (Except.ok.inj h).symm
  have uses : sampleSettings.regionPath ≠ [] ∧
      withSuffix ".region_cache.json".toList sampleSettings.mapPath = .ok "map.region_cache.json".toList := by decide +kernel
  have up : ∀ key, ((warmShared.caches key).bind fun c => match c with | .damaged => none | .labels f => some f.stamp) = some (7, 100) →
      UpToDate sampleProject warmShared.caches sampleSettings key := by
    intro key h
    cases hc : warmShared.caches key with
    | none => rw [hc] at h; cases h
    | some c =>
      rw [hc] at h
      cases c with
      | damaged => cases h
      | labels f => exact ⟨sampleMapFile, f, sampleMap_there, hc, Option.some.inj h⟩
  refine ⟨by decide +kernel, ?_, fun i => ⟨"map.region_cache.json".toList, .inl uses⟩, ?_⟩
  · intro i key hk
    rcases hk with ⟨-, hk⟩ | ⟨-, hk⟩
    · rw [k1 key hk]; exact up _ (by decide +kernel)
    · rw [k2 key hk]; exact up _ (by decide +kernel)
  · intro i
    have e : (onItsOwn (sampleLaunch "out1" false) sampleProject warmShared).2.2.toOption = some true := by decide +kernel
    exact e

/-- A directory with results, and runs without `--overwrite`. -/
example : ∀ σ : Shared, σ = ⟨fun _ => noFiles.set "volumes.csv".toList "x".toList, fun _ => none⟩ →
    HasResults (σ.results "out1".toList) ∧ (sampleLaunch "out1" false).dir = "out1".toList ∧
      (sampleLaunch "out1" false).overwrite = false := by
  rintro σ rfl
  exact ⟨(outputExists_iff _).1 (by decide +kernel), rfl, rfl⟩

/-- Two runs with one output directory without results, and without `--overwrite`: both write the definitions. -/
example : ¬ HasResults (freshShared.results (sampleLaunch "out1" false).dir) ∧
    (onItsOwn (sampleLaunch "out1" false) sampleProject freshShared).2.2.toOption = some true ∧
    freshShared.results (sampleLaunch "out1" false).dir "CrossSectionDefinitions.ini".toList = none ∧
    ((onItsOwn (sampleLaunch "out1" false) sampleProject freshShared).1 "CrossSectionDefinitions.ini".toList).isSome = true ∧
    ((onItsOwn (sampleLaunch "out1" false) sampleProject warmShared).1 "CrossSectionDefinitions.ini".toList).isSome = true := by
  refine ⟨fun h => ?_, by decide +kernel, rfl, by decide +kernel, by decide +kernel⟩
  have := (outputExists_iff _).2 h
  revert this
  decide +kernel

/-- Two runs with different output directories when the cache files have to be made. -/
example : sampleLaunch "out2" false = { sampleLaunch "out1" false with dir := (sampleLaunch "out2" false).dir } ∧
    (sampleLaunch "out2" false).dir ≠ (sampleLaunch "out1" false).dir ∧
    (onItsOwn (sampleLaunch "out1" false) sampleProject freshShared).2.2 = .ok true ∧
    ¬ HasResults (freshShared.results (sampleLaunch "out2" false).dir) ∧
    (onItsOwn (sampleLaunch "out1" false) sampleProject freshShared).2.1.caches ≠ freshShared.caches := by
  refine ⟨rfl, by decide +kernel, ?_, fun h => ?_, fun h => ?_⟩
  · have e : (onItsOwn (sampleLaunch "out1" false) sampleProject freshShared).2.2.toOption = some true := by decide +kernel
    cases hx : (onItsOwn (sampleLaunch "out1" false) sampleProject freshShared).2.2 with
    | error e' => rw [hx] at e; cases e
    | ok v => rw [hx] at e; rw [Option.some.inj e]
  · have := (outputExists_iff _).2 h
    revert this
    decide +kernel
  · have e : ((onItsOwn (sampleLaunch "out1" false) sampleProject freshShared).2.1.caches "map.region_cache.json".toList).isSome =
        true := by decide +kernel
    rw [h] at e
    cases e

end Fm2prof.Props

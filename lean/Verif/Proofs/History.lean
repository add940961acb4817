import Verif.Spec.History
import Verif.Proofs.Program
import Verif.Proofs.ProjectCrash

/-!
# Helper lemmas: what a run depends on when other commands have been given
-/

set_option linter.unusedSectionVars false

namespace Fm2prof.HistoryProof

open Fm2prof Spec Props ProjectProof ProgramProof

variable {K : Type} [Field K] [LinearOrder K] [IsStrictOrderedRing K] [FloorRing K]

/-! ## Cache files -/

theorem grid_local (isText : Bool) (g : Geometries K) (property default : String) (ps : List (Polygon K)) (path : Text) (m : MapFile K)
    (k1 k2 : Caches) (h : ∀ t, withSuffix ('.' :: property.toList ++ "_cache.json".toList) path = .ok t → k1 t = k2 t) :
    (gridLabelsAt isText g property default ps path m k1).1 = (gridLabelsAt isText g property default ps path m k2).1 ∧
      ∀ t, k1 t = k2 t → (gridLabelsAt isText g property default ps path m k1).2 t =
        (gridLabelsAt isText g property default ps path m k2).2 t := by
  unfold gridLabelsAt gridLabels
  cases isText with
  | true => exact ⟨rfl, fun _ e => e⟩
  | false =>
    simp only [Bool.false_eq_true, if_false]
    cases hk : withSuffix ('.' :: property.toList ++ "_cache.json".toList) path with
    | error e => exact ⟨rfl, fun _ e => e⟩
    | ok key =>
      simp only
      rw [h key hk]
      cases readCache (k2 key) with
      | error e => exact ⟨rfl, fun _ e => e⟩
      | ok kept =>
        simp only
        cases kept.filter fun c => decide (c.stamp = m.stamp) with
        | some c => exact ⟨rfl, fun _ e => e⟩
        | none =>
          simp only
          cases freshLabels g property default ps m with
          | error e => exact ⟨rfl, fun _ e => e⟩
          | ok ls =>
            refine ⟨rfl, fun t e => ?_⟩
            show (if t = key then _ else k1 t) = if t = key then _ else k2 t
            rw [e]

theorem grid_other (isText : Bool) (g : Geometries K) (property default : String) (ps : List (Polygon K)) (path : Text) (m : MapFile K)
    (k : Caches) (t : Text) (h : withSuffix ('.' :: property.toList ++ "_cache.json".toList) path ≠ .ok t) :
    (gridLabelsAt isText g property default ps path m k).2 t = k t := by
  rcases call_cases isText g property default ps path m k with ⟨-, h2⟩ | ⟨key, ls, h1, -, -, h2⟩
  · rw [h2]
  · rw [h2]
    exact if_neg fun e => h (by rw [h1, e])

theorem inputs_local (ft : FloatText K) (g : Geometries K) (c : Settings K) (m : MapFile K) (d : ProjectFiles K) (k1 k2 : Caches)
    (h : ∀ t, IsCacheOf c.mapPath t → k1 t = k2 t) :
    (projectInputs ft g c m { d with caches := k1 }).1 = (projectInputs ft g c m { d with caches := k2 }).1 ∧
      ∀ t, k1 t = k2 t → (projectInputs ft g c m { d with caches := k1 }).2 t =
        (projectInputs ft g c m { d with caches := k2 }).2 t := by
  have hr : ∀ k, optionalRegions { d with caches := k } c.regionPath = optionalRegions d c.regionPath := fun _ => rfl
  have hs : ∀ k, optionalSections { d with caches := k } c.sectionPath = optionalSections d c.sectionPath := fun _ => rfl
  unfold projectInputs
  simp only
  rw [hr k1, hs k1, hr k2, hs k2]
  cases m.data with
  | error e => exact ⟨rfl, fun _ e => e⟩
  | ok a =>
    cases (cssFile ft ',' (d.texts c.cssPath)).map locationsOf with
    | error e => exact ⟨rfl, fun _ e => e⟩
    | ok l =>
      cases optionalRegions d c.regionPath with
      | error e => exact ⟨rfl, fun _ e => e⟩
      | ok rs =>
        cases optionalSections d c.sectionPath with
        | error e => cases rs <;> exact ⟨rfl, fun _ e => e⟩
        | ok ss =>
          cases rs with
          | none =>
            cases ss with
            | none => exact ⟨rfl, fun _ e => e⟩
            | some ss =>
              obtain ⟨l1, l2⟩ := grid_local c.mapIsText g "section" (String.ofList c.defaultSection) ss c.mapPath m k1 k2
                fun t ht => h t (.inr ht)
              simp only
              rw [l1]
              exact ⟨rfl, l2⟩
          | some rs =>
            obtain ⟨l1, l2⟩ := grid_local c.mapIsText g "region" (String.ofList c.defaultRegion) rs c.mapPath m k1 k2
              fun t ht => h t (.inl ht)
            simp only
            cases e1 : gridLabelsAt c.mapIsText g "region" (String.ofList c.defaultRegion) rs c.mapPath m k1 with
            | mk r1 j1 =>
              cases e2 : gridLabelsAt c.mapIsText g "region" (String.ofList c.defaultRegion) rs c.mapPath m k2 with
              | mk r2 j2 =>
                rw [e1, e2] at l1 l2
                simp only at l1 l2
                subst l1
                cases r1 with
                | error e => exact ⟨rfl, l2⟩
                | ok labels =>
                  cases ss with
                  | none => exact ⟨rfl, l2⟩
                  | some ss =>
                    obtain ⟨n1, n2⟩ := grid_local c.mapIsText g "section" (String.ofList c.defaultSection) ss c.mapPath m j1 j2
                      fun t ht => l2 t (h t (.inr ht))
                    simp only
                    rw [n1]
                    exact ⟨rfl, fun t ht => n2 t (l2 t ht)⟩

theorem inputs_other (ft : FloatText K) (g : Geometries K) (c : Settings K) (m : MapFile K) (d : ProjectFiles K) (t : Text)
    (h : ¬ IsCacheOf c.mapPath t) : (projectInputs ft g c m d).2 t = d.caches t := by
  have g1 : ∀ ps k, (gridLabelsAt c.mapIsText g "region" (String.ofList c.defaultRegion) ps c.mapPath m k).2 t = k t :=
    fun ps k => grid_other _ _ _ _ _ _ _ _ _ fun e => h (.inl e)
  have g2 : ∀ ps k, (gridLabelsAt c.mapIsText g "section" (String.ofList c.defaultSection) ps c.mapPath m k).2 t = k t :=
    fun ps k => grid_other _ _ _ _ _ _ _ _ _ fun e => h (.inr e)
  unfold projectInputs
  cases m.data with
  | error e => rfl
  | ok a =>
    cases (cssFile ft ',' (d.texts c.cssPath)).map locationsOf with
    | error e => rfl
    | ok l =>
      cases optionalRegions d c.regionPath with
      | error e => rfl
      | ok rs =>
        cases optionalSections d c.sectionPath with
        | error e => cases rs <;> rfl
        | ok ss =>
          cases rs with
          | none =>
            cases ss with
            | none => rfl
            | some ss => exact g2 ss _
          | some rs =>
            have hw := g1 rs d.caches
            simp only
            cases e1 : gridLabelsAt c.mapIsText g "region" (String.ofList c.defaultRegion) rs c.mapPath m d.caches with
            | mk r k =>
              rw [e1] at hw
              cases r with
              | error e => exact hw
              | ok labels =>
                cases ss with
                | none => exact hw
                | some ss => exact (g2 ss k).trans hw

/-! ## What commands keep -/

/-- The files that the project at `path` depends on are as they were, except for its cache files, which lead to the same input. -/
structure AsBefore (e : Computer K) (c : Settings K) (m : MapFile K) (path : Text) (w0 w : AllFiles K) : Prop where
  maps : w.inputs.maps = w0.inputs.maps
  polygons : w.inputs.polygons = w0.inputs.polygons
  files : w.disk.files = w0.disk.files
  text : w.inputs.texts path = w0.inputs.texts path
  css : w.inputs.texts c.cssPath = w0.inputs.texts c.cssPath
  caches : (projectInputs e.tools.ft e.geometries c m w.inputs).1 = (projectInputs e.tools.ft e.geometries c m w0.inputs).1

/-- The input depends on nothing else. -/
theorem inputs_same (ft : FloatText K) (g : Geometries K) (c : Settings K) (m : MapFile K) (d d' : ProjectFiles K)
    (h1 : d'.polygons = d.polygons) (h2 : d'.texts c.cssPath = d.texts c.cssPath)
    (h3 : ∀ t, IsCacheOf c.mapPath t → d'.caches t = d.caches t) :
    (projectInputs ft g c m d').1 = (projectInputs ft g c m d).1 := by
  obtain ⟨maps, texts, polygons, caches⟩ := d'
  simp only at h1 h2 h3
  subst h1
  have hr : optionalRegions ({ maps := maps, texts := texts, polygons := d.polygons, caches := caches } : ProjectFiles K) c.regionPath =
    optionalRegions { d with caches := caches } c.regionPath := rfl
  have hs : optionalSections ({ maps := maps, texts := texts, polygons := d.polygons, caches := caches } : ProjectFiles K)
    c.sectionPath = optionalSections { d with caches := caches } c.sectionPath := rfl
  have e1 : projectInputs ft g c m { maps := maps, texts := texts, polygons := d.polygons, caches := caches } =
      projectInputs ft g c m { d with caches := caches } := by
    unfold projectInputs
    simp only
    rw [hr, hs, h2]
  rw [e1]
  exact (inputs_local ft g c m d caches d.caches h3).1

theorem projectAt_asBefore {e : Computer K} {c : Settings K} {m : MapFile K} {path : Text} {w0 w : AllFiles K}
    (h : AsBefore e c m path w0 w) {name n : Text} {f : FileContent} {out : Text} (hp : ProjectAt w0 name path f out)
    (hn : withSuffix ".ini".toList n = .ok path) : ProjectAt w n path f out :=
  { named := hn, plain := hp.plain, text := h.text.trans hp.text, input := hp.input, output := hp.output, directory := hp.directory
    free := by rw [h.files]; exact hp.free
    real := by rw [h.files]; exact hp.real }

theorem program_keeps (e : Computer K) (hm : ∀ d, e.mkdir d = .made) (w0 w : AllFiles K) (name path : Text) (f : FileContent) (out : Text)
    (hp : ProjectAt w0 name path f out) (m : MapFile K)
    (h1 : w0.inputs.maps (settingsIn e.tools.ft (parentPath path) w0.disk.files f).mapPath = some m)
    (h : AsBefore e (settingsIn e.tools.ft (parentPath path) w0.disk.files f) m path w0 w) (a : Command)
    (ha : LeavesAlone path (settingsIn e.tools.ft (parentPath path) w0.disk.files f).mapPath
      (settingsIn e.tools.ft (parentPath path) w0.disk.files f).cssPath w a) :
    AsBefore e (settingsIn e.tools.ft (parentPath path) w0.disk.files f) m path w0 (program e w a).1 := by
  cases a with
  | create n =>
    have hc := C123_only_partial (e.setup w.inputs) n w.world
    exact { maps := h.maps, polygons := h.polygons
            files := (congrArg Disk.files hc.2.1).trans h.files
            text := (hc.1 path (Ne.symm ha.1)).trans h.text
            css := (hc.1 _ (Ne.symm ha.2)).trans h.css
            caches := (inputs_same _ _ _ _ w.inputs (program e w (.create n)).1.inputs rfl (hc.1 _ (Ne.symm ha.2)) fun _ _ => rfl).trans h.caches }
  | check n =>
    have hk : (command (e.setup w.inputs) w.world (.check n)).1.texts = w.inputs.texts ∧
        (command (e.setup w.inputs) w.world (.check n)).1.disk.files = w.disk.files := by
      unfold command cliCheck
      simp only
      cases withSuffix ".ini".toList n with
      | error e => exact ⟨rfl, rfl⟩
      | ok p =>
        simp only
        have k := openRunner_keeps (e.setup w.inputs) p w.world
        rcases e : openRunner _ p w.world with ⟨w', r⟩
        rw [e] at k
        cases r <;> exact ⟨k.1, k.2.1.1⟩
    exact { maps := h.maps, polygons := h.polygons
            files := hk.2.trans h.files
            text := (congrFun hk.1 path).trans h.text
            css := (congrFun hk.1 _).trans h.css
            caches := (inputs_same _ _ _ _ w.inputs (program e w (.check n)).1.inputs rfl (congrFun hk.1 _) fun _ _ => rfl).trans h.caches }
  | compare n p1 p2 r =>
    have hk := cliCompare_keeps (e.setup w.inputs) n p1 p2 r w.world
    exact { maps := h.maps, polygons := h.polygons
            files := hk.2.1.1.trans h.files
            text := (congrFun hk.1 path).trans h.text
            css := (congrFun hk.1 _).trans h.css
            caches := (inputs_same _ _ _ _ w.inputs (program e w (.compare n p1 p2 r)).1.inputs rfl (congrFun hk.1 _)
              fun _ _ => rfl).trans h.caches }
  | run n overwrite post =>
    rcases ha with ha | ⟨path', f', out', hp', hd⟩
    · obtain ⟨dirs, j, caches, -, -, -, g4, g5, -⟩ := program_run e hm w n path f out (projectAt_asBefore h hp ha) overwrite post
      rw [g5]
      rw [h.files, h.maps, h1] at g4
      refine { maps := h.maps, polygons := h.polygons, files := h.files, text := h.text, css := h.css, caches := ?_ }
      have ha := inputs_again e.tools.ft e.geometries (settingsIn e.tools.ft (parentPath path) w0.disk.files f) m w.inputs
        (cacheWrites e.tools.ft e.geometries (settingsIn e.tools.ft (parentPath path) w0.disk.files f) m w.inputs).length
      rw [List.take_length, ← inputs_written] at ha
      show (projectInputs e.tools.ft e.geometries _ m { w.inputs with caches := caches }).1 = _
      rw [g4]
      split
      · exact h.caches
      · split
        · exact (congrArg Prod.fst ha).trans h.caches
        · exact h.caches
    · obtain ⟨dirs, j, caches, -, -, -, g4, g5, -⟩ := program_run e hm w n path' f' out' hp' overwrite post
      rw [g5]
      refine { maps := h.maps, polygons := h.polygons, files := h.files, text := h.text, css := h.css, caches := ?_ }
      have hsame : ∀ t, IsCacheOf (settingsIn e.tools.ft (parentPath path) w0.disk.files f).mapPath t →
          caches t = w.inputs.caches t := by
        intro t ht
        rw [g4]
        split
        · rfl
        · cases hmap : namedFile (parentPath path') w.disk.files f' "2DMapOutput" with
          | none => rw [Option.isSome_none, Bool.false_and, if_neg Bool.false_ne_true]
          | some mp =>
            have hmp : (settingsIn e.tools.ft (parentPath path') w.disk.files f').mapPath = mp := by
              show (namedFile (parentPath path') w.disk.files f' "2DMapOutput").getD [] = _
              rw [hmap]; rfl
            split
            · cases w.inputs.maps (settingsIn e.tools.ft (parentPath path') w.disk.files f').mapPath with
              | some m' => exact inputs_other _ _ _ _ _ _ (by rw [hmp]; exact hd mp hmap t ht)
              | none => rfl
            · rfl
      exact (inputs_same _ _ _ _ w.inputs { w.inputs with caches := caches } rfl rfl hsame).trans h.caches

theorem programs_keep (e : Computer K) (hm : ∀ d, e.mkdir d = .made) (w0 w : AllFiles K) (name path : Text) (f : FileContent) (out : Text)
    (hp : ProjectAt w0 name path f out) (m : MapFile K)
    (h1 : w0.inputs.maps (settingsIn e.tools.ft (parentPath path) w0.disk.files f).mapPath = some m)
    (cmds : List Command) (h : AsBefore e (settingsIn e.tools.ft (parentPath path) w0.disk.files f) m path w0 w)
    (ha : AllLeaveAlone e path (settingsIn e.tools.ft (parentPath path) w0.disk.files f).mapPath
      (settingsIn e.tools.ft (parentPath path) w0.disk.files f).cssPath w cmds) :
    AsBefore e (settingsIn e.tools.ft (parentPath path) w0.disk.files f) m path w0 (programs e cmds w) := by
  induction cmds generalizing w with
  | nil => exact h
  | cons a as ih => exact ih _ (program_keeps e hm w0 w name path f out hp m h1 h a ha.1) ha.2

/-! ## Runs -/

variable {S C : Type}

theorem run_outcome (j : Job S C) (s t : Store) : (run j true s).2 = (run j true t).2 := by
  unfold run
  rw [Bool.not_true, Bool.and_false, Bool.and_false]
  simp only [Bool.false_eq_true, if_false]
  split
  · rfl
  · unfold runInifile
    cases initialise j with
    | error er => cases er <;> rfl
    | ok m =>
      simp only
      have h1 := generate_outcome j m s
      have h2 := generate_outcome j m t
      rw [← h2] at h1
      cases e1 : generate j m s with
      | mk s' r =>
        cases e2 : generate j m t with
        | mk t' r' =>
          rw [e1, e2] at h1
          simp only at h1
          subst h1
          cases r <;> rfl

theorem writeAll_either (ws : List (Text × Text)) (s t : Store) (file : Text) :
    writeAll s ws file = writeAll t ws file ∨ (writeAll s ws file = s file ∧ writeAll t ws file = t file) := by
  by_cases h : file ∈ ws.map (·.1)
  · left
    induction ws generalizing s t with
    | nil => cases h
    | cons w ws ih =>
      show writeAll (s.set w.1 w.2) ws file = writeAll (t.set w.1 w.2) ws file
      by_cases hw : file ∈ ws.map (·.1)
      · exact ih _ _ hw
      · rw [writeAll_other _ _ _ hw, writeAll_other _ _ _ hw]
        rw [List.map_cons, List.mem_cons] at h
        obtain rfl := h.resolve_right hw
        rw [store_set_same, store_set_same]
  · exact .inr ⟨writeAll_other _ _ _ h, writeAll_other _ _ _ h⟩

theorem run_either (j : Job S C) (s t : Store) (file : Text) :
    (run j true s).1 file = (run j true t).1 file ∨ ((run j true s).1 file = s file ∧ (run j true t).1 file = t file) := by
  rw [run_writes, run_writes]
  have : runWrites j true s = runWrites j true t := by
    unfold runWrites
    rw [Bool.not_true, Bool.and_false, Bool.and_false]
  rw [this]
  exact writeAll_either _ _ _ _

end Fm2prof.HistoryProof

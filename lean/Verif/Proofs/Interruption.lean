import Verif.Spec.Interruption
import Verif.Proofs.History

/-!
# Helper lemmas: commands that are stopped from outside
-/

set_option linter.unusedSectionVars false

namespace Fm2prof.InterruptionProof

open Fm2prof Spec Props ProjectProof ProgramProof HistoryProof

variable {K : Type} [Field K] [LinearOrder K] [IsStrictOrderedRing K] [FloorRing K]

theorem call_keys (isText : Bool) (g : Geometries K) (property default : String) (ps : List (Polygon K)) (path : Text)
    (m : MapFile K) (caches : Caches) (w) (hw : w ∈ callWrites isText g property default ps path m caches) :
    withSuffix ('.' :: property.toList ++ "_cache.json".toList) path = .ok w.1 := by
  rcases call_cases isText g property default ps path m caches with ⟨h1, -⟩ | ⟨key, ls, h1, -, h2, -⟩
  · rw [h1] at hw; cases hw
  · rw [h2] at hw
    rw [List.mem_singleton.1 hw]
    exact h1

theorem writes_keys (ft : FloatText K) (g : Geometries K) (c : Settings K) (m : MapFile K) (d : ProjectFiles K) (w)
    (hw : w ∈ cacheWrites ft g c m d) : IsCacheOf c.mapPath w.1 := by
  have hr : ∀ ps k, w ∈ callWrites c.mapIsText g "region" (String.ofList c.defaultRegion) ps c.mapPath m k → IsCacheOf c.mapPath w.1 :=
    fun ps k h => .inl (call_keys _ _ _ _ _ _ _ _ _ h)
  have hs : ∀ ps k, w ∈ callWrites c.mapIsText g "section" (String.ofList c.defaultSection) ps c.mapPath m k →
      IsCacheOf c.mapPath w.1 :=
    fun ps k h => .inr (call_keys _ _ _ _ _ _ _ _ _ h)
  unfold cacheWrites at hw
  revert hw
  cases m.data with
  | error e => intro h; cases h
  | ok a =>
    cases (cssFile ft ',' (d.texts c.cssPath)).map locationsOf with
    | error e => intro h; cases h
    | ok l =>
      cases optionalRegions d c.regionPath with
      | error e => intro h; cases h
      | ok rs =>
        cases optionalSections d c.sectionPath with
        | error e => cases rs <;> (intro h; cases h)
        | ok ss =>
          cases rs with
          | none =>
            cases ss with
            | none => intro h; cases h
            | some ss => exact hs ss _
          | some rs =>
            cases ss with
            | none => exact hr rs _
            | some ss =>
              simp only
              intro h
              rcases List.mem_append.1 h with h | h
              · exact hr rs _ h
              · revert h
                cases gridLabelsAt c.mapIsText g "region" (String.ofList c.defaultRegion) rs c.mapPath m d.caches with
                | mk r k =>
                  cases r with
                  | error e => intro h; cases h
                  | ok lr => exact hs ss _

theorem writeCaches_other (k : Caches) (ws : List (Text × CacheFile (Nat × Nat) Labels)) (t : Text) (h : ∀ w ∈ ws, w.1 ≠ t) :
    writeCaches k ws t = k t := by
  induction ws generalizing k with
  | nil => rfl
  | cons w ws ih =>
    refine (ih _ fun v hv => h v (List.mem_cons_of_mem _ hv)).trans ?_
    exact if_neg fun e => h w List.mem_cons_self e.symm

theorem crash_other (k : Caches) (ws : List (Text × CacheFile (Nat × Nat) Labels)) (n : Nat) (torn : Bool) (t : Text)
    (h : ∀ w ∈ ws, w.1 ≠ t) : cachesAfterCrash k ws n torn t = k t := by
  have h1 : writeCaches k (ws.take n) t = k t := writeCaches_other _ _ _ fun w hw => h w (List.mem_of_mem_take hw)
  unfold cachesAfterCrash
  cases torn with
  | false => exact h1
  | true =>
    cases hw : ws[n]? with
    | none => exact h1
    | some w => exact (if_neg fun e => h w (List.mem_of_getElem? hw) e.symm).trans h1

theorem no_caches (t : Text) : ¬ IsCacheOf [] t := by
  rintro (h | h)
  · exact absurd (show (Except.error PyErr.valueError : Except PyErr Text) = .ok t from h) (by simp only [reduceCtorEq, not_false_eq_true])
  · exact absurd (show (Except.error PyErr.valueError : Except PyErr Text) = .ok t from h) (by simp only [reduceCtorEq, not_false_eq_true])

/-- Stopped runs of the project lead to the same input later. -/
theorem stopped_keeps (e : Computer K) (w0 w w' : AllFiles K) (name path : Text) (f : FileContent) (out : Text)
    (hp : ProjectAt w0 name path f out) (m : MapFile K)
    (h1 : w0.inputs.maps (settingsIn e.tools.ft (parentPath path) w0.disk.files f).mapPath = some m)
    (h : AsBefore e (settingsIn e.tools.ft (parentPath path) w0.disk.files f) m path w0 w) (overwrite : Bool)
    (hs : StoppedRun e w path f out overwrite false w') :
    AsBefore e (settingsIn e.tools.ft (parentPath path) w0.disk.files f) m path w0 w' := by
  generalize ht : false = torn at hs
  cases hs with
  | opening dirs s hs => exact ⟨h.maps, h.polygons, h.files, h.text, h.css, h.caches⟩
  | loading dirs m' hm n torn hn =>
    subst ht
    rw [h.maps, h.files, h1] at hm
    obtain rfl := Option.some.inj hm
    refine ⟨h.maps, h.polygons, h.files, h.text, h.css, ?_⟩
    have ha := inputs_again e.tools.ft e.geometries (settingsIn e.tools.ft (parentPath path) w0.disk.files f) m w.inputs n
    rw [h.files]
    exact (congrArg Prod.fst ha).trans h.caches
  | writing dirs m' hm n p =>
    rw [h.maps, h.files, h1] at hm
    obtain rfl := Option.some.inj hm
    refine ⟨h.maps, h.polygons, h.files, h.text, h.css, ?_⟩
    have ha := inputs_again e.tools.ft e.geometries (settingsIn e.tools.ft (parentPath path) w0.disk.files f) m w.inputs
      (cacheWrites e.tools.ft e.geometries (settingsIn e.tools.ft (parentPath path) w0.disk.files f) m w.inputs).length
    rw [List.take_length, ← inputs_written] at ha
    rw [h.files]
    exact (congrArg Prod.fst ha).trans h.caches

/-- Stopped runs of other projects. -/
theorem stopped_other (e : Computer K) (c : Settings K) (w0 w w' : AllFiles K) (path : Text) (m : MapFile K)
    (h : AsBefore e c m path w0 w) (path' : Text) (f' : FileContent) (out' : Text) (overwrite torn : Bool)
    (hd : ∀ mapPath', namedFile (parentPath path') w.disk.files f' "2DMapOutput" = some mapPath' →
      ∀ t, IsCacheOf c.mapPath t → ¬ IsCacheOf mapPath' t)
    (hs : StoppedRun e w path' f' out' overwrite torn w') : AsBefore e c m path w0 w' := by
  have hkeys : ∀ t, IsCacheOf c.mapPath t → ¬ IsCacheOf (settingsIn e.tools.ft (parentPath path') w.disk.files f').mapPath t := by
    intro t ht
    show ¬ IsCacheOf ((namedFile (parentPath path') w.disk.files f' "2DMapOutput").getD []) t
    cases hmap : namedFile (parentPath path') w.disk.files f' "2DMapOutput" with
    | none => exact no_caches t
    | some mp => exact hd mp hmap t ht
  cases hs with
  | opening dirs s hs => exact ⟨h.maps, h.polygons, h.files, h.text, h.css, h.caches⟩
  | loading dirs m' hm n torn hn =>
    refine ⟨h.maps, h.polygons, h.files, h.text, h.css, ?_⟩
    refine (inputs_same _ _ _ _ w.inputs _ ?_ ?_ fun t ht => ?_).trans h.caches
    · rfl
    · rfl
    · exact crash_other _ _ _ _ _ fun v hv e => hkeys t ht (e ▸ writes_keys _ _ _ _ _ v hv)
  | writing dirs m' hm n p =>
    refine ⟨h.maps, h.polygons, h.files, h.text, h.css, ?_⟩
    refine (inputs_same _ _ _ _ w.inputs _ ?_ ?_ fun t ht => ?_).trans h.caches
    · rfl
    · rfl
    · exact inputs_other _ _ _ _ _ _ (hkeys t ht)

theorem leftAlone_keeps (e : Computer K) (hm : ∀ d, e.mkdir d = .made) (w0 w : AllFiles K) (name path : Text) (f : FileContent) (out : Text)
    (hp : ProjectAt w0 name path f out) (m : MapFile K)
    (h1 : w0.inputs.maps (settingsIn e.tools.ft (parentPath path) w0.disk.files f).mapPath = some m)
    (h : LeftAlone e path (settingsIn e.tools.ft (parentPath path) w0.disk.files f).mapPath
      (settingsIn e.tools.ft (parentPath path) w0.disk.files f).cssPath f out w0 w) :
    AsBefore e (settingsIn e.tools.ft (parentPath path) w0.disk.files f) m path w0 w := by
  induction h with
  | start => exact ⟨rfl, rfl, rfl, rfl, rfl, rfl⟩
  | command a _ ha ih => exact program_keeps e hm w0 _ name path f out hp m h1 ih a ha
  | stopped overwrite _ hs ih => exact stopped_keeps e w0 _ _ name path f out hp m h1 ih overwrite hs
  | other n path' f' out' overwrite torn _ _ hd hs ih => exact stopped_other e _ w0 _ _ path m ih path' f' out' overwrite torn hd hs

end Fm2prof.InterruptionProof

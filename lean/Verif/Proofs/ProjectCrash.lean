import Verif.Spec.ProjectCrash
import Verif.Proofs.Project
import Verif.Props.Crash

/-!
# Helper lemmas: cache files of an interrupted run
-/

set_option linter.unusedSectionVars false

namespace Fm2prof

open Spec Props ProjectProof

variable {K : Type} [Field K] [LinearOrder K] [IsStrictOrderedRing K] [FloorRing K]

theorem writeCaches_append (k : Caches) (a b : List (Text × CacheFile (Nat × Nat) Labels)) :
    writeCaches k (a ++ b) = writeCaches (writeCaches k a) b := by
  induction a generalizing k with
  | nil => rfl
  | cons w ws ih => exact ih _

/-- What a call writes, and what it returns. -/
theorem call_cases (isText : Bool) (g : Geometries K) (property default : String) (ps : List (Polygon K)) (path : Text)
    (m : MapFile K) (caches : Caches) :
    (callWrites isText g property default ps path m caches = [] ∧
      (gridLabelsAt isText g property default ps path m caches).2 = caches) ∨
    ∃ key ls, withSuffix ('.' :: property.toList ++ "_cache.json".toList) path = .ok key ∧ isText = false ∧
      callWrites isText g property default ps path m caches = [(key, ⟨m.stamp, ls⟩)] ∧
      gridLabelsAt isText g property default ps path m caches = (.ok ls, storeCache key (.labels ⟨m.stamp, ls⟩) caches) := by
  unfold callWrites gridLabelsAt gridLabels
  cases isText with
  | true => exact .inl ⟨rfl, rfl⟩
  | false =>
    simp only [Bool.false_eq_true, if_false]
    cases withSuffix ('.' :: property.toList ++ "_cache.json".toList) path with
    | error e => exact .inl ⟨rfl, rfl⟩
    | ok key =>
      simp only
      cases readCache (caches key) with
      | error e => exact .inl ⟨rfl, rfl⟩
      | ok kept =>
        simp only
        cases kept.filter fun c => decide (c.stamp = m.stamp) with
        | some c => exact .inl ⟨rfl, rfl⟩
        | none =>
          simp only
          cases freshLabels g property default ps m with
          | error e => exact .inl ⟨rfl, rfl⟩
          | ok ls => exact .inr ⟨key, ls, rfl, trivial, rfl, rfl⟩

theorem call_written (isText : Bool) (g : Geometries K) (property default : String) (ps : List (Polygon K)) (path : Text)
    (m : MapFile K) (caches : Caches) :
    (gridLabelsAt isText g property default ps path m caches).2 =
      writeCaches caches (callWrites isText g property default ps path m caches) := by
  rcases call_cases isText g property default ps path m caches with ⟨h1, h2⟩ | ⟨key, ls, -, -, h1, h2⟩
  · rw [h1, h2]; rfl
  · rw [h1, h2]; rfl

/-- Asking again gives the same, and writes nothing. -/
theorem labels_again (isText : Bool) (g : Geometries K) (property default : String) (ps : List (Polygon K)) (path : Text)
    (m : MapFile K) (caches k : Caches) (r : Except PyErr Labels)
    (h : gridLabelsAt isText g property default ps path m caches = (r, k)) :
    gridLabelsAt isText g property default ps path m k = (r, k) := by
  cases r with
  | ok ls =>
    obtain ⟨h1, h2⟩ := gridLabelsAt_ok h
    exact cachedAt h1 _ _ _ _ _ _ _ _ (gridLabels_ok _ _ _ _ _ _ _ _ _ h2).2.1
  | error e =>
    have hk : k = caches := by
      rcases call_cases isText g property default ps path m caches with ⟨-, h2⟩ | ⟨key, ls, -, -, -, h2⟩
      · rw [h] at h2; exact h2
      · rw [h] at h2; cases (Prod.mk.inj h2).1
    rw [hk] at h ⊢
    exact h

/-- The cache of the regions holds after that of the sections is written. -/
theorem regions_again (isText : Bool) (g : Geometries K) (d1 d2 : String) (rs ss : List (Polygon K)) (path : Text)
    (m : MapFile K) (caches k k' : Caches) (l : Labels) (r : Except PyErr Labels)
    (h1 : gridLabelsAt isText g "region" d1 rs path m caches = (.ok l, k))
    (h2 : gridLabelsAt isText g "section" d2 ss path m k = (r, k')) :
    gridLabelsAt isText g "region" d1 rs path m k' = (.ok l, k') := by
  cases r with
  | ok ls =>
    obtain ⟨e1, e2⟩ := gridLabelsAt_ok h1
    obtain ⟨-, e3⟩ := gridLabelsAt_ok h2
    exact cachedAt e1 _ _ _ _ _ _ _ _ (cached_stays _ _ _ _ _ _ _ _ _ e3 (gridLabels_ok _ _ _ _ _ _ _ _ _ e2).2.1)
  | error e =>
    have hk : k' = k := by
      rcases call_cases isText g "section" d2 ss path m k with ⟨-, h3⟩ | ⟨key, ls, -, -, -, h3⟩
      · rw [h2] at h3; exact h3
      · rw [h2] at h3; cases (Prod.mk.inj h3).1
    rw [hk]
    exact labels_again _ _ _ _ _ _ _ _ _ _ h1

/-- The cache files of a call that was stopped are those before or those after it. -/
theorem call_take (isText : Bool) (g : Geometries K) (property default : String) (ps : List (Polygon K)) (path : Text)
    (m : MapFile K) (caches : Caches) (n : Nat) :
    writeCaches caches ((callWrites isText g property default ps path m caches).take n) = caches ∨
    writeCaches caches ((callWrites isText g property default ps path m caches).take n) =
      (gridLabelsAt isText g property default ps path m caches).2 := by
  rcases call_cases isText g property default ps path m caches with ⟨h1, h2⟩ | ⟨key, ls, -, -, h1, h2⟩
  · rw [h1, List.take_nil]; exact .inl rfl
  · rw [h1, h2]
    cases n with
    | zero => exact .inl rfl
    | succ n => right; rw [List.take_succ_cons, List.take_nil]; rfl

/-- What is read after a run was stopped between two cache files. -/
theorem inputs_again (ft : FloatText K) (g : Geometries K) (c : Settings K) (m : MapFile K) (d : ProjectFiles K) (n : Nat) :
    projectInputs ft g c m { d with caches := writeCaches d.caches ((cacheWrites ft g c m d).take n) } =
      projectInputs ft g c m d := by
  have hr : ∀ k, optionalRegions { d with caches := k } c.regionPath = optionalRegions d c.regionPath := fun _ => rfl
  have hs : ∀ k, optionalSections { d with caches := k } c.sectionPath = optionalSections d c.sectionPath := fun _ => rfl
  unfold projectInputs cacheWrites
  simp only
  rw [hr, hs]
  cases m.data with
  | error e => simp only [List.take_nil, writeCaches]
  | ok a =>
    cases (cssFile ft ',' (d.texts c.cssPath)).map locationsOf with
    | error e => simp only [List.take_nil, writeCaches]
    | ok l =>
      cases optionalRegions d c.regionPath with
      | error e => simp only [List.take_nil, writeCaches]
      | ok rs =>
        cases optionalSections d c.sectionPath with
        | error e => cases rs <;> simp only [List.take_nil, writeCaches]
        | ok ss =>
          cases rs with
          | none =>
            cases ss with
            | none => simp only [List.take_nil, writeCaches]
            | some ss =>
              simp only
              rcases call_take c.mapIsText g "section" (String.ofList c.defaultSection) ss c.mapPath m d.caches n with h | h
              · rw [h]
              · rw [h]
                cases hg : gridLabelsAt c.mapIsText g "section" (String.ofList c.defaultSection) ss c.mapPath m d.caches with
                | mk r k =>
                  simp only
                  rw [labels_again _ _ _ _ _ _ _ _ _ _ hg]
          | some rs =>
            cases ss with
            | none =>
              simp only
              rcases call_take c.mapIsText g "region" (String.ofList c.defaultRegion) rs c.mapPath m d.caches n with h | h
              · rw [h]
              · rw [h]
                cases hg : gridLabelsAt c.mapIsText g "region" (String.ofList c.defaultRegion) rs c.mapPath m d.caches with
                | mk r k =>
                  simp only
                  rw [labels_again _ _ _ _ _ _ _ _ _ _ hg]
            | some ss =>
              simp only
              cases hg : gridLabelsAt c.mapIsText g "region" (String.ofList c.defaultRegion) rs c.mapPath m d.caches with
              | mk r k =>
                cases r with
                | error e =>
                  simp only
                  rw [List.append_nil]
                  rcases call_take c.mapIsText g "region" (String.ofList c.defaultRegion) rs c.mapPath m d.caches n with h | h
                  · rw [h, hg]
                  · rw [h, hg]
                    simp only
                    rw [labels_again _ _ _ _ _ _ _ _ _ _ hg]
                | ok lr =>
                  simp only
                  cases hg2 : gridLabelsAt c.mapIsText g "section" (String.ofList c.defaultSection) ss c.mapPath m k with
                  | mk r' k' =>
                    have h1 := labels_again _ _ _ _ _ _ _ _ _ _ hg
                    have h2 := regions_again _ _ _ _ _ _ _ _ _ _ _ _ _ hg hg2
                    have h3 := labels_again _ _ _ _ _ _ _ _ _ _ hg2
                    have hst : ∀ n', writeCaches k ((callWrites c.mapIsText g "section" (String.ofList c.defaultSection) ss
                        c.mapPath m k).take n') = k ∨ writeCaches k ((callWrites c.mapIsText g "section"
                        (String.ofList c.defaultSection) ss c.mapPath m k).take n') = k' := by
                      intro n'
                      have := call_take c.mapIsText g "section" (String.ofList c.defaultSection) ss c.mapPath m k n'
                      rw [hg2] at this
                      exact this
                    have key : writeCaches d.caches ((callWrites c.mapIsText g "region" (String.ofList c.defaultRegion) rs c.mapPath m
                        d.caches ++ callWrites c.mapIsText g "section" (String.ofList c.defaultSection) ss c.mapPath m k).take n) =
                          d.caches ∨
                        writeCaches d.caches ((callWrites c.mapIsText g "region" (String.ofList c.defaultRegion) rs c.mapPath m
                        d.caches ++ callWrites c.mapIsText g "section" (String.ofList c.defaultSection) ss c.mapPath m k).take n) = k ∨
                        writeCaches d.caches ((callWrites c.mapIsText g "region" (String.ofList c.defaultRegion) rs c.mapPath m
                        d.caches ++ callWrites c.mapIsText g "section" (String.ofList c.defaultSection) ss c.mapPath m k).take n) = k' := by
                      rcases call_cases c.mapIsText g "region" (String.ofList c.defaultRegion) rs c.mapPath m d.caches with
                        ⟨w1, w2⟩ | ⟨key, ls, -, -, w1, w2⟩
                      · rw [hg] at w2
                        have w2' : k = d.caches := w2
                        rw [w1, List.nil_append, ← w2']
                        exact .inr (hst n)
                      · rw [hg] at w2
                        have w2' : k = storeCache key (.labels ⟨m.stamp, ls⟩) d.caches := (Prod.mk.inj w2).2
                        rw [w1]
                        cases n with
                        | zero => exact .inl rfl
                        | succ n =>
                          rw [List.cons_append, List.nil_append, List.take_succ_cons]
                          show writeCaches (storeCache key (.labels ⟨m.stamp, ls⟩) d.caches) _ = _ ∨
                            writeCaches (storeCache key (.labels ⟨m.stamp, ls⟩) d.caches) _ = _ ∨
                            writeCaches (storeCache key (.labels ⟨m.stamp, ls⟩) d.caches) _ = _
                          rw [← w2']
                          exact .inr (hst n)
                    rcases key with h | h | h
                    · rw [h, hg]
                      simp only
                      rw [hg2]
                    · rw [h, h1]
                      simp only
                      rw [hg2]
                    · rw [h, h2]
                      simp only
                      rw [h3]

/-- The cache files of a run are those it writes. -/
theorem inputs_written (ft : FloatText K) (g : Geometries K) (c : Settings K) (m : MapFile K) (d : ProjectFiles K) :
    (projectInputs ft g c m d).2 = writeCaches d.caches (cacheWrites ft g c m d) := by
  unfold projectInputs cacheWrites
  cases m.data with
  | error e => rfl
  | ok a =>
    cases (cssFile ft ',' (d.texts c.cssPath)).map locationsOf with
    | error e => rfl
    | ok l =>
      cases optionalRegions d c.regionPath with
      | error e => rfl
      | ok rs =>
        cases optionalSections d c.sectionPath with
        | error e => cases rs <;> rfl
        | ok ss =>
          cases rs with
          | none =>
            cases ss with
            | none => rfl
            | some ss => exact call_written _ _ _ _ _ _ _ _
          | some rs =>
            have hw := call_written c.mapIsText g "region" (String.ofList c.defaultRegion) rs c.mapPath m d.caches
            cases ss with
            | none =>
              simp only
              rw [← hw]
              cases gridLabelsAt c.mapIsText g "region" (String.ofList c.defaultRegion) rs c.mapPath m d.caches with
              | mk r k => cases r <;> rfl
            | some ss =>
              simp only
              rw [writeCaches_append, ← hw]
              cases gridLabelsAt c.mapIsText g "region" (String.ofList c.defaultRegion) rs c.mapPath m d.caches with
              | mk r k =>
                cases r with
                | error e => rfl
                | ok lr => exact call_written _ _ _ _ _ _ _ _

theorem damaged_call (g : Geometries K) (property default : String) (ps : List (Polygon K)) (path : Text) (m : MapFile K) (k : Caches)
    (key : Text) (hk : withSuffix ('.' :: property.toList ++ "_cache.json".toList) path = .ok key) :
    gridLabelsAt false g property default ps path m (storeCache key .damaged k) =
      (.error .valueError, storeCache key .damaged k) := by
  unfold gridLabelsAt gridLabels
  rw [hk]
  have e : storeCache key .damaged k key = some .damaged := if_pos rfl
  simp only [Bool.false_eq_true, if_false]
  rw [e]
  rfl

theorem cached_store (k : Caches) (path : Text) (m : MapFile K) (l : Labels) (key : Text) (c : CacheContent)
    (h : CachedIn k "region" path m l) (hk : withSuffix ('.' :: "section".toList ++ "_cache.json".toList) path = .ok key) :
    CachedIn (storeCache key c k) "region" path m l := by
  obtain ⟨key', c', h1, h2, h3, h4⟩ := h
  refine ⟨key', c', h1, ?_, h3, h4⟩
  unfold storeCache
  rw [if_neg fun e => keys_differ path key' key h1 hk e.symm]
  exact h2

/-- What is read when a cache file is damaged. -/
theorem torn_inputs (x : Tools K) (g : Geometries K) (c : Settings K) (m : MapFile K) (d : ProjectFiles K) (a : MapData K)
    (css : List (Loc K)) (rs ss : Option (List (Polygon K))) (n : Nat) (ha : m.data = .ok a)
    (hc : (cssFile x.ft ',' (d.texts c.cssPath)).map locationsOf = .ok css) (hr : optionalRegions d c.regionPath = .ok rs)
    (hs : optionalSections d c.sectionPath = .ok ss) (hn : n < (cacheWrites x.ft g c m d).length)
    (h7 : rs = none ∨ ∃ ps lr r k, rs = some ps ∧
      gridLabelsAt c.mapIsText g "region" (String.ofList c.defaultRegion) ps c.mapPath m d.caches = (.ok lr, k) ∧
      regionLabels g (String.ofList c.defaultRegion) ps css lr = .ok r) :
    ∃ i : Inputs K, setModelData x.nn i = .error .valueError ∧
      projectInputs x.ft g c m { d with caches := cachesAfterCrash d.caches (cacheWrites x.ft g c m d) n true } =
        (i, cachesAfterCrash d.caches (cacheWrites x.ft g c m d) n true) := by
  have hr' : ∀ k, optionalRegions { d with caches := k } c.regionPath = .ok rs := fun _ => hr
  have hs' : ∀ k, optionalSections { d with caches := k } c.sectionPath = .ok ss := fun _ => hs
  -- a damaged cache of sections
  have sections : ∀ (k : Caches) (key : Text) (ps : List (Polygon K)), ss = some ps → c.mapIsText = false →
      withSuffix ('.' :: "section".toList ++ "_cache.json".toList) c.mapPath = .ok key →
      (rs = none ∨ ∃ ps lr r, rs = some ps ∧ CachedIn k "region" c.mapPath m lr ∧
        regionLabels g (String.ofList c.defaultRegion) ps css lr = .ok r) →
      ∃ i : Inputs K, setModelData x.nn i = .error .valueError ∧
        projectInputs x.ft g c m { d with caches := storeCache key .damaged k } = (i, storeCache key .damaged k) := by
    intro k key ps hps hp hk hreg
    rcases hreg with rfl | ⟨ps', lr, r, rfl, hci, hb⟩
    · refine ⟨⟨.ok a, .ok css, none, some (.error .valueError)⟩, rfl, ?_⟩
      unfold projectInputs
      rw [ha, hc, hr', hs', hps, hp]
      simp only
      rw [damaged_call _ _ _ _ _ _ _ _ hk]
      rfl
    · refine ⟨⟨.ok a, .ok css, some (.ok r), some (.error .valueError)⟩, rfl, ?_⟩
      unfold projectInputs
      rw [ha, hc, hr', hs', hps, hp]
      simp only
      rw [cachedAt rfl _ _ _ _ _ _ _ _ (cached_store k _ _ _ _ _ hci hk)]
      simp only
      rw [damaged_call _ _ _ _ _ _ _ _ hk, hb]
      rfl
  -- a damaged cache of regions
  have regions : ∀ (k : Caches) (key : Text) (ps : List (Polygon K)), rs = some ps → c.mapIsText = false →
      withSuffix ('.' :: "region".toList ++ "_cache.json".toList) c.mapPath = .ok key →
      ∃ i : Inputs K, setModelData x.nn i = .error .valueError ∧
        projectInputs x.ft g c m { d with caches := storeCache key .damaged k } = (i, storeCache key .damaged k) := by
    intro k key ps hps hp hk
    refine ⟨⟨.ok a, .ok css, some (.error .valueError), none⟩, rfl, ?_⟩
    unfold projectInputs
    rw [ha, hc, hr', hs', hps, hp]
    simp only
    rw [damaged_call _ _ _ _ _ _ _ _ hk]
  -- the write that was stopped
  have torn : ∀ (ws : List (Text × CacheFile (Nat × Nat) Labels)) key c', ws = [(key, c')] → n < ws.length →
      cachesAfterCrash d.caches ws n true = storeCache key .damaged d.caches := by
    intro ws key c' hws hlt
    rw [hws] at hlt ⊢
    have : n = 0 := by
      have : n < 1 := hlt
      omega
    rw [this]
    rfl
  rcases h7 with rfl | ⟨ps, lr, r, k, rfl, hg, hb⟩
  · cases ss with
    | none =>
      have e : cacheWrites x.ft g c m d = [] := by unfold cacheWrites; rw [ha, hc, hr, hs]
      rw [e] at hn
      cases hn
    | some ss =>
      have e : cacheWrites x.ft g c m d =
          callWrites c.mapIsText g "section" (String.ofList c.defaultSection) ss c.mapPath m d.caches := by
        unfold cacheWrites; rw [ha, hc, hr, hs]
      rw [e] at hn ⊢
      rcases call_cases c.mapIsText g "section" (String.ofList c.defaultSection) ss c.mapPath m d.caches with
        ⟨w1, -⟩ | ⟨key, ls, hk, hp, w1, -⟩
      · rw [w1] at hn; cases hn
      · rw [torn _ _ _ w1 hn]
        exact sections _ key ss rfl hp hk (.inl rfl)
  · cases ss with
    | none =>
      have e : cacheWrites x.ft g c m d =
          callWrites c.mapIsText g "region" (String.ofList c.defaultRegion) ps c.mapPath m d.caches := by
        unfold cacheWrites; rw [ha, hc, hr, hs]
      rw [e] at hn ⊢
      rcases call_cases c.mapIsText g "region" (String.ofList c.defaultRegion) ps c.mapPath m d.caches with
        ⟨w1, -⟩ | ⟨key, ls, hk, hp, w1, -⟩
      · rw [w1] at hn; cases hn
      · rw [torn _ _ _ w1 hn]
        exact regions _ key ps rfl hp hk
    | some ss =>
      have e : cacheWrites x.ft g c m d =
          callWrites c.mapIsText g "region" (String.ofList c.defaultRegion) ps c.mapPath m d.caches ++
            callWrites c.mapIsText g "section" (String.ofList c.defaultSection) ss c.mapPath m k := by
        unfold cacheWrites; rw [ha, hc, hr, hs]
        simp only
        rw [hg]
      have hci : CachedIn k "region" c.mapPath m lr := (gridLabels_ok _ _ _ _ _ _ _ _ _ (gridLabelsAt_ok hg).2).2.1
      have hw := call_written c.mapIsText g "region" (String.ofList c.defaultRegion) ps c.mapPath m d.caches
      rw [hg] at hw
      have hw' : k = writeCaches d.caches (callWrites c.mapIsText g "region" (String.ofList c.defaultRegion) ps c.mapPath m d.caches) := hw
      rw [e] at hn ⊢
      -- inside the sections
      have second : n = (callWrites c.mapIsText g "region" (String.ofList c.defaultRegion) ps c.mapPath m d.caches).length →
          ∃ i : Inputs K, setModelData x.nn i = .error .valueError ∧
            projectInputs x.ft g c m { d with caches := (cachesAfterCrash d.caches (callWrites c.mapIsText g "region" (String.ofList c.defaultRegion) ps c.mapPath m d.caches ++ callWrites c.mapIsText g "section" (String.ofList c.defaultSection) ss c.mapPath m k) n true) } =
              (i, cachesAfterCrash d.caches (callWrites c.mapIsText g "region" (String.ofList c.defaultRegion) ps c.mapPath m d.caches ++ callWrites c.mapIsText g "section" (String.ofList c.defaultSection) ss c.mapPath m k) n true) := by
        intro hlen
        rw [List.length_append, ← hlen] at hn
        rcases call_cases c.mapIsText g "section" (String.ofList c.defaultSection) ss c.mapPath m k with
          ⟨w1, -⟩ | ⟨key, ls, hk, hp, w1, -⟩
        · rw [w1] at hn; simp at hn
        · have e' : cachesAfterCrash d.caches
              (callWrites c.mapIsText g "region" (String.ofList c.defaultRegion) ps c.mapPath m d.caches ++
                callWrites c.mapIsText g "section" (String.ofList c.defaultSection) ss c.mapPath m k) n true =
              storeCache key .damaged k := by
            unfold cachesAfterCrash
            rw [List.getElem?_append_right (le_of_eq hlen.symm), ← hlen, Nat.sub_self, w1, List.take_append_of_le_length (le_of_eq hlen),
              List.take_of_length_le (le_of_eq hlen.symm), ← hw']
            rfl
          rw [e']
          exact sections k key ss rfl hp hk (.inr ⟨ps, lr, r, rfl, hci, hb⟩)
      rcases call_cases c.mapIsText g "region" (String.ofList c.defaultRegion) ps c.mapPath m d.caches with
        ⟨w1, -⟩ | ⟨key, ls, hk, hp, w1, -⟩
      · rcases call_cases c.mapIsText g "section" (String.ofList c.defaultSection) ss c.mapPath m k with
          ⟨w2, -⟩ | ⟨key', ls', -, -, w2, -⟩
        · rw [w1, w2] at hn; cases hn
        · refine second ?_
          rw [w1, w2] at hn
          rw [w1]
          have : n < 1 := hn
          show n = 0
          omega
      · by_cases h0 : n = 0
        · have e' : cachesAfterCrash d.caches
              (callWrites c.mapIsText g "region" (String.ofList c.defaultRegion) ps c.mapPath m d.caches ++
                callWrites c.mapIsText g "section" (String.ofList c.defaultSection) ss c.mapPath m k) n true =
              storeCache key .damaged d.caches := by
            rw [w1, h0]; rfl
          rw [e']
          exact regions _ key ps rfl hp hk
        · refine second ?_
          rw [w1]
          rcases call_cases c.mapIsText g "section" (String.ofList c.defaultSection) ss c.mapPath m k with
            ⟨w2, -⟩ | ⟨key', ls', -, -, w2, -⟩
          · rw [w1, w2] at hn
            have : n < 1 := hn
            omega
          · rw [w1, w2] at hn
            have : n < 2 := hn
            show n = 1
            omega

end Fm2prof

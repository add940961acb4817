import Verif.Spec.Moved
import Verif.Proofs.Program
import Verif.Proofs.Stats

/-! Helper lemmas about projects that are moved. -/

set_option linter.unusedSectionVars false

namespace Fm2prof.MovedProof

open Fm2prof Spec ProgramProof

variable {K : Type} [Field K] [LinearOrder K] [IsStrictOrderedRing K] [FloorRing K]

/-! ## Paths -/

theorem join_cases (p x : Text) (hx : IsRelative x) : (p = ['.'] ∧ joinPath p x = x) ∨ (p ≠ ['.'] ∧ joinPath p x = p ++ '/' :: x) := by
  unfold joinPath
  rw [if_neg hx.2, if_neg hx.1]
  by_cases h : p = ['.']
  · exact .inl ⟨h, if_pos h⟩
  · exact .inr ⟨h, if_neg h⟩

theorem join_inj (p x y : Text) (hx : IsRelative x) (hy : IsRelative y) (h : joinPath p x = joinPath p y) : x = y := by
  rcases join_cases p x hx with ⟨h1, e1⟩ | ⟨h1, e1⟩ <;> rcases join_cases p y hy with ⟨h2, e2⟩ | ⟨h2, e2⟩
  · rw [← e1, ← e2, h]
  · exact absurd h1 h2
  · exact absurd h2 h1
  · rw [e1, e2] at h
    exact (List.cons.inj (List.append_cancel_left h)).2

theorem parent_join (p n : Text) (hp : p ≠ []) (hn : '/' ∉ n) (hne : n ≠ []) : parentPath (joinPath p n) = p := by
  have hr : IsRelative n := ⟨hne, fun h => hn (List.mem_of_mem_head? h)⟩
  rcases join_cases p n hr with ⟨h1, e1⟩ | ⟨h1, e1⟩
  · rw [e1, h1]
    unfold parentPath
    rw [splitSep_single '/' n hn]
    rfl
  · rw [e1]
    unfold parentPath
    rw [splitSep_append_sep, splitSep_single '/' n hn, List.dropLast_concat]
    have hj := join_splitSep '/' p
    split
    · rename_i h
      exact absurd h (splitSep_ne_nil '/' p)
    · rename_i h
      rw [h] at hj
      exact absurd hj.symm hp
    · exact hj

theorem pathName_join (p x : Text) (hx : IsRelative x) (hn : pathName x ≠ []) : pathName (joinPath p x) = pathName x := by
  rcases join_cases p x hx with ⟨_, e⟩ | ⟨_, e⟩
  · rw [e]
  · rw [e]
    unfold pathName at hn ⊢
    rw [splitSep_append_sep, List.filter_append]
    cases hl : (splitSep '/' x).filter fun p => p ≠ [] ∧ p ≠ ['.'] with
    | nil =>
      rw [hl] at hn
      exact absurd rfl hn
    | cons a l => rw [List.getLast?_append_of_ne_nil _ (List.cons_ne_nil a l)]

theorem extension_join (p x : Text) (hx : IsRelative x) (hn : pathName x ≠ []) : validateExtension (joinPath p x) = validateExtension x := by
  unfold validateExtension pathSuffix
  rw [pathName_join p x hx hn]

theorem stem_prefix (n : Text) (hn : n ≠ []) : nameStem n ≠ [] ∧ nameStem n <+: n := by
  unfold nameStem
  simp only
  split
  · exact ⟨hn, List.prefix_refl _⟩
  · rename_i h
    refine ⟨fun e => h (.inl e), ?_⟩
    have hs := splitSep_ne_nil '.' n
    have hj := join_splitSep '.' n
    rw [← List.dropLast_append_getLast hs] at hj
    cases hd : (splitSep '.' n).dropLast with
    | nil =>
      rw [hd] at h
      exact absurd (.inl rfl) h
    | cons a l =>
      rw [hd, joinWith_snoc _ _ (by exact List.cons_ne_nil _ _), List.append_assoc] at hj
      exact ⟨_, hj⟩

/-- The name of a file beside another one. -/
theorem suffix_join (s p x : Text) (hx : IsRelative x) (hp : p ≠ []) :
    (withSuffix s x = .error .valueError ∧ withSuffix s (joinPath p x) = .error .valueError) ∨
      ∃ k, IsRelative k ∧ withSuffix s x = .ok k ∧ withSuffix s (joinPath p x) = .ok (joinPath p k) := by
  have hs := splitSep_ne_nil '/' x
  obtain ⟨l, n, hl⟩ : ∃ l n, splitSep '/' x = l ++ [n] := ⟨_, _, (List.dropLast_append_getLast hs).symm⟩
  have hn : '/' ∉ n := splitSep_noSep '/' x n (by rw [hl]; exact List.mem_append_right _ List.mem_cons_self)
  have e1 : withSuffix s x = if n = [] then .error .valueError else .ok (joinWith ['/'] (l ++ [nameStem n ++ s])) := by
    unfold withSuffix
    rw [hl]
    simp only [List.getLast?_concat, List.dropLast_concat]
  have e2 : withSuffix s (p ++ '/' :: x) = if n = [] then .error .valueError else
      .ok (joinWith ['/'] (splitSep '/' p ++ l ++ [nameStem n ++ s])) := by
    unfold withSuffix
    rw [splitSep_append_sep, hl, ← List.append_assoc]
    simp only [List.getLast?_concat, List.dropLast_concat]
  by_cases h0 : n = []
  · rw [if_pos h0] at e1 e2
    refine .inl ⟨e1, ?_⟩
    rcases join_cases p x hx with ⟨_, e⟩ | ⟨_, e⟩
    · rw [e, e1]
    · rw [e, e2]
  · rw [if_neg h0] at e1 e2
    have hk : IsRelative (joinWith ['/'] (l ++ [nameStem n ++ s])) := by
      obtain ⟨hst, t, ht⟩ := stem_prefix n h0
      cases l with
      | nil =>
        show IsRelative (nameStem n ++ s)
        cases hc : nameStem n with
        | nil => exact absurd hc hst
        | cons c cs =>
          refine ⟨by simp, fun h => hn ?_⟩
          rw [← ht, hc]
          have : c = '/' := Option.some.inj h
          rw [this]
          exact List.mem_cons_self
      | cons a l =>
        have hx1 : x = a ++ '/' :: joinWith ['/'] (l ++ [n]) := by
          rw [← join_splitSep '/' x, hl]
          cases l with
          | nil => simp [joinWith]
          | cons b l => simp [joinWith]
        have ha : a ≠ [] := by
          rintro rfl
          exact hx.2 (by rw [hx1]; rfl)
        cases a with
        | nil => exact absurd rfl ha
        | cons c cs =>
          have e : joinWith ['/'] ((c :: cs) :: l ++ [nameStem n ++ s]) = c :: (cs ++ '/' :: joinWith ['/'] (l ++ [nameStem n ++ s])) := by
            cases l with
            | nil => simp [joinWith]
            | cons b l => simp [joinWith]
          rw [e]
          refine ⟨by simp, fun h => hx.2 ?_⟩
          rw [hx1]
          exact h
    refine .inr ⟨_, hk, e1, ?_⟩
    rcases join_cases p x hx with ⟨hd, e⟩ | ⟨hd, e⟩
    · rcases join_cases p _ hk with ⟨_, e'⟩ | ⟨h, _⟩
      · rw [e, e', e1]
      · exact absurd hd h
    · rcases join_cases p _ hk with ⟨h, _⟩ | ⟨_, e'⟩
      · exact absurd h hd
      · rw [e, e', e2]
        congr 1
        have : ∀ a b : List Text, a ≠ [] → b ≠ [] → joinWith ['/'] (a ++ b) = joinWith ['/'] a ++ '/' :: joinWith ['/'] b := by
          intro a b ha hb
          induction a with
          | nil => exact absurd rfl ha
          | cons w ws ih =>
            cases ws with
            | nil =>
              cases b with
              | nil => exact absurd rfl hb
              | cons u us => simp [joinWith]
            | cons v vs =>
              have := ih (List.cons_ne_nil _ _)
              simp only [List.cons_append, joinWith] at this ⊢
              rw [this]
              simp
        rw [List.append_assoc, this _ _ (splitSep_ne_nil _ _) (by simp), join_splitSep]

/-! ## What is read -/

/-- Cache files that have moved. -/
def Caching (p q : Text) (a b : Caches) : Prop := ∀ x, IsRelative x → a (joinPath p x) = b (joinPath q x)

theorem store_moved (p q k : Text) (hk : IsRelative k) (c : CacheContent) (a b : Caches) (h : Caching p q a b) :
    Caching p q (storeCache (joinPath p k) c a) (storeCache (joinPath q k) c b) := by
  intro x hx
  unfold storeCache
  by_cases e : x = k
  · rw [if_pos (congrArg _ e), if_pos (congrArg _ e)]
  · rw [if_neg fun h => e (join_inj p x k hx hk h), if_neg fun h => e (join_inj q x k hx hk h)]
    exact h x hx

theorem labels_moved (p q x : Text) (hp : p ≠ []) (hq : q ≠ []) (hx : IsRelative x) (isText : Bool) (g : Geometries K)
    (property default : String) (ps : List (Polygon K)) (m : MapFile K) (a b : Caches) (h : Caching p q a b) :
    (gridLabelsAt isText g property default ps (joinPath p x) m a).1 = (gridLabelsAt isText g property default ps (joinPath q x) m b).1 ∧
      Caching p q (gridLabelsAt isText g property default ps (joinPath p x) m a).2
        (gridLabelsAt isText g property default ps (joinPath q x) m b).2 := by
  unfold gridLabelsAt
  cases isText with
  | true => exact ⟨rfl, h⟩
  | false =>
    simp only [Bool.false_eq_true, if_false]
    unfold gridLabels
    rcases suffix_join ('.' :: property.toList ++ "_cache.json".toList) p x hx hp with ⟨e0, e1⟩ | ⟨k, hk, e0, e1⟩
    · rcases suffix_join ('.' :: property.toList ++ "_cache.json".toList) q x hx hq with ⟨_, e2⟩ | ⟨k, _, e2, _⟩
      · rw [e1, e2]
        exact ⟨rfl, h⟩
      · rw [e0] at e2
        cases e2
    · rcases suffix_join ('.' :: property.toList ++ "_cache.json".toList) q x hx hq with ⟨e2, _⟩ | ⟨k', _, e2, e3⟩
      · rw [e0] at e2
        cases e2
      · obtain rfl : k = k' := Except.ok.inj (e0.symm.trans e2)
        rw [e1, e3]
        simp only
        rw [h k hk]
        cases readCache (b (joinPath q k)) with
        | error e => exact ⟨rfl, h⟩
        | ok kept =>
          simp only
          cases kept.filter fun c => c.stamp = m.stamp with
          | some c => exact ⟨rfl, h⟩
          | none =>
            simp only
            cases freshLabels g property default ps m with
            | error e => exact ⟨rfl, h⟩
            | ok ls => exact ⟨rfl, store_moved p q k hk _ a b h⟩

/-- An input file in both places, or none. -/
def Beside (p q a b : Text) : Prop :=
  (a = [] ∧ b = []) ∨ ∃ x, IsRelative x ∧ pathName x ≠ [] ∧ a = joinPath p x ∧ b = joinPath q x

/-- Settings that are the same but for the directory of the input files. -/
structure Carried (p q : Text) (c d : Settings K) : Prop where
  run : c.run = d.run
  defaultRegion : c.defaultRegion = d.defaultRegion
  defaultSection : c.defaultSection = d.defaultSection
  mapPath : Beside p q c.mapPath d.mapPath
  cssPath : Beside p q c.cssPath d.cssPath
  regionPath : Beside p q c.regionPath d.regionPath
  sectionPath : Beside p q c.sectionPath d.sectionPath
  mapIsText : c.mapIsText = d.mapIsText

theorem join_ne (p x : Text) (hx : IsRelative x) : joinPath p x ≠ [] := by
  rcases join_cases p x hx with ⟨_, e⟩ | ⟨_, e⟩
  · rw [e]; exact hx.1
  · rw [e]; simp

variable {p q : Text} {v w : AllFiles K}

theorem polygons_moved (h : Moved p q v w) (x : Text) (hx : IsRelative x) (hn : pathName x ≠ []) :
    readPolygons v.inputs (joinPath p x) = readPolygons w.inputs (joinPath q x) := by
  unfold readPolygons
  rw [extension_join p x hx hn, extension_join q x hx hn, h.polygons x hx]

theorem regions_moved (h : Moved p q v w) (a b : Text) (hb : Beside p q a b) : optionalRegions v.inputs a = optionalRegions w.inputs b := by
  unfold optionalRegions
  rcases hb with ⟨rfl, rfl⟩ | ⟨x, hx, hn, rfl, rfl⟩
  · rfl
  · rw [if_neg (join_ne p x hx), if_neg (join_ne q x hx), polygons_moved h x hx hn]

theorem sections_moved (h : Moved p q v w) (a b : Text) (hb : Beside p q a b) :
    optionalSections v.inputs a = optionalSections w.inputs b := by
  unfold optionalSections
  rcases hb with ⟨rfl, rfl⟩ | ⟨x, hx, hn, rfl, rfl⟩
  · rfl
  · rw [if_neg (join_ne p x hx), if_neg (join_ne q x hx)]
    unfold readSections
    rw [polygons_moved h x hx hn]

theorem inputs_moved (ft : FloatText K) (g : Geometries K) (hp : p ≠ []) (hq : q ≠ []) (h : Moved p q v w) (c d : Settings K)
    (hc : Carried p q c d) (x : Text) (hx : IsRelative x) (h1 : c.mapPath = joinPath p x) (h2 : d.mapPath = joinPath q x) (m : MapFile K) :
    (projectInputs ft g c m v.inputs).1 = (projectInputs ft g d m w.inputs).1 ∧
      Caching p q (projectInputs ft g c m v.inputs).2 (projectInputs ft g d m w.inputs).2 := by
  have ht : v.inputs.texts c.cssPath = w.inputs.texts d.cssPath := by
    rcases hc.cssPath with ⟨e1, e2⟩ | ⟨y, hy, _, e1, e2⟩
    · rw [e1, e2, h.unnamed.2.2.1, h.unnamed.2.2.2]
    · rw [e1, e2, h.texts y hy]
  unfold projectInputs
  rw [ht, regions_moved h _ _ hc.regionPath, sections_moved h _ _ hc.sectionPath, hc.defaultRegion, hc.defaultSection, hc.mapIsText, h1, h2]
  have hk : Caching p q v.inputs.caches w.inputs.caches := h.caches
  cases m.data with
  | error e => exact ⟨rfl, hk⟩
  | ok a =>
    cases (cssFile ft ',' (w.inputs.texts d.cssPath)).map locationsOf with
    | error e => exact ⟨rfl, hk⟩
    | ok l =>
      cases optionalRegions w.inputs d.regionPath with
      | error e => exact ⟨rfl, hk⟩
      | ok regions =>
        cases optionalSections w.inputs d.sectionPath with
        | error e => exact ⟨rfl, hk⟩
        | ok sections =>
          simp only
          cases regions with
          | none =>
            cases sections with
            | none => exact ⟨rfl, hk⟩
            | some ss =>
              obtain ⟨k1, k2⟩ := labels_moved p q x hp hq hx d.mapIsText g "section" (String.ofList d.defaultSection) ss m _ _ hk
              exact ⟨congrArg (fun ls => (⟨.ok a, .ok l, none, some (Except.bind ls sectionLabels)⟩ : Inputs K)) k1, k2⟩
          | some rs =>
            obtain ⟨k1, k2⟩ := labels_moved p q x hp hq hx d.mapIsText g "region" (String.ofList d.defaultRegion) rs m _ _ hk
            simp only
            generalize hA : gridLabelsAt d.mapIsText g "region" (String.ofList d.defaultRegion) rs (joinPath p x) m v.inputs.caches = A at k1 k2
            generalize hB : gridLabelsAt d.mapIsText g "region" (String.ofList d.defaultRegion) rs (joinPath q x) m w.inputs.caches = B at k1 k2
            obtain ⟨a1, a2⟩ := A
            obtain ⟨b1, b2⟩ := B
            obtain rfl : a1 = b1 := k1
            cases a1 with
            | error e => exact ⟨rfl, k2⟩
            | ok labels =>
              cases sections with
              | none => exact ⟨rfl, k2⟩
              | some ss =>
                obtain ⟨j1, j2⟩ := labels_moved p q x hp hq hx d.mapIsText g "section" (String.ofList d.defaultSection) ss m _ _ k2
                exact ⟨congrArg (fun ls => (⟨.ok a, .ok l, some (regionLabels g (String.ofList d.defaultRegion) rs l labels),
                  some (Except.bind ls sectionLabels)⟩ : Inputs K)) j1, j2⟩

/-! ## What the configuration file says -/

theorem named_moved (h : Moved p q v w) (f : FileContent) (hf : Relocatable f) (key : String) :
    (namedFile p v.disk.files f key = none ∧ namedFile q w.disk.files f key = none) ∨
      ∃ x, IsRelative x ∧ pathName x ≠ [] ∧ namedFile p v.disk.files f key = some (joinPath p x) ∧
        namedFile q w.disk.files f key = some (joinPath q x) := by
  unfold namedFile
  cases hv : fileValue f "input".toList key.toList with
  | none => exact .inl ⟨rfl, rfl⟩
  | some x =>
    obtain ⟨hx, hn⟩ := hf.1 _ _ hv
    by_cases hm : joinPath p x ∈ v.disk.files
    · have hm' := (h.files x hx).1 hm
      exact .inr ⟨x, hx, hn, by simp [hm], by simp [hm']⟩
    · have hm' : joinPath q x ∉ w.disk.files := fun h' => hm ((h.files x hx).2 h')
      exact .inl ⟨by simp [hm], by simp [hm']⟩

theorem beside_named (h : Moved p q v w) (f : FileContent) (hf : Relocatable f) (key : String) :
    Beside p q ((namedFile p v.disk.files f key).getD []) ((namedFile q w.disk.files f key).getD []) := by
  rcases named_moved h f hf key with ⟨e1, e2⟩ | ⟨x, hx, hn, e1, e2⟩
  · rw [e1, e2]; exact .inl ⟨rfl, rfl⟩
  · rw [e1, e2]; exact .inr ⟨x, hx, hn, rfl, rfl⟩

theorem some_named (h : Moved p q v w) (f : FileContent) (hf : Relocatable f) (key : String) :
    (namedFile p v.disk.files f key).isSome = (namedFile q w.disk.files f key).isSome := by
  rcases named_moved h f hf key with ⟨e1, e2⟩ | ⟨x, hx, hn, e1, e2⟩ <;> rw [e1, e2] <;> rfl

theorem settings_moved (ft : FloatText K) (h : Moved p q v w) (f : FileContent) (hf : Relocatable f) :
    Carried p q (settingsIn ft p v.disk.files f) (settingsIn ft q w.disk.files f) where
  run := rfl
  defaultRegion := rfl
  defaultSection := rfl
  mapPath := beside_named h f hf _
  cssPath := beside_named h f hf _
  regionPath := beside_named h f hf _
  sectionPath := beside_named h f hf _
  mapIsText := by
    show (namedFile p v.disk.files f "2DMapOutput").isNone = (namedFile q w.disk.files f "2DMapOutput").isNone
    rcases named_moved h f hf "2DMapOutput" with ⟨e1, e2⟩ | ⟨x, hx, hn, e1, e2⟩ <;> rw [e1, e2] <;> rfl

/-! ## Commands -/

/-- A change to the output directory alone. -/
theorem out_moved (h : Moved p q v w) (o : Text) (ho : IsRelative o) (a b : Caches) (hc : Caching p q a b) (dirs dirs' : List Text) (s : Store) :
    Moved p q (⟨{ v.inputs with caches := a }, ⟨v.disk.files, dirs⟩, fun d => if d = joinPath p o then s else v.results d⟩ : AllFiles K)
      ⟨{ w.inputs with caches := b }, ⟨w.disk.files, dirs'⟩, fun d => if d = joinPath q o then s else w.results d⟩ where
  maps := h.maps
  texts := h.texts
  polygons := h.polygons
  caches := hc
  files := h.files
  results x hx := by
    show (if joinPath p x = joinPath p o then s else v.results (joinPath p x)) =
      if joinPath q x = joinPath q o then s else w.results (joinPath q x)
    by_cases e : x = o
    · rw [if_pos (congrArg _ e), if_pos (congrArg _ e)]
    · rw [if_neg fun h => e (join_inj p x o hx ho h), if_neg fun h => e (join_inj q x o hx ho h)]
      exact h.results x hx
  unnamed := h.unnamed

theorem run_moved (e : Computer K) (hm : ∀ d, e.mkdir d = .made) (hp : p ≠ []) (hq : q ≠ []) (h : Moved p q v w)
    (n n' file file' o : Text) (f : FileContent) (hf : Relocatable f) (ho : IsRelative o) (e1 : parentPath (joinPath p file) = p)
    (e2 : parentPath (joinPath q file') = q) (h1 : ProjectAt v (joinPath p n) (joinPath p file) f (joinPath p o))
    (h2 : ProjectAt w (joinPath q n') (joinPath q file') f (joinPath q o)) (overwrite post : Bool) :
    let r := program e v (.run (joinPath p n) overwrite post)
    let s := program e w (.run (joinPath q n') overwrite post)
    r.2 = s.2 ∧ Moved p q r.1 s.1 ∧ r.1.disk.files = v.disk.files ∧ s.1.disk.files = w.disk.files ∧ r.1.inputs.texts = v.inputs.texts ∧
      s.1.inputs.texts = w.inputs.texts := by
  obtain ⟨dirs, j, caches, -, -, g3, g4, g5, g6⟩ := program_run e hm v _ _ f _ h1 overwrite post
  obtain ⟨dirs', j', caches', -, -, k3, k4, k5, k6⟩ := program_run e hm w _ _ f _ h2 overwrite post
  rw [e1] at g3 g4
  rw [e2] at k3 k4
  have hres : v.results (joinPath p o) = w.results (joinPath q o) := h.results o ho
  have hset := settings_moved e.tools.ft h f hf
  have hmain : j = j' ∧ Caching p q caches caches' := by
    rw [g3, k3, g4, k4, hres, some_named h f hf "2DMapOutput", some_named h f hf "CrossSectionLocationFile", hset.run]
    rcases hset.mapPath with ⟨m1, m2⟩ | ⟨x, hx, _, m1, m2⟩
    · rw [m1, m2, h.unnamed.1, h.unnamed.2.1]
      refine ⟨rfl, ?_⟩
      split
      · exact h.caches
      · split
        · exact h.caches
        · exact h.caches
    · have hmap : v.inputs.maps (settingsIn e.tools.ft p v.disk.files f).mapPath =
          w.inputs.maps (settingsIn e.tools.ft q w.disk.files f).mapPath := by
        rw [m1, m2]; exact h.maps x hx
      rw [hmap]
      cases w.inputs.maps (settingsIn e.tools.ft q w.disk.files f).mapPath with
      | none =>
        refine ⟨rfl, ?_⟩
        split
        · exact h.caches
        · split
          · exact h.caches
          · exact h.caches
      | some m =>
        obtain ⟨i1, i2⟩ := inputs_moved e.tools.ft e.geometries hp hq h _ _ hset x hx m1 m2 m
        simp only
        rw [i1]
        refine ⟨rfl, ?_⟩
        split
        · exact h.caches
        · split
          · exact i2
          · exact h.caches
  obtain ⟨rfl, hc⟩ := hmain
  refine ⟨?_, ?_, by rw [g5], by rw [k5], by rw [g5], by rw [k5]⟩
  · rw [g6, k6, hres]
  · rw [g5, k5, hres]
    exact out_moved h o ho _ _ hc _ _ _

/-- What opening a project leaves. -/
theorem open_shape (e : Computer K) (hm : ∀ d, e.mkdir d = .made) (u : AllFiles K) (name path : Text) (f : FileContent) (out : Text)
    (h : ProjectAt u name path f out) :
    ∃ dirs c, openRunner (e.setup u.inputs) path u.world = (⟨u.inputs.texts, ⟨u.disk.files, dirs⟩,
      fun d => if d = out then opened e.logText (u.results out) else u.results d⟩, .ok (some (parentPath path, c))) ∧ out ∈ dirs ∧
      getOutputDirectory e.tools.ft (parentPath path) c = .ok out := by
  obtain ⟨w', c, h1, h2, h3, h4, h5, h6, h7, h8, h9, h10⟩ := opened_project e hm u name path f out h
  obtain ⟨t, ⟨files, dirs⟩, r⟩ := w'
  obtain rfl : t = _ := h2
  obtain rfl : files = _ := h3
  obtain rfl : r = _ := h6
  exact ⟨dirs, c, h1, h5, h8⟩

theorem check_shape (e : Computer K) (hm : ∀ d, e.mkdir d = .made) (u : AllFiles K) (name path : Text) (f : FileContent) (out : Text)
    (h : ProjectAt u name path f out) :
    ∃ dirs, program e u (.check name) = (⟨u.inputs, ⟨u.disk.files, dirs⟩,
      fun d => if d = out then opened e.logText (u.results out) else u.results d⟩, 0) := by
  obtain ⟨dirs, c, h1, -, -⟩ := open_shape e hm u name path f out h
  refine ⟨dirs, ?_⟩
  have : command (e.setup u.inputs) u.world (.check name) = (⟨u.inputs.texts, ⟨u.disk.files, dirs⟩,
      fun d => if d = out then opened e.logText (u.results out) else u.results d⟩, 0) := by
    show cliCheck _ _ _ = _
    unfold cliCheck
    rw [h.named]
    simp only
    rw [h1]
  unfold program
  rw [this]
  rfl

/-- What a comparison leaves in the output directory, and how it ends. -/
def comparedTo (e : Computer K) (isFile : Text → Bool) (path1 path2 routes : Text) (s : Store) : Store × Except PyErr Unit :=
  compareResults e.compare e.tools.ft isFile path1 path2 routes (opened e.logText s)

theorem compare_shape (e : Computer K) (hm : ∀ d, e.mkdir d = .made) (u : AllFiles K) (name path : Text) (f : FileContent) (out : Text)
    (h : ProjectAt u name path f out) (path1 path2 routes : Text) :
    ∃ dirs, program e u (.compare name path1 path2 routes) = (⟨u.inputs, ⟨u.disk.files, dirs⟩,
      fun d => if d = out then (comparedTo e (fun p => decide (p ∈ u.disk.files)) path1 path2 routes (u.results out)).1 else u.results d⟩,
      match (comparedTo e (fun p => decide (p ∈ u.disk.files)) path1 path2 routes (u.results out)).2 with
      | .error _ => 1
      | .ok _ => 0) := by
  obtain ⟨dirs, c, h1, hd, h8⟩ := open_shape e hm u name path f out h
  refine ⟨dirs, ?_⟩
  have : command (e.setup u.inputs) u.world (.compare name path1 path2 routes) = (⟨u.inputs.texts, ⟨u.disk.files, dirs⟩,
      fun d => if d = out then (comparedTo e (fun p => decide (p ∈ u.disk.files)) path1 path2 routes (u.results out)).1 else u.results d⟩,
      match (comparedTo e (fun p => decide (p ∈ u.disk.files)) path1 path2 routes (u.results out)).2 with
      | .error _ => 1
      | .ok _ => 0) := by
    show cliCompare _ _ _ _ _ _ = _
    unfold cliCompare
    rw [h.named]
    simp only
    rw [h1]
    simp only
    unfold compareProject
    have h8' : getOutputDirectory (e.setup u.inputs).ft (parentPath path) c = .ok out := h8
    simp only
    rw [h8']
    simp only
    rw [if_pos hd, if_pos trivial]
    generalize hX : comparedTo e (fun p => decide (p ∈ u.disk.files)) path1 path2 routes (u.results out) = X
    have hX' : compareResults (e.setup u.inputs).compare (e.setup u.inputs).ft (fun p => decide (p ∈ u.disk.files)) path1 path2 routes
      (opened e.logText (u.results out)) = X := hX
    rw [hX']
    obtain ⟨x1, x2⟩ := X
    have hfun : (fun d => if d = out then x1 else if d = out then opened e.logText (u.results out) else u.results d) =
        fun d => if d = out then x1 else u.results d := by
      funext d
      by_cases hd' : d = out
      · rw [if_pos hd', if_pos hd']
      · rw [if_neg hd', if_neg hd', if_neg hd']
    simp only
    rw [hfun]
    cases x2 <;> rfl
  unfold program
  rw [this]
  rfl

theorem compared_moved (e : Computer K) (path1 path2 routes : Text) (s : Store) (a b : Text → Bool) (h1 : a path1 = b path1)
    (h2 : a path2 = b path2) : comparedTo e a path1 path2 routes s = comparedTo e b path1 path2 routes s := by
  unfold comparedTo compareResults initCompare choosePaths
  simp only
  rw [h1, h2]

theorem task_moved (e : Computer K) (hm : ∀ d, e.mkdir d = .made) (hp : p ≠ []) (hq : q ≠ []) (h : Moved p q v w)
    (n n' file file' o : Text) (f : FileContent) (hf : Relocatable f) (ho : IsRelative o) (e1 : parentPath (joinPath p file) = p)
    (e2 : parentPath (joinPath q file') = q) (h1 : ProjectAt v (joinPath p n) (joinPath p file) f (joinPath p o))
    (h2 : ProjectAt w (joinPath q n') (joinPath q file') f (joinPath q o)) (t : Task) (ht : t.SameFiles v.disk w.disk) :
    let r := program e v (t.command (joinPath p n))
    let s := program e w (t.command (joinPath q n'))
    r.2 = s.2 ∧ Moved p q r.1 s.1 ∧ r.1.disk.files = v.disk.files ∧ s.1.disk.files = w.disk.files ∧ r.1.inputs.texts = v.inputs.texts ∧
      s.1.inputs.texts = w.inputs.texts := by
  have hres : v.results (joinPath p o) = w.results (joinPath q o) := h.results o ho
  cases t with
  | run overwrite post => exact run_moved e hm hp hq h n n' file file' o f hf ho e1 e2 h1 h2 overwrite post
  | check =>
    obtain ⟨dirs, a⟩ := check_shape e hm v _ _ f _ h1
    obtain ⟨dirs', b⟩ := check_shape e hm w _ _ f _ h2
    intro r s
    show (program e v (.check (joinPath p n))).2 = (program e w (.check (joinPath q n'))).2 ∧ _
    refine ⟨?_, ?_, ?_⟩
    · rw [a, b]
    · show Moved p q (program e v (.check (joinPath p n))).1 (program e w (.check (joinPath q n'))).1
      rw [a, b, hres]
      exact out_moved h o ho _ _ h.caches _ _ _
    · show (program e v (.check (joinPath p n))).1.disk.files = _ ∧ (program e w (.check (joinPath q n'))).1.disk.files = _ ∧
        (program e v (.check (joinPath p n))).1.inputs.texts = _ ∧ (program e w (.check (joinPath q n'))).1.inputs.texts = _
      rw [a, b]
      exact ⟨rfl, rfl, rfl, rfl⟩
  | compare path1 path2 routes =>
    obtain ⟨dirs, a⟩ := compare_shape e hm v _ _ f _ h1 path1 path2 routes
    obtain ⟨dirs', b⟩ := compare_shape e hm w _ _ f _ h2 path1 path2 routes
    have hs : ∀ s, comparedTo e (fun p => decide (p ∈ v.disk.files)) path1 path2 routes s =
        comparedTo e (fun p => decide (p ∈ w.disk.files)) path1 path2 routes s :=
      fun s => compared_moved e path1 path2 routes s _ _ (decide_eq_decide.2 ht.1) (decide_eq_decide.2 ht.2)
    rw [hs, hres] at a
    show (program e v (.compare (joinPath p n) path1 path2 routes)).2 = (program e w (.compare (joinPath q n') path1 path2 routes)).2 ∧
      Moved p q (program e v (.compare (joinPath p n) path1 path2 routes)).1 (program e w (.compare (joinPath q n') path1 path2 routes)).1 ∧
      (program e v (.compare (joinPath p n) path1 path2 routes)).1.disk.files = _ ∧
      (program e w (.compare (joinPath q n') path1 path2 routes)).1.disk.files = _ ∧
      (program e v (.compare (joinPath p n) path1 path2 routes)).1.inputs.texts = _ ∧
      (program e w (.compare (joinPath q n') path1 path2 routes)).1.inputs.texts = _
    rw [a, b]
    exact ⟨rfl, out_moved h o ho _ _ h.caches _ _ _, rfl, rfl, rfl, rfl⟩

theorem projectAt_kept (u u' : AllFiles K) (name path : Text) (f : FileContent) (out : Text) (h : ProjectAt u name path f out)
    (h1 : u'.disk.files = u.disk.files) (h2 : u'.inputs.texts = u.inputs.texts) : ProjectAt u' name path f out :=
  { named := h.named, plain := h.plain, text := by rw [h2]; exact h.text, input := h.input, output := h.output, directory := h.directory
    free := by rw [h1]; exact h.free, real := by rw [h1]; exact h.real }

end Fm2prof.MovedProof

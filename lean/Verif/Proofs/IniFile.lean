import Mathlib.Tactic.IntervalCases
import Verif.Spec.IniFile
import Verif.Proofs.Export

/-! Helper lemmas about the configuration. -/

set_option linter.unusedSectionVars false

namespace Fm2prof

open Spec

variable {K : Type} [Field K] [LinearOrder K] [IsStrictOrderedRing K] [FloorRing K]

/-! ## Lower case -/

theorem toLower_toLower' (c : Char) : c.toLower.toLower = c.toLower := by
  by_cases h : c.val ≥ 'A'.val ∧ c.val ≤ 'Z'.val
  · obtain ⟨h1, h2⟩ := h
    have h1' : 65 ≤ c.toNat := h1
    have h2' : c.toNat ≤ 90 := h2
    have : c = Char.ofNat c.toNat := (Char.ofNat_toNat c).symm
    rw [this]
    generalize c.toNat = n at *
    interval_cases n <;> decide
  · have : c.toLower = c := by unfold Char.toLower; rw [dif_neg h]
    rw [this, this]

theorem lower_lower (t : Text) : lower (lower t) = lower t := by
  unfold lower
  rw [List.map_map]
  exact List.map_congr_left fun c _ => toLower_toLower' c

/-! ## Dictionaries -/

theorem dictGet_cons {α : Type} (p : Text × α) (d : List (Text × α)) (k : Text) :
    dictGet (p :: d) k = if p.1 = k then some p.2 else dictGet d k := by
  unfold dictGet
  rw [List.find?_cons]
  by_cases h : p.1 = k <;> simp [h]

theorem dictGet_set {α : Type} (k k' : Text) (v : α) (d : List (Text × α)) :
    dictGet (dictSet k v d) k' = if k' = k then some v else dictGet d k' := by
  induction d with
  | nil =>
    rw [dictSet, dictGet_cons]
    by_cases h : k' = k
    · rw [if_pos h.symm, if_pos h]
    · rw [if_neg (Ne.symm h), if_neg h]
  | cons p d ih =>
    rw [dictSet]
    by_cases hp : p.1 = k
    · rw [if_pos hp, dictGet_cons, dictGet_cons]
      by_cases h : k' = k
      · rw [if_pos h.symm, if_pos h]
      · rw [if_neg (Ne.symm h), if_neg h, if_neg (by rw [hp]; exact Ne.symm h)]
    · rw [if_neg hp, dictGet_cons, dictGet_cons, ih]
      by_cases h : p.1 = k'
      · rw [if_pos h, if_pos h, if_neg (by rw [← h]; exact hp)]
      · rw [if_neg h, if_neg h]

theorem dictSet_keys {α : Type} (k : Text) (v : α) (d : List (Text × α)) (h : (dictGet d k).isSome) :
    (dictSet k v d).map (·.1) = d.map (·.1) := by
  induction d with
  | nil => cases h
  | cons p d ih =>
    rw [dictSet]
    rw [dictGet_cons] at h
    by_cases hp : p.1 = k
    · rw [if_pos hp]; simp [hp]
    · rw [if_neg hp] at h ⊢
      rw [List.map_cons, List.map_cons, ih h]

/-! ## Entries -/

theorem findEntry_congr (es : List (Entry K)) {a b : Text} (h : lower a = lower b) : findEntry a es = findEntry b es := by
  unfold findEntry; rw [h]

theorem setEntry_find (key : Text) (v : ConfigValue K) (es es' : List (Entry K)) (h : setEntry key v es = some es')
    (k : Text) :
    findEntry k es' = if lower k = lower key then (findEntry k es).map fun e => { e with value := v }
      else findEntry k es := by
  unfold findEntry
  induction es generalizing es' with
  | nil => cases h
  | cons e es ih =>
    rw [setEntry] at h
    by_cases he : lower e.key = lower key
    · rw [if_pos he] at h
      obtain rfl := Option.some.inj h
      rw [List.find?_cons, List.find?_cons]
      by_cases hk : lower k = lower key
      · rw [if_pos hk]; simp [he, hk]
      · rw [if_neg hk]
        have : ¬ lower e.key = lower k := fun e' => hk (e'.symm.trans he)
        simp [this]
    · rw [if_neg he] at h
      obtain ⟨es2, h2, rfl⟩ := Option.map_eq_some_iff.1 h
      rw [List.find?_cons, List.find?_cons, ih es2 h2]
      by_cases hk : lower k = lower key
      · have : ¬ lower e.key = lower k := fun e' => he (e'.trans hk)
        simp [hk, he]
      · by_cases hek : lower e.key = lower k
        · simp [hek, hk]
        · simp [hek, hk]

theorem setEntry_none (key : Text) (v : ConfigValue K) (es : List (Entry K)) :
    setEntry key v es = none ↔ findEntry key es = none := by
  unfold findEntry
  induction es with
  | nil => simp [setEntry]
  | cons e es ih =>
    rw [setEntry, List.find?_cons]
    by_cases he : lower e.key = lower key
    · simp [he]
    · simp [he, ih]

theorem setEntry_keys (key : Text) (v : ConfigValue K) (es es' : List (Entry K)) (h : setEntry key v es = some es') :
    es'.map (fun e => (e.key, e.type, e.hint)) = es.map fun e => (e.key, e.type, e.hint) := by
  induction es generalizing es' with
  | nil => cases h
  | cons e es ih =>
    rw [setEntry] at h
    by_cases he : lower e.key = lower key
    · rw [if_pos he] at h
      obtain rfl := Option.some.inj h
      rfl
    · rw [if_neg he] at h
      obtain ⟨es2, h2, rfl⟩ := Option.map_eq_some_iff.1 h
      rw [List.map_cons, List.map_cons, ih es2 h2]

/-- The value of a key, if there is such a section and key. -/
def look (c : Config K) (s k : Text) : Option (ConfigValue K) :=
  (dictGet c s).bind fun es => (findEntry k es).map (·.value)

theorem look_congr (c : Config K) (s : Text) {a b : Text} (h : lower a = lower b) : look c s a = look c s b := by
  unfold look
  cases dictGet c s with
  | none => rfl
  | some es => simp only [Option.bind_some]; rw [findEntry_congr es h]

theorem look_setValue (sec key : Text) (v : ConfigValue K) (c c' : Config K) (b : Bool)
    (h : setValue sec key v c = .ok (c', b)) (s k : Text) :
    look c' s k = if s = sec ∧ lower k = lower key then (look c s k).map fun _ => v else look c s k := by
  unfold setValue at h
  cases hd : dictGet c sec with
  | none => rw [hd] at h; cases h
  | some es =>
    rw [hd] at h
    simp only at h
    cases hs : setEntry key v es with
    | none =>
      rw [hs] at h
      simp only at h
      obtain ⟨rfl, rfl⟩ := Prod.mk.inj (Except.ok.inj h)
      by_cases hc : s = sec ∧ lower k = lower key
      · rw [if_pos hc]
        have : look c s k = none := by
          rw [look_congr c s hc.2]
          unfold look
          rw [hc.1, hd, Option.bind_some, (setEntry_none key v es).1 hs]; rfl
        rw [this]; rfl
      · rw [if_neg hc]
    | some es' =>
      rw [hs] at h
      simp only at h
      obtain ⟨rfl, rfl⟩ := Prod.mk.inj (Except.ok.inj h)
      unfold look
      rw [dictGet_set]
      by_cases hsec : s = sec
      · subst hsec
        rw [if_pos rfl, hd, Option.bind_some, Option.bind_some, setEntry_find key v es es' hs k]
        by_cases hk : lower k = lower key
        · simp [hk, Function.comp_def]
        · simp [hk]
      · rw [if_neg hsec, if_neg fun h => hsec h.1]

theorem keysOf_setValue (sec key : Text) (v : ConfigValue K) (c c' : Config K) (b : Bool)
    (h : setValue sec key v c = .ok (c', b)) : keysOf c' = keysOf c := by
  unfold setValue at h
  cases hd : dictGet c sec with
  | none => rw [hd] at h; cases h
  | some es =>
    rw [hd] at h
    simp only at h
    cases hs : setEntry key v es with
    | none =>
      rw [hs] at h
      simp only at h
      obtain ⟨rfl, rfl⟩ := Prod.mk.inj (Except.ok.inj h)
      rfl
    | some es' =>
      rw [hs] at h
      simp only at h
      obtain ⟨rfl, rfl⟩ := Prod.mk.inj (Except.ok.inj h)
      have hk := setEntry_keys key v es es' hs
      clear h hs
      induction c with
      | nil => cases hd
      | cons p c ih =>
        rw [dictGet_cons] at hd
        rw [dictSet]
        by_cases hp : p.1 = sec
        · rw [if_pos hp] at hd ⊢
          obtain rfl := Option.some.inj hd
          unfold keysOf
          rw [List.map_cons, List.map_cons, hk, hp]
        · rw [if_neg hp] at hd ⊢
          have := ih hd
          unfold keysOf at this ⊢
          rw [List.map_cons, List.map_cons, this]

theorem setValue_known (sec key : Text) (v : ConfigValue K) (c c' : Config K) (b : Bool)
    (h : setValue sec key v c = .ok (c', b)) : b = true ↔ (look c sec key).isSome := by
  unfold setValue at h
  unfold look
  cases hd : dictGet c sec with
  | none => rw [hd] at h; cases h
  | some es =>
    rw [hd] at h
    simp only at h
    cases hs : setEntry key v es with
    | none =>
      rw [hs] at h
      simp only at h
      obtain ⟨rfl, rfl⟩ := Prod.mk.inj (Except.ok.inj h)
      rw [Option.bind_some, (setEntry_none key v es).1 hs]; simp
    | some es' =>
      rw [hs] at h
      simp only at h
      obtain ⟨rfl, rfl⟩ := Prod.mk.inj (Except.ok.inj h)
      have : findEntry key es ≠ none := fun e => by
        rw [(setEntry_none key v es).2 e] at hs; cases hs
      cases hf : findEntry key es with
      | none => exact absurd hf this
      | some e => simp [hf]

theorem setValue_unknown (sec key : Text) (v : ConfigValue K) (c c' : Config K)
    (h : setValue sec key v c = .ok (c', false)) : c' = c := by
  unfold setValue at h
  cases hd : dictGet c sec with
  | none => rw [hd] at h; cases h
  | some es =>
    rw [hd] at h
    simp only at h
    cases hs : setEntry key v es with
    | none =>
      rw [hs] at h
      simp only at h
      exact (Prod.mk.inj (Except.ok.inj h)).1.symm
    | some es' => rw [hs] at h; simp at h

theorem dictGet_keysOf (c c' : Config K) (h : keysOf c = keysOf c') (s : Text) :
    (dictGet c s).isSome = (dictGet c' s).isSome := by
  induction c generalizing c' with
  | nil =>
    cases c' with
    | nil => rfl
    | cons p c' => cases h
  | cons p c ih =>
    cases c' with
    | nil => cases h
    | cons p' c' =>
      unfold keysOf at h
      rw [List.map_cons, List.map_cons] at h
      obtain ⟨h1, h2⟩ := List.cons.inj h
      have h1' : p.1 = p'.1 := (Prod.mk.inj h1).1
      rw [dictGet_cons, dictGet_cons, h1']
      by_cases e : p'.1 = s
      · simp [e]
      · rw [if_neg e, if_neg e]; exact ih c' h2

/-- Section names and keys of the template. -/
abbrev TemplateKeys (c : Config K) : Prop := keysOf c = keysOf (template (K := K))

theorem setValue_ok (c : Config K) (sec : Text) (hs : (dictGet c sec).isSome) (key : Text) (v : ConfigValue K) :
    ∃ c' b, setValue sec key v c = .ok (c', b) := by
  unfold setValue
  cases hd : dictGet c sec with
  | none => rw [hd] at hs; cases hs
  | some es =>
    cases h : setEntry key v es with
    | none => exact ⟨_, _, by simp only [h]; rfl⟩
    | some es' => exact ⟨_, _, by simp only [h]; rfl⟩

theorem dictGet_isSome {α : Type} (d : List (Text × α)) (k : Text) : (dictGet d k).isSome ↔ k ∈ d.map (·.1) := by
  unfold dictGet
  rw [Option.isSome_map, List.find?_isSome, List.mem_map]
  constructor
  · rintro ⟨x, hx, h⟩; exact ⟨x, hx, by simpa using h⟩
  · rintro ⟨x, hx, h⟩; exact ⟨x, hx, by simpa using h⟩

theorem section_known (c : Config K) (h : TemplateKeys c) (s : Text)
    (hs : s ∈ ["input".toList, "parameters".toList, "debug".toList, "output".toList]) : (dictGet c s).isSome := by
  rw [dictGet_keysOf c _ h, dictGet_isSome]
  exact hs

theorem look_set (st : IniState K) (sec key : Text) (v : ConfigValue K) (s k : Text) :
    look (st.set sec key v).config s k =
      if s = sec ∧ lower k = lower key then (look st.config s k).map fun _ => v else look st.config s k := by
  unfold IniState.set
  cases h : setValue sec key v st.config with
  | error e =>
    simp only
    by_cases hc : s = sec ∧ lower k = lower key
    · rw [if_pos hc]
      have hn : dictGet st.config sec = none := by
        unfold setValue at h
        cases hd : dictGet st.config sec with
        | none => rfl
        | some es =>
          rw [hd] at h
          simp only at h
          cases hs : setEntry key v es <;> rw [hs] at h <;> cases h
      unfold look
      rw [hc.1, hn]; rfl
    · rw [if_neg hc]
  | ok p =>
    obtain ⟨c', b⟩ := p
    exact look_setValue sec key v st.config c' b h s k

theorem keysOf_set (st : IniState K) (sec key : Text) (v : ConfigValue K) :
    keysOf (st.set sec key v).config = keysOf st.config := by
  unfold IniState.set
  cases h : setValue sec key v st.config with
  | error e => rfl
  | ok p =>
    obtain ⟨c', b⟩ := p
    exact keysOf_setValue sec key v st.config c' b h

theorem disk_set (st : IniState K) (sec key : Text) (v : ConfigValue K) : (st.set sec key v).disk = st.disk := by
  unfold IniState.set
  cases h : setValue sec key v st.config <;> rfl

theorem getValue_look (c : Config K) (s k : Text) (hs : (dictGet c s).isSome) :
    getValue s k c = match look c s k with
      | none => .error .keyError
      | some v => .ok v := by
  unfold getValue look
  cases hd : dictGet c s with
  | none => rw [hd] at hs; cases hs
  | some es =>
    simp only [Option.bind_some]
    cases findEntry k es <;> rfl

theorem getParameter_look (c : Config K) (h : TemplateKeys c) (k : Text) :
    getParameter k c = .ok ((look c "parameters".toList k).or (look c "debug".toList k)) := by
  unfold getParameter
  rw [getValue_look c _ k (section_known c h _ (by simp)), getValue_look c _ k (section_known c h _ (by simp))]
  cases look c "parameters".toList k with
  | some v => rfl
  | none =>
    cases look c "debug".toList k with
    | some v => rfl
    | none => rfl

/-! ## Configurations are determined by their values -/

theorem entries_ext (es es' : List (Entry K))
    (hk : es.map (fun e => (e.key, e.type, e.hint)) = es'.map fun e => (e.key, e.type, e.hint))
    (hn : (es.map fun e => lower e.key).Nodup)
    (h : ∀ k, (findEntry k es).map (·.value) = (findEntry k es').map (·.value)) : es = es' := by
  induction es generalizing es' with
  | nil =>
    cases es' with
    | nil => rfl
    | cons e es' => cases hk
  | cons e es ih =>
    cases es' with
    | nil => cases hk
    | cons e' es' =>
      rw [List.map_cons, List.map_cons] at hk
      obtain ⟨h1, h2⟩ := List.cons.inj hk
      rw [List.map_cons, List.nodup_cons] at hn
      have hkey : e.key = e'.key := (Prod.mk.inj h1).1
      have hty : e.type = e'.type := (Prod.mk.inj (Prod.mk.inj h1).2).1
      have hhi : e.hint = e'.hint := (Prod.mk.inj (Prod.mk.inj h1).2).2
      have hv := h e.key
      unfold findEntry at hv
      rw [List.find?_cons, List.find?_cons] at hv
      simp only [← hkey, decide_true, Option.map_some, Option.some.injEq] at hv
      have hee : e = e' := by
        cases e; cases e'; simp only at hkey hty hhi hv; rw [hkey, hty, hhi, hv]
      rw [hee]
      refine congrArg _ (ih es' h2 hn.2 fun k => ?_)
      by_cases hek : lower e.key = lower k
      · have hnone : ∀ l : List (Entry K), l.map (fun e => (e.key, e.type, e.hint)) = es.map (fun e => (e.key, e.type, e.hint)) →
            findEntry k l = none := by
          intro l hl
          unfold findEntry
          rw [List.find?_eq_none]
          intro x hx hxk
          have hxk' : lower x.key = lower k := by simpa using hxk
          refine hn.1 ?_
          have : lower x.key ∈ l.map fun e => lower e.key := List.mem_map.2 ⟨x, hx, rfl⟩
          have hll : l.map (fun e => lower e.key) = es.map fun e => lower e.key := by
            have := congrArg (List.map fun p : Text × ConfigType × Text => lower p.1) hl
            rw [List.map_map, List.map_map] at this
            exact this
          rw [hll] at this
          rw [hek, ← hxk']
          exact this
        rw [hnone es rfl, hnone es' h2.symm]
      · have := h k
        unfold findEntry at this
        rw [List.find?_cons, List.find?_cons] at this
        have hek' : ¬ lower e'.key = lower k := by rw [← hkey]; exact hek
        simp only [hek, hek', decide_false] at this
        exact this

theorem config_ext' (c c' : Config K) (hk : keysOf c = keysOf c') (hn : (c.map (·.1)).Nodup)
    (hn' : ∀ s ∈ c, (s.2.map fun e => lower e.key).Nodup)
    (h : ∀ s k, look c s k = look c' s k) : c = c' := by
  induction c generalizing c' with
  | nil =>
    cases c' with
    | nil => rfl
    | cons e es' => cases hk
  | cons s c ih =>
    cases c' with
    | nil => cases hk
    | cons s' c' =>
      unfold keysOf at hk
      rw [List.map_cons, List.map_cons] at hk
      obtain ⟨h1, h2⟩ := List.cons.inj hk
      obtain ⟨h11, h12⟩ := Prod.mk.inj h1
      have hes : s.2 = s'.2 := by
        refine entries_ext _ _ h12 (hn' s (by simp)) fun k => ?_
        have := h s.1 k
        unfold look at this
        rw [dictGet_cons, dictGet_cons, if_pos rfl, if_pos h11.symm] at this
        exact this
      have hss : s = s' := Prod.ext h11 hes
      rw [hss]
      rw [List.map_cons, List.nodup_cons] at hn
      refine congrArg _ (ih c' h2 hn.2 (fun x hx => hn' x (List.mem_cons_of_mem _ hx)) fun t k => ?_)
      by_cases ht : s.1 = t
      · have hnone : ∀ l : Config K, keysOf l = keysOf c → look l t k = none := by
          intro l hl
          have hd : dictGet l t = none := by
            have hi := dictGet_keysOf l c hl t
            have : dictGet c t = none := by
              unfold dictGet
              rw [Option.map_eq_none_iff, List.find?_eq_none]
              intro x hx hxt
              have : x.1 = t := by simpa using hxt
              exact hn.1 (by rw [ht, ← this]; exact List.mem_map.2 ⟨x, hx, rfl⟩)
            rw [this] at hi
            cases hd : dictGet l t with
            | none => rfl
            | some _ => rw [hd] at hi; cases hi
          unfold look
          rw [hd]; rfl
        rw [hnone c rfl, hnone c' (by unfold keysOf; exact h2.symm)]
      · have := h t k
        unfold look at this
        rw [dictGet_cons, dictGet_cons, if_neg ht, if_neg (by rw [← h11]; exact ht)] at this
        exact this

theorem template_names : ((template (K := K)).map (·.1)).Nodup := by
  unfold template
  simp only [List.map_cons, List.map_nil]
  decide +kernel

theorem template_nodup : ∀ s ∈ template (K := K), (s.2.map fun e => lower e.key).Nodup := by
  intro s hs
  unfold template at hs
  simp only [List.mem_cons, List.not_mem_nil, or_false] at hs
  rcases hs with e | e | e | e
  · rw [e]; unfold inputTemplate; simp only [List.map_cons, List.map_nil]; decide +kernel
  · rw [e]; unfold parameterTemplate; simp only [List.map_cons, List.map_nil]; decide +kernel
  · rw [e]; unfold debugTemplate; simp only [List.map_cons, List.map_nil]; decide +kernel
  · rw [e]; unfold outputTemplate; simp only [List.map_cons, List.map_nil]; decide +kernel

theorem keysOf_names (c c' : Config K) (h : keysOf c = keysOf c') : c.map (·.1) = c'.map (·.1) := by
  have := congrArg (List.map Prod.fst) h
  unfold keysOf at this
  rw [List.map_map, List.map_map] at this
  exact this

theorem keysOf_keys (c c' : Config K) (h : keysOf c = keysOf c') :
    c.map (fun s => s.2.map fun e => e.key) = c'.map fun s => s.2.map fun e => e.key := by
  have := congrArg (List.map fun p : Text × List (Text × ConfigType × Text) => p.2.map Prod.fst) h
  unfold keysOf at this
  rw [List.map_map, List.map_map] at this
  simpa [Function.comp_def] using this

/-- Configurations with the keys of the template are equal if their values are. -/
theorem config_ext (c c' : Config K) (hc : TemplateKeys c) (hc' : TemplateKeys c')
    (h : ∀ s k, look c s k = look c' s k) : c = c' := by
  refine config_ext' c c' (hc.trans hc'.symm) ?_ ?_ h
  · rw [keysOf_names c _ hc]; exact template_names
  · intro s hs
    have hk := keysOf_keys c _ hc
    have : s.2.map (fun e => e.key) ∈ (template (K := K)).map fun s => s.2.map fun e => e.key := by
      rw [← hk]; exact List.mem_map.2 ⟨s, hs, rfl⟩
    obtain ⟨s', hs', he⟩ := List.mem_map.1 this
    have hn := template_nodup s' hs'
    have e1 : s.2.map (fun e => lower e.key) = (s.2.map fun e => e.key).map lower := by rw [List.map_map]; rfl
    have e2 : s'.2.map (fun e => lower e.key) = (s'.2.map fun e => e.key).map lower := by rw [List.map_map]; rfl
    rw [e1, ← he, ← e2]
    exact hn

end Fm2prof

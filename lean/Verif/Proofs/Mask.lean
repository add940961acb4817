import Verif.Spec.Mask
import Verif.Proofs.Text
import Verif.Proofs.Export
import Verif.Proofs.Geometry
import Mathlib.Algebra.Order.Field.Rat
import Mathlib.Data.Rat.Floor
import Mathlib.Data.Rat.Encodable
import Mathlib.Logic.Encodable.Basic
import Mathlib.Data.Countable.Basic
import Mathlib.Logic.Equiv.List

/-!
# Lemmas about point files
-/

namespace Fm2prof

open Spec

variable {K : Type}

theorem pointLoop_ok (g : GeoJson K) {α : Type} (l : List α) (point : Nat → Except PyErr (PointFeature K)) (f : α → PointFeature K)
    (h : ∀ i a, l[i]? = some a → point i = .ok (f a)) : ∀ n, n ≤ l.length →
    pointLoop g point ((List.range l.length).drop n) = ((l.drop n).map f).filter g.valid := by
  intro n hn
  induction hm : l.length - n generalizing n with
  | zero =>
    have : n = l.length := by omega
    subst this
    rw [List.drop_of_length_le (by simp), List.drop_of_length_le (Nat.le_refl _)]
    rfl
  | succ m ih =>
    have hlt : n < l.length := by omega
    rw [List.drop_eq_getElem_cons (by simpa using hlt), List.drop_eq_getElem_cons hlt, List.map_cons, List.getElem_range]
    have hp := h n l[n] (List.getElem?_eq_getElem hlt)
    rw [pointLoop, hp]
    simp only
    rw [ih (n + 1) (by omega) (by omega), List.filter_cons]

theorem at_map {α β : Type} (l : List α) (f : α → β) (i : Nat) (a : α) (h : l[i]? = some a) : at? (l.map f) i = .ok (f a) := by
  unfold at?
  rw [List.getElem?_map, h]
  rfl

theorem facePoints_eq (g : GeoJson K) (d : MaskData K) (faces : List (FaceRecord K)) (edges : List (EdgeRecord K))
    (h : DataOf d faces edges) : facePoints g d = (faces.map (facePoint g.round d.name)).filter g.valid := by
  obtain ⟨h1, h2, h3, h4, h5, h6, _⟩ := h
  have hl : d.x.length = faces.length := by rw [h1, List.length_map]
  unfold facePoints
  rw [hl]
  have := pointLoop_ok g faces (facePointAt g d) (facePoint g.round d.name) (by
    intro i a ha
    unfold facePointAt
    rw [h1, h2, h3, h4, h5, h6, at_map faces _ i a ha, at_map faces _ i a ha, at_map faces _ i a ha, at_map faces _ i a ha,
      at_map faces _ i a ha, at_map faces _ i a ha]
    rfl) 0 (Nat.zero_le _)
  exact this

theorem edgePoints_eq (g : GeoJson K) (d : MaskData K) (faces : List (FaceRecord K)) (edges : List (EdgeRecord K))
    (h : DataOf d faces edges) : edgePoints g d = (edges.map (edgePoint g.round d.name)).filter g.valid := by
  obtain ⟨_, _, _, _, _, _, h1, h2, h3⟩ := h
  have hl : d.edgeX.length = edges.length := by rw [h1, List.length_map]
  unfold edgePoints
  rw [hl]
  have := pointLoop_ok g edges (edgePointAt g d) (edgePoint g.round d.name) (by
    intro i a ha
    unfold edgePointAt
    rw [h1, h2, h3, at_map edges _ i a ha, at_map edges _ i a ha, at_map edges _ i a ha]
    rfl) 0 (Nat.zero_le _)
  exact this

theorem select_labelled {α β : Type} (l : List (Text × α)) (name : Text) (g : α → β) :
    maskSelect ((l.map (·.1)).map fun c => decide (c = name)) (l.map fun p => g p.2) =
      ((l.filter fun p => p.1 = name).map (·.2)).map g := by
  induction l with
  | nil => rfl
  | cons p l ih =>
    rw [List.map_cons, List.map_cons, List.map_cons]
    by_cases h : p.1 = name
    · rw [decide_eq_true h, maskSelect_cons_true, List.filter_cons_of_pos (by simpa using h), ih]
      rfl
    · rw [decide_eq_false h, maskSelect_cons_false, List.filter_cons_of_neg (by simpa using h), ih]

/-! ## Extensions -/

theorem splitSep_append_sep (sep : Char) (a b : Text) : splitSep sep (a ++ sep :: b) = splitSep sep a ++ splitSep sep b := by
  induction a with
  | nil => simp [splitSep]
  | cons c a ih =>
    rw [List.cons_append, splitSep, splitSep]
    by_cases h : c = sep
    · rw [if_pos h, if_pos h, ih]; rfl
    · rw [if_neg h, if_neg h, ih]
      cases ha : splitSep sep a with
      | nil => exact absurd ha (splitSep_ne_nil sep a)
      | cons w ws => rfl

theorem pathName_of {path name : Text} (h : LeadsTo path name) : pathName path = name := by
  obtain ⟨h1, h2, h3, h4⟩ := h
  have hs := splitSep_single '/' name h1
  unfold pathName
  rcases h4 with rfl | ⟨dir, rfl⟩
  · rw [hs, List.filter_cons_of_pos (by simp [h2, h3])]
    rfl
  · rw [splitSep_append_sep, hs, List.filter_append, List.filter_cons_of_pos (by simp [h2, h3])]
    simp

theorem lastDot_some {t a b : Text} (h : lastDot t = some (a, b)) : t = a ++ b ∧ ∃ b', b = '.' :: b' ∧ '.' ∉ b' := by
  induction t generalizing a b with
  | nil => cases h
  | cons c t ih =>
    rw [lastDot] at h
    cases hl : lastDot t with
    | some p =>
      obtain ⟨a', b'⟩ := p
      rw [hl] at h
      simp only at h
      cases h
      obtain ⟨h1, h2⟩ := ih hl
      exact ⟨by rw [h1]; rfl, h2⟩
    | none =>
      rw [hl] at h
      simp only at h
      split at h
      · rename_i hc
        cases h
        refine ⟨rfl, t, by rw [hc], ?_⟩
        have hn : ∀ t : Text, lastDot t = none → '.' ∉ t := by
          intro t
          induction t with
          | nil => intro _ h; cases h
          | cons c t ih' =>
            intro h hm
            rw [lastDot] at h
            cases hl' : lastDot t with
            | some p => rw [hl'] at h; cases h
            | none =>
              rw [hl'] at h
              simp only at h
              split at h
              · cases h
              · rename_i hc'
                rcases List.mem_cons.mp hm with hm | hm
                · exact hc' hm.symm
                · exact ih' hl' hm
        exact hn t hl
      · cases h

theorem lastDot_append (stem b : Text) (hb : '.' ∉ b) : lastDot (stem ++ '.' :: b) = some (stem, '.' :: b) := by
  have hn : ∀ b : Text, '.' ∉ b → lastDot b = none := by
    intro b
    induction b with
    | nil => intro _; rfl
    | cons c b ih =>
      intro h
      rw [lastDot, ih (fun hm => h (List.mem_cons_of_mem _ hm))]
      simp only
      rw [if_neg (fun hc => h (by rw [hc]; exact List.mem_cons_self))]
  induction stem with
  | nil => rw [List.nil_append, lastDot, hn b hb]; rfl
  | cons c stem ih => rw [List.cons_append, lastDot, ih]

theorem suffix_known {path name : Text} (hp : LeadsTo path name) :
    (pathSuffix path = ".json".toList ∨ pathSuffix path = ".geojson".toList) ↔ Known name := by
  unfold pathSuffix
  rw [pathName_of hp]
  constructor
  · intro h
    cases hl : lastDot name with
    | none => rw [hl] at h; rcases h with h | h <;> exact absurd h (by decide)
    | some p =>
      obtain ⟨a, b⟩ := p
      rw [hl] at h
      simp only at h
      obtain ⟨h1, _⟩ := lastDot_some hl
      by_cases hc : a = [] ∨ b.length ≤ 1
      · rw [if_pos hc] at h; rcases h with h | h <;> exact absurd h (by decide)
      · rw [if_neg hc] at h
        refine ⟨a, fun ha => hc (Or.inl ha), ?_⟩
        rcases h with h | h
        · exact Or.inl (by rw [h1, h])
        · exact Or.inr (by rw [h1, h])
  · rintro ⟨stem, hs, h | h⟩
    · have := lastDot_append stem "json".toList (by decide)
      rw [h]
      have he : stem ++ ".json".toList = stem ++ '.' :: "json".toList := rfl
      rw [he, this]
      simp only
      rw [if_neg (by rintro (h | h); exact hs h; exact absurd h (by decide))]
      exact Or.inl rfl
    · have := lastDot_append stem "geojson".toList (by decide)
      rw [h]
      have he : stem ++ ".geojson".toList = stem ++ '.' :: "geojson".toList := rfl
      rw [he, this]
      simp only
      rw [if_neg (by rintro (h | h); exact hs h; exact absurd h (by decide))]
      exact Or.inr rfl

theorem validate_known {path name : Text} (hp : LeadsTo path name) (hk : Known name) : validateExtension path = .ok () := by
  unfold validateExtension
  rw [if_pos ((suffix_known hp).mpr hk)]

theorem validate_unknown {path name : Text} (hp : LeadsTo path name) (hk : ¬ Known name) :
    validateExtension path = .error .osError := by
  unfold validateExtension
  rw [if_neg (fun h => hk ((suffix_known hp).mp h))]

theorem leads_ne {path name : Text} (hp : LeadsTo path name) : path ≠ [] := by
  obtain ⟨_, h2, _, h | ⟨dir, h⟩⟩ := hp
  · rw [h]; exact h2
  · rw [h]; exact fun h => by simp at h

theorem writeMaskFile_ok (g : GeoJson K) (w : WriteFaults) {path name : Text} (hp : LeadsTo path name) (hk : Known name)
    (points : List (PointFeature K)) (hne : points ≠ []) (hc : ∀ f ∈ points, f.compliant = true) (hw : Sound w path) (s : Store) :
    writeMaskFile g w path points s = (s.set path (g.dump points), none) := by
  unfold writeMaskFile
  rw [if_neg (leads_ne hp), if_neg hne, validate_known hp hk]
  simp only
  rw [if_pos (by rw [List.all_eq_true]; exact hc)]
  unfold writeFile
  rw [hw.1, hw.2]
  rfl

theorem writeMaskFile_torn (g : GeoJson K) (w : WriteFaults) {path name : Text} (hp : LeadsTo path name) (hk : Known name)
    (points : List (PointFeature K)) (hc : ∃ f ∈ points, f.compliant = false) (hw : Sound w path) (s : Store) :
    writeMaskFile g w path points s = (s.set path (g.torn points), some .valueError) := by
  obtain ⟨f, hf, hfc⟩ := hc
  unfold writeMaskFile
  rw [if_neg (leads_ne hp), if_neg (by intro h; rw [h] at hf; cases hf), validate_known hp hk]
  simp only
  rw [if_neg (by
    rw [List.all_eq_true]
    intro h
    rw [h f hf] at hfc
    cases hfc)]
  unfold writeFile
  rw [hw.1, hw.2]
  rfl

theorem readMaskFile_set (g : GeoJson K) {path name : Text} (hp : LeadsTo path name) (hk : Known name)
    (points : List (PointFeature K)) (hc : ∀ f ∈ points, f.compliant = true) (s : Store) (hs : s path = some (g.dump points)) :
    readMaskFile g s path = .ok points := by
  unfold readMaskFile
  rw [hs]
  simp only
  rw [validate_known hp hk]
  simp only
  rw [g.load_dump points hc]

/-! ## A library -/

instance : Countable Char := (Function.Injective.countable (f := Char.toNat) fun _ _ h => Char.toNat_inj.mp h)

/-- A value of a property, as a sum. -/
def Json.toSum : Json ℚ → Text ⊕ (Option ℚ ⊕ Bool)
  | .text t => .inl t
  | .num x => .inr (.inl x)
  | .bool b => .inr (.inr b)

theorem Json.toSum_inj : Function.Injective Json.toSum := by
  intro a b h
  cases a <;> cases b <;> simp only [Json.toSum, Sum.inl.injEq, Sum.inr.injEq, reduceCtorEq] at h <;> rw [h]

instance : Countable (Json ℚ) := Json.toSum_inj.countable

theorem PointFeature.pair_inj : Function.Injective (fun f : PointFeature ℚ => (f.coords, f.properties)) := by
  intro a b h
  cases a; cases b
  simp only [Prod.mk.injEq] at h
  rw [h.1, h.2]

instance : Countable (PointFeature ℚ) := PointFeature.pair_inj.countable

/-- A library that meets what is assumed of `geojson`: the text is a number in unary. -/
noncomputable def sampleGeoJson : GeoJson ℚ :=
  { round := fun x => (⌊x * 1000000 + 1 / 2⌋ : ℚ) / 1000000
    valid := fun f => decide (f.coords.length = 2)
    dump := fun fs => List.replicate (@Encodable.encode _ (Encodable.ofCountable (List (PointFeature ℚ))) fs) 'a'
    torn := fun _ => ['b']
    load := fun t =>
      if t = ['b'] then .error .valueError
      else .ok (@Encodable.decode _ (Encodable.ofCountable (List (PointFeature ℚ))) t.length)
    load_dump := by
      intro fs _
      rw [if_neg]
      · rw [List.length_replicate, @Encodable.encodek _ (Encodable.ofCountable (List (PointFeature ℚ)))]
      · intro h
        have := congrArg (fun t : Text => 'b' ∈ t) h
        simp at this }

end Fm2prof

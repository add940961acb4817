import Verif.Proofs.Build
import Verif.Spec.Classify

set_option linter.unusedSectionVars false

namespace Fm2prof

open Spec

variable {K : Type} [Field K] [LinearOrder K] [IsStrictOrderedRing K]
variable {ι : Type} [DecidableEq ι]

section Predict

/-- The label predicted for a point. -/
def labelAt (nn : NearestPicker K) (css : List (Station ι K)) (p : Pt K) : Option ι :=
  (css[nn.pick (css.map (·.pos)) p]?).map (·.id)

theorem labelAt_some (nn : NearestPicker K) (css : List (Station ι K)) (hne : css ≠ []) (p : Pt K) :
    ∃ l, labelAt nn css p = some l ∧ NearestId css p l := by
  have hlt : nn.pick (css.map (·.pos)) p < css.length := by
    have := nn.pick_lt (css.map (·.pos)) p (by simpa using hne)
    rwa [List.length_map] at this
  set c := css[nn.pick (css.map (·.pos)) p] with hc
  refine ⟨c.id, ?_, c, List.getElem_mem hlt, rfl, fun c' hc' => ?_⟩
  · unfold labelAt
    rw [List.getElem?_eq_getElem hlt]; rfl
  · refine nn.pick_nearest (css.map (·.pos)) p c.pos c'.pos ?_ (List.mem_map.2 ⟨c', hc', rfl⟩)
    rw [List.getElem?_map, List.getElem?_eq_getElem hlt]; rfl

/-- The label as a function. -/
def labelD (nn : NearestPicker K) (css : List (Station ι K)) (d : ι) (p : Pt K) : ι := (labelAt nn css p).getD d

theorem labelD_nearest (nn : NearestPicker K) (css : List (Station ι K)) (hne : css ≠ []) (d : ι) (p : Pt K) :
    NearestId css p (labelD nn css d p) := by
  obtain ⟨l, h1, h2⟩ := labelAt_some nn css hne p
  unfold labelD
  rw [h1]; exact h2

theorem predict_eq (nn : NearestPicker K) (css : List (Station ι K)) (pts : List (GridPoint ι K)) (hne : css ≠ [])
    (hp : pts ≠ []) (d : ι) : predict nn css pts = .ok (pts.map fun p => labelD nn css d p.pos) := by
  unfold predict
  rw [if_neg (by simp [hne, hp])]
  congr 1
  clear hp
  induction pts with
  | nil => rfl
  | cons p ps ih =>
    obtain ⟨l, h1, _⟩ := labelAt_some nn css hne p.pos
    have h2 : (css[nn.pick (css.map (·.pos)) p.pos]?).map (·.id) = some l := h1
    rw [List.filterMap_cons, h2, List.map_cons, ih]
    unfold labelD
    rw [h1]; rfl

end Predict

section Scatter

variable {α β : Type}

theorem length_scatter (m : List Bool) (os vs : List α) : (scatter m os vs).length = os.length := by
  induction m generalizing os vs with
  | nil => simp [scatter]
  | cons b m ih =>
    cases os with
    | nil => cases b <;> simp [scatter]
    | cons o os =>
      cases b
      · simp [scatter, ih]
      · cases vs with
        | nil => simp [scatter]
        | cons v vs => simp [scatter, ih]

theorem scatter_eq (pts : List β) (P : β → Bool) (f : β → α) (os : List α) (hl : os.length = pts.length) :
    scatter (pts.map P) os ((pts.filter P).map f) = List.zipWith (fun p o => if P p then f p else o) pts os := by
  induction pts generalizing os with
  | nil =>
    cases os with
    | nil => rfl
    | cons => cases hl
  | cons p ps ih =>
    cases os with
    | nil => cases hl
    | cons o os =>
      have hl' : os.length = ps.length := by simpa using hl
      by_cases hP : P p
      · rw [List.map_cons, hP, List.filter_cons, if_pos hP, List.map_cons, scatter, ih os hl', List.zipWith_cons_cons,
          if_pos hP]
      · have hP' : P p = false := by simpa using hP
        rw [List.map_cons, hP', List.filter_cons, if_neg hP, scatter, ih os hl', List.zipWith_cons_cons,
          if_neg hP]

end Scatter

section Regions

theorem mem_pdUnique (l : List ι) (x : ι) : x ∈ pdUnique l ↔ x ∈ l := by
  unfold pdUnique
  rw [List.mem_reverse, List.mem_dedup, List.mem_reverse]

theorem nodup_pdUnique (l : List ι) : (pdUnique l).Nodup := by
  unfold pdUnique
  rw [List.nodup_reverse]
  exact List.nodup_dedup _

/-- The label a face has after some regions were done. -/
def faceLabel (nn : NearestPicker K) (css : List (Station ι K)) (rs : List ι) (p : GridPoint ι K) (o : ι) : ι :=
  if p.region ∈ rs ∧ inRegion css p.region ≠ [] then labelD nn (inRegion css p.region) o p.pos else o

/-- The label an edge has after some regions were done. -/
def edgeLabel (nn : NearestPicker K) (trunc : ι → ι) (css : List (Station ι K)) (rs : List ι) (p : GridPoint ι K)
    (o : ι) : ι :=
  if p.region ∈ rs ∧ inRegion css p.region ≠ [] then trunc (labelD nn (inRegion css p.region) p.region p.pos) else o

theorem labelD_irrel (nn : NearestPicker K) (css : List (Station ι K)) (hne : css ≠ []) (d d' : ι) (p : Pt K) :
    labelD nn css d p = labelD nn css d' p := by
  obtain ⟨l, h1, _⟩ := labelAt_some nn css hne p
  unfold labelD
  rw [h1]; rfl

theorem zipWith_zipWith_self {α β γ δ : Type} (f : α → γ → δ) (g : α → β → γ) (as : List α) (bs : List β) :
    List.zipWith f as (List.zipWith g as bs) = List.zipWith (fun a b => f a (g a b)) as bs := by
  induction as generalizing bs with
  | nil => simp
  | cons a as ih =>
    cases bs with
    | nil => simp
    | cons b bs => simp [ih]

theorem zipWith_right {α β : Type} (as : List α) (bs : List β) (h : bs.length = as.length) :
    List.zipWith (fun _ b => b) as bs = bs := by
  induction as generalizing bs with
  | nil => cases bs with
    | nil => rfl
    | cons => cases h
  | cons a as ih =>
    cases bs with
    | nil => cases h
    | cons b bs => simp [ih bs (by simpa using h)]

theorem zipWith_congr' {α β γ : Type} (f g : α → β → γ) (as : List α) (bs : List β)
    (h : ∀ a ∈ as, ∀ b, f a b = g a b) : List.zipWith f as bs = List.zipWith g as bs := by
  induction as generalizing bs with
  | nil => simp
  | cons a as ih =>
    cases bs with
    | nil => simp
    | cons b bs =>
      rw [List.zipWith_cons_cons, List.zipWith_cons_cons, h a (by simp), ih bs fun a' ha' => h a' (by simp [ha'])]

/-- One region. -/
theorem classifyRegion_eq (nn : NearestPicker K) (trunc : ι → ι) (css : List (Station ι K))
    (faces edges : List (GridPoint ι K)) (r : ι) (fs es : List ι) (hf : fs.length = faces.length)
    (he : es.length = edges.length) (hok : inRegion css r = [] ∨
      (faces.filter (fun p => p.region = r) ≠ [] ∧ edges.filter (fun p => p.region = r) ≠ [])) :
    classifyRegion nn trunc css faces edges r (fs, es) =
      .ok (List.zipWith (fun p o => faceLabel nn css [r] p o) faces fs,
        List.zipWith (fun p o => edgeLabel nn trunc css [r] p o) edges es) := by
  unfold classifyRegion
  change (if inRegion css r = [] then _ else _) = _
  by_cases hr : inRegion css r = []
  · rw [if_pos hr]
    congr 2
    · rw [zipWith_congr' _ (fun _ o => o) faces fs, zipWith_right _ _ hf]
      intro p _ o
      unfold faceLabel
      rw [if_neg]
      rintro ⟨h1, h2⟩
      rw [List.mem_singleton.1 h1] at h2
      exact h2 hr
    · rw [zipWith_congr' _ (fun _ o => o) edges es, zipWith_right _ _ he]
      intro p _ o
      unfold edgeLabel
      rw [if_neg]
      rintro ⟨h1, h2⟩
      rw [List.mem_singleton.1 h1] at h2
      exact h2 hr
  · rw [if_neg hr]
    obtain ⟨h1, h2⟩ := hok.resolve_left hr
    have e1 := predict_eq nn (inRegion css r) _ hr h1 r
    have e2 := predict_eq nn (inRegion css r) _ hr h2 r
    unfold inRegion at e1 e2
    rw [e1]
    simp only
    rw [e2]
    simp only
    rw [List.map_map]
    rw [scatter_eq faces (fun p => decide (p.region = r)) _ fs hf,
      scatter_eq edges (fun p => decide (p.region = r)) _ es he]
    congr 2
    · apply zipWith_congr'
      intro p _ o
      unfold faceLabel
      by_cases hp : p.region = r
      · rw [if_pos (by simpa using hp), if_pos ⟨by simpa using hp, by rw [hp]; exact hr⟩, hp]
        exact labelD_irrel nn (inRegion css r) hr _ _ _
      · rw [if_neg (by simpa using hp), if_neg (by simp [hp])]
    · apply zipWith_congr'
      intro p _ o
      unfold edgeLabel
      by_cases hp : p.region = r
      · rw [if_pos (by simpa using hp), if_pos ⟨by simpa using hp, by rw [hp]; exact hr⟩, hp]
        rfl
      · rw [if_neg (by simpa using hp), if_neg (by simp [hp])]

/-- All regions. -/
theorem classifyRegions_eq (nn : NearestPicker K) (trunc : ι → ι) (css : List (Station ι K))
    (faces edges : List (GridPoint ι K)) (rs : List ι) (hn : rs.Nodup) (fs es : List ι)
    (hf : fs.length = faces.length) (he : es.length = edges.length)
    (hok : ∀ r ∈ rs, inRegion css r = [] ∨
      (faces.filter (fun p => p.region = r) ≠ [] ∧ edges.filter (fun p => p.region = r) ≠ [])) :
    classifyRegions nn trunc css faces edges rs (fs, es) =
      .ok (List.zipWith (fun p o => faceLabel nn css rs p o) faces fs,
        List.zipWith (fun p o => edgeLabel nn trunc css rs p o) edges es) := by
  induction rs generalizing fs es with
  | nil =>
    rw [classifyRegions]
    congr 2
    · rw [zipWith_congr' _ (fun _ o => o) faces fs, zipWith_right _ _ hf]
      intro p _ o
      simp [faceLabel]
    · rw [zipWith_congr' _ (fun _ o => o) edges es, zipWith_right _ _ he]
      intro p _ o
      simp [edgeLabel]
  | cons r rs ih =>
    rw [List.nodup_cons] at hn
    rw [classifyRegions, classifyRegion_eq nn trunc css faces edges r fs es hf he (hok r (by simp))]
    simp only
    rw [ih hn.2 _ _ (by rw [List.length_zipWith]; omega) (by rw [List.length_zipWith]; omega)
      (fun r' hr' => hok r' (List.mem_cons_of_mem _ hr')), zipWith_zipWith_self, zipWith_zipWith_self]
    congr 2
    · apply zipWith_congr'
      intro p _ o
      unfold faceLabel
      by_cases hp : p.region = r
      · have hnr : p.region ∉ rs := by rw [hp]; exact hn.1
        simp [hp, hn.1]
      · simp [hp]
    · apply zipWith_congr'
      intro p _ o
      unfold edgeLabel
      by_cases hp : p.region = r
      · have hnr : p.region ∉ rs := by rw [hp]; exact hn.1
        simp [hp, hn.1]
      · simp [hp]

/-- A failing region. -/
theorem classifyRegion_error (nn : NearestPicker K) (trunc : ι → ι) (css : List (Station ι K))
    (faces edges : List (GridPoint ι K)) (r : ι) (labels : List ι × List ι) (hr : inRegion css r ≠ [])
    (hbad : faces.filter (fun p => p.region = r) = [] ∨ edges.filter (fun p => p.region = r) = []) :
    classifyRegion nn trunc css faces edges r labels = .error .valueError := by
  unfold classifyRegion
  change (if inRegion css r = [] then _ else _) = _
  rw [if_neg hr]
  by_cases hf : faces.filter (fun p => p.region = r) = []
  · have : predict nn (css.filter fun c => c.region = r) (faces.filter fun p => p.region = r) = .error .valueError := by
      unfold predict; rw [if_pos (.inr hf)]
    rw [this]
  · have he := hbad.resolve_left hf
    have e1 := predict_eq nn (inRegion css r) _ hr hf r
    unfold inRegion at e1
    rw [e1]
    have : predict nn (css.filter fun c => c.region = r) (edges.filter fun p => p.region = r) = .error .valueError := by
      unfold predict; rw [if_pos (.inr he)]
    rw [this]

theorem classifyRegions_error (nn : NearestPicker K) (trunc : ι → ι) (css : List (Station ι K))
    (faces edges : List (GridPoint ι K)) (rs : List ι) (fs es : List ι)
    (hf : fs.length = faces.length) (he : es.length = edges.length) (r : ι) (hmem : r ∈ rs) (hr : inRegion css r ≠ [])
    (hbad : faces.filter (fun p => p.region = r) = [] ∨ edges.filter (fun p => p.region = r) = []) :
    classifyRegions nn trunc css faces edges rs (fs, es) = .error .valueError := by
  induction rs generalizing fs es with
  | nil => cases hmem
  | cons r' rs ih =>
    rw [classifyRegions]
    by_cases hok : inRegion css r' = [] ∨
      (faces.filter (fun p => p.region = r') ≠ [] ∧ edges.filter (fun p => p.region = r') ≠ [])
    · rw [classifyRegion_eq nn trunc css faces edges r' fs es hf he hok]
      simp only
      apply ih
      · rw [List.length_zipWith]; omega
      · rw [List.length_zipWith]; omega
      · rcases List.mem_cons.1 hmem with rfl | h
        · rcases hok with h | ⟨h1, h2⟩
          · exact absurd h hr
          · rcases hbad with h | h
            · exact absurd h h1
            · exact absurd h h2
        · exact h
    · push Not at hok
      rw [classifyRegion_error nn trunc css faces edges r' (fs, es) hok.1]
      by_cases h : faces.filter (fun p => p.region = r') = []
      · exact .inl h
      · exact .inr (hok.2 h)

end Regions

section Select

theorem maskSelect_cons {α : Type} (b : Bool) (m : List Bool) (x : α) (xs : List α) :
    maskSelect (b :: m) (x :: xs) = if b then x :: maskSelect m xs else maskSelect m xs := by
  unfold maskSelect
  cases b <;> simp

theorem rowsOf_cons (l : ι) (labels : List ι) (name : ι) :
    rowsOf (l :: labels) name = (if l = name then [0] else []) ++ (rowsOf labels name).map (· + 1) := by
  unfold rowsOf
  rw [List.length_cons, List.range_succ_eq_map, List.filter_cons]
  have : (List.map Nat.succ (List.range labels.length)).filter (fun (i : Nat) => (l :: labels)[i]? = some name) =
      ((List.range labels.length).filter fun (i : Nat) => labels[i]? = some name).map (· + 1) := by
    rw [List.filter_map]
    congr 1
  rw [this]
  by_cases h : l = name <;> simp [h]

theorem maskSelect_rows {α : Type} (labels : List ι) (name : ι) (col : List α) (h : col.length = labels.length) :
    maskSelect (labels.map fun c => decide (c = name)) col = atRows (rowsOf labels name) col := by
  induction labels generalizing col with
  | nil =>
    cases col with
    | nil => rfl
    | cons => cases h
  | cons l labels ih =>
    cases col with
    | nil => cases h
    | cons x xs =>
      rw [List.map_cons, maskSelect_cons, rowsOf_cons, ih xs (by simpa using h)]
      unfold atRows
      rw [List.filterMap_append, List.filterMap_map]
      by_cases hl : l = name
      · simp [hl, Function.comp_def]
      · simp [hl, Function.comp_def]

end Select

section Sections

theorem npVar_eq (l : List K) : npVar l = variance l := by
  unfold npVar variance mean
  rw [List.length_map]

theorem argminFirst_spec (l : List K) (hne : l ≠ []) :
    ∃ k v, argminFirst l = some k ∧ l[k]? = some v ∧ (∀ x ∈ l, v ≤ x) ∧
      ∀ (j : Nat) x, j < k → l[j]? = some x → v < x := by
  induction l with
  | nil => exact absurd rfl hne
  | cons x xs ih =>
    by_cases hxs : xs = []
    · subst hxs
      exact ⟨0, x, rfl, rfl, by simp, fun j y hj => by omega⟩
    · obtain ⟨k, v, h1, h2, h3, h4⟩ := ih hxs
      rw [argminFirst, h1]
      simp only
      have hv : xs.getD k 0 = v := by rw [List.getD_eq_getElem?_getD, h2]; rfl
      rw [hv]
      by_cases hx : x ≤ v
      · rw [if_pos hx]
        refine ⟨0, x, rfl, rfl, ?_, fun j y hj => by omega⟩
        intro y hy
        rcases List.mem_cons.1 hy with rfl | hy
        · exact le_rfl
        · exact hx.trans (h3 y hy)
      · rw [if_neg hx]
        refine ⟨k + 1, v, rfl, by simpa using h2, ?_, ?_⟩
        · intro y hy
          rcases List.mem_cons.1 hy with rfl | hy
          · exact (not_le.1 hx).le
          · exact h3 y hy
        · intro j y hj hy
          cases j with
          | zero =>
            rw [List.getElem?_cons_zero] at hy
            rw [← Option.some.inj hy]; exact not_le.1 hx
          | succ j => exact h4 j y (by omega) (by simpa using hy)

theorem splitCandidates_getElem? [FloorRing K] (lo hi : K) (k : Nat) (s : K) :
    (splitCandidates lo hi)[k]? = some s ↔ s = lo + (k : K) ∧ s < hi := by
  unfold splitCandidates
  have key : k < ⌈hi - lo⌉.toNat ↔ lo + (k : K) < hi := by
    rw [Int.lt_toNat, Int.lt_ceil, Int.cast_natCast]
    constructor <;> intro h <;> linarith
  rw [List.getElem?_map]
  constructor
  · intro h
    obtain ⟨i, hi', rfl⟩ := Option.map_eq_some_iff.1 h
    obtain ⟨hlt, hik⟩ := List.getElem?_eq_some_iff.1 hi'
    rw [List.getElem_range] at hik
    rw [List.length_range] at hlt
    subst hik
    exact ⟨rfl, key.1 hlt⟩
  · rintro ⟨rfl, hz⟩
    rw [List.getElem?_range (key.2 hz), Option.map_some]

theorem splitCandidates_length_lt_two [FloorRing K] (lo hi : K) : (splitCandidates lo hi).length < 2 ↔ hi - lo ≤ 1 := by
  unfold splitCandidates
  rw [List.length_map, List.length_range]
  have : ⌈hi - lo⌉ ≤ 1 ↔ hi - lo ≤ 1 := by
    rw [Int.ceil_le]; simp
  rw [← this]
  omega

end Sections

end Fm2prof

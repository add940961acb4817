import Mathlib.Tactic.Linarith
import Mathlib.Tactic.Ring
import Mathlib.Tactic.FieldSimp
import Mathlib.Algebra.Order.BigOperators.Group.List
import Mathlib.Data.List.Sort
import Verif.Model.Build
import Verif.Spec.Build
import Verif.Spec.Geometry
import Verif.Proofs.Geometry

set_option linter.unusedSectionVars false

namespace Fm2prof

open Fm2prof.Spec

variable {K : Type} [Field K] [LinearOrder K] [IsStrictOrderedRing K]

theorem ogt_iff (a : Option K) (b : K) : ogt a b = true ↔ ∃ x, a = some x ∧ b < x := by
  cases a <;> simp [ogt]

theorem ole_iff (a : Option K) (b : K) : ole a b = true ↔ ∃ x, a = some x ∧ x ≤ b := by
  cases a <;> simp [ole]

theorem isLake_iff (L : Nat) (c : Cell K) : isLake L c = true ↔ IsLake c.depth L := by
  unfold isLake IsLake
  rw [Bool.and_eq_true, ogt_iff, ole_iff]
  cases h : c.depth L with
  | none => simp
  | some dL =>
    cases h0 : c.depth 0 with
    | none => simp [osub]
    | some d0 => simp [osub]

theorem rises_iff (c : Cell K) (s : Nat) :
    ole (osub (c.depth (s + 1)) (c.depth s)) (1 / 1000) = true ↔ ¬ RisesAt c.depth s := by
  rw [ole_iff]
  unfold RisesAt
  cases h : c.depth (s + 1) with
  | none => simp [osub]
  | some b =>
    cases h0 : c.depth s with
    | none => simp [osub]
    | some a => simp [osub]

theorem resting_iff (L : Nat) (c : Cell K) (t : Nat) :
    resting L c t = true ↔ IsLake c.depth L ∧ ∀ s < t, ¬ RisesAt c.depth s := by
  induction t with
  | zero => simp [resting, isLake_iff]
  | succ t ih =>
    rw [resting, Bool.and_eq_true, ih, rises_iff]
    constructor
    · rintro ⟨h1, h2, h3⟩
      refine ⟨h2, fun s hs => ?_⟩
      rcases Nat.lt_or_ge s t with h | h
      · exact h3 s h
      · obtain rfl : s = t := by omega
        exact h1
    · rintro ⟨h2, h3⟩
      exact ⟨h3 t (by omega), h2, fun s hs => h3 s (by omega)⟩

theorem wetNotLake_iff (L : Nat) (c : Cell K) (t : Nat) :
    wetNotLake L c t = true ↔ Counts c.depth L t := by
  unfold wetNotLake Counts Wet
  rw [Bool.and_eq_true, ogt_iff, Bool.not_eq_true', ← Bool.not_eq_true, resting_iff]
  refine and_congr Iff.rfl ?_
  constructor
  · intro h hl
    by_contra hcon
    exact h ⟨hl, fun s hs hr => hcon ⟨s, hs, hr⟩⟩
  · rintro h ⟨hl, hall⟩
    obtain ⟨s, hs, hr⟩ := h hl
    exact hall s hs hr

/-! ### Sums over cells -/

theorem sum_zipIdx_const {α : Type} (cells : List α) (f : α → K) (n : Nat) :
    ((cells.zipIdx n).map fun (c, _) => f c).sum = (cells.map f).sum := by
  induction cells generalizing n with
  | nil => rfl
  | cons c cs ih => simp [ih]

theorem maskedArea_eq (cells : List (Cell K)) (m : Cell K → Bool) (P : Cell K → Prop)
    (h : ∀ c ∈ cells, m c = true ↔ P c) :
    maskedArea cells (fun _ c => m c) = areaOf P cells := by
  unfold maskedArea areaOf
  rw [sum_zipIdx_const cells (fun c => if m c then c.area else 0) 0]
  induction cells with
  | nil => rfl
  | cons c cs ih =>
    have ih' := ih (fun c hc => h c (List.mem_cons_of_mem _ hc))
    have hc := h c (List.mem_cons_self ..)
    by_cases hP : P c
    · simp [hP, hc.2 hP, ih']
    · have : m c = false := by
        rw [← Bool.not_eq_true]; exact fun hm => hP (hc.1 hm)
      simp [hP, this, ih']

theorem sum_zipIdx_le {α : Type} (cells : List α) (n : Nat) (f g : α × Nat → K)
    (h : ∀ c ∈ cells, ∀ i, f (c, i) ≤ g (c, i)) :
    ((cells.zipIdx n).map f).sum ≤ ((cells.zipIdx n).map g).sum := by
  induction cells generalizing n with
  | nil => simp
  | cons c cs ih =>
    simp only [List.zipIdx_cons, List.map_cons, List.sum_cons]
    exact add_le_add (h c (List.mem_cons_self ..) n) (ih (n + 1) fun c hc => h c (List.mem_cons_of_mem _ hc))

theorem maskedArea_mono (cells : List (Cell K)) (m m' : Nat → Cell K → Bool)
    (hA : ∀ c ∈ cells, 0 ≤ c.area) (h : ∀ c ∈ cells, ∀ i, m i c = true → m' i c = true) :
    maskedArea cells m ≤ maskedArea cells m' := by
  refine sum_zipIdx_le cells 0 _ _ ?_
  intro c hc i
  simp only
  by_cases hm : m i c = true
  · simp [hm, h c hc i hm]
  · simp only [hm, Bool.false_eq_true, if_false]
    split
    · exact hA c hc
    · exact le_rfl

theorem maskedVolume_mono (cells : List (Cell K)) (m m' : Nat → Cell K → Bool) (d : Cell K → Option K)
    (hA : ∀ c ∈ cells, 0 ≤ c.area) (hd : ∀ c ∈ cells, ∀ x, d c = some x → 0 ≤ x)
    (h : ∀ c ∈ cells, ∀ i, m i c = true → m' i c = true) :
    maskedVolume cells m d ≤ maskedVolume cells m' d := by
  refine sum_zipIdx_le cells 0 _ _ ?_
  intro c hc i
  simp only
  by_cases hm : m i c = true
  · simp [hm, h c hc i hm]
  · simp only [hm, Bool.false_eq_true, if_false]
    split
    · cases hdc : d c with
      | none => simp
      | some x => simpa [hdc] using mul_nonneg (hA c hc) (hd c hc x hdc)
    · exact le_rfl

theorem maskedArea_nonneg (cells : List (Cell K)) (m : Nat → Cell K → Bool)
    (hA : ∀ c ∈ cells, 0 ≤ c.area) : 0 ≤ maskedArea cells m := by
  unfold maskedArea
  refine List.sum_nonneg ?_
  intro x hx
  simp only [List.mem_map] at hx
  obtain ⟨⟨c, i⟩, hmem, rfl⟩ := hx
  have hc : c ∈ cells := by
    have := List.mem_zipIdx hmem
    exact this.2.2 ▸ List.getElem_mem _
  simp only
  split
  · exact hA c hc
  · exact le_rfl

/-! ### Means -/

theorem reduceOption_eq_present (l : List (Option K)) : l.reduceOption = present l := rfl

theorem nanmean_eq (l : List (Option K)) :
    nanmean l = if present l = [] then none else some (mean (present l)) := by
  unfold nanmean
  rw [reduceOption_eq_present]
  cases present l with
  | nil => simp
  | cons x xs => simp [mean]

theorem present_map_some (l : List K) : present (l.map some) = l := by
  simp [present, List.filterMap_map]

theorem present_append (l m : List (Option K)) : present (l ++ m) = present l ++ present m := by
  simp [present]

theorem present_replicate_none (n : Nat) : present (List.replicate n (none : Option K)) = [] := by
  simp [present]

theorem present_length_le (l : List (Option K)) : (present l).length ≤ l.length := by
  simpa [present] using List.length_filterMap_le (f := id) l

theorem sortValues_length (l : List (Option K)) : (sortValues l).length = l.length := by
  have := present_length_le l
  simp [sortValues, reduceOption_eq_present]
  omega

theorem insertionSort_sorted (l : List K) : (l.insertionSort (· ≤ ·)).Pairwise (· ≤ ·) :=
  List.pairwise_insertionSort (· ≤ ·) l

/-- The last three of the sorted velocities: the missing ones first, then the largest. -/
theorem top3_largest (l : List (Option K)) :
    ∃ top, Largest (3 - (l.length - (present l).length)) (present l) top ∧
      top3 l = if top = [] then none else some (mean top) := by
  have hle := present_length_le l
  set p := (present l).insertionSort (· ≤ ·) with hp
  have hplen : p.length = (present l).length := List.length_insertionSort ..
  have hperm : p.Perm (present l) := List.perm_insertionSort ..
  have hsort : sortValues l = p.map some ++ List.replicate (l.length - (present l).length) none := rfl
  refine ⟨p.drop (l.length - 3), ⟨p.take (l.length - 3), ?_, ?_, ?_⟩, ?_⟩
  · refine hperm.symm.trans ?_
    conv_lhs => rw [← List.take_append_drop (l.length - 3) p]
    exact List.perm_append_comm
  · rw [List.length_drop]; omega
  · intro a ha b hb
    have h := insertionSort_sorted (present l)
    rw [← hp, ← List.take_append_drop (l.length - 3) p, List.pairwise_append] at h
    exact h.2.2 a ha b hb
  · unfold top3
    simp only [sortValues_length]
    rw [hsort, List.drop_append, nanmean_eq, present_append, List.drop_replicate, present_replicate_none,
      List.append_nil, ← List.map_drop, present_map_some]

/-! ### From the result of the build to its parts -/

theorem maskSelect_range {β : Type} (m : List Bool) (n : Nat) (f : Nat → β) :
    maskSelect m ((List.range n).map f) = (maskSelect m (List.range n)).map f := by
  rw [maskSelect_map]

theorem allSome_eq {α : Type} (l : List (Option α)) (z : List α) : allSome l = some z ↔ l = z.map some := by
  induction l generalizing z with
  | nil => cases z <;> simp [allSome]
  | cons x xs ih =>
    cases x with
    | none => cases z <;> simp [allSome]
    | some x =>
      cases z with
      | nil => simp [allSome]
      | cons z zs => simp [allSome, ih]; tauto

theorem buildGeometry_ok {cfg : BuildConfig K} {len : K} {centre : Nat} {raw : ControlVolume K} {b : Built K}
    (h : buildGeometry cfg len centre raw = .ok b) :
    ∃ c L z d0, (getTimeseries cfg.skipMaps raw).cells[centre]? = some c ∧
      0 < (getTimeseries cfg.skipMaps raw).nMaps ∧
      pyIndex (getTimeseries cfg.skipMaps raw).nMaps cfg.lakeTimesteps = .ok L ∧
      maskSelect (checkMonotonicity (centreLevels (getTimeseries cfg.skipMaps raw).nMaps c))
        (centreLevels (getTimeseries cfg.skipMaps raw).nMaps c) = z.map some ∧
      c.depth 0 = some d0 ∧
      b = assemble cfg.extrapolateStorage len (getTimeseries cfg.skipMaps raw).cells L d0 z
        (maskSelect (checkMonotonicity (centreLevels (getTimeseries cfg.skipMaps raw).nMaps c))
          (series2d cfg (getTimeseries cfg.skipMaps raw) L (c.depth 0)).wetArea)
        (maskSelect (checkMonotonicity (centreLevels (getTimeseries cfg.skipMaps raw).nMaps c))
          (series2d cfg (getTimeseries cfg.skipMaps raw) L (c.depth 0)).flowArea)
        (maskSelect (checkMonotonicity (centreLevels (getTimeseries cfg.skipMaps raw).nMaps c))
          (series2d cfg (getTimeseries cfg.skipMaps raw) L (c.depth 0)).totalVolume)
        (maskSelect (checkMonotonicity (centreLevels (getTimeseries cfg.skipMaps raw).nMaps c))
          (series2d cfg (getTimeseries cfg.skipMaps raw) L (c.depth 0)).flowVolume)
        (centreLevels (getTimeseries cfg.skipMaps raw).nMaps c) := by
  unfold buildGeometry at h
  simp only at h
  generalize getTimeseries cfg.skipMaps raw = cv at h ⊢
  cases hc : cv.cells[centre]? with
  | none => simp [hc] at h
  | some c =>
    simp only [hc] at h
    by_cases hT : cv.nMaps = 0
    · simp [hT] at h
    · simp only [hT, if_false] at h
      cases hL : pyIndex cv.nMaps cfg.lakeTimesteps with
      | error e => simp [hL] at h
      | ok L =>
        simp only [hL] at h
        cases hz : allSome (maskSelect (checkMonotonicity (centreLevels cv.nMaps c)) (centreLevels cv.nMaps c)) with
        | none => simp [hz] at h
        | some z =>
          cases hd : c.depth 0 with
          | none => simp [hz, hd] at h
          | some d0 =>
            simp only [hz, hd] at h
            refine ⟨c, L, z, d0, rfl, Nat.pos_of_ne_zero hT, rfl, (allSome_eq _ _).1 hz, hd, ?_⟩
            rw [hd]
            exact (Except.ok.inj h).symm

end Fm2prof

namespace Fm2prof

open Fm2prof.Spec

variable {K : Type} [Field K] [LinearOrder K] [IsStrictOrderedRing K]

theorem nanmean_eq_meanPresent (l : List (Option K)) : nanmean l = meanPresent l := nanmean_eq l

theorem window_eq (col : List (Option K)) (i : Nat) : (col.take (i + 5)).drop (i - 5) = window col i := by
  apply List.ext_getElem?
  intro j
  unfold window
  rw [List.getElem?_drop, List.getElem?_map, List.getElem?_take]
  by_cases h : j < min (i + 5) col.length - (i - 5)
  · rw [List.getElem?_range' h, if_pos (by omega)]
    simp [List.getElem?_eq_getElem (show i - 5 + j < col.length by omega)]
  · have h2 : (List.range' (i - 5) (min (i + 5) col.length - (i - 5)))[j]? = none :=
      List.getElem?_eq_none (by rw [List.length_range']; omega)
    rw [h2]
    split
    · rw [List.getElem?_eq_none (by omega)]; rfl
    · rfl

theorem rolling10_eq (col : List (Option K)) (i : Nat) : rolling10 col i = meanPresent (window col i) := by
  unfold rolling10
  rw [window_eq, nanmean_eq_meanPresent]

/-! ### Centre -/

theorem nanmin_eq_some (l : List (Option K)) (b : K) :
    nanmin l = some b ↔ b ∈ present l ∧ ∀ x ∈ present l, b ≤ x := by
  unfold nanmin
  rw [reduceOption_eq_present, List.min?_eq_some_iff]

theorem nanmin_eq_none (l : List (Option K)) : nanmin l = none ↔ present l = [] := by
  unfold nanmin
  rw [reduceOption_eq_present, List.min?_eq_none_iff]

theorem mem_present (l : List (Option K)) (x : K) : x ∈ present l ↔ some x ∈ l := by
  simp [present]

theorem mem_beds (n : Nat) (c : Cell K) (b : K) :
    b ∈ present ((List.range n).map fun t => osub (c.level t) (c.depth t)) ↔
      ∃ t < n, ∃ x d, c.level t = some x ∧ c.depth t = some d ∧ b = x - d := by
  rw [mem_present, List.mem_map]
  constructor
  · rintro ⟨t, ht, h⟩
    refine ⟨t, List.mem_range.1 ht, ?_⟩
    cases hl : c.level t with
    | none => simp [hl, osub] at h
    | some x =>
      cases hd : c.depth t with
      | none => simp [hl, hd, osub] at h
      | some d => simp [hl, hd, osub] at h; exact ⟨x, d, rfl, rfl, h.symm⟩
  · rintro ⟨t, ht, x, d, hl, hd, rfl⟩
    exact ⟨t, List.mem_range.2 ht, by simp [hl, hd, osub]⟩

theorem centreBed_some (n : Nat) (c : Cell K) (b : K) :
    centreBed n c = some b ↔ IsBedLevel n c.level c.depth b := by
  unfold centreBed
  rw [nanmin_eq_some, mem_beds]
  unfold IsBedLevel
  refine and_congr Iff.rfl ?_
  constructor
  · intro h t ht x d hl hd
    exact h _ ((mem_beds n c _).2 ⟨t, ht, x, d, hl, hd, rfl⟩)
  · intro h x hx
    obtain ⟨t, ht, x', d, hl, hd, rfl⟩ := (mem_beds n c _).1 hx
    exact h t ht x' d hl hd

theorem centreBed_none (n : Nat) (c : Cell K) :
    centreBed n c = none ↔ ∀ t < n, c.level t = none ∨ c.depth t = none := by
  unfold centreBed
  rw [nanmin_eq_none]
  constructor
  · intro h t ht
    cases hl : c.level t with
    | none => exact Or.inl rfl
    | some x =>
      cases hd : c.depth t with
      | none => exact Or.inr rfl
      | some d =>
        have := (mem_beds n c (x - d)).2 ⟨t, ht, x, d, hl, hd, rfl⟩
        rw [h] at this; simp at this
  · intro h
    rw [List.eq_nil_iff_forall_not_mem]
    intro b hb
    obtain ⟨t, ht, x, d, hl, hd, _⟩ := (mem_beds n c b).1 hb
    rcases h t ht with h | h
    · rw [hl] at h; cases h
    · rw [hd] at h; cases h

theorem centreLevels_getElem? (n : Nat) (c : Cell K) (t : Nat) (ht : t < n) :
    (centreLevels n c)[t]? = some ((c.level t).orElse fun _ => centreBed n c) := by
  simp [centreLevels, ht]

theorem centreLevels_length (n : Nat) (c : Cell K) : (centreLevels n c).length = n := by
  simp [centreLevels]

/-! ### Volumes -/

theorem lakeDepth_eq (L : Nat) (c : Cell K) (t : Nat) : lakeDepth L c t = aboveRest c.depth L t := by
  unfold lakeDepth aboveRest lakeCorrection
  by_cases h : IsLake c.depth L
  · obtain ⟨dL, d0, hL, h0, hp, habs⟩ := h
    have hlake : IsLake c.depth L := ⟨dL, d0, hL, h0, hp, habs⟩
    simp only [(isLake_iff L c).2 hlake, if_true, h0, hlake]
    cases hd : c.depth t with
    | none => simp [oadd]
    | some d =>
      simp only [oadd, Option.map_some, Option.bind_some, Option.getD_some]
      by_cases hle : d0 ≤ d
      · rw [if_pos (by linarith), if_pos hle]; congr 1; ring
      · rw [if_neg (by intro h; apply hle; linarith), if_neg hle]
  · have : isLake L c = false := by
      rw [← Bool.not_eq_true, isLake_iff]; exact h
    simp only [this, h, if_false]
    cases hd : c.depth t with
    | none => simp [oadd]
    | some d =>
      simp [oadd]

theorem correctedDepth_eq (L : Nat) (e : K) (c : Cell K) (t : Nat) :
    correctedDepth L (some e) c t = netDepth c.depth L e t := by
  unfold correctedDepth netDepth
  simp only [lakeDepth_eq]
  cases h0 : aboveRest c.depth L 0 with
  | none => simp
  | some d0 =>
    by_cases he : e < d0
    · simp [he]
    · simp [he]

theorem maskedVolume_eq (cells : List (Cell K)) (m : Cell K → Bool) (P : Cell K → Prop) (d net : Cell K → Option K)
    (h : ∀ c ∈ cells, m c = true ↔ P c) (hd : ∀ c ∈ cells, d c = net c) :
    maskedVolume cells (fun _ c => m c) d = volumeOf P net cells := by
  unfold maskedVolume volumeOf
  rw [sum_zipIdx_const cells (fun c => if m c then ((d c).map (c.area * ·)).getD 0 else 0) 0]
  induction cells with
  | nil => rfl
  | cons c cs ih =>
    have ih' := ih (fun c hc => h c (List.mem_cons_of_mem _ hc)) (fun c hc => hd c (List.mem_cons_of_mem _ hc))
    have hc := h c (List.mem_cons_self ..)
    have hdc := hd c (List.mem_cons_self ..)
    by_cases hP : P c
    · simp only [List.map_cons, List.sum_cons, hc.2 hP, if_true, ih', hP, decide_true, List.filter_cons_of_pos, hdc]
      cases net c <;> simp
    · have : m c = false := by
        rw [← Bool.not_eq_true]; exact fun hm => hP (hc.1 hm)
      simp [hP, this, ih']

theorem aboveRest_nonneg (depth : Nat → Option K) (L t : Nat) (x : K) (h : aboveRest depth L t = some x) :
    0 ≤ x := by
  unfold aboveRest at h
  cases hd : depth t with
  | none => simp [hd] at h
  | some d =>
    simp only [hd, Option.bind_some] at h
    classical
    generalize (if IsLake depth L then (depth 0).getD 0 else 0) = s at h
    by_cases hs : s ≤ d
    · rw [if_pos hs] at h
      have := Option.some.inj h
      linarith
    · rw [if_neg hs] at h; cases h

/-! ### The maps that are used -/

theorem acceptedMaps_unique (levels : List (Option K)) (a b : List Nat) (ha : AcceptedMaps levels a)
    (hb : AcceptedMaps levels b) : a = b :=
  List.Pairwise.eq_of_mem_iff ha.1 hb.1 fun i => (ha.2 i).trans (hb.2 i).symm

end Fm2prof

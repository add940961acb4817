import Mathlib.Algebra.Order.Field.Rat
import Mathlib.Data.Rat.Floor
import Verif.Proofs.Roughness

/-!
# Properties of roughness tables: C22, C23, C24, C25, C74, C75
-/

set_option linter.unusedSectionVars false

namespace Fm2prof.Props

open Fm2prof Spec

variable {K : Type} [Field K] [LinearOrder K] [IsStrictOrderedRing K]
variable {σ : Type} [LinearOrder σ]

/-! ## C22: mean roughness -/

private theorem buildTablesFor_spec (method : Int) (areaFull : Option (Int → Option K)) (skip nMaps : Nat)
    (level : List K) (links : List (Link σ K)) (ss : List σ) (ts : List (σ × FrictionTable K))
    (h : buildTablesFor method areaFull skip nMaps level links ss = .ok ts) :
    ts.map (·.1) = ss ∧ ∀ s t, (s, t) ∈ ts → t.level = level ∧ t.level.length = t.friction.length ∧
      sectionFriction method areaFull skip nMaps (links.filter fun l => l.sect = s) = .ok t.friction := by
  induction ss generalizing ts with
  | nil =>
    obtain rfl := Except.ok.inj h
    exact ⟨rfl, fun s t ht => by cases ht⟩
  | cons s ss ih =>
    rw [buildTablesFor] at h
    split at h
    · cases h
    · rename_i fr hfr
      unfold FrictionTable.make at h
      by_cases hl : level.length = fr.length
      · rw [if_pos hl] at h
        simp only at h
        split at h
        · cases h
        · rename_i ts' hts
          obtain rfl := Except.ok.inj h
          obtain ⟨h1, h2⟩ := ih ts' hts
          refine ⟨by rw [List.map_cons, h1], fun s' t ht => ?_⟩
          rcases List.mem_cons.1 ht with ht | ht
          · obtain ⟨rfl, rfl⟩ := Prod.mk.inj ht
            exact ⟨rfl, hl, hfr⟩
          · exact h2 s' t ht
      · rw [if_neg hl] at h
        cases h

/-- C22. With simple weighing there is one table for each section that occurs among the links, and in it the value at
each map is the mean of the present, non-zero values of the links of that section, zero when there is none. -/
theorem C22_table_of_means (areaFull : Option (Int → Option K)) (skip nMaps : Nat) (level : List K)
    (links : List (Link σ K)) (ts : List (σ × FrictionTable K))
    (h : buildRoughnessTables 0 areaFull skip nMaps level links = .ok ts) :
    (ts.map (·.1)).Nodup ∧ (∀ s, s ∈ ts.map (·.1) ↔ ∃ l ∈ links, l.sect = s) ∧
      ∀ s t, (s, t) ∈ ts → t.level = level ∧ t.friction.length = level.length ∧
        ∀ (k : Nat), k < level.length →
          t.friction[k]? = some (meanWet ((links.filter fun l => l.sect = s).map fun l => l.chezy (skip + k))) := by
  obtain ⟨h1, h2⟩ := buildTablesFor_spec 0 areaFull skip nMaps level links _ ts h
  rw [h1]
  refine ⟨nodup_npUnique _, fun s => ?_, fun s t ht => ?_⟩
  · rw [mem_npUnique, List.mem_map]
  · obtain ⟨h3, h4, h5⟩ := h2 s t ht
    unfold sectionFriction at h5
    rw [if_pos rfl] at h5
    have h5 := Except.ok.inj h5
    rw [h3] at h4
    refine ⟨h3, h4.symm, fun k hk => ?_⟩
    have hk' : k < nMaps - skip := by
      have := congrArg List.length h5
      rw [List.length_map, List.length_range] at this
      omega
    rw [← h5, List.getElem?_map, List.getElem?_range hk', Option.map_some, frictionSimple_eq]
    rfl

/-- C22. The tables can be made exactly when there is one water level for each map after the skipped ones (or there
are no links at all). -/
theorem C22_defined_iff (areaFull : Option (Int → Option K)) (skip nMaps : Nat) (level : List K)
    (links : List (Link σ K)) :
    (∃ ts, buildRoughnessTables 0 areaFull skip nMaps level links = .ok ts) ↔
      level.length = nMaps - skip ∨ links = [] := by
  unfold buildRoughnessTables
  have key : ∀ ss : List σ, (∃ ts, buildTablesFor 0 areaFull skip nMaps level links ss = .ok ts) ↔
      level.length = nMaps - skip ∨ ss = [] := by
    intro ss
    induction ss with
    | nil => exact ⟨fun _ => .inr rfl, fun _ => ⟨[], rfl⟩⟩
    | cons s ss ih =>
      rw [buildTablesFor]
      unfold sectionFriction FrictionTable.make
      simp only [if_pos, List.length_map, List.length_range]
      constructor
      · rintro ⟨ts, h⟩
        split at h
        · cases h
        · rename_i t ht
          by_cases hl : level.length = nMaps - skip
          · exact .inl hl
          · rw [if_neg hl] at ht; cases ht
      · rintro (hl | hl)
        · rw [if_pos hl]
          obtain ⟨ts, hts⟩ := ih.2 (.inl hl)
          simp only [hts]
          exact ⟨_, rfl⟩
        · cases hl
  rw [key]
  constructor
  · rintro (h | h)
    · exact .inl h
    · right
      cases links with
      | nil => rfl
      | cons l ls =>
        have : l.sect ∈ npUnique ((l :: ls).map (·.sect)) := (mem_npUnique _ _).2 (by simp)
        rw [h] at this; cases this
  · rintro (h | rfl)
    · exact .inl h
    · exact .inr rfl

/-- C22. The mean of the wet values lies between any bounds of them, so between the smallest and the largest. -/
theorem C22_between (values : List (Option K)) (lo hi : K) (hwet : wetValues values ≠ [])
    (h : ∀ v, some v ∈ values → v ≠ 0 → lo ≤ v ∧ v ≤ hi) : lo ≤ meanWet values ∧ meanWet values ≤ hi := by
  unfold meanWet
  rw [if_neg hwet]
  apply mean_bounds _ hwet
  intro x hx
  unfold wetValues present at hx
  obtain ⟨h1, h2⟩ := List.mem_filter.1 hx
  obtain ⟨o, ho, rfl⟩ := List.mem_filterMap.1 h1
  exact h x ho (by simpa using h2)

/-- C22. The order of the links does not matter. -/
theorem C22_order_independent (links links' : List (Link σ K)) (h : links.Perm links') (t : Nat) :
    frictionSimple links t = frictionSimple links' t := by
  rw [frictionSimple_eq, frictionSimple_eq]
  have : (wetValues (links.map fun l => l.chezy t)).Perm (wetValues (links'.map fun l => l.chezy t)) := by
    unfold wetValues present
    exact ((h.map _).filterMap _).filter _
  by_cases hw : wetValues (links.map fun l => l.chezy t) = []
  · rw [if_pos hw, if_pos]
    rw [hw] at this
    exact List.nil_perm.1 this
  · rw [if_neg hw, if_neg]
    · unfold mean
      rw [this.sum_eq, this.length_eq]
    · intro h'
      rw [h'] at this
      exact hw (List.perm_nil.1 this)

/-- Three links in two sections, one of them dry in the first map. -/
def threeLinks : List (Link Nat ℚ) :=
  [⟨1, (0, 1), fun t => if t = 0 then some 0 else some 40⟩, ⟨1, (1, 2), fun t => if t = 0 then some 30 else some 50⟩,
    ⟨2, (2, 3), fun t => if t = 0 then none else some 20⟩]

/-- Two tables; the dry link does not count. -/
example : (match buildRoughnessTables 0 none 0 2 [1, 2] threeLinks with
    | .ok ts => decide (ts = [(1, ⟨[1, 2], [30, 45]⟩), (2, ⟨[1, 2], [0, 20]⟩)])
    | .error _ => false) = true := by
  decide +kernel

/-- The hypotheses of the bounds are met. -/
example : wetValues ([some 0, none, some (30 : ℚ), some 40]) ≠ [] ∧
    ∀ v, some v ∈ ([some 0, none, some (30 : ℚ), some 40]) → v ≠ 0 → 30 ≤ v ∧ v ≤ 40 := by
  refine ⟨by decide +kernel, fun v hv h0 => ?_⟩
  simp only [List.mem_cons, Option.some.injEq, reduceCtorEq, false_or, List.not_mem_nil, or_false] at hv
  rcases hv with rfl | rfl | rfl
  · exact absurd rfl h0
  · constructor <;> norm_num
  · constructor <;> norm_num

/-! ## C23: area-weighted roughness -/

/-- C23. When the areas of the faces are known and positive and all links are wet, the area-weighted roughness is the
mean of the link values weighted with the mean area of the two faces of each link. Missing from the full property:
dry links (`C23_dry_link_violated`), and the areas, which the program never has (`C23_always_fails_violated`). -/
theorem C23_weighted_mean_partial (area : Int → Option K) (links : List (Link σ K)) (t : Nat) (a : Int → K)
    (c : Link σ K → K) (hne : links ≠ [])
    (harea : ∀ l ∈ links, area l.faces.1 = some (a l.faces.1) ∧ area l.faces.2 = some (a l.faces.2) ∧
      0 < a l.faces.1 ∧ 0 < a l.faces.2)
    (hwet : ∀ l ∈ links, l.chezy t = some (c l) ∧ c l ≠ 0) :
    frictionArea area links t =
      weightedMean (links.map fun l => ((a l.faces.1 + a l.faces.2) / 2, c l)) := by
  have h1 : ∀ l ∈ links, linkArea area l = some ((a l.faces.1 + a l.faces.2) / 2) := by
    intro l hl
    obtain ⟨h1, h2, _, _⟩ := harea l hl
    unfold linkArea
    rw [h1, h2, nanmean_eq]
    have : present [some (a l.faces.1), some (a l.faces.2)] = [a l.faces.1, a l.faces.2] := rfl
    rw [this, if_neg (by simp)]
    unfold mean
    simp
  have hsum : nansum (links.map (linkArea area)) = some (links.map fun l => (a l.faces.1 + a l.faces.2) / 2).sum := by
    apply nansum_some
    rw [List.map_map]
    exact List.map_congr_left h1
  have hpos : 0 < (links.map fun l => (a l.faces.1 + a l.faces.2) / 2).sum := by
    apply List.sum_pos
    · intro x hx
      obtain ⟨l, hl, rfl⟩ := List.mem_map.1 hx
      obtain ⟨_, _, h3, h4⟩ := harea l hl
      have : 0 < a l.faces.1 + a l.faces.2 := add_pos h3 h4
      positivity
    · simpa using hne
  set S := (links.map fun l => (a l.faces.1 + a l.faces.2) / 2).sum with hS
  have h2 : ∀ l ∈ links, omul (zeroToNan (l.chezy t)) (linkWeight area links l) =
      some (c l * ((a l.faces.1 + a l.faces.2) / 2 / S)) := by
    intro l hl
    obtain ⟨h3, h4⟩ := hwet l hl
    unfold linkWeight
    rw [hsum]
    simp only
    rw [if_neg hpos.ne', h1 l hl, h3]
    simp only [zeroToNan, h4, if_false, Option.map_some]
    rfl
  unfold frictionArea
  rw [nansum_some _ (links.map fun l => c l * ((a l.faces.1 + a l.faces.2) / 2 / S))
    (by rw [List.map_map]; exact List.map_congr_left h2), Option.getD_some]
  unfold weightedMean
  rw [List.map_map, List.map_map]
  simp only [Function.comp_def]
  rw [← hS, div_eq_mul_inv, ← sum_map_mul_right']
  congr 1
  apply List.map_congr_left
  intro l _
  rw [div_eq_mul_inv]
  ring

/-- C23. It then lies between any bounds of the link values. -/
theorem C23_between_partial (area : Int → Option K) (links : List (Link σ K)) (t : Nat) (a : Int → K)
    (c : Link σ K → K) (hne : links ≠ [])
    (harea : ∀ l ∈ links, area l.faces.1 = some (a l.faces.1) ∧ area l.faces.2 = some (a l.faces.2) ∧
      0 < a l.faces.1 ∧ 0 < a l.faces.2)
    (hwet : ∀ l ∈ links, l.chezy t = some (c l) ∧ c l ≠ 0) (lo hi : K) (h : ∀ l ∈ links, lo ≤ c l ∧ c l ≤ hi) :
    lo ≤ frictionArea area links t ∧ frictionArea area links t ≤ hi := by
  rw [C23_weighted_mean_partial area links t a c hne harea hwet]
  have hp : ∀ l ∈ links, 0 < (a l.faces.1 + a l.faces.2) / 2 := by
    intro l hl
    obtain ⟨_, _, h3, h4⟩ := harea l hl
    have : 0 < a l.faces.1 + a l.faces.2 := add_pos h3 h4
    positivity
  apply weighted_bounds
  · intro p hp'
    obtain ⟨l, hl, rfl⟩ := List.mem_map.1 hp'
    exact (hp l hl).le
  · rw [List.map_map]
    apply List.sum_pos
    · intro x hx
      obtain ⟨l, hl, rfl⟩ := List.mem_map.1 hx
      exact hp l hl
    · simpa using hne
  · intro p hp'
    obtain ⟨l, hl, rfl⟩ := List.mem_map.1 hp'
    exact h l hl

/-- C23 is violated: one link that is dry at a map makes the area-weighted roughness of its section zero at that map,
whatever the other links are. -/
theorem C23_dry_link_violated (area : Int → Option K) (links : List (Link σ K)) (t : Nat) (l : Link σ K)
    (hl : l ∈ links) (hdry : l.chezy t = some 0 ∨ l.chezy t = none) : frictionArea area links t = 0 := by
  unfold frictionArea
  rw [nansum_none]
  · rfl
  · refine List.mem_map.2 ⟨l, hl, ?_⟩
    rcases hdry with h | h <;> rw [h] <;> simp [zeroToNan, omul]

/-- C23 is violated: the areas are never among the data of a cross-section, and without them area weighing fails for
every cross-section that has links. -/
theorem C23_always_fails_violated (skip nMaps : Nat) (level : List K) (links : List (Link σ K)) (hne : links ≠ []) :
    buildRoughnessTables 1 none skip nMaps level links = .error .attributeError := by
  unfold buildRoughnessTables
  obtain ⟨l, ls, rfl⟩ := List.exists_cons_of_ne_nil hne
  have : l.sect ∈ npUnique ((l :: ls).map (·.sect)) := (mem_npUnique _ _).2 (by simp)
  obtain ⟨s, ss, hs⟩ := List.exists_cons_of_ne_nil (List.ne_nil_of_mem this)
  rw [hs, buildTablesFor]
  rfl

/-- A face area for the examples. -/
def unitArea : Int → Option ℚ := fun i => some (if i = 2 then 3 else 1)

/-- In the second map all links are wet: (40·1 + 50·2 + 20·2) / 5 = 36. -/
example : frictionArea unitArea threeLinks 1 = 36 := by decide +kernel

/-- The hypotheses are met by that map. -/
example : threeLinks ≠ [] ∧ (∀ l ∈ threeLinks, unitArea l.faces.1 = some (if l.faces.1 = 2 then 3 else 1) ∧
      unitArea l.faces.2 = some (if l.faces.2 = 2 then 3 else 1) ∧ (0 : ℚ) < (if l.faces.1 = 2 then 3 else 1) ∧
      (0 : ℚ) < (if l.faces.2 = 2 then 3 else 1)) ∧
    ∀ l ∈ threeLinks, l.chezy 1 = some ((l.chezy 1).getD 0) ∧ (l.chezy 1).getD 0 ≠ 0 := by
  refine ⟨by simp [threeLinks], fun l _ => ⟨rfl, rfl, by split <;> norm_num, by split <;> norm_num⟩, ?_⟩
  intro l hl
  simp only [threeLinks, List.mem_cons, List.not_mem_nil, or_false] at hl
  rcases hl with rfl | rfl | rfl <;> simp

/-- In the first map a link is dry. -/
example : frictionArea unitArea threeLinks 0 = 0 := by decide +kernel

/-! ## C24: interpolation -/

/-- C24. Resampling a table with strictly increasing levels succeeds, keeps exactly the requested levels, and each
new value is what one reads off the table at that level. -/
theorem C24_interpolation (t : FrictionTable K) (hs : StrictlyIncreasing t.level) (hne : t.level ≠ [])
    (hl : t.level.length = t.friction.length) (newZ : List K) :
    ∃ t', t.interpolate newZ = .ok t' ∧ t'.level = newZ ∧ t'.friction.length = newZ.length ∧
      ∀ (k : Nat) (z v : K), newZ[k]? = some z → t'.friction[k]? = some v → ReadAt t.level t.friction z v := by
  obtain ⟨fr, h1, h2, h3⟩ := interpolate_ok t hl hne newZ
  refine ⟨_, h1, rfl, h2, fun k z v hz hv => ?_⟩
  have hv' : interp1 t.level t.friction z = some v := (h3 k z hz).trans hv
  constructor
  · intro a f ha hf hza
    rcases lt_or_eq_of_le hza with h | rfl
    · exact (Option.some.inj ((interp1_below _ _ hs hl a f z ha hf h).symm.trans hv')).symm
    · rw [List.head?_eq_getElem?] at ha hf
      exact (Option.some.inj ((interp1_at _ _ hs hl 0 z f ha hf).symm.trans hv')).symm
  · intro a f ha hf haz
    rcases lt_or_eq_of_le haz with h | rfl
    · exact (Option.some.inj ((interp1_above _ _ hl a f z ha hf h).symm.trans hv')).symm
    · rw [List.getLast?_eq_getElem?] at ha hf
      rw [← hl] at hf
      exact (Option.some.inj ((interp1_at _ _ hs hl _ a f ha hf).symm.trans hv')).symm
  · intro j a b fa fb ha hb hfa hfb haz hzb
    rcases lt_or_eq_of_le hzb with h | rfl
    · exact (Option.some.inj ((interp1_between _ _ hs hl j a b fa fb z ha hb hfa hfb haz h).symm.trans hv')).symm
    · have hvf := Option.some.inj ((interp1_at _ _ hs hl (j + 1) z fb hb hfb).symm.trans hv')
      have hab : a < z := strictlyIncreasing_lt hs (by omega) ha hb
      have : z - a ≠ 0 := (sub_pos.2 hab).ne'
      rw [← hvf]
      unfold onLine
      field_simp
      ring

/-- C24. So a resampled value at a level of the table is the table's value there. -/
theorem C24_own_levels (level friction : List K) (hs : StrictlyIncreasing level)
    (hl : level.length = friction.length) (j : Nat) (z f v : K) (hz : level[j]? = some z) (hf : friction[j]? = some f)
    (h : ReadAt level friction z v) : v = f := by
  have hlt : j < level.length := (List.getElem?_eq_some_iff.1 hz).1
  by_cases hj : j + 1 < level.length
  · have := h.between j z level[j + 1] f (friction[j + 1]'(by omega)) hz (List.getElem?_eq_getElem hj) hf
      (List.getElem?_eq_getElem _) le_rfl (strictlyIncreasing_lt hs (by omega) hz (List.getElem?_eq_getElem hj)).le
    have hne : level[j + 1] - z ≠ 0 :=
      (sub_pos.2 (strictlyIncreasing_lt hs (by omega) hz (List.getElem?_eq_getElem hj))).ne'
    rw [this]
    unfold onLine
    field_simp
    ring
  · have hj' : j = level.length - 1 := by omega
    refine h.above z f ?_ ?_ le_rfl
    · rw [List.getLast?_eq_getElem?, ← hj']; exact hz
    · rw [List.getLast?_eq_getElem?, ← hl, ← hj']; exact hf

/-- C24. Between two levels a resampled value stays between the values of those levels. -/
theorem C24_between (level friction : List K) (j : Nat) (a b fa fb z v : K)
    (ha : level[j]? = some a) (hb : level[j + 1]? = some b) (hfa : friction[j]? = some fa)
    (hfb : friction[j + 1]? = some fb) (hz : a ≤ z ∧ z ≤ b) (hab : a < b) (h : ReadAt level friction z v) :
    min fa fb ≤ v ∧ v ≤ max fa fb := by
  rw [h.between j a b fa fb ha hb hfa hfb hz.1 hz.2]
  unfold onLine
  have hpos : 0 < b - a := sub_pos.2 hab
  have h1 : 0 ≤ b - z := sub_nonneg.2 hz.2
  have h2 : 0 ≤ z - a := sub_nonneg.2 hz.1
  rw [le_div_iff₀ hpos, div_le_iff₀ hpos]
  have h3 := mul_le_mul_of_nonneg_right (min_le_left fa fb) h1
  have h4 := mul_le_mul_of_nonneg_right (min_le_right fa fb) h2
  have h5 := mul_le_mul_of_nonneg_right (le_max_left fa fb) h1
  have h6 := mul_le_mul_of_nonneg_right (le_max_right fa fb) h2
  constructor <;> nlinarith

/-- C24. The value read off at a level is determined by the table. -/
theorem C24_determined (level friction : List K) (hne : level ≠ []) (hl : level.length = friction.length)
    (z v v' : K) (h : ReadAt level friction z v) (h' : ReadAt level friction z v') : v = v' := by
  have hpos : 0 < level.length := List.length_pos_of_ne_nil hne
  by_cases hall : ∃ j : Nat, ∃ hj : j < level.length, z < level[j]
  · classical
    let j := Nat.find hall
    obtain ⟨hj, hzj⟩ := Nat.find_spec hall
    by_cases h0 : Nat.find hall = 0
    · have e : level.head? = some level[Nat.find hall] := by
        rw [List.head?_eq_getElem?, ← h0]; exact List.getElem?_eq_getElem hj
      have ef : friction.head? = some (friction[0]'(by omega)) := by
        rw [List.head?_eq_getElem?]; exact List.getElem?_eq_getElem _
      rw [h.below _ _ e ef hzj.le, h'.below _ _ e ef hzj.le]
    · obtain ⟨i, hi⟩ : ∃ i, Nat.find hall = i + 1 := ⟨Nat.find hall - 1, by omega⟩
      have hmin := Nat.find_min hall (m := i) (by omega)
      have hil : i < level.length := by omega
      have hzi : level[i] ≤ z := by
        by_contra hc
        exact hmin ⟨hil, not_le.1 hc⟩
      have e1 : level[i]? = some level[i] := List.getElem?_eq_getElem hil
      have e2 : level[i + 1]? = some (level[i + 1]'(by omega)) := List.getElem?_eq_getElem _
      have e3 : friction[i]? = some (friction[i]'(by omega)) := List.getElem?_eq_getElem _
      have e4 : friction[i + 1]? = some (friction[i + 1]'(by omega)) := List.getElem?_eq_getElem _
      have hz' : z ≤ level[i + 1]'(by omega) := by
        have := hzj.le
        simp only [hi] at this
        exact this
      rw [h.between i _ _ _ _ e1 e2 e3 e4 hzi hz', h'.between i _ _ _ _ e1 e2 e3 e4 hzi hz']
  · have hlast : level[level.length - 1]'(by omega) ≤ z := by
      by_contra hc
      exact hall ⟨level.length - 1, by omega, not_le.1 hc⟩
    have e : level.getLast? = some (level[level.length - 1]'(by omega)) := by
      rw [List.getLast?_eq_getElem?]; exact List.getElem?_eq_getElem _
    have ef : friction.getLast? = some (friction[friction.length - 1]'(by omega)) := by
      rw [List.getLast?_eq_getElem?]; exact List.getElem?_eq_getElem _
    rw [h.above _ _ e ef hlast, h'.above _ _ e ef hlast]

/-- A table with three levels. -/
def threeLevels : FrictionTable ℚ := ⟨[1, 2, 4], [30, 40, 20]⟩

/-- It meets the hypotheses, and resampling gives the expected values. -/
example : StrictlyIncreasing threeLevels.level ∧ threeLevels.level ≠ [] ∧
    threeLevels.level.length = threeLevels.friction.length ∧
    (match threeLevels.interpolate [0, 1, 3 / 2, 3, 4, 9] with
      | .ok t => decide (t = ⟨[0, 1, 3 / 2, 3, 4, 9], [30, 30, 35, 30, 20, 20]⟩)
      | .error _ => false) = true := by
  refine ⟨?_, by simp [threeLevels], rfl, by decide +kernel⟩
  unfold StrictlyIncreasing threeLevels
  decide +kernel

/-! ## C25: uniform levels -/

/-- C25. Harmonising succeeds and keeps the number of cross-sections and the sections of each of them in order. The
new levels of every table of a section start at the lowest level that the section has in any cross-section, step 0.1 m
and stay below the highest; the new table is the old one resampled at those levels. -/
theorem C25_uniform_levels [FloorRing K] (l : List (Tables σ K)) (hn : ∀ css ∈ l, (css.map (·.1)).Nodup)
    (hwf : ∀ css ∈ l, ∀ p ∈ css, WellFormedTable p.2) :
    (harmonise l).2 = true ∧ (harmonise l).1.map (fun css => css.map (·.1)) = l.map (fun css => css.map (·.1)) ∧
      ∀ (i j : Nat) css css' s t s' t', l[i]? = some css → (harmonise l).1[i]? = some css' → css[j]? = some (s, t) →
        css'[j]? = some (s', t') → s' = s ∧ t.interpolate t'.level = .ok t' ∧
          ∃ lo hi, IsLeastOf lo (levelsOf s l) ∧ IsGreatestOf hi (levelsOf s l) ∧ UniformGrid lo hi t'.level := by
  rw [harmonise_eq l hn hwf]
  refine ⟨rfl, ?_, ?_⟩
  · rw [List.map_map]
    apply List.map_congr_left
    intro css _
    simp only [Function.comp, List.map_map]
    rfl
  · intro i j css css' s t s' t' h1 h2 h3 h4
    rw [List.getElem?_map, h1, Option.map_some] at h2
    obtain rfl := Option.some.inj h2
    rw [List.getElem?_map, h3, Option.map_some] at h4
    obtain ⟨rfl, rfl⟩ := Prod.mk.inj (Option.some.inj h4)
    have hc := List.mem_of_getElem? h1
    have ht := List.mem_of_getElem? h3
    refine ⟨rfl, interpolate_resampled t (hwf _ hc _ ht) _, ?_⟩
    have hne : levelsOf s l ≠ [] := by
      obtain ⟨z, hz⟩ := List.exists_mem_of_ne_nil _ (hwf _ hc _ ht).nonempty
      exact List.ne_nil_of_mem (mem_levelsOf.2 ⟨css, hc, t, ht, hz⟩)
    obtain ⟨lo, hi, h5, h6, h7⟩ := levelRange_bounds s l (fun c hc' => ⟨hn c hc', fun t ht => hwf c hc' _ ht⟩) hne
    refine ⟨lo, hi, h6, h7, ?_⟩
    have : gridOf s l = arange01 lo hi := by
      unfold gridOf; rw [h5]
    simp only [resampled, this]
    exact arange01_grid lo hi

/-- C25. Two grids with the same ends are the same list, so all tables of a section have identical levels. -/
theorem C25_identical_levels [FloorRing K] (l : List (Tables σ K)) (hn : ∀ css ∈ l, (css.map (·.1)).Nodup)
    (hwf : ∀ css ∈ l, ∀ p ∈ css, WellFormedTable p.2) (css₁ css₂ : Tables σ K) (s : σ) (t₁ t₂ : FrictionTable K)
    (h₁ : css₁ ∈ (harmonise l).1) (h₂ : css₂ ∈ (harmonise l).1) (ht₁ : (s, t₁) ∈ css₁) (ht₂ : (s, t₂) ∈ css₂) :
    t₁.level = t₂.level := by
  rw [harmonise_eq l hn hwf] at h₁ h₂
  obtain ⟨c₁, _, rfl⟩ := List.mem_map.1 h₁
  obtain ⟨c₂, _, rfl⟩ := List.mem_map.1 h₂
  obtain ⟨p₁, _, e₁⟩ := List.mem_map.1 ht₁
  obtain ⟨p₂, _, e₂⟩ := List.mem_map.1 ht₂
  obtain ⟨rfl, rfl⟩ := Prod.mk.inj e₁
  obtain ⟨h, rfl⟩ := Prod.mk.inj e₂
  simp only [resampled, h]

/-- C25. A uniform grid leaves at most one step between its last level and the highest level. -/
theorem C25_last_step (lo hi : K) (levels : List K) (h : UniformGrid lo hi levels) (z : K)
    (hz : levels.getLast? = some z) : z < hi ∧ hi ≤ z + 1 / 10 := by
  rw [List.getLast?_eq_getElem?] at hz
  obtain ⟨h1, h2⟩ := (h _ z).1 hz
  refine ⟨h2, ?_⟩
  by_contra hc
  have hlt := (List.getElem?_eq_some_iff.1 hz).1
  have hc := not_le.1 hc
  have hnext := (h (levels.length - 1 + 1) (z + 1 / 10)).2 ⟨by rw [h1]; push_cast; ring, hc⟩
  have := (List.getElem?_eq_some_iff.1 hnext).1
  omega

private theorem resampleCss_spec (s : σ) (newZ : List K) (css css' : Tables σ K) (h : resampleCss s newZ css = .ok css') :
    ∀ p ∈ css', (p.1 = s → p.2.level = newZ) ∧ (p.1 ≠ s → p ∈ css) ∧ ∃ q ∈ css, q.1 = p.1 := by
  unfold resampleCss at h
  cases hg : css.get s with
  | none =>
    rw [hg] at h
    rw [← Except.ok.inj h]
    intro p hp
    refine ⟨fun e => ?_, fun _ => hp, p, hp, rfl⟩
    unfold Tables.get at hg
    rw [Option.map_eq_none_iff, List.find?_eq_none] at hg
    exact absurd e (by simpa using hg p hp)
  | some t =>
    rw [hg] at h
    unfold FrictionTable.interpolate at h
    cases ha : allSome (newZ.map (interp1 t.level t.friction)) with
    | none => simp only [ha] at h; cases h
    | some fr =>
      simp only [ha] at h
      rw [← Except.ok.inj h]
      intro p hp
      obtain ⟨q, hq, rfl⟩ := List.mem_map.1 hp
      by_cases e : q.1 = s
      · rw [if_pos e]
        exact ⟨fun _ => rfl, fun h => absurd e h, q, hq, rfl⟩
      · rw [if_neg e]
        exact ⟨fun h => absurd h e, fun _ => hq, q, hq, rfl⟩

private theorem resampleAll_spec (s : σ) (newZ : List K) (l : List (Tables σ K)) (h : (resampleAll s newZ l).2 = true) :
    ∀ css' ∈ (resampleAll s newZ l).1, ∀ p ∈ css', (p.1 = s → p.2.level = newZ) ∧
      (p.1 ≠ s → ∃ css ∈ l, p ∈ css) ∧ ∃ css ∈ l, ∃ q ∈ css, q.1 = p.1 := by
  induction l with
  | nil => simp [resampleAll]
  | cons css l ih =>
    rw [resampleAll] at h ⊢
    cases hr : resampleCss s newZ css with
    | error e => rw [hr] at h; cases h
    | ok c =>
      rw [hr] at h
      intro css' hc p hp
      rcases List.mem_cons.1 hc with rfl | hc
      · obtain ⟨h1, h2, q, hq, h3⟩ := resampleCss_spec s newZ css _ hr p hp
        exact ⟨h1, fun e => ⟨css, by simp, h2 e⟩, css, by simp, q, hq, h3⟩
      · obtain ⟨h1, h2, d, hd, h3⟩ := ih h css' hc p hp
        refine ⟨h1, fun e => ?_, d, by simp [hd], h3⟩
        obtain ⟨d', hd', h4⟩ := h2 e
        exact ⟨d', by simp [hd'], h4⟩

private theorem harmoniseSections_spec [FloorRing K] (ss : List σ) (hss : ss.Nodup) (l : List (Tables σ K))
    (h : (harmoniseSections ss l).2 = true) :
    (∀ s ∈ ss, ∃ g, ∀ css ∈ (harmoniseSections ss l).1, ∀ p ∈ css, p.1 = s → p.2.level = g) ∧
      (∀ css' ∈ (harmoniseSections ss l).1, ∀ p ∈ css', p.1 ∉ ss → ∃ css ∈ l, p ∈ css) ∧
      ∀ css' ∈ (harmoniseSections ss l).1, ∀ p ∈ css', ∃ css ∈ l, ∃ q ∈ css, q.1 = p.1 := by
  induction ss generalizing l with
  | nil => exact ⟨by simp, fun css hc p hp _ => ⟨css, hc, hp⟩, fun css hc p hp => ⟨css, hc, p, hp, rfl⟩⟩
  | cons s ss ih =>
    rw [List.nodup_cons] at hss
    rw [harmoniseSections] at h ⊢
    by_cases h1 : (harmoniseSection s l).2 = true
    · rw [if_pos h1] at h ⊢
      obtain ⟨i1, i2, i3⟩ := ih hss.2 _ h
      obtain ⟨g, hg⟩ : ∃ g, ∀ css' ∈ (harmoniseSection s l).1, ∀ p ∈ css', (p.1 = s → p.2.level = g) ∧
          (p.1 ≠ s → ∃ css ∈ l, p ∈ css) ∧ ∃ css ∈ l, ∃ q ∈ css, q.1 = p.1 := by
        unfold harmoniseSection at h1 ⊢
        cases hr : levelRange s l (10 ^ 20, -10 ^ 20) with
        | error e => rw [hr] at h1; cases h1
        | ok r =>
          rw [hr] at h1
          exact ⟨_, resampleAll_spec s _ l h1⟩
      refine ⟨fun s' hs' => ?_, fun css' hc p hp hn => ?_, fun css' hc p hp => ?_⟩
      · rcases List.mem_cons.1 hs' with rfl | hs'
        · refine ⟨g, fun css hc p hp e => ?_⟩
          obtain ⟨d, hd, hp'⟩ := i2 css hc p hp (by rw [e]; exact hss.1)
          exact (hg d hd p hp').1 e
        · exact i1 s' hs'
      · rw [List.mem_cons, not_or] at hn
        obtain ⟨d, hd, hp'⟩ := i2 css' hc p hp hn.2
        exact (hg d hd p hp').2.1 hn.1
      · obtain ⟨d, hd, q, hq, e⟩ := i3 css' hc p hp
        obtain ⟨d', hd', q', hq', e'⟩ := (hg d hd q hq).2.2
        exact ⟨d', hd', q', hq', e'.trans e⟩
    · rw [if_neg h1] at h
      exact absurd h h1

/-- C25. Whenever harmonising reports success, whatever the tables, all tables of a section have the same levels. -/
theorem C25_success_reported_rightly [FloorRing K] (l : List (Tables σ K)) (h : (harmonise l).2 = true)
    (css₁ css₂ : Tables σ K) (s : σ) (t₁ t₂ : FrictionTable K) (h₁ : css₁ ∈ (harmonise l).1) (h₂ : css₂ ∈ (harmonise l).1)
    (ht₁ : (s, t₁) ∈ css₁) (ht₂ : (s, t₂) ∈ css₂) : t₁.level = t₂.level := by
  obtain ⟨i1, _, i3⟩ := harmoniseSections_spec _ (nodup_npUnique _) l h
  obtain ⟨d, hd, q, hq, e⟩ := i3 css₁ h₁ _ ht₁
  obtain ⟨g, hg⟩ := i1 s (by
    rw [mem_npUnique]
    exact List.mem_flatMap.2 ⟨d, hd, List.mem_map.2 ⟨q, hq, e⟩⟩)
  rw [hg css₁ h₁ _ ht₁ rfl, hg css₂ h₂ _ ht₂ rfl]

/-- A table without levels: failure is reported. -/
example : (harmonise [[(1, ⟨[1, 2], [30, 40]⟩)], [(1, (⟨[], []⟩ : FrictionTable ℚ))]]).2 = false := by decide +kernel

/-- Two cross-sections that share section 1; the second also has section 2. -/
def twoTables : List (Tables Nat ℚ) :=
  [[(1, ⟨[1, 5 / 4], [30, 40]⟩)], [(1, ⟨[11 / 10, 13 / 10], [20, 40]⟩), (2, ⟨[2, 21 / 10], [50, 60]⟩)]]

/-- They meet the hypotheses. -/
example : (∀ css ∈ twoTables, (css.map (·.1)).Nodup) ∧ ∀ css ∈ twoTables, ∀ p ∈ css, WellFormedTable p.2 := by
  refine ⟨by decide +kernel, ?_⟩
  intro css hc p hp
  simp only [twoTables, List.mem_cons, List.not_mem_nil, or_false] at hc
  rcases hc with rfl | rfl <;> simp only [List.mem_cons, List.not_mem_nil, or_false] at hp
  · subst hp
    exact ⟨by simp, rfl, by decide +kernel⟩
  · rcases hp with rfl | rfl
    · exact ⟨by simp, rfl, by decide +kernel⟩
    · exact ⟨by simp, rfl, by decide +kernel⟩

/-- Three common levels for section 1. -/
example : harmonise twoTables =
    ([[(1, ⟨[1, 11 / 10, 12 / 10], [30, 34, 38]⟩)],
      [(1, ⟨[1, 11 / 10, 12 / 10], [20, 20, 30]⟩), (2, ⟨[2], [50]⟩)]], true) := by
  decide +kernel

/-! ## C74: roughness at a level -/

/-- C74 for water that rises in every map: reading the table at the level of a map gives the mean roughness of the wet
links at that map. Missing from the full property: histories in which the water falls
(`C74_falling_water_violated`). -/
theorem C74_rising_water_partial (areaFull : Option (Int → Option K)) (skip nMaps : Nat) (level : List K)
    (links : List (Link σ K)) (ts : List (σ × FrictionTable K))
    (h : buildRoughnessTables 0 areaFull skip nMaps level links = .ok ts) (hs : StrictlyIncreasing level)
    (s : σ) (t : FrictionTable K) (ht : (s, t) ∈ ts) (k : Nat) (z : K) (hz : level[k]? = some z) :
    t.interpolate [z] =
      .ok ⟨[z], [meanWet ((links.filter fun l => l.sect = s).map fun l => l.chezy (skip + k))]⟩ := by
  obtain ⟨_, _, h3⟩ := C22_table_of_means areaFull skip nMaps level links ts h
  obtain ⟨h4, h5, h6⟩ := h3 s t ht
  have hk := (List.getElem?_eq_some_iff.1 hz).1
  have := interp1_at t.level t.friction (h4 ▸ hs) (by rw [h4, h5]) k z _ (h4 ▸ hz) (h6 k hk)
  unfold FrictionTable.interpolate
  rw [List.map_cons, List.map_nil, this]
  rfl

/-- One link whose roughness changes with the maps. -/
def oneLink : List (Link Nat ℚ) := [⟨1, (0, 1), fun t => some ([30, 40, 20, 50].getD t 0)⟩]

/-- The hypotheses are met by rising water. -/
example : (match buildRoughnessTables 0 none 0 4 [2, 3, 4, 5] oneLink with
    | .ok ts => decide (ts = [(1, ⟨[2, 3, 4, 5], [30, 40, 20, 50]⟩)])
    | .error _ => false) = true ∧ StrictlyIncreasing ([2, 3, 4, 5] : List ℚ) := by
  refine ⟨by decide +kernel, ?_⟩
  unfold StrictlyIncreasing
  decide +kernel

/-- C74 is violated when the water falls: with levels 2, 3, 2.5 and 5 m the 2D roughness is 40 at level 3 m, reached
in one map only, but the table read at 3 m gives another value. -/
theorem C74_falling_water_violated :
    ∃ (level : List ℚ) (t : FrictionTable ℚ) (k : Nat) (z v : ℚ),
      buildRoughnessTables 0 none 0 4 level oneLink = .ok [(1, t)] ∧ level.Nodup ∧ level[k]? = some z ∧
      t.interpolate [z] = .ok ⟨[z], [v]⟩ ∧ v ≠ meanWet (oneLink.map fun l => l.chezy k) := by
  refine ⟨[2, 3, 5 / 2, 5], ⟨[2, 3, 5 / 2, 5], [30, 40, 20, 50]⟩, 1, 3, 26, ?_, by decide +kernel, rfl, ?_, ?_⟩
  · unfold buildRoughnessTables
    have : npUnique (oneLink.map (·.sect)) = [1] := by decide +kernel
    rw [this]
    unfold buildTablesFor sectionFriction FrictionTable.make
    simp only [buildTablesFor, if_pos]
    have : ((List.range (4 - 0)).map fun t => frictionSimple (oneLink.filter fun l => l.sect = 1) (0 + t)) =
        [30, 40, 20, 50] := by decide +kernel
    rw [this]
    rfl
  · unfold FrictionTable.interpolate
    have : allSome ([(3 : ℚ)].map (interp1 [2, 3, 5 / 2, 5] [30, 40, 20, 50])) = some [26] := by decide +kernel
    rw [this]
  · decide +kernel

/-! ## C75: harmonised tables are not empty -/

/-- C75 when the levels of the section differ: every harmonised table has a level. Missing from the full property:
sections with one level over all cross-sections (`C75_single_level_violated`). -/
theorem C75_not_empty_partial [FloorRing K] (l : List (Tables σ K)) (hn : ∀ css ∈ l, (css.map (·.1)).Nodup)
    (hwf : ∀ css ∈ l, ∀ p ∈ css, WellFormedTable p.2) (s : σ)
    (hdiff : ∃ x ∈ levelsOf s l, ∃ y ∈ levelsOf s l, x ≠ y) (css' : Tables σ K) (t' : FrictionTable K)
    (hc : css' ∈ (harmonise l).1) (ht : (s, t') ∈ css') : t'.level ≠ [] := by
  obtain ⟨_, h2, h3⟩ := C25_uniform_levels l hn hwf
  obtain ⟨i, hi⟩ := List.getElem?_of_mem hc
  obtain ⟨j, hj⟩ := List.getElem?_of_mem ht
  have hi' := congrArg (fun m => m[i]?) h2
  simp only [List.getElem?_map, hi, Option.map_some] at hi'
  obtain ⟨css, hcss, hk⟩ := Option.map_eq_some_iff.1 hi'.symm
  have hj' := congrArg (fun m => m[j]?) hk
  simp only [List.getElem?_map, hj, Option.map_some] at hj'
  obtain ⟨p, hp, _⟩ := Option.map_eq_some_iff.1 hj'
  obtain ⟨hs, _, lo, hi, h4, h5, h6⟩ := h3 i j css css' p.1 p.2 s t' hcss hi hp hj
  obtain ⟨x, hx, y, hy, hxy⟩ := hdiff
  subst hs
  have hlt : lo < hi := by
    rcases lt_or_gt_of_ne hxy with h | h
    · exact (h4.2 x hx).trans_lt (h.trans_le (h5.2 y hy))
    · exact (h4.2 y hy).trans_lt (h.trans_le (h5.2 x hx))
  have := (h6 0 lo).2 ⟨by simp, hlt⟩
  intro he
  rw [he] at this
  cases this

/-- C75 is violated when all tables of a section together have a single level: the tables become empty. -/
theorem C75_single_level_violated :
    ∃ l : List (Tables Nat ℚ), (∀ css ∈ l, ∀ p ∈ css, WellFormedTable p.2) ∧
      harmonise l = ([[(1, ⟨[], []⟩)], [(1, ⟨[], []⟩)]], true) := by
  refine ⟨[[(1, ⟨[2], [30]⟩)], [(1, ⟨[2], [40]⟩)]], ?_, by decide +kernel⟩
  intro css hc p hp
  simp only [List.mem_cons, List.not_mem_nil, or_false] at hc
  rcases hc with rfl | rfl <;> simp only [List.mem_cons, List.not_mem_nil, or_false] at hp <;> subst hp
  · exact ⟨by simp, rfl, by decide +kernel⟩
  · exact ⟨by simp, rfl, by decide +kernel⟩

/-- The hypotheses of the partial theorem are met. -/
example : ∃ x ∈ levelsOf 1 twoTables, ∃ y ∈ levelsOf 1 twoTables, x ≠ y := by
  refine ⟨1, by decide +kernel, 5 / 4, by decide +kernel, by norm_num⟩

end Fm2prof.Props

import Mathlib.Data.List.InsertIdx
import Mathlib.Data.List.Nodup
import Mathlib.Order.WithBot
import Mathlib.Tactic.Linarith
import Mathlib.Tactic.Ring
import Verif.Model.Simplify
import Verif.Spec.Simplify

/-! Loop invariant of the simplifier. -/

set_option linter.unusedSectionVars false

namespace Fm2prof

open Spec

variable {K : Type} [Field K] [LinearOrder K] [IsStrictOrderedRing K]

/-- Importance of point `i` according to the array `real`. -/
def impOf (real : List (WithTop K)) (i : Nat) : WithTop K := real.getD i ⊤

/-- Importance of `b` between `a` and `c`: the triangle area. -/
def triOf (pts : List (K × K)) (a b c : Nat) : WithTop K :=
  match pts[a]?, pts[b]?, pts[c]? with
  | some p, some q, some r => ((triangleArea p q r : K) : WithTop K)
  | _, _, _ => ⊤

/-- The shifted array that belongs to the live indices. -/
def areasOf (n : Nat) (live : List Nat) (real : List (WithTop K)) : List (WithTop K) :=
  live.map (impOf real) ++ List.replicate (n - live.length) ⊤

structure VWInv (n : Nat) (live : List Nat) (real : List (WithTop K)) : Prop where
  lenR : real.length = n
  lenL : live.length ≤ n
  two : 2 ≤ live.length
  nodup : live.Nodup
  bound : ∀ i ∈ live, i < n
  lastTop : ∀ i, live.getLast? = some i → impOf real i = ⊤
  headTop : ∀ i, live.head? = some i → impOf real i = ⊤
  fin : ∀ i ∈ interior live, impOf real i ≠ ⊤

theorem argmin_lt {l : List (WithTop K)} (h : l ≠ []) : argmin l < l.length := by
  unfold argmin
  rw [List.findIdx_lt_length]
  -- a minimum exists
  have : ∀ l : List (WithTop K), l ≠ [] → ∃ x ∈ l, ∀ y ∈ l, x ≤ y := by
    intro l
    induction l with
    | nil => intro h; exact absurd rfl h
    | cons a t ih =>
      intro _
      by_cases ht : t = []
      · subst ht; exact ⟨a, by simp, by simp⟩
      · obtain ⟨x, hx, hmin⟩ := ih ht
        rcases le_total a x with hax | hxa
        · exact ⟨a, by simp, by
            intro y hy
            rcases List.mem_cons.1 hy with rfl | hy
            · exact le_rfl
            · exact hax.trans (hmin y hy)⟩
        · exact ⟨x, by simp [hx], by
            intro y hy
            rcases List.mem_cons.1 hy with rfl | hy
            · exact hxa
            · exact hmin y hy⟩
  obtain ⟨x, hx, hmin⟩ := this l h
  exact ⟨x, hx, by simpa using hmin⟩

theorem argmin_le {l : List (WithTop K)} (h : l ≠ []) (y : WithTop K) (hy : y ∈ l) :
    l[argmin l]'(argmin_lt h) ≤ y := by
  have := List.findIdx_getElem (p := fun x => l.all fun y => decide (x ≤ y)) (xs := l) (w := argmin_lt h)
  simp at this
  exact this y hy

theorem argmin_first {l : List (WithTop K)} {j : Nat} (hj : j < argmin l) (hjl : j < l.length) :
    ∃ y ∈ l, y < l[j] := by
  have := List.not_of_lt_findIdx (p := fun x => l.all fun y => decide (x ≤ y)) hj
  simpa using this

theorem areasOf_length {n : Nat} {live : List Nat} {real : List (WithTop K)} (h : live.length ≤ n) :
    (areasOf n live real).length = n := by
  simp [areasOf]; omega

theorem areasOf_getElem?_lt {n : Nat} {live : List Nat} {real : List (WithTop K)} {k : Nat}
    (h : k < live.length) : (areasOf n live real)[k]? = some (impOf real live[k]) := by
  unfold areasOf
  rw [List.getElem?_append_left (by simpa using h)]
  simp [h]

theorem areasOf_getElem?_ge {n : Nat} {live : List Nat} {real : List (WithTop K)} {k : Nat}
    (h : live.length ≤ k) (hk : k < n) : (areasOf n live real)[k]? = some ⊤ := by
  unfold areasOf
  rw [List.getElem?_append_right (by simpa using h), List.getElem?_replicate, if_pos (by simp; omega)]

theorem areasOf_getLast? {n : Nat} {live : List Nat} {real : List (WithTop K)} (h : VWInv n live real) :
    (areasOf n live real).getLast? = some ⊤ := by
  have hn : 0 < n := by have := h.two; have := h.lenL; omega
  rw [List.getLast?_eq_getElem?, areasOf_length h.lenL]
  rcases Nat.lt_or_ge (n - 1) live.length with hlt | hge
  · rw [areasOf_getElem?_lt hlt]
    have : live.getLast? = some live[n - 1] := by
      rw [List.getLast?_eq_getElem?]
      have : live.length - 1 = n - 1 := by have := h.lenL; omega
      rw [this, List.getElem?_eq_getElem hlt]
    rw [h.lastTop _ this]
  · exact areasOf_getElem?_ge hge (by omega)

theorem shiftOut_areasOf {n : Nat} {live : List Nat} {real : List (WithTop K)} (h : VWInv n live real)
    {mv : Nat} (hmv : mv < live.length) :
    shiftOut (areasOf n live real) mv = areasOf n (live.eraseIdx mv) real := by
  unfold shiftOut
  rw [areasOf_getLast? h, areasOf_length h.lenL]
  have hl := h.lenL
  simp only [if_pos (show mv < n by omega)]
  unfold areasOf
  rw [List.eraseIdx_append_of_lt_length (by simpa using hmv), List.eraseIdx_map, List.append_assoc]
  congr 1
  rw [List.length_eraseIdx_of_lt hmv]
  have : n - (live.length - 1) = (n - live.length) + 1 := by omega
  rw [this, List.replicate_succ']

theorem impOf_set {real : List (WithTop K)} {i : Nat} (hi : i < real.length) (a : WithTop K) :
    impOf (real.set i a) = fun x => if x = i then a else impOf real x := by
  funext x
  unfold impOf
  simp only [List.getD_eq_getElem?_getD, List.getElem?_set]
  by_cases h : i = x
  · subst h; simp [hi]
  · simp [h, Ne.symm h]

theorem areasOf_set {n : Nat} {live : List Nat} {real : List (WithTop K)} (hnd : live.Nodup)
    {k i : Nat} (hk : live[k]? = some i) (hi : i < real.length) (a : WithTop K) :
    (areasOf n live real).set k a = areasOf n live (real.set i a) := by
  have hkl : k < live.length := by
    rcases Nat.lt_or_ge k live.length with h | h
    · exact h
    · rw [List.getElem?_eq_none h] at hk; simp at hk
  have hik : live[k] = i := by rw [List.getElem?_eq_getElem hkl] at hk; simpa using hk
  unfold areasOf
  rw [List.set_append_left _ _ (by simpa using hkl)]
  congr 1
  apply List.ext_getElem?
  intro j
  rw [List.getElem?_set, impOf_set hi]
  simp only [List.length_map, hkl, if_true, List.getElem?_map]
  by_cases hj : k = j
  · subst hj; simp [hk]
  · simp only [hj, if_false]
    cases hx : live[j]? with
    | none => rfl
    | some x =>
      have hjl : j < live.length := by
        rcases Nat.lt_or_ge j live.length with h | h
        · exact h
        · rw [List.getElem?_eq_none h] at hx; simp at hx
      have : x ≠ i := by
        rintro rfl
        rw [List.getElem?_eq_getElem hjl] at hx
        have h1 : live[j] = live[k] := by rw [hik]; simpa using hx
        exact hj ((List.Nodup.getElem_inj_iff hnd).1 h1).symm
      simp [this]

theorem interior_split (pre : List Nat) (a b c : Nat) (post : List Nat) :
    ∀ x, x ∈ interior (pre ++ a :: b :: c :: post) ↔
      x = b ∨ x ∈ interior (pre ++ a :: c :: post) := by
  intro x
  unfold interior
  cases pre with
  | nil =>
    cases post with
    | nil => simp
    | cons q qs => simp [List.dropLast_cons_of_ne_nil]
  | cons p ps =>
    simp only [List.cons_append, List.tail_cons]
    cases post with
    | nil =>
      have h1 : (ps ++ [a, b, c]).dropLast = ps ++ [a, b] := by
        rw [show ps ++ [a, b, c] = (ps ++ [a, b]) ++ [c] by simp, List.dropLast_concat]
      have h2 : (ps ++ [a, c]).dropLast = ps ++ [a] := by
        rw [show ps ++ [a, c] = (ps ++ [a]) ++ [c] by simp, List.dropLast_concat]
      rw [h1, h2]; simp; tauto
    | cons q qs =>
      rw [List.dropLast_append_of_ne_nil (by simp), List.dropLast_append_of_ne_nil (by simp)]
      simp [List.dropLast_cons_of_ne_nil]; tauto

theorem mem_interior_of_split (pre : List Nat) (a c : Nat) (post : List Nat) :
    (a ∈ interior (pre ++ a :: c :: post) ∨ pre = []) ∧
    (c ∈ interior (pre ++ a :: c :: post) ∨ post = []) := by
  unfold interior
  constructor
  · cases pre with
    | nil => right; rfl
    | cons p ps =>
      left
      simp only [List.cons_append, List.tail_cons]
      rw [List.dropLast_append_of_ne_nil (by simp)]
      simp [List.dropLast_cons_of_ne_nil]
  · cases post with
    | nil => right; rfl
    | cons q qs =>
      left
      cases pre with
      | nil => simp [List.dropLast_cons_of_ne_nil]
      | cons p ps =>
        simp only [List.cons_append, List.tail_cons]
        rw [List.dropLast_append_of_ne_nil (by simp)]
        simp [List.dropLast_cons_of_ne_nil]

theorem mem_of_mem_interior {l : List Nat} {x : Nat} (h : x ∈ interior l) : x ∈ l :=
  List.mem_of_mem_tail (List.dropLast_subset _ h)

theorem interior_not_end {l : List Nat} (hnd : l.Nodup) {x : Nat} (h : x ∈ interior l) :
    l.head? ≠ some x ∧ l.getLast? ≠ some x := by
  unfold interior at h
  cases l with
  | nil => simp at h
  | cons a t =>
    simp only [List.tail_cons] at h
    have hxt : x ∈ t := List.dropLast_subset _ h
    have ht : t ≠ [] := by rintro rfl; simp at hxt
    refine ⟨?_, ?_⟩
    · simp only [List.head?_cons, ne_eq, Option.some.injEq]
      rintro rfl
      exact (List.nodup_cons.1 hnd).1 hxt
    · intro hl
      have : t.getLast? = some x := by
        cases t with
        | nil => exact absurd rfl ht
        | cons b bs => simpa [List.getLast?_cons_cons] using hl
      have hnd' := (List.nodup_cons.1 hnd).2
      have hlast : t.getLast ht = x := by
        rw [List.getLast?_eq_getLast_of_ne_nil ht] at this; simpa using this
      rw [← List.dropLast_append_getLast ht, hlast] at hnd'
      rw [List.nodup_append] at hnd'
      exact hnd'.2.2 x h x (by simp) rfl

/-- The code's formula is the triangle area. -/
theorem triangleArea_eq (p q r : K × K) : triangleArea p q r = triArea p q r := by
  unfold triangleArea triArea
  congr 2
  ring

theorem triOf_eq_importance (pts : List (K × K)) : triOf pts = importance pts := by
  funext a b c
  unfold triOf importance
  cases pts[a]? <;> cases pts[b]? <;> cases pts[c]? <;> simp [triangleArea_eq]

theorem triOf_ne_top {pts : List (K × K)} {a b c : Nat} (ha : a < pts.length) (hb : b < pts.length)
    (hc : c < pts.length) : triOf pts a b c ≠ ⊤ := by
  simp [triOf, ha, hb, hc]

/-- `max` written as the code writes it. -/
theorem ite_le_eq_max (a t : WithTop K) : (if a ≤ t then t else a) = max a t := by
  rcases le_or_gt a t with h | h
  · simp [h]
  · simp [not_le.2 h, h.le]

theorem getElem?_split_a (pre : List Nat) (a c : Nat) (post : List Nat) :
    (pre ++ a :: c :: post)[pre.length]? = some a := by simp
theorem getElem?_split_c (pre : List Nat) (a c : Nat) (post : List Nat) :
    (pre ++ a :: c :: post)[pre.length + 1]? = some c := by
  rw [List.getElem?_append_right (by omega)]; simp
theorem getElem?_split_q (pre : List Nat) (a c : Nat) (post : List Nat) :
    (pre ++ a :: c :: post)[pre.length + 1 + 1]? = post.head? := by
  rw [List.getElem?_append_right (by omega)]
  have : pre.length + 1 + 1 - pre.length = 2 := by omega
  rw [this]; simp [List.head?_eq_getElem?]

/-- Effect of the update after removing a point between `a` and `c`. -/
theorem vwUpdate_spec (pts : List (K × K)) (n : Nat) (hn : n = pts.length)
    (real : List (WithTop K)) (hR : real.length = n) (pre : List Nat) (a c : Nat) (post : List Nat)
    (hnd : (pre ++ a :: c :: post).Nodup) (hb : ∀ i ∈ pre ++ a :: c :: post, i < n) (t : WithTop K) :
    ∃ real' skip, vwUpdate pts
        { areas := areasOf n (pre ++ a :: c :: post) real, live := pre ++ a :: c :: post, real := real,
          minVert := pre.length + 1, thisArea := t } =
      .ok (areasOf n (pre ++ a :: c :: post) real', real', skip) ∧ real'.length = n ∧
      impOf real' = reweigh (triOf pts) (impOf real) t pre a c post ∧
      (skip = none ∨ (skip = some (pre.length + 1) ∧ post ≠ [] ∧ impOf real' c = t) ∨
        (skip = some pre.length ∧ pre ≠ [] ∧ impOf real' a = t)) := by
  have hac : a ≠ c := by
    intro h; subst h
    have := (List.nodup_append.1 hnd).2.1
    simp at this
  have han : a < n := hb a (by simp)
  have hcn : c < n := hb c (by simp)
  -- right neighbour
  have hright : ∃ real₁ skip₁,
      vwRight pts
        { areas := areasOf n (pre ++ a :: c :: post) real, live := pre ++ a :: c :: post, real := real,
          minVert := pre.length + 1, thisArea := t } =
        (areasOf n (pre ++ a :: c :: post) real₁, real₁, skip₁) ∧ real₁.length = n ∧
      impOf real₁ = (fun x => if x = c then
          (match post.head? with | some q => max (triOf pts a c q) t | none => impOf real c)
        else impOf real x) ∧
      (skip₁ = none ∨ (skip₁ = some (pre.length + 1) ∧ post ≠ [] ∧ impOf real₁ c = t)) := by
    unfold vwRight
    cases post with
    | nil =>
      have : vwRightArea pts (pre ++ [a, c]) (pre.length + 1) = none := by
        have h2 := getElem?_split_q pre a c []
        unfold vwRightArea
        simp only [Nat.add_sub_cancel, h2, List.head?_nil]
        simp [hn ▸ han, hn ▸ hcn]
      simp only [this]
      refine ⟨real, none, rfl, hR, ?_, Or.inl rfl⟩
      funext x
      by_cases h : x = c
      · subst h; simp
      · simp [h]
    | cons q qs =>
      have hqn : q < n := hb q (by simp)
      have : vwRightArea pts (pre ++ a :: c :: q :: qs) (pre.length + 1) =
          some (c, triangleArea pts[a] pts[c] pts[q]) := by
        have h2 := getElem?_split_q pre a c (q :: qs)
        have h1 := getElem?_split_c pre a c (q :: qs)
        have h0 := getElem?_split_a pre a c (q :: qs)
        unfold vwRightArea
        simp only [Nat.add_sub_cancel, h2, h1, h0, List.head?_cons]
        simp [hn ▸ han, hn ▸ hcn, hn ▸ hqn]
      simp only [this]
      have htri : triOf pts a c q = ((triangleArea pts[a] pts[c] pts[q] : K) : WithTop K) := by
        simp [triOf, hn ▸ han, hn ▸ hcn, hn ▸ hqn]
      set x := ((triangleArea pts[a] pts[c] pts[q] : K) : WithTop K) with hx
      have hset : ∀ v, (areasOf n (pre ++ a :: c :: q :: qs) real).set (pre.length + 1) v =
          areasOf n (pre ++ a :: c :: q :: qs) (real.set c v) := fun v =>
        areasOf_set hnd (getElem?_split_c pre a c (q :: qs)) (by omega) v
      have himp : ∀ v, impOf (real.set c v) = fun y => if y = c then v else impOf real y := fun v =>
        impOf_set (by omega) v
      by_cases hle : x ≤ t
      · simp only [hle, if_true]
        refine ⟨real.set c t, some (pre.length + 1), by rw [hset], by simpa using hR, ?_, ?_⟩
        · rw [himp]
          funext y
          by_cases h : y = c
          · subst h; simp [htri, hle]
          · simp [h]
        · right
          exact ⟨rfl, by simp, by rw [himp]; simp⟩
      · simp only [hle, if_false]
        refine ⟨real.set c x, none, by rw [hset], by simpa using hR, ?_, Or.inl rfl⟩
        rw [himp]
        funext y
        by_cases h : y = c
        · subst h; simp [htri, (not_le.1 hle).le]
        · simp [h]
  obtain ⟨real₁, skip₁, he, hR₁, himp₁, hskip₁⟩ := hright
  unfold vwUpdate
  simp only
  rw [he]
  simp only
  rcases List.eq_nil_or_concat pre with hpre | ⟨ps, p, hpre⟩
  · subst hpre
    simp only [List.length_nil, Nat.zero_add, lt_irrefl, if_false]
    refine ⟨real₁, skip₁, rfl, hR₁, ?_, ?_⟩
    · rw [himp₁]
      funext x
      unfold reweigh
      by_cases hxa : x = a
      · subst hxa; simp [hac]
      · simp only [hxa, if_false]; cases post <;> rfl
    · rcases hskip₁ with h | h
      · exact Or.inl h
      · exact Or.inr (Or.inl (by simpa using h))
  · have hpl : 1 < pre.length + 1 := by rw [hpre]; simp
    simp only [hpl, if_true]
    have hpn : p < n := hb p (by rw [hpre]; simp)
    have hleft : vwLeftArea pts (pre ++ a :: c :: post) (pre.length + 1) =
        .ok (a, triangleArea pts[p] pts[a] pts[c]) := by
      have h1 := getElem?_split_c pre a c post
      have h0 := getElem?_split_a pre a c post
      have hm : (pre ++ a :: c :: post)[pre.length + 1 - 2]? = some p := by
        rw [List.getElem?_append_left (by rw [hpre]; simp)]
        rw [hpre]; simp
      unfold vwLeftArea
      simp only [Nat.add_sub_cancel, h1, h0, hm]
      simp [hn ▸ han, hn ▸ hcn, hn ▸ hpn]
    simp only [hleft]
    have htri : triOf pts p a c = ((triangleArea pts[p] pts[a] pts[c] : K) : WithTop K) := by
      simp [triOf, hn ▸ han, hn ▸ hcn, hn ▸ hpn]
    have hgl : pre.getLast? = some p := by rw [hpre]; simp
    set x := ((triangleArea pts[p] pts[a] pts[c] : K) : WithTop K) with hx
    have hset : ∀ v, (areasOf n (pre ++ a :: c :: post) real₁).set (pre.length + 1 - 1) v =
        areasOf n (pre ++ a :: c :: post) (real₁.set a v) := fun v =>
      areasOf_set hnd (by simp) (by omega) v
    have himp : ∀ v, impOf (real₁.set a v) = fun y => if y = a then v else impOf real₁ y := fun v =>
      impOf_set (by omega) v
    have hfinal : impOf (real₁.set a (max x t)) = reweigh (triOf pts) (impOf real) t pre a c post := by
      rw [himp, himp₁]
      funext y
      unfold reweigh
      by_cases hya : y = a
      · subst hya; simp [hgl, htri]
      · simp only [hya, if_false]; cases post <;> rfl
    have hprene : pre ≠ [] := by rw [hpre]; simp
    by_cases hle : x ≤ t
    · simp only [hle, if_true]
      refine ⟨real₁.set a t, some pre.length, by rw [hset]; simp, by simpa using hR₁, ?_, ?_⟩
      · rw [← hfinal, max_eq_right hle]
      · right; right
        exact ⟨rfl, hprene, by rw [himp]; simp⟩
    · simp only [hle, if_false]
      refine ⟨real₁.set a x, skip₁, by rw [hset], by simpa using hR₁, ?_, ?_⟩
      · rw [← hfinal, max_eq_left (not_le.1 hle).le]
      · rcases hskip₁ with h | ⟨h1, h2, h3⟩
        · exact Or.inl h
        · exact Or.inr (Or.inl ⟨h1, h2, by rw [himp]; simp [Ne.symm hac, h3]⟩)

/-- `skip` points to a least important interior position. -/
def SkipOk (live : List Nat) (real : List (WithTop K)) (skip : Option Nat) : Prop :=
  ∀ k, skip = some k → ∃ pre a b c post, live = pre ++ a :: b :: c :: post ∧ k = pre.length + 1 ∧
    ∀ x ∈ interior live, impOf real b ≤ impOf real x

/-- A position that is neither first nor last splits the list. -/
theorem split_at_interior (live : List Nat) (k : Nat) (h1 : 1 ≤ k) (h2 : k + 1 < live.length) :
    ∃ pre a b c post, live = pre ++ a :: b :: c :: post ∧ k = pre.length + 1 := by
  obtain ⟨j, rfl⟩ : ∃ j, k = j + 1 := ⟨k - 1, by omega⟩
  refine ⟨live.take j, live[j], live[j + 1], live[j + 2], live.drop (j + 3), ?_, ?_⟩
  · conv_lhs => rw [← List.take_append_drop j live]
    congr 1
    rw [List.drop_eq_getElem_cons (by omega), List.drop_eq_getElem_cons (by omega),
      List.drop_eq_getElem_cons (by omega)]
  · simp; omega

/-- The choice always hits a least important interior point. -/
theorem choose_interior {n : Nat} {live : List Nat} {real : List (WithTop K)} (h : VWInv n live real)
    (h3 : 3 ≤ live.length) (skip : Option Nat) (hs : SkipOk live real skip) :
    ∃ pre a b c post, live = pre ++ a :: b :: c :: post ∧
      (∀ x ∈ interior live, impOf real b ≤ impOf real x) ∧ impOf real b ≠ ⊤ ∧
      vwChoose (areasOf n live real) live real skip =
        .ok { areas := areasOf n (pre ++ a :: c :: post) real, live := pre ++ a :: c :: post, real := real,
              minVert := pre.length + 1, thisArea := impOf real b } := by
  -- position chosen
  have key : ∃ pre a b c post, live = pre ++ a :: b :: c :: post ∧
      vwPick (areasOf n live real) skip = pre.length + 1 ∧
      ∀ x ∈ interior live, impOf real b ≤ impOf real x := by
    have harg : ∃ pre a b c post, live = pre ++ a :: b :: c :: post ∧
        argmin (areasOf n live real) = pre.length + 1 ∧
        ∀ x ∈ interior live, impOf real b ≤ impOf real x := by
      have hne : areasOf n live real ≠ [] := by
        intro he
        have := areasOf_length (real := real) h.lenL
        rw [he] at this; simp at this
        have := h.lenL; omega
      have hlt := argmin_lt hne
      set k := argmin (areasOf n live real) with hk
      rw [areasOf_length h.lenL] at hlt
      -- an interior element is finite
      obtain ⟨x, hx⟩ : ∃ x, x ∈ interior live := by
        have : 0 < (interior live).length := by simp [interior]; omega
        exact ⟨(interior live)[0], List.getElem_mem _⟩
      have hmemA : ∀ y ∈ live, impOf real y ∈ areasOf n live real := by
        intro y hy; unfold areasOf; simp only [List.mem_append, List.mem_map]; exact Or.inl ⟨y, hy, rfl⟩
      have hmin : ∀ y ∈ live, (areasOf n live real)[k]'(by rw [areasOf_length h.lenL]; exact hlt) ≤
          impOf real y := fun y hy => argmin_le hne _ (hmemA y hy)
      have hfin : (areasOf n live real)[k]'(by rw [areasOf_length h.lenL]; exact hlt) ≠ ⊤ := by
        intro ht
        have h1 := hmin x (mem_of_mem_interior hx)
        rw [ht, top_le_iff] at h1
        exact h.fin x hx h1
      have hkl : k < live.length := by
        rcases Nat.lt_or_ge k live.length with h' | h'
        · exact h'
        · exfalso
          have := areasOf_getElem?_ge (real := real) h' hlt
          rw [List.getElem?_eq_getElem (by rw [areasOf_length h.lenL]; exact hlt)] at this
          exact hfin (by simpa using this)
      have hval : (areasOf n live real)[k]'(by rw [areasOf_length h.lenL]; exact hlt) =
          impOf real live[k] := by
        have := areasOf_getElem?_lt (n := n) (real := real) hkl
        rw [List.getElem?_eq_getElem (by rw [areasOf_length h.lenL]; exact hlt)] at this
        simpa using this
      have hk1 : 1 ≤ k := by
        rcases Nat.eq_zero_or_pos k with h0 | h0
        · exfalso
          apply hfin
          rw [hval]
          apply h.headTop
          rw [List.head?_eq_getElem?]
          simp [h0]
        · exact h0
      have hk2 : k + 1 < live.length := by
        rcases Nat.lt_or_ge (k + 1) live.length with h' | h'
        · exact h'
        · exfalso
          apply hfin
          rw [hval]
          apply h.lastTop
          rw [List.getLast?_eq_getElem?]
          have : live.length - 1 = k := by omega
          rw [this, List.getElem?_eq_getElem hkl]
      obtain ⟨pre, a, b, c, post, hl, hkp⟩ := split_at_interior live k hk1 hk2
      refine ⟨pre, a, b, c, post, hl, hkp, ?_⟩
      intro y hy
      have hb : live[k] = b := by
        have : live[k]? = some b := by
          rw [hl, hkp, List.getElem?_append_right (by omega)]; simp
        rw [List.getElem?_eq_getElem hkl] at this; simpa using this
      have := hmin y (mem_of_mem_interior hy)
      rwa [hval, hb] at this
    cases skip with
    | none => exact harg
    | some k =>
      cases k with
      | zero =>
        obtain ⟨pre, a, b, c, post, _, hk, _⟩ := hs 0 rfl
        omega
      | succ k =>
        obtain ⟨pre, a, b, c, post, hl, hk, hm⟩ := hs (k + 1) rfl
        exact ⟨pre, a, b, c, post, hl, hk, hm⟩
  obtain ⟨pre, a, b, c, post, hl, hmv, hm⟩ := key
  have hbint : b ∈ interior live := by rw [hl, interior_split]; exact Or.inl rfl
  refine ⟨pre, a, b, c, post, hl, hm, h.fin b hbint, ?_⟩
  unfold vwChoose
  rw [hmv]
  have hlt : pre.length + 1 < live.length := by rw [hl]; simp
  have hlb : live[pre.length + 1]? = some b := by
    rw [hl, List.getElem?_append_right (by omega)]; simp
  have hlb' : live[pre.length + 1] = b := by
    rw [List.getElem?_eq_getElem hlt] at hlb; simpa using hlb
  rw [areasOf_getElem?_lt hlt, hlb, hlb']
  simp only
  have herase : live.eraseIdx (pre.length + 1) = pre ++ a :: c :: post := by
    rw [hl, List.eraseIdx_append_of_length_le (by omega)]
    simp
  rw [shiftOut_areasOf h hlt, herase]

/-- The invariant after removing `b` and updating the neighbours. -/
theorem VWInv.step {pts : List (K × K)} {n : Nat} (hn : n = pts.length) {pre : List Nat} {a b c : Nat}
    {post : List Nat} {real real' : List (WithTop K)} (h : VWInv n (pre ++ a :: b :: c :: post) real)
    (hR' : real'.length = n)
    (himp : impOf real' = reweigh (triOf pts) (impOf real) (impOf real b) pre a c post) :
    VWInv n (pre ++ a :: c :: post) real' := by
  have hsub : (pre ++ a :: c :: post).Sublist (pre ++ a :: b :: c :: post) := by
    refine List.Sublist.append (List.Sublist.refl _) ?_
    exact List.Sublist.cons_cons _ (List.Sublist.cons _ (List.Sublist.refl _))
  have hnd' := h.nodup.sublist hsub
  have hbound : ∀ i ∈ pre ++ a :: c :: post, i < n := fun i hi => h.bound i (hsub.subset hi)
  have hac : a ≠ c := by
    intro h'; subst h'
    have := (List.nodup_append.1 hnd').2.1
    simp at this
  have hbfin : impOf real b ≠ ⊤ := h.fin b (by rw [interior_split]; exact Or.inl rfl)
  refine ⟨hR', ?_, by simp; omega, hnd', hbound, ?_, ?_, ?_⟩
  · exact hsub.length_le.trans h.lenL
  · -- last
    intro i hi
    have hi' : (pre ++ a :: b :: c :: post).getLast? = some i := by
      simpa [List.getLast?_append, List.getLast?_cons_cons] using hi
    have hold := h.lastTop i hi'
    rw [himp]
    unfold reweigh
    have hia : i ≠ a := by
      rintro rfl
      have : (c :: post).getLast? = some i := by
        simpa [List.getLast?_append, List.getLast?_cons_cons] using hi
      have hmem : i ∈ c :: post := List.mem_of_getLast? this
      have := (List.nodup_append.1 hnd').2.1
      rw [List.nodup_cons] at this
      exact this.1 hmem
    rw [if_neg hia]
    split
    · rename_i hic
      subst hic
      cases post with
      | nil => simpa using hold
      | cons q qs =>
        exfalso
        have : (q :: qs).getLast? = some i := by
          simpa [List.getLast?_append, List.getLast?_cons_cons] using hi
        have hmem : i ∈ q :: qs := List.mem_of_getLast? this
        have := (List.nodup_append.1 hnd').2.1
        rw [List.nodup_cons, List.nodup_cons] at this
        exact this.2.1 hmem
    · exact hold
  · -- head
    intro i hi
    rw [himp]
    unfold reweigh
    cases pre with
    | nil =>
      have hia : a = i := by simpa using hi
      subst hia
      have hold := h.headTop a (by simp)
      simp [hold]
    | cons p ps =>
      have hia : p = i := by simpa using hi
      subst hia
      have hold := h.headTop p (by simp)
      have hpa : p ≠ a := by
        rintro rfl
        simp at hnd'
      have hpc : p ≠ c := by
        rintro rfl
        simp at hnd'
      simp [hpa, hpc, hold]
  · intro i hi
    rw [himp]
    unfold reweigh
    have hold : impOf real i ≠ ⊤ := h.fin i (by rw [interior_split]; exact Or.inr hi)
    split
    · rename_i hia
      subst hia
      cases hg : pre.getLast? with
      | none => exact hold
      | some p =>
        have hp : p ∈ pre := List.mem_of_getLast? hg
        have := triOf_ne_top (pts := pts) (a := p) (b := i) (c := c) (hn ▸ hbound p (by simp [hp]))
          (hn ▸ hbound i (by simp)) (hn ▸ hbound c (by simp))
        simp only
        rw [ne_eq, max_eq_top, not_or]
        exact ⟨this, hbfin⟩
    · split
      · rename_i hic
        subst hic
        cases hg : post.head? with
        | none => exact hold
        | some q =>
          have hq : q ∈ post := List.mem_of_head? hg
          have := triOf_ne_top (pts := pts) (a := a) (b := i) (c := q) (hn ▸ hbound a (by simp))
            (hn ▸ hbound i (by simp)) (hn ▸ hbound q (by simp [hq]))
          simp only
          rw [ne_eq, max_eq_top, not_or]
          exact ⟨this, hbfin⟩
      · exact hold

/-- All importances left after a removal are at least that of the removed point. -/
theorem reweigh_ge {tri : Nat → Nat → Nat → WithTop K} {imp : Nat → WithTop K} {pre : List Nat} {a b c : Nat}
    {post : List Nat} (hmin : ∀ x ∈ interior (pre ++ a :: b :: c :: post), imp b ≤ imp x) :
    ∀ x ∈ interior (pre ++ a :: c :: post), imp b ≤ reweigh tri imp (imp b) pre a c post x := by
  intro x hx
  have hold := hmin x (by rw [interior_split]; exact Or.inr hx)
  unfold reweigh
  split
  · rename_i h; subst h
    split
    · exact le_max_right _ _
    · exact hold
  · split
    · rename_i h; subst h
      split
      · exact le_max_right _ _
      · exact hold
    · exact hold

/-- Main induction: from any consistent state the computation ends, and performs an elimination. -/
theorem choose_loop (pts : List (K × K)) (n : Nat) (hn : n = pts.length) (m : Nat) :
    ∀ (live : List Nat) (real : List (WithTop K)) (skip : Option Nat) (fuel : Nat),
      live.length = m + 2 → VWInv n live real → SkipOk live real skip → m ≤ fuel →
      ∃ s th order, vwChoose (areasOf n live real) live real skip = .ok s ∧
        vwLoop pts fuel s = .ok th ∧ th.length = n ∧
        Elimination (triOf pts) live (impOf real) order (impOf th) := by
  induction m with
  | zero =>
    intro live real skip fuel hlen hinv hskip _
    have hsk : skip = none := by
      cases skip with
      | none => rfl
      | some k =>
        obtain ⟨pre, a, b, c, post, hl, _⟩ := hskip k rfl
        rw [hl] at hlen; simp at hlen; omega
    subst hsk
    have hn2 : 2 ≤ n := by have := hinv.lenL; omega
    have h0 : (areasOf n live real)[0]? = some ⊤ := by
      rw [areasOf_getElem?_lt (by omega)]
      congr 1
      apply hinv.headTop
      rw [List.head?_eq_getElem?, List.getElem?_eq_getElem (by omega)]
    have harg : argmin (areasOf n live real) = 0 := by
      rcases Nat.eq_zero_or_pos (argmin (areasOf n live real)) with h | h
      · exact h
      · exfalso
        obtain ⟨y, hy, hlt⟩ := argmin_first h (by rw [areasOf_length hinv.lenL]; omega)
        rw [List.getElem?_eq_getElem (by rw [areasOf_length hinv.lenL]; omega)] at h0
        have h0' : (areasOf n live real)[0]'(by rw [areasOf_length hinv.lenL]; omega) = ⊤ := by simpa using h0
        rw [h0'] at hlt
        -- every entry is infinite
        unfold areasOf at hy
        rw [List.mem_append] at hy
        rcases hy with hy | hy
        · rw [List.mem_map] at hy
          obtain ⟨i, hi, rfl⟩ := hy
          obtain ⟨u, v, rfl⟩ := List.length_eq_two.1 hlen
          have hi' : i = u ∨ i = v := by simpa using hi
          rcases hi' with rfl | rfl
          · rw [hinv.headTop i (by simp)] at hlt; exact lt_irrefl _ hlt
          · rw [hinv.lastTop i (by simp)] at hlt; exact lt_irrefl _ hlt
        · rw [List.eq_of_mem_replicate hy] at hlt
          exact lt_irrefl _ hlt
    have hl0 : ∃ i, live[0]? = some i := ⟨live[0], List.getElem?_eq_getElem (by omega)⟩
    obtain ⟨i, hi⟩ := hl0
    refine ⟨⟨shiftOut (areasOf n live real) 0, live.eraseIdx 0, real, 0, ⊤⟩, real, [], ?_, ?_, hinv.lenR, Elimination.done (by omega)⟩
    · unfold vwChoose
      simp only [vwPick, harg, hi, h0]
    · unfold vwLoop
      simp
  | succ m ih =>
    intro live real skip fuel hlen hinv hskip hfuel
    obtain ⟨pre, a, b, c, post, hl, hmin, hfin, hch⟩ := choose_interior hinv (by omega) skip hskip
    subst hl
    have hsub : (pre ++ a :: c :: post).Sublist (pre ++ a :: b :: c :: post) := by
      refine List.Sublist.append (List.Sublist.refl _) ?_
      exact List.Sublist.cons_cons _ (List.Sublist.cons _ (List.Sublist.refl _))
    have hnd' := hinv.nodup.sublist hsub
    obtain ⟨real', skip', hup, hR', himp, hsk'⟩ := vwUpdate_spec pts n hn real hinv.lenR pre a c post hnd'
      (fun i hi => hinv.bound i (hsub.subset hi)) (impOf real b)
    have hinv' := VWInv.step hn hinv hR' himp
    have hge := reweigh_ge (tri := triOf pts) (imp := impOf real) hmin
    have hskok : SkipOk (pre ++ a :: c :: post) real' skip' := by
      intro k hk
      rcases hsk' with h | ⟨h, hpost, hval⟩ | ⟨h, hpre, hval⟩
      · rw [h] at hk; simp at hk
      · rw [h] at hk
        obtain rfl : pre.length + 1 = k := by simpa using hk
        cases post with
        | nil => exact absurd rfl hpost
        | cons q qs =>
          refine ⟨pre, a, c, q, qs, rfl, rfl, ?_⟩
          intro x hx
          rw [hval, himp]
          exact hge x hx
      · rw [h] at hk
        obtain rfl : pre.length = k := by simpa using hk
        rcases List.eq_nil_or_concat pre with h' | ⟨ps, p, h'⟩
        · exact absurd h' hpre
        · refine ⟨ps, p, a, c, post, by rw [h']; simp, by rw [h']; simp, ?_⟩
          intro x hx
          rw [hval, himp]
          exact hge x hx
    obtain ⟨fuel, rfl⟩ : ∃ f, fuel = f + 1 := ⟨fuel - 1, by omega⟩
    obtain ⟨s, th, order, hc, hloop, hth, helim⟩ := ih (pre ++ a :: c :: post) real' skip' fuel
      (by simp at hlen ⊢; omega) hinv' hskok (by omega)
    refine ⟨_, th, b :: order, hch, ?_, hth, ?_⟩
    · unfold vwLoop
      simp only [lt_top_iff_ne_top, ne_eq, hfin, not_false_eq_true, if_true]
      rw [hup]
      simp only
      rw [hc]
      exact hloop
    · refine Elimination.remove hmin ?_
      rw [← himp]
      exact helim

theorem interiorAreas_length (pts : List (K × K)) : (interiorAreas pts).length = pts.length - 2 := by
  match pts with
  | [] => rfl
  | [_] => rfl
  | [_, _] => rfl
  | p :: q :: r :: ps =>
    have := interiorAreas_length (q :: r :: ps)
    simp only [interiorAreas, List.length_cons] at this ⊢
    omega

theorem interiorAreas_getElem? (pts : List (K × K)) (i : Nat) (h : i + 2 < pts.length) :
    (interiorAreas pts)[i]? = some (triOf pts i (i + 1) (i + 2)) := by
  match pts, i with
  | p :: q :: r :: ps, 0 => simp [interiorAreas, triOf]
  | p :: q :: r :: ps, i + 1 =>
    have := interiorAreas_getElem? (q :: r :: ps) i (by simpa using h)
    simp only [interiorAreas, List.getElem?_cons_succ]
    rw [this]
    simp [triOf]
  | [], _ => simp at h
  | [_], _ => simp at h
  | [_, _], _ => simp at h

theorem triangleAreas_spec (pts : List (K × K)) (h : 2 ≤ pts.length) :
    ∃ real, triangleAreas pts = .ok real ∧ real.length = pts.length ∧
      impOf real = startImportance pts := by
  match pts, h with
  | p :: q :: ps, _ =>
    refine ⟨_, rfl, ?_, ?_⟩
    · have := interiorAreas_length (p :: q :: ps)
      simp [this]
    · funext i
      unfold impOf startImportance
      rw [← triOf_eq_importance]
      have hlen := interiorAreas_length (p :: q :: ps)
      simp only [List.length_cons] at hlen
      cases i with
      | zero => simp
      | succ i =>
        simp only [List.getD_eq_getElem?_getD, List.cons_append, List.getElem?_cons_succ,
          Nat.add_sub_cancel]
        rcases Nat.lt_or_ge i ps.length with hi | hi
        · rw [List.getElem?_append_left (by omega), interiorAreas_getElem? _ _ (by simp; omega)]
          simp
        · have h1 : (triOf (p :: q :: ps) i (i + 1) (i + 1 + 1) : WithTop K) = ⊤ := by
            have : (p :: q :: ps)[i + 1 + 1]? = none := List.getElem?_eq_none (by simp; omega)
            unfold triOf
            rw [this]
            cases (p :: q :: ps)[i]? <;> cases (p :: q :: ps)[i + 1]? <;> rfl
          rw [if_neg (by omega), h1, List.getElem?_append_right (by omega)]
          rcases Nat.eq_zero_or_pos (i - ps.length) with h0 | h0
          · rw [show i - (interiorAreas (p :: q :: ps)).length = 0 by omega]; rfl
          · rw [List.getElem?_eq_none (by simp; omega)]; rfl

theorem areasOf_range (real : List (WithTop K)) : areasOf real.length (List.range real.length) real = real := by
  unfold areasOf
  simp only [List.length_range, Nat.sub_self, List.replicate_zero, List.append_nil]
  apply List.ext_getElem?
  intro i
  rw [List.getElem?_map]
  rcases Nat.lt_or_ge i real.length with h | h
  · simp [h, impOf, List.getD_eq_getElem?_getD]
  · simp [h]

theorem interior_range (n : Nat) (i : Nat) : i ∈ interior (List.range n) ↔ 0 < i ∧ i + 1 < n := by
  unfold interior
  have h : (List.range n).tail.dropLast = List.range' 1 (n - 2) := by
    rw [List.range_eq_range']
    apply List.ext_getElem
    · simp; omega
    · intro k h1 h2
      simp
  rw [h, List.mem_range'_1]
  omega

theorem buildThresholds_spec (pts : List (K × K)) (h : 2 ≤ pts.length) :
    ∃ th order, buildThresholds pts = .ok th ∧ th.length = pts.length ∧
      Elimination (importance pts) (List.range pts.length) (startImportance pts) order (impOf th) := by
  obtain ⟨real, hr, hlen, himp⟩ := triangleAreas_spec pts h
  have hinv : VWInv pts.length (List.range pts.length) real := by
    refine ⟨hlen, by simp, by simpa using h, List.nodup_range, by simp, ?_, ?_, ?_⟩
    · intro i hi
      have : i = pts.length - 1 := by
        rw [List.getLast?_eq_getElem?, List.getElem?_eq_some_iff] at hi
        obtain ⟨_, hi⟩ := hi
        simpa using hi.symm
      rw [himp]
      unfold startImportance
      split
      · rfl
      · rw [← triOf_eq_importance]
        have : pts[i + 1]? = none := List.getElem?_eq_none (by omega)
        unfold triOf
        rw [this]
        cases pts[i - 1]? <;> cases pts[i]? <;> rfl
    · intro i hi
      have : i = 0 := by
        rw [List.head?_eq_getElem?] at hi
        rw [List.getElem?_eq_some_iff] at hi
        obtain ⟨_, hi⟩ := hi
        simpa using hi.symm
      rw [himp, this]
      simp [startImportance]
    · intro i hi
      rw [interior_range] at hi
      rw [himp]
      unfold startImportance
      rw [if_neg (by omega), ← triOf_eq_importance]
      exact triOf_ne_top (by omega) (by omega) (by omega)
  obtain ⟨s, th, order, hc, hl, hth, hE⟩ := choose_loop pts pts.length rfl (pts.length - 2)
    (List.range pts.length) real none pts.length (by simp; omega) hinv (by intro k hk; simp at hk) (by omega)
  rw [triOf_eq_importance, himp] at hE
  refine ⟨th, order, ?_, hth, hE⟩
  unfold buildThresholds
  rw [hr]
  simp only
  have : areasOf pts.length (List.range pts.length) real = real := by
    have := areasOf_range real
    rwa [hlen] at this
  rw [this] at hc
  rw [hc]
  exact hl

/-! ### Consequences of the specification -/

section SpecLemmas
variable {W : Type} [LinearOrder W] {tri : Nat → Nat → Nat → W}

theorem elimination_perm {line : List Nat} {imp final : Nat → W} {order : List Nat}
    (h : Elimination tri line imp order final) : order.Perm (interior line) := by
  induction h with
  | @done line imp hl =>
    have : interior line = [] := by
      unfold interior
      match line, hl with
      | [], _ => rfl
      | [_], _ => rfl
      | [_, _], _ => rfl
    rw [this]
  | @remove pre a b c post imp order final hmin hE ih =>
    have hperm : (b :: interior (pre ++ a :: c :: post)).Perm (interior (pre ++ a :: b :: c :: post)) := by
      unfold interior
      cases pre with
      | nil =>
        exact List.Perm.of_eq (by rw [List.nil_append, List.nil_append]; rfl)
      | cons p ps =>
        simp only [List.cons_append, List.tail_cons]
        have h1 : ∀ l : List Nat, (ps ++ a :: c :: l).dropLast = ps ++ a :: (c :: l).dropLast := by
          intro l
          rw [List.dropLast_append_of_ne_nil (by simp)]; rfl
        have h2 : (ps ++ a :: b :: c :: post).dropLast = ps ++ a :: b :: (c :: post).dropLast := by
          rw [List.dropLast_append_of_ne_nil (by simp)]; rfl
        rw [h1, h2]
        have := List.perm_middle (a := b) (l₁ := ps ++ [a]) (l₂ := (c :: post).dropLast)
        simpa using this.symm
    exact (ih.cons b).trans hperm

theorem elimination_final_outside {line : List Nat} {imp final : Nat → W} {order : List Nat}
    (h : Elimination tri line imp order final) (x : Nat) (hnd : line.Nodup) (hx : x ∉ interior line) :
    final x = imp x := by
  induction h with
  | done _ => rfl
  | @remove pre a b c post imp order final hmin hE ih =>
    have hsub : (pre ++ a :: c :: post).Sublist (pre ++ a :: b :: c :: post) := by
      refine List.Sublist.append (List.Sublist.refl _) ?_
      exact List.Sublist.cons_cons _ (List.Sublist.cons _ (List.Sublist.refl _))
    rw [interior_split, not_or] at hx
    rw [ih (hnd.sublist hsub) hx.2]
    obtain ⟨ha, hc⟩ := mem_interior_of_split pre a c post
    unfold reweigh
    split
    · rename_i h; subst h
      rcases ha with ha | ha
      · exact absurd ha hx.2
      · subst ha; rfl
    · split
      · rename_i h; subst h
        rcases hc with hc | hc
        · exact absurd hc hx.2
        · subst hc; rfl
      · rfl

theorem elimination_final_removed {pre : List Nat} {a b c : Nat} {post : List Nat} {imp final : Nat → W}
    {order : List Nat} (hnd : (pre ++ a :: b :: c :: post).Nodup)
    (h : Elimination tri (pre ++ a :: c :: post) (reweigh tri imp (imp b) pre a c post) order final) :
    final b = imp b := by
  have hsub : (pre ++ a :: c :: post).Sublist (pre ++ a :: b :: c :: post) := by
    refine List.Sublist.append (List.Sublist.refl _) ?_
    exact List.Sublist.cons_cons _ (List.Sublist.cons _ (List.Sublist.refl _))
  have hb : b ∉ pre ++ a :: c :: post := by
    intro hmem
    rw [List.nodup_append] at hnd
    obtain ⟨_, h2, h3⟩ := hnd
    rw [List.mem_append] at hmem
    rcases hmem with hm | hm
    · exact h3 b hm b (by simp) rfl
    · simp at h2 hm
      rcases hm with rfl | rfl | hm
      · simp at h2
      · simp at h2
      · exact h2.2.1.2 hm
  rw [elimination_final_outside h b (hnd.sublist hsub) (fun hm => hb (mem_of_mem_interior hm))]
  have hba : b ≠ a := by rintro rfl; simp at hb
  have hbc : b ≠ c := by rintro rfl; simp at hb
  simp [reweigh, hba, hbc]

theorem elimination_ge {line : List Nat} {imp final : Nat → W} {order : List Nat}
    (h : Elimination tri line imp order final) (hnd : line.Nodup) (t : W)
    (ht : ∀ x ∈ interior line, t ≤ imp x) : ∀ x ∈ order, t ≤ final x := by
  induction h with
  | done _ => simp
  | @remove pre a b c post imp order final hmin hE ih =>
    have hsub : (pre ++ a :: c :: post).Sublist (pre ++ a :: b :: c :: post) := by
      refine List.Sublist.append (List.Sublist.refl _) ?_
      exact List.Sublist.cons_cons _ (List.Sublist.cons _ (List.Sublist.refl _))
    have hb : t ≤ imp b := ht b (by rw [interior_split]; exact Or.inl rfl)
    intro x hx
    rcases List.mem_cons.1 hx with rfl | hx
    · rw [elimination_final_removed hnd hE]; exact hb
    · refine ih (hnd.sublist hsub) ?_ x hx
      intro y hy
      refine hb.trans ?_
      have hold := hmin y (by rw [interior_split]; exact Or.inr hy)
      unfold reweigh
      split
      · rename_i h; subst h
        split
        · exact le_max_right _ _
        · exact hold
      · split
        · rename_i h; subst h
          split
          · exact le_max_right _ _
          · exact hold
        · exact hold

theorem elimination_sorted {line : List Nat} {imp final : Nat → W} {order : List Nat}
    (h : Elimination tri line imp order final) (hnd : line.Nodup) :
    (order.map final).Pairwise (· ≤ ·) := by
  induction h with
  | done _ => simp
  | @remove pre a b c post imp order final hmin hE ih =>
    have hsub : (pre ++ a :: c :: post).Sublist (pre ++ a :: b :: c :: post) := by
      refine List.Sublist.append (List.Sublist.refl _) ?_
      exact List.Sublist.cons_cons _ (List.Sublist.cons _ (List.Sublist.refl _))
    simp only [List.map_cons, List.pairwise_cons]
    refine ⟨?_, ih (hnd.sublist hsub)⟩
    intro y hy
    rw [List.mem_map] at hy
    obtain ⟨x, hx, rfl⟩ := hy
    rw [elimination_final_removed hnd hE]
    refine elimination_ge hE (hnd.sublist hsub) (imp b) ?_ x hx
    intro y hy
    have hold := hmin y (by rw [interior_split]; exact Or.inr hy)
    unfold reweigh
    split
    · rename_i h; subst h
      split
      · exact le_max_right _ _
      · exact hold
    · split
      · rename_i h; subst h
        split
        · exact le_max_right _ _
        · exact hold
      · exact hold

/-- Property preserved by areas and by `max` holds of every final importance. -/
theorem elimination_final_pred {line : List Nat} {imp final : Nat → W} {order : List Nat}
    (h : Elimination tri line imp order final) (P : W → Prop) (htri : ∀ a b c, a ∈ line → b ∈ line → c ∈ line → P (tri a b c))
    (himp : ∀ x ∈ interior line, P (imp x)) (hnd : line.Nodup) : ∀ x ∈ interior line, P (final x) := by
  induction h with
  | @done line imp hl => exact himp
  | @remove pre a b c post imp order final hmin hE ih =>
    have hsub : (pre ++ a :: c :: post).Sublist (pre ++ a :: b :: c :: post) := by
      refine List.Sublist.append (List.Sublist.refl _) ?_
      exact List.Sublist.cons_cons _ (List.Sublist.cons _ (List.Sublist.refl _))
    have hb : P (imp b) := himp b (by rw [interior_split]; exact Or.inl rfl)
    have hmax : ∀ u v, P u → P v → P (max u v) := by
      intro u v hu hv
      rcases max_choice u v with h | h <;> rw [h] <;> assumption
    have ih' := ih (fun u v w hu hv hw => htri u v w (hsub.subset hu) (hsub.subset hv) (hsub.subset hw)) (by
      intro y hy
      have hold := himp y (by rw [interior_split]; exact Or.inr hy)
      unfold reweigh
      split
      · rename_i h; subst h
        split
        · rename_i p hp
          exact hmax _ _ (htri _ _ _ (by simp [List.mem_of_getLast? hp]) (by simp) (by simp)) hb
        · exact hold
      · split
        · rename_i h; subst h
          split
          · rename_i q hq
            exact hmax _ _ (htri _ _ _ (by simp) (by simp) (by simp [List.mem_of_head? hq])) hb
          · exact hold
        · exact hold) (hnd.sublist hsub)
    intro x hx
    rw [interior_split] at hx
    rcases hx with rfl | hx
    · rw [elimination_final_removed hnd hE]; exact hb
    · exact ih' x hx

end SpecLemmas

end Fm2prof

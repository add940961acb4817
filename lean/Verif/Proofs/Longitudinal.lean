import Verif.Spec.Longitudinal
import Verif.Props.Compare
import Verif.Props.Stats

/-!
# Helper lemmas about the figures of a comparison
-/

set_option linter.unusedSectionVars false

namespace Fm2prof

open Spec Props

variable {K : Type} [Field K] [LinearOrder K] [IsStrictOrderedRing K] [FloorRing K]

theorem columnSeries_mem {X : Type} (c : List Text) (rows : List (X × List (Option K))) (n : Text) (hn : n ∈ c) :
    columnSeries c rows n = some (rows.map fun r => (r.1, valueUnder c r.2 n)) := by
  unfold columnSeries
  cases hj : c.findIdx? (· = n) with
  | none =>
    rw [List.findIdx?_eq_none_iff] at hj
    exact absurd rfl (of_decide_eq_false (hj n hn))
  | some j =>
    rw [Option.map_some]
    congr 1
    apply List.map_congr_left
    intro r _
    have h := stationSeries_eq c [((0 : Int), r.2)] n
    unfold stationSeries at h
    rw [hj] at h
    have h := List.cons.inj h
    have h := Prod.mk.inj h.1
    rw [h.2]

theorem columnSeries_not {X : Type} (c : List Text) (rows : List (X × List (Option K))) (n : Text) (hn : n ∉ c) :
    columnSeries c rows n = none := by
  unfold columnSeries
  have : c.findIdx? (· = n) = none := by
    rw [List.findIdx?_eq_none_iff]
    intro x hx
    exact decide_eq_false fun e => hn (e ▸ hx)
  rw [this]
  rfl

theorem entryAt_ok {X : Type} (c : List Text) (rows : List (X × List (Option K))) (i : Int) (r : X × List (Option K)) (n : Text)
    (hn : n ∈ c) (hi : rows[i.toNat]? = some r) : entryAt c rows i n = .ok (valueUnder c r.2 n) := by
  unfold entryAt
  rw [columnSeries_mem c rows n hn]
  simp only
  rw [List.getElem?_map, hi]
  rfl

theorem nearest_row {α : Type} (rows : List (Int × α)) (m : Int) :
    rows[(nearestTime (rows.map (·.1)) m).toNat]? = (rows.find? fun r => decide (m ≤ r.1)).or rows.getLast? := by
  unfold nearestTime
  induction rows with
  | nil => rfl
  | cons a l ih =>
    rw [List.map_cons, List.findIdx?_cons]
    by_cases h : m ≤ a.1
    · have h1 : (!decide (a.1 < m)) = true := by rw [Bool.not_eq_true', decide_eq_false_iff_not]; omega
      rw [if_pos h1, List.find?_cons_of_pos (by exact decide_eq_true h)]
      rfl
    · have h1 : ¬ (!decide (a.1 < m)) = true := by rw [Bool.not_eq_true', decide_eq_false_iff_not]; omega
      rw [if_neg h1, List.find?_cons_of_neg (by intro k; exact h (of_decide_eq_true k))]
      cases hf : (l.map (·.1)).findIdx? (fun t => !decide (t < m)) with
      | some j =>
        rw [hf] at ih
        simp only [Option.map_some] at ih ⊢
        have e : ((j + 1 : Nat) : Int).toNat = j + 1 := by omega
        rw [e, List.getElem?_cons_succ]
        have e' : ((j : Nat) : Int).toNat = j := by omega
        rw [e'] at ih
        rw [ih]
        cases l with
        | nil => cases hf
        | cons b l => rw [List.getLast?_cons_cons]
      | none =>
        rw [hf] at ih
        simp only [Option.map_none] at ih ⊢
        cases l with
        | nil => rfl
        | cons b l =>
          rw [List.getLast?_cons_cons, ← ih]
          simp only [List.map_cons, List.length_cons, List.length_map]
          have e : (((l.length + 1 + 1 : Nat) : Int) - 1).toNat = l.length + 1 := by omega
          have e' : (((l.length + 1 : Nat) : Int) - 1).toNat = l.length := by omega
          rw [e, e', List.getElem?_cons_succ]

theorem find_or_last {α : Type} (rows : List (Int × α)) (m : Int) (h : rows ≠ []) :
    ∃ r, (rows.find? fun r => decide (m ≤ r.1)).or rows.getLast? = some r := by
  cases rows.find? fun r => decide (m ≤ r.1) with
  | some r => exact ⟨r, rfl⟩
  | none => exact ⟨rows.getLast h, List.getLast?_eq_some_getLast h⟩

theorem levelFrom_map (c : List Text) (rows : List (Int × List (Option K))) (m : Int) (n : Text) (r : Int × List (Option K))
    (h : (rows.find? fun r => decide (m ≤ r.1)).or rows.getLast? = some r) :
    levelFrom (rows.map fun r => (r.1, valueUnder c r.2 n)) m = valueUnder c r.2 n := by
  unfold levelFrom
  rw [List.find?_map]
  have hf : ((fun r : Int × Option K => decide (m ≤ r.1)) ∘ fun r : Int × List (Option K) => (r.1, valueUnder c r.2 n)) =
      fun r : Int × List (Option K) => decide (m ≤ r.1) := rfl
  rw [hf]
  cases he : rows.find? (fun r => decide (m ≤ r.1)) with
  | some r' =>
    rw [he] at h
    rw [← Option.some.inj h]
    rfl
  | none =>
    rw [he] at h
    have h : rows.getLast? = some r := h
    rw [Option.map_none]
    simp only
    rw [List.getLast?_map, h]
    rfl

theorem zip_map_along (stations : List Text) (rkms : List K) {V : Type} (f : Text → V) :
    rkms.zip (stations.map f) = (stations.zip rkms).map fun x => (x.2, f x.1) := by
  induction stations generalizing rkms with
  | nil => cases rkms <;> rfl
  | cons a l ih =>
    cases rkms with
    | nil => rfl
    | cons k ks => rw [List.map_cons, List.zip_cons_cons, List.zip_cons_cons, List.map_cons, ih]

theorem alongRouteAt_ok (c : List Text) (rows : List (Int × List (Option K))) (hne : rows ≠ []) (stations : List Text) (rkms : List K)
    (hs : ∀ n ∈ stations, n ∈ c) (m : Int) :
    alongRouteAt c rows stations rkms (nearestTime (rows.map (·.1)) m) =
      .ok ((stations.zip rkms).map fun x => (x.2, levelFrom (rows.map fun r => (r.1, valueUnder c r.2 x.1)) m)) := by
  obtain ⟨r, hr⟩ := find_or_last rows m hne
  have hi := (nearest_row rows m).trans hr
  unfold alongRouteAt
  rw [collect_ok _ (fun n => levelFrom (rows.map fun r => (r.1, valueUnder c r.2 n)) m) stations fun n hn => by
    rw [entryAt_ok c rows _ r n (hs n hn) hi, levelFrom_map c rows m n r hr]]
  simp only
  rw [zip_map_along stations rkms fun n => levelFrom (rows.map fun r => (r.1, valueUnder c r.2 n)) m]

theorem subOption_eq (x y : Option K) : subOption x y = minus x y := by
  cases x <;> cases y <;> rfl

theorem alignSub_same (l : List (Text × K)) (f g : Text → Option K) :
    alignSub (l.map fun x => (x.2, f x.1)) (l.map fun x => (x.2, g x.1)) = l.map fun x => (x.2, minus (f x.1) (g x.1)) := by
  unfold alignSub
  rw [if_pos (by rw [List.map_map, List.map_map]; rfl), List.zipWith_map, List.zipWith_self]
  apply List.map_congr_left
  intro x _
  rw [subOption_eq]

theorem route_mem (o : ArgSort K) (parse : Text → Option K) (names route : List Text) (n : Text)
    (hn : n ∈ (getRoute o parse names route).1) : n ∈ names := by
  obtain ⟨hl, _, _⟩ := C70_route o parse names route
  have h1 : ((getRoute o parse names route).1.zip (getRoute o parse names route).2).map (·.1) =
      (getRoute o parse names route).1 := List.map_fst_zip (le_of_eq hl)
  rw [← h1] at hn
  obtain ⟨⟨n', km⟩, hx, rfl⟩ := List.mem_map.1 hn
  exact ((C70_members o parse names route n' km).1 hx).1

end Fm2prof

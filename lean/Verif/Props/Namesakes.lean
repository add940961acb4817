import Verif.Props.Refined
import Verif.Props.ScaleRun

/-!
# C198: every line of the location file has its own definition and its own part of the grid

The program finds the faces of a cross-section by its name. Two lines of the location file with the same name therefore share
their faces, and their definitions have the same id.
-/

namespace Fm2prof.Props

open Fm2prof Spec

set_option linter.unusedSectionVars false

variable {K : Type} [Field K] [LinearOrder K] [IsStrictOrderedRing K] [FloorRing K]

/-! ## Ids -/

/-- **C198.** After a run that reports success the ids in the definition file are different if and only if the lines that were
used have different names. -/
theorem C198_ids (x : Tools K) (hb : ∀ y, y < x.bump y) (cfg : RunConfig K) (i : Inputs K) (hi : Consistent i)
    (o : Surroundings) (hdir : o.dirExists = true) (hw : ∀ f, IsResult f → Sound o.faults f) (overwrite : Bool) (s : Store)
    (h : (run (jobOf x cfg i o) overwrite s).2 = .ok true) (m : Model2d K) (hm : setModelData x.nn i = .ok m)
    (xs : List (Loc K)) (hx : Requested cfg.cssSelection m.stations xs) (hu : ∃ l ∈ xs, Usable m l)
    (hn : ∀ l ∈ xs, PlainName l.id)
    (hfull : ∀ l ∈ xs, ∀ c, buildCss x cfg m l = .ok c → FullNumbers x.ft c) :
    ∃ text defs, (run (jobOf x cfg i o) overwrite s).1 "CrossSectionDefinitions.ini".toList = some text ∧
      readDefinitions x.ft text = .ok defs ∧
      ((defs.map (·.id)).Nodup ↔ ((xs.filter fun l => decide (Usable m l)).map (·.id)).Nodup) := by
  obtain ⟨text, defs, ht, hd, hf⟩ := C97_profiles x hb cfg i hi o hdir hw overwrite s h m hm xs hx hu hn hfull
  refine ⟨text, defs, ht, hd, ?_⟩
  have e : defs.map (·.id) = (xs.filter fun l => decide (Usable m l)).map (·.id) := by
    generalize (xs.filter fun l => decide (Usable m l)) = us at hf
    clear ht hd
    induction hf with
    | nil => rfl
    | cons hc _ ih =>
      rw [List.map_cons, List.map_cons]
      exact congrArg₂ List.cons hc.1 ih
  rw [e]

/-! ## Faces -/

private theorem sum_rows (labels : List Text) (n : Nat) (q : Nat → K) (name : Text) :
    (((List.range n).filter fun k => decide (labels[k]? = some name)).map q).sum =
      ((List.range n).map fun k => (if labels[k]? = some name then (1 : K) else 0) * q k).sum := by
  induction List.range n with
  | nil => rfl
  | cons k ks ih =>
    rw [List.filter_cons, List.map_cons, List.sum_cons]
    by_cases hk : labels[k]? = some name
    · rw [if_pos (decide_eq_true hk), List.map_cons, List.sum_cons, ih, if_pos hk, one_mul]
    · rw [if_neg (by simpa using hk), ih, if_neg hk, zero_mul, zero_add]

private theorem sum_add_map (ks : List Nat) (f g : Nat → K) :
    (ks.map f).sum + (ks.map g).sum = (ks.map fun k => f k + g k).sum := by
  induction ks with
  | nil => exact add_zero _
  | cons k ks ih =>
    simp only [List.map_cons, List.sum_cons]
    rw [← ih]
    ring

private theorem sum_filterMap (rows : List Nat) (g : Nat → Option (Cell K)) (q : Cell K → K) :
    ((rows.filterMap g).map q).sum = (rows.map fun k => ((g k).map q).getD 0).sum := by
  induction rows with
  | nil => rfl
  | cons k ks ih =>
    rw [List.filterMap_cons, List.map_cons, List.sum_cons]
    cases g k with
    | none => simp only [ih]; exact (zero_add _).symm
    | some c => simp only [List.map_cons, List.sum_cons, ih]; rfl

/-- **C198.** In the control volumes of all lines together, each face counts as often as there are lines with the name it was
given. `q` is any quantity of a face, for example its area. -/
theorem C198_counted (x : Tools K) (i : Inputs K) (hi : Consistent i) (m : Model2d K) (hm : setModelData x.nn i = .ok m)
    (q : Cell K → K) :
    (m.stations.map fun l =>
        (((controlVolumeOf m.nMaps (getSelection x.sqrt m.faces m.edges l.id)).cells).map q).sum).sum =
      ((List.range m.faces.sclass.length).map fun k =>
        ((m.stations.filter fun l => decide (m.faces.sclass[k]? = some l.id)).length : K) *
          ((gridCell x.sqrt m.faces k).map q).getD 0).sum := by
  have hl := loaded2d x.nn i hi m hm
  simp only [controlVolume_cells x m hl]
  induction m.stations with
  | nil =>
    simp only [List.map_nil, List.sum_nil, List.filter_nil, List.length_nil, Nat.cast_zero, zero_mul]
    induction List.range m.faces.sclass.length with
    | nil => rfl
    | cons k ks ih => rw [List.map_cons, List.sum_cons, ← ih, zero_add]
  | cons l ls ih =>
    rw [List.map_cons, List.sum_cons, ih, sum_filterMap]
    unfold rowsOf
    rw [sum_rows m.faces.sclass _ (fun k => ((gridCell x.sqrt m.faces k).map q).getD 0), sum_add_map]
    congr 1
    refine List.map_congr_left fun k _ => ?_
    rw [List.filter_cons]
    by_cases hk : m.faces.sclass[k]? = some l.id
    · rw [if_pos hk, if_pos (decide_eq_true hk), List.length_cons, Nat.cast_succ]
      ring
    · rw [if_neg hk, if_neg (by simpa using hk)]
      ring

/-- **C198, for different names.** No face is in the control volumes of two lines with different names. -/
theorem C198_apart_partial (x : Tools K) (i : Inputs K) (hi : Consistent i) (m : Model2d K) (hm : setModelData x.nn i = .ok m)
    (l l' : Loc K) (hne : l.id ≠ l'.id) :
    ∃ rows rows' : List Nat,
      (controlVolumeOf m.nMaps (getSelection x.sqrt m.faces m.edges l.id)).cells = rows.filterMap (gridCell x.sqrt m.faces) ∧
      (controlVolumeOf m.nMaps (getSelection x.sqrt m.faces m.edges l'.id)).cells = rows'.filterMap (gridCell x.sqrt m.faces) ∧
      rows.Disjoint rows' := by
  have hl := loaded2d x.nn i hi m hm
  refine ⟨_, _, controlVolume_cells x m hl _ _, controlVolume_cells x m hl _ _, fun k h h' => hne ?_⟩
  unfold rowsOf at h h'
  have h := of_decide_eq_true (List.mem_filter.1 h).2
  have h' := of_decide_eq_true (List.mem_filter.1 h').2
  exact Option.some.inj (h.symm.trans h')

/-- Two lines with different names, with 13 faces and one. -/
example : ∃ m, setModelData idleTools.nn longerInputs = .ok m ∧ (m.stations.map (·.id)).Nodup ∧
    (m.stations.map fun l => (rowsOf m.faces.sclass l.id).length) = [13, 1] :=
  ⟨sampleLoaded longerInputs, loaded_of₆ _ (by decide +kernel), by decide +kernel, by decide +kernel⟩

/-- **C198 is violated** for every location file in which a name occurs twice: without regions a face that is nearer to one of
these lines than to all lines with other names counts for both, however far away the other one is. -/
theorem C198_namesakes_violated (x : Tools K) (i : Inputs K) (hi : Consistent i) (hr : i.regions = none) (m : Model2d K)
    (hm : setModelData x.nn i = .ok m) (l l' : Loc K) (hid : l'.id = l.id) (k : Nat) (px py : K)
    (hpx : m.faces.x[k]? = some px) (hpy : m.faces.y[k]? = some py) (hmem : l ∈ m.stations)
    (hnear : ∀ l₂ ∈ m.stations, l₂.id ≠ l.id → (px - l.x) ^ 2 + (py - l.y) ^ 2 < (px - l₂.x) ^ 2 + (py - l₂.y) ^ 2)
    (c : Cell K) (hc : gridCell x.sqrt m.faces k = some c) :
    c ∈ (controlVolumeOf m.nMaps (getSelection x.sqrt m.faces m.edges l'.id)).cells := by
  have hl := loaded2d x.nn i hi m hm
  obtain ⟨d, css, r, sec, fc, ec, fs, es, hd', hcs, hreg, hse, ha, hb, hf, he, hn, hst⟩ := setModelData_ok x.nn i m hm
  rw [hr] at hreg
  obtain rfl := Except.ok.inj hreg
  rw [controlVolume_cells x m hl, hid]
  refine List.mem_filterMap.2 ⟨k, ?_, hc⟩
  obtain ⟨⟨h1, h2⟩, _⟩ := C27_nearest _ _ _ _ _ _ ha
  have hfx : m.faces.x = d.faces.x := by rw [hf]
  have hfy : m.faces.y = d.faces.y := by rw [hf]
  have hfc : m.faces.sclass = fc := by rw [hf]
  rw [hfx] at hpx
  rw [hfy] at hpy
  have hpt : (gridPoints d.faces.x d.faces.y (d.faces.x.map fun _ => ([] : Text)))[k]? = some ⟨(px, py), []⟩ := by
    unfold gridPoints
    rw [List.getElem?_map, List.getElem?_zip_eq_some (z := ((px, py), [])) |>.2 ⟨List.getElem?_zip_eq_some.2 ⟨hpx, hpy⟩, ?_⟩]
    · rfl
    · rw [List.getElem?_map, hpx]
      rfl
  have hk : k < fc.length := by
    rw [h1]
    by_contra hk
    rw [List.getElem?_eq_none (not_lt.1 hk)] at hpt
    cases hpt
  obtain ⟨s, hs, hsid, hmin⟩ := h2 k _ _ hpt (List.getElem?_eq_getElem hk)
  unfold rowsOf
  rw [hfc]
  refine List.mem_filter.2 ⟨List.mem_range.2 hk, decide_eq_true ?_⟩
  rw [List.getElem?_eq_getElem hk, ← hsid]
  refine congrArg some ?_
  by_contra hne
  have hsm : ∃ l₂ ∈ m.stations, s.id = l₂.id ∧ s.pos = (l₂.x, l₂.y) := by
    unfold stationsOf at hs
    obtain ⟨p, hp, rfl⟩ := List.mem_map.1 hs
    exact ⟨p.1, by rw [hst]; exact (List.of_mem_zip (a := p.1) (b := p.2) hp).1, rfl, rfl⟩
  obtain ⟨l₂, hl₂, e1, e2⟩ := hsm
  have hlt := hnear l₂ hl₂ (e1 ▸ hne)
  have hle := hmin ⟨l.id, (l.x, l.y), []⟩ (by
    unfold stationsOf
    rw [hst] at hmem
    refine List.mem_map.2 ⟨(l, []), ?_, rfl⟩
    rw [List.zip_map_right]
    refine List.mem_map.2 ⟨(l, l), ?_, rfl⟩
    rw [List.zip_eq_zipWith, List.zipWith_self]
    exact List.mem_map.2 ⟨l, hmem, rfl⟩)
  rw [e2] at hle
  unfold squaredDistance at hle
  simp only at hle
  have a1 : (l₂.x - px) ^ 2 = (px - l₂.x) ^ 2 := by ring
  have a2 : (l₂.y - py) ^ 2 = (py - l₂.y) ^ 2 := by ring
  have a3 : (l.x - px) ^ 2 = (px - l.x) ^ 2 := by ring
  have a4 : (l.y - py) ^ 2 = (py - l.y) ^ 2 := by ring
  rw [a1, a2, a3, a4] at hle
  exact absurd hle (not_le.2 hlt)

/-- Two lines with the same name, 1000 m apart. -/
def twinInputs : Inputs ℚ :=
  { sampleSectionInputs with
    css := .ok [⟨"rhine_100".toList, 5, 0, 10, "rhine".toList, 100⟩, ⟨"rhine_100".toList, 1005, 0, 10, "rhine".toList, 900⟩] }

/-- They come from one file. -/
theorem twin_consistent : Consistent twinInputs :=
  { map := sampleInputs_consistent.map
    regions := by intro d css r _ _ h; cases h
    sections := by
      intro d r hd h
      obtain rfl := Except.ok.inj hd
      obtain rfl := Except.ok.inj (Option.some.inj h)
      constructor <;> rfl }

/-- The run succeeds; both lines have all 13 faces, also the one that is 992 m away from the nearest of them, and their
definitions have the same id. -/
example : (∀ y, y < idleTools.bump y) ∧ Consistent twinInputs ∧ twinInputs.regions = none ∧
    sampleSurroundings.dirExists = true ∧ (∀ f, IsResult f → Sound sampleSurroundings.faults f) ∧
    (run (jobOf idleTools sampleRunConfig twinInputs sampleSurroundings) false noFiles).2 = .ok true ∧
    ∃ m, setModelData idleTools.nn twinInputs = .ok m ∧ Requested sampleRunConfig.cssSelection m.stations m.stations ∧
      (m.stations.map fun l => (decide (Usable m l), (rowsOf m.faces.sclass l.id).length)) = [(true, 13), (true, 13)] ∧
      (∀ l ∈ m.stations, PlainName l.id) ∧ ¬ ((m.stations.filter fun l => decide (Usable m l)).map (·.id)).Nodup ∧
      (∀ l ∈ m.stations, ∀ c, buildCss idleTools sampleRunConfig m l = .ok c → FullNumbers idleTools.ft c) ∧
      (m.stations.map fun l =>
        (((controlVolumeOf m.nMaps (getSelection idleTools.sqrt m.faces m.edges l.id)).cells).map (·.area)).sum).sum =
        2 * ((gridCells idleTools.sqrt m.faces).map (·.area)).sum := by
  refine ⟨?_, twin_consistent, rfl, rfl, fun _ _ => ⟨rfl, rfl⟩, ok_of₆ (by decide +kernel), sampleLoaded twinInputs,
    loaded_of₆ _ (by decide +kernel), .inl ⟨rfl, rfl⟩, by decide +kernel, by decide +kernel, by decide +kernel,
    fullNumbers_of _ (by decide +kernel), by decide +kernel⟩
  intro y
  show y < y + 1 / 1000
  linarith

end Fm2prof.Props

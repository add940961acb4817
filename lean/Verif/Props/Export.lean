import Mathlib.Algebra.Order.Field.Rat
import Mathlib.Data.Rat.Floor
import Mathlib.Tactic.IntervalCases
import Verif.Proofs.Sobek
import Verif.Proofs.RoughnessFile

/-!
# Properties of the exported files: C26, C43–C48, C62, C71, C72, C79–C82
-/

set_option linter.unusedSectionVars false

namespace Fm2prof.Props

open Fm2prof Spec

variable {K : Type} [Field K] [LinearOrder K] [IsStrictOrderedRing K] [FloorRing K]

/-! ## Cross-sections used in the examples -/

/-- A cross-section with three levels and a summer dike. -/
def sampleCss : ExportCss ℚ :=
  { name := "rhine_1_100".toList, branch := "rhine_1".toList, chainage := 100, z := [1, 3 / 2, 2],
    flowWidth := [10, 20, 1 / 3], totalWidth := [12, 24, 30], crestLevel := 7 / 4, extraFlowArea := 5,
    extraTotalArea := 6, extraTotalVolume := 600, floodplainBase := none,
    widths := ⟨10, 20, 0⟩,
    tables := [("main".toList, ⟨[0, 1], [40, 45]⟩), ("floodplain1".toList, ⟨[0, 1], [30, 31]⟩)],
    volumes := ⟨[some 1, some 2], [none, some 8], [none, some 7], [none, some 6], [none, some 5], [some 4, some 9],
      [some 3, some 8], [some 2, some 6], [some 1, some 5], [some 1, some 2], [some 1, some 2]⟩ }

/-- A second cross-section on the same branch. -/
def sampleCss2 : ExportCss ℚ :=
  { sampleCss with
    name := "rhine_1_200.5".toList, chainage := 401 / 2, extraTotalVolume := 0,
    tables := [("main".toList, ⟨[0, 1], [41, 46]⟩)] }

/-- Four decimals instead of four significant digits. -/
def sampleSig : SigText (decimalText ℚ) where
  text := fmtFixed 4
  value := roundTo 4
  chars := fmtFixed_chars 4
  ne_nil := fmtFixed_ne_nil 4
  parse := fun x => parseDecimal_fixed 4 x

/-! ## C43: definitions read back -/

/-- **C43.** Reading the exported definition file gives the exported cross-sections: all of them, in order, with their
names, and with levels, widths and summer dike values up to the printed precision. -/
theorem C43_round_trip (ft : FloatText K) (cs : List (ExportCss K)) (hn : ∀ c ∈ cs, PlainName c.name)
    (hf : ∀ c ∈ cs, ft.representable c.extraFlowArea)
    (hb : ∀ c ∈ cs, ∀ x, c.floodplainBase = some x → ft.representable x) :
    readDefinitions ft (exportDefinitions ft cs) = .ok (cs.map (definitionOf ft)) :=
  readDefinitions_export ft cs hn hf hb

/-- **C43.** Looking up a name gives the cross-section with that name. -/
theorem C43_by_id (ft : FloatText K) (cs : List (ExportCss K)) (hn : ∀ c ∈ cs, PlainName c.name)
    (hf : ∀ c ∈ cs, ft.representable c.extraFlowArea)
    (hb : ∀ c ∈ cs, ∀ x, c.floodplainBase = some x → ft.representable x) (hd : (cs.map (·.name)).Nodup)
    (c : ExportCss K) (hc : c ∈ cs) :
    definitionById ft (exportDefinitions ft cs) c.name = .ok (some (definitionOf ft c)) := by
  unfold definitionById
  rw [C43_round_trip ft cs hn hf hb]
  simp only
  congr 1
  clear hn hf hb
  induction cs with
  | nil => simp at hc
  | cons d cs ih =>
    rw [List.map_cons, List.nodup_cons] at hd
    rw [List.map_cons, List.find?_cons]
    rcases List.mem_cons.1 hc with rfl | hc
    · simp [definitionOf]
    · have : d.name ≠ c.name := fun e => hd.1 (by rw [e]; exact List.mem_map.2 ⟨c, hc, rfl⟩)
      have h2 : (decide ((definitionOf ft d).id = c.name)) = false := decide_eq_false this
      rw [h2]
      exact ih hd.2 hc

/-- **C43.** A number as read back differs from the exported number by at most half of the last printed decimal, before
it is rounded to a float. -/
theorem C43_precision (ft : FloatText K) (x : K) : ∃ y, as4 ft x = some (ft.near y) ∧ |y - x| ≤ 1 / 2 / 10 ^ 4 :=
  ⟨roundTo 4 x, rfl, roundTo_spec 4 x⟩

example : (∀ c ∈ [sampleCss, sampleCss2], PlainName c.name) ∧
    (∀ c ∈ [sampleCss, sampleCss2], ∀ x, c.floodplainBase = some x → (decimalText ℚ).representable x) ∧
    ([sampleCss, sampleCss2].map (·.name)).Nodup := by
  refine ⟨by decide +kernel, ?_, by decide +kernel⟩
  intro c hc x hx
  simp only [List.mem_cons, List.not_mem_nil, or_false] at hc
  rcases hc with rfl | rfl <;> cases hx

example : ((readDefinitions (decimalText ℚ) (exportDefinitions (decimalText ℚ) [sampleCss, sampleCss2])).toOption.getD []).map
      (fun d => (d.id, d.flowWidth, d.sdCrest)) =
    [("rhine_1_100".toList, [some 10, some 20, some (3333 / 10000 : ℚ)], some (7 / 4 : ℚ)),
      ("rhine_1_200.5".toList, [some 10, some 20, some (3333 / 10000)], some (7 / 4))] := by decide +kernel

/-! ## C44: volumes read back -/

/-- **C44.** From the exported volume table exactly the rows of a cross-section are read back for its name, in order and
with all their numbers, missing ones included. -/
theorem C44_round_trip (ft : FloatText K) (cs : List (ExportCss K)) (hc : ∀ c ∈ cs, CsvName c.name)
    (hi : ∀ c ∈ cs, c.name ≠ "id".toList) (hf : ∀ c ∈ cs, VolumeTable.Floats ft c.volumes)
    (ht : ∀ c ∈ cs, VolumeTable.Rectangular c.volumes) (hd : (cs.map (·.name)).Nodup) :
    ∃ text, exportVolumes ft cs = .ok text ∧ ∀ c ∈ cs, readVolumes ft text c.name = .ok c.volumes := by
  refine ⟨_, exportVolumes_ok ft cs ht, fun c hm => ?_⟩
  obtain ⟨text, h1, h2⟩ := readVolumes_export ft cs hc hi hf ht hd c hm
  rw [exportVolumes_ok ft cs ht] at h1
  rw [Except.ok.inj h1]
  exact h2

/-- **C44.** For a name that was not exported nothing is read. -/
theorem C44_unknown_name (ft : FloatText K) (cs : List (ExportCss K)) (hc : ∀ c ∈ cs, CsvName c.name)
    (hf : ∀ c ∈ cs, VolumeTable.Floats ft c.volumes) (ht : ∀ c ∈ cs, VolumeTable.Rectangular c.volumes) (name : Text)
    (hn : name ∉ cs.map (·.name)) (hi : name ≠ "id".toList) :
    ∃ text, exportVolumes ft cs = .ok text ∧ readVolumes ft text name = .ok .empty := by
  refine ⟨_, exportVolumes_ok ft cs ht, ?_⟩
  unfold readVolumes
  rw [fileLines_unlines']
  · rw [List.map_cons, volumeLines]
    have h0 : volumeLine ft name .empty (volumeHeader ++ ['\n']) = .ok .empty := by
      unfold volumeLine
      rw [if_neg]
      have : (splitSep ',' (strip (volumeHeader ++ ['\n']))).head? = some "id".toList := by decide +kernel
      rw [this]
      exact fun e => hi (Option.some.inj e).symm
    rw [h0]
    exact volumeLines_all ft name cs hc hf hn _
  · intro l hl
    rcases List.mem_cons.1 hl with e | hl
    · rw [e]; decide +kernel
    · obtain ⟨b, hb', hl⟩ := List.mem_flatten.1 hl
      obtain ⟨c, hc', rfl⟩ := List.mem_map.1 hb'
      obtain ⟨i, _, rfl⟩ := List.mem_map.1 hl
      exact rowText_noBreak ft _ _ (hc c hc').2.1

example : (∀ c ∈ [sampleCss, sampleCss2], CsvName c.name) ∧ (∀ c ∈ [sampleCss, sampleCss2], c.name ≠ "id".toList) ∧
    (∀ c ∈ [sampleCss, sampleCss2], VolumeTable.Rectangular c.volumes) := by
  unfold VolumeTable.Rectangular
  decide +kernel

example : (match exportVolumes (decimalText ℚ) [sampleCss, sampleCss2] with
    | .error _ => none
    | .ok t => some (decide (readVolumes (decimalText ℚ) t "rhine_1_200.5".toList = .ok sampleCss2.volumes))) = some true := by
  decide +kernel

/-! ## C71: the lowest simulated level -/

private theorem findIdx_first {α : Type} (p : α → Bool) (l : List α) (i : Nat) (x : α) (hi : l[i]? = some x) (hx : p x = true)
    (hb : ∀ j < i, ∀ y, l[j]? = some y → p y = false) : l.findIdx? p = some i := by
  induction l generalizing i with
  | nil => simp at hi
  | cons a l ih =>
    rw [List.findIdx?_cons]
    cases i with
    | zero =>
      rw [List.getElem?_cons_zero] at hi
      rw [Option.some.inj hi, hx]; rfl
    | succ i =>
      rw [hb 0 (by omega) a rfl, ih i (by simpa using hi) fun j hj y hy => hb (j + 1) (by omega) y (by simpa using hy)]
      rfl

/-- **C71.** The lowest simulated level of a cross-section is the level of the first row of its table that has a 2D
volume. -/
theorem C71_first_row_with_volume (ft : FloatText K) (cs : List (ExportCss K)) (hc : ∀ c ∈ cs, CsvName c.name)
    (hi : ∀ c ∈ cs, c.name ≠ "id".toList) (hf : ∀ c ∈ cs, VolumeTable.Floats ft c.volumes)
    (ht : ∀ c ∈ cs, VolumeTable.Rectangular c.volumes) (hd : (cs.map (·.name)).Nodup) (c : ExportCss K) (hm : c ∈ cs)
    (i : Nat) (v : K) (z : Option K) (hv : c.volumes.tv2d[i]? = some (some v))
    (hb : ∀ j < i, c.volumes.tv2d[j]? = some none) (hz : c.volumes.z[i]? = some z) :
    ∃ text, exportVolumes ft cs = .ok text ∧ lowestWaterLevel ft text c.name = .ok z := by
  obtain ⟨text, h1, h2⟩ := readVolumes_export ft cs hc hi hf ht hd c hm
  refine ⟨text, h1, ?_⟩
  unfold lowestWaterLevel
  rw [h2]
  simp only
  have hne : c.volumes.tv2d ≠ [] := fun e => by rw [e] at hv; simp at hv
  rw [if_neg hne]
  have : firstKnown c.volumes.tv2d = i := by
    have h := findIdx_first (·.isSome) c.volumes.tv2d i (some v) hv rfl fun j hj y hy => by
      rw [hb j hj] at hy; rw [← Option.some.inj hy]; rfl
    cases hl : c.volumes.tv2d with
    | nil => exact absurd hl hne
    | cons a l => rw [firstKnown, ← hl, h]; · rfl
                  · simp
  rw [this, hz]

/-- **C71.** Without any 2D volume the first level is returned. -/
theorem C71_no_volume (ft : FloatText K) (cs : List (ExportCss K)) (hc : ∀ c ∈ cs, CsvName c.name)
    (hi : ∀ c ∈ cs, c.name ≠ "id".toList) (hf : ∀ c ∈ cs, VolumeTable.Floats ft c.volumes)
    (ht : ∀ c ∈ cs, VolumeTable.Rectangular c.volumes) (hd : (cs.map (·.name)).Nodup) (c : ExportCss K) (hm : c ∈ cs)
    (z : Option K) (hv : ∀ o ∈ c.volumes.tv2d, o = none) (hz : c.volumes.z.head? = some z) :
    ∃ text, exportVolumes ft cs = .ok text ∧ lowestWaterLevel ft text c.name = .ok z := by
  obtain ⟨text, h1, h2⟩ := readVolumes_export ft cs hc hi hf ht hd c hm
  refine ⟨text, h1, ?_⟩
  unfold lowestWaterLevel
  rw [h2]
  simp only
  have hlen := ht c hm c.volumes.tv2d (by simp [VolumeTable.columns])
  have hne : c.volumes.tv2d ≠ [] := fun e => by
    rw [e] at hlen
    cases hzz : c.volumes.z with
    | nil => rw [hzz] at hz; simp at hz
    | cons a l => rw [hzz] at hlen; simp at hlen
  rw [if_neg hne]
  have : firstKnown c.volumes.tv2d = 0 := by
    have h : c.volumes.tv2d.findIdx? (·.isSome) = none := by
      rw [List.findIdx?_eq_none_iff]
      intro o ho; rw [hv o ho]; rfl
    cases hl : c.volumes.tv2d with
    | nil => exact absurd hl hne
    | cons a l => rw [firstKnown, ← hl, h]; · rfl
                  · simp
  rw [this, ← List.head?_eq_getElem?, hz]

example : (match exportVolumes (decimalText ℚ) [sampleCss, sampleCss2] with
    | .error _ => none
    | .ok t => some (lowestWaterLevel (decimalText ℚ) t "rhine_1_100".toList)) = some (.ok (some 2)) := by decide +kernel

/-! ## C47 and C81: locations and definitions -/

/-- **C47.** The location file has one block per cross-section, in order, with its name, branch and chainage, and refers
to the definition of that name; the definition file has the definitions of these names, in the same order. -/
theorem C47_one_block_each (ft : FloatText K) (cs : List (ExportCss K)) (hn : ∀ c ∈ cs, PlainName c.name)
    (hb : ∀ c ∈ cs, PlainName c.branch) :
    (sections "[CrossSection]" (exportLocations ft cs)).map
        (fun s => (s.get "id", s.get "branchid", s.get "chainage", s.get "definition")) =
      cs.map (fun c => (some c.name, some c.branch, some (ft.repr c.chainage), some c.name)) ∧
    (sections "[Definition]" (exportDefinitions ft cs)).map (fun s => s.get "id") = cs.map (fun c => some c.name) := by
  rw [sections_locations ft cs fun c hc => ⟨(hn c hc).2.1, (hb c hc).2.1⟩,
    sections_definitions ft cs fun c hc => (hn c hc).2.1]
  constructor
  · rw [List.map_map]
    apply List.map_congr_left
    intro c hc
    simp only [Function.comp_apply, Section.get, locationEntries, List.find?_cons, (hn c hc).2.2, (hb c hc).2.2]
    rfl
  · rw [List.map_map]
    apply List.map_congr_left
    intro c hc
    simp only [Function.comp_apply, Section.get, definitionEntries, List.find?_cons, (hn c hc).2.2]
    rfl

/-- **C47.** Every location refers to a definition, and every definition is referred to. -/
theorem C47_references (ft : FloatText K) (cs : List (ExportCss K)) (hn : ∀ c ∈ cs, PlainName c.name)
    (hb : ∀ c ∈ cs, PlainName c.branch) (id : Text) :
    (∃ s ∈ sections "[CrossSection]" (exportLocations ft cs), s.get "definition" = some id) ↔
      ∃ s ∈ sections "[Definition]" (exportDefinitions ft cs), s.get "id" = some id := by
  obtain ⟨h1, h2⟩ := C47_one_block_each ft cs hn hb
  have h3 : (sections "[CrossSection]" (exportLocations ft cs)).map (fun s => s.get "definition") =
      cs.map (fun c => some c.name) := by
    have := congrArg (List.map fun q : Option Text × Option Text × Option Text × Option Text => q.2.2.2) h1
    rw [List.map_map, List.map_map] at this
    exact this
  have m : ∀ (l : List Section) (k : String), (∃ s ∈ l, s.get k = some id) ↔ some id ∈ l.map (fun s => s.get k) := by
    intro l k; rw [List.mem_map]
  rw [m, m, h3, h2]

/-- **C81.** Every definition block declares as many levels as it lists, and lists a flow width and a total width for
each of them. -/
theorem C81_rectangular (ft : FloatText K) (cs : List (ExportCss K)) (hn : ∀ c ∈ cs, PlainName c.name)
    (hl : ∀ c ∈ cs, c.flowWidth.length = c.z.length ∧ c.totalWidth.length = c.z.length) :
    ∀ s ∈ sections "[Definition]" (exportDefinitions ft cs), ∃ lv fw tw,
      s.get "levels" = some lv ∧ s.get "flowWidths" = some fw ∧ s.get "totalWidths" = some tw ∧
      s.get "numLevels" = some (natText (splitWs lv).length) ∧ (splitWs fw).length = (splitWs lv).length ∧
      (splitWs tw).length = (splitWs lv).length := by
  have hw : ∀ l : List K, (splitWs (fixed4 l)).length = l.length := by
    intro l
    unfold fixed4
    rw [splitWs_joined, List.length_map]
    · intro w hw; obtain ⟨x, _, rfl⟩ := List.mem_map.1 hw; exact fmtFixed_ne_nil 4 x
    · intro w hw; obtain ⟨x, _, rfl⟩ := List.mem_map.1 hw; exact fmtFixed_noSpace 4 x
  rw [sections_definitions ft cs fun c hc => (hn c hc).2.1]
  intro s hs
  obtain ⟨c, hc, rfl⟩ := List.mem_map.1 hs
  refine ⟨fixed4 c.z, fixed4 c.flowWidth, fixed4 c.totalWidth, rfl, rfl, rfl, ?_, ?_, ?_⟩
  · rw [hw]; rfl
  · rw [hw, hw, (hl c hc).1]
  · rw [hw, hw, (hl c hc).2]

example : (sections "[CrossSection]" (exportLocations (decimalText ℚ) [sampleCss, sampleCss2])).map
      (fun s => (s.get "branchid", s.get "chainage")) =
    [(some "rhine_1".toList, some "100.000000".toList), (some "rhine_1".toList, some "200.500000".toList)] := by
  decide +kernel

example : (∀ c ∈ [sampleCss, sampleCss2], PlainName c.branch) ∧
    ∀ c ∈ [sampleCss, sampleCss2], c.flowWidth.length = c.z.length ∧ c.totalWidth.length = c.z.length := by decide +kernel

/-! ## C46: printed levels of the definitions -/

private theorem decimals_fixed4 (l : List K) : decimals (K := K) (fixed4 l) = l.map fun x => some (roundTo 4 x) := by
  unfold decimals fixed4
  rw [splitWs_joined, List.map_map]
  · apply List.map_congr_left
    intro x _
    exact parseDecimal_fixed 4 x
  · intro w hw; obtain ⟨x, _, rfl⟩ := List.mem_map.1 hw; exact fmtFixed_ne_nil 4 x
  · intro w hw; obtain ⟨x, _, rfl⟩ := List.mem_map.1 hw; exact fmtFixed_noSpace 4 x

private theorem roundTo_lt (d : Nat) (x y : K) (h : x + 1 / 10 ^ d < y) : roundTo d x < roundTo d y := by
  have h1 := abs_le.1 (roundTo_spec d x)
  have h2 := abs_le.1 (roundTo_spec d y)
  have h3 : (1 : K) / 2 / 10 ^ d + 1 / 2 / 10 ^ d = 1 / 10 ^ d := by ring
  linarith [h1.2, h2.1]

/-- **C46, partial.** The printed levels increase when neighbouring levels are more than 0.0001 apart. Missing: levels
that are closer, for which it is false. -/
theorem C46_increasing_partial (ft : FloatText K) (cs : List (ExportCss K)) (hn : ∀ c ∈ cs, PlainName c.name)
    (hz : ∀ c ∈ cs, c.z.Pairwise fun a b => a + 1 / 10000 < b) :
    ∀ s ∈ sections "[Definition]" (exportDefinitions ft cs), ∃ lv, s.get "levels" = some lv ∧
      Increasing (decimals (K := K) lv) := by
  rw [sections_definitions ft cs fun c hc => (hn c hc).2.1]
  intro s hs
  obtain ⟨c, hc, rfl⟩ := List.mem_map.1 hs
  refine ⟨fixed4 c.z, rfl, c.z.map (roundTo 4), ?_, ?_⟩
  · rw [decimals_fixed4, List.map_map]; rfl
  · rw [List.pairwise_map]
    apply (hz c hc).imp
    intro a b h
    apply roundTo_lt
    norm_num
    norm_num at h
    exact h

/-- **C46, violated.** Levels that are closer are printed as the same number. -/
theorem C46_equal_levels_violated :
    ∃ c : ExportCss ℚ, c.z.Pairwise (· < ·) ∧ PlainName c.name ∧
      ∃ s ∈ sections "[Definition]" (exportDefinitions (decimalText ℚ) [c]), ∃ lv, s.get "levels" = some lv ∧
        decimals lv = [some (1 : ℚ), some 1] := by
  refine ⟨{ sampleCss with z := [1, 1 + 1 / 100000] }, by decide +kernel, by decide +kernel, ?_⟩
  rw [sections_definitions (decimalText ℚ) _ (by decide +kernel)]
  refine ⟨_, List.mem_map.2 ⟨_, List.mem_singleton.2 rfl, rfl⟩, fixed4 [1, 1 + 1 / 100000], rfl, ?_⟩
  decide +kernel

example : ∀ c ∈ [sampleCss, sampleCss2], c.z.Pairwise fun a b => a + 1 / 10000 < b := by decide +kernel

/-! ## C45, C48 and C82: the SOBEK 3 profile file -/

/-- The rows of a cross-section with a type. -/
def sobekRowsOf (text : Text) (name : Text) (type : String) : List (List Text) :=
  (rows text).tail.filter fun r => r[0]? = some name ∧ r[2]? = some type.toList

private theorem rowsOf_eq (ft : FloatText K) (cs : List (ExportCss K)) (hn : ∀ c ∈ cs, CsvName c.name)
    (hb : ∀ c ∈ cs, ',' ∉ c.branch ∧ '\n' ∉ c.branch) (hd : (cs.map (·.name)).Nodup) (c : ExportCss K) (hc : c ∈ cs) :
    sobekRowsOf (exportSobekGeometry ft cs) c.name "meta" = [metaFields ft c] ∧
      sobekRowsOf (exportSobekGeometry ft cs) c.name "geom" = sobekFieldRows ft c 0 c.totalWidth := by
  have hgeom : ∀ (d : ExportCss K) (i : Nat) (ws : List K), ∀ r ∈ sobekFieldRows ft d i ws,
      r[0]? = some d.name ∧ r[2]? = some "geom".toList := by
    intro d i ws
    induction ws generalizing i with
    | nil => simp [sobekFieldRows]
    | cons w ws ih =>
      rw [sobekFieldRows]
      cases d.flowWidth[i]? with
      | none => simp
      | some f =>
        cases d.z[i]? with
        | none => simp
        | some z =>
          intro r hr
          rcases List.mem_cons.1 hr with rfl | hr
          · exact ⟨rfl, rfl⟩
          · exact ih _ r hr
  have hmeta : ∀ d : ExportCss K, (metaFields ft d)[0]? = some d.name ∧ (metaFields ft d)[2]? = some "meta".toList :=
    fun d => ⟨rfl, rfl⟩
  have hne : ("meta".toList : Text) ≠ "geom".toList := by decide
  unfold sobekRowsOf
  rw [sobek_rows ft cs hn hb, List.tail_cons]
  have hother : ∀ (ds : List (ExportCss K)) (type : String), c.name ∉ ds.map (·.name) →
      (ds.map fun c => metaFields ft c :: sobekFieldRows ft c 0 c.totalWidth).flatten.filter
        (fun r => decide (r[0]? = some c.name ∧ r[2]? = some type.toList)) = [] := by
    intro ds type h
    rw [List.filter_eq_nil_iff]
    intro r hr
    obtain ⟨b, hb', hr⟩ := List.mem_flatten.1 hr
    obtain ⟨d, hd', rfl⟩ := List.mem_map.1 hb'
    have hname : r[0]? = some d.name := by
      rcases List.mem_cons.1 hr with rfl | hr
      · rfl
      · exact (hgeom d _ _ r hr).1
    have : d.name ≠ c.name := fun e => h (by rw [← e]; exact List.mem_map.2 ⟨d, hd', rfl⟩)
    simp [hname, this]
  clear hn hb
  induction cs with
  | nil => simp at hc
  | cons d cs ih =>
    rw [List.map_cons, List.nodup_cons] at hd
    rw [List.map_cons, List.flatten_cons]
    by_cases hdc : c = d
    · subst hdc
      rw [List.filter_append, List.filter_append, hother cs "meta" hd.1, hother cs "geom" hd.1, List.append_nil,
        List.append_nil]
      constructor
      · rw [List.filter_cons_of_pos (by simp [hmeta]), List.filter_eq_nil_iff.2]
        intro r hr
        have := (hgeom c _ _ r hr).2
        simp [this]
      · rw [List.filter_cons_of_neg (by rw [(hmeta c).2]; simp), List.filter_eq_self.2]
        intro r hr
        have := hgeom c _ _ r hr
        simp [this.1, this.2]
    · have hc' : c ∈ cs := by simpa [hdc] using hc
      have hnn : d.name ≠ c.name := fun e => hd.1 (by rw [e]; exact List.mem_map.2 ⟨c, hc', rfl⟩)
      have h0 : ∀ type : String, (metaFields ft d :: sobekFieldRows ft d 0 d.totalWidth).filter
          (fun r => decide (r[0]? = some c.name ∧ r[2]? = some type.toList)) = [] := by
        intro type
        have := hother [d] type (by simpa using fun e => hnn e.symm)
        simpa using this
      rw [List.filter_append, List.filter_append, h0, h0, List.nil_append, List.nil_append]
      exact ih hd.2 hc'

private theorem mem_zipIdx_getElem {α : Type} (l : List α) (i : Nat) (a : α) (k : Nat) (h : (l.zipIdx i)[k]? = some (a, i + k)) :
    l[k]? = some a := by
  rw [List.getElem?_zipIdx] at h
  cases hl : l[k]? with
  | none => rw [hl] at h; simp at h
  | some b => rw [hl] at h; simp only [Option.map_some, Option.some.injEq, Prod.mk.injEq] at h; rw [h.1]

/-- **C45.** In the SOBEK 3 profile file the printed levels of every cross-section increase, even when its levels are
only non-decreasing. -/
theorem C45_levels_increase (ft : FloatText K) (cs : List (ExportCss K)) (hn : ∀ c ∈ cs, CsvName c.name)
    (hb : ∀ c ∈ cs, ',' ∉ c.branch ∧ '\n' ∉ c.branch) (hd : (cs.map (·.name)).Nodup) (c : ExportCss K) (hc : c ∈ cs)
    (hz : c.z.Pairwise (· ≤ ·)) (hl : c.flowWidth.length = c.totalWidth.length ∧ c.z.length = c.totalWidth.length) :
    Increasing ((sobekRowsOf (exportSobekGeometry ft cs) c.name "geom").map fun r =>
      (field ((rows (exportSobekGeometry ft cs)).headD []) r "level").bind (parseDecimal (K := K))) := by
  rw [(rowsOf_eq ft cs hn hb hd c hc).2, sobekFieldRows_eq ft c 0 c.totalWidth (by omega) (by omega),
    sobek_rows ft cs hn hb]
  simp only [List.headD_cons, List.drop_zero]
  have hidx : sobekColumns.idxOf "level".toList = 3 := by decide +kernel
  refine ⟨((c.z.zip (c.totalWidth.zip c.flowWidth)).zipIdx 0).map
    (fun q => roundTo 8 (q.1.1 + ((q.2 : K) + 1) * (1 / 100000))), ?_, ?_⟩
  · rw [List.map_map, List.map_map]
    apply List.map_congr_left
    intro q _
    simp only [Function.comp_apply, field]
    rw [show "level".toList = "level".toList from rfl, hidx]
    exact parseDecimal_fixed 8 _
  · rw [List.pairwise_map, List.pairwise_iff_getElem]
    intro i j hi hj hij
    rw [List.length_zipIdx] at hi hj
    simp only [List.getElem_zipIdx, List.getElem_zip]
    have hi' : i < c.z.length := by simp at hi; omega
    have hj' : j < c.z.length := by simp at hj; omega
    have h1 : c.z[i] ≤ c.z[j] := List.pairwise_iff_getElem.1 hz i j hi' hj' hij
    apply roundTo_lt
    have h2 : (i : K) + 1 ≤ (j : K) := by exact_mod_cast hij
    have h3 : ((0 + i : Nat) : K) = (i : K) := by simp
    have h4 : ((0 + j : Nat) : K) = (j : K) := by simp
    rw [h3, h4]
    have h5 : (1 : K) / 10 ^ 8 < 1 / 100000 := by norm_num
    have h6 : ((i : K) + 1) * (1 / 100000) + 1 / 100000 ≤ ((j : K) + 1) * (1 / 100000) := by
      have : ((i : K) + 1 + 1) * (1 / 100000) ≤ ((j : K) + 1) * (1 / 100000) :=
        mul_le_mul_of_nonneg_right (by linarith) (by norm_num)
      linarith
    linarith

/-- **C82.** The SOBEK 3 profile file has one geometry row per level of a cross-section, in order, with the level, total
width and flow width of that level; the printed level is the level plus a hundred-thousandth for each row so far. -/
theorem C82_rows (ft : FloatText K) (cs : List (ExportCss K)) (hn : ∀ c ∈ cs, CsvName c.name)
    (hb : ∀ c ∈ cs, ',' ∉ c.branch ∧ '\n' ∉ c.branch) (hd : (cs.map (·.name)).Nodup) (c : ExportCss K) (hc : c ∈ cs)
    (hl : c.flowWidth.length = c.totalWidth.length ∧ c.z.length = c.totalWidth.length) :
    (sobekRowsOf (exportSobekGeometry ft cs) c.name "geom").length = c.z.length ∧
      ∀ (i : Nat) (r : List Text), (sobekRowsOf (exportSobekGeometry ft cs) c.name "geom")[i]? = some r →
        ∃ z w f, c.z[i]? = some z ∧ c.totalWidth[i]? = some w ∧ c.flowWidth[i]? = some f ∧
          field ((rows (exportSobekGeometry ft cs)).headD []) r "level" =
            some (fmtFixed 8 (z + ((i : K) + 1) * (1 / 100000))) ∧
          field ((rows (exportSobekGeometry ft cs)).headD []) r "Total width" = some (ft.repr w) ∧
          field ((rows (exportSobekGeometry ft cs)).headD []) r "Flow width" = some (ft.repr f) := by
  rw [(rowsOf_eq ft cs hn hb hd c hc).2, sobekFieldRows_eq ft c 0 c.totalWidth (by omega) (by omega),
    sobek_rows ft cs hn hb]
  simp only [List.headD_cons, List.drop_zero]
  have h3 : sobekColumns.idxOf "level".toList = 3 := by decide +kernel
  have h4 : sobekColumns.idxOf "Total width".toList = 4 := by decide +kernel
  have h5 : sobekColumns.idxOf "Flow width".toList = 5 := by decide +kernel
  refine ⟨by simp; omega, fun i r hr => ?_⟩
  rw [List.getElem?_map, List.getElem?_zipIdx] at hr
  cases hq : (c.z.zip (c.totalWidth.zip c.flowWidth))[i]? with
  | none => rw [hq] at hr; simp at hr
  | some q =>
    rw [hq] at hr
    simp only [Option.map_some, Nat.zero_add, Option.some.injEq] at hr
    subst hr
    rw [List.getElem?_zip_eq_some, List.getElem?_zip_eq_some] at hq
    refine ⟨q.1, q.2.1, q.2.2, hq.1, hq.2.1, hq.2.2, ?_, ?_, ?_⟩
    · unfold field; rw [h3]; rfl
    · unfold field; rw [h4]; rfl
    · unfold field; rw [h5]; rfl

/-- The entry of the metadata row of a cross-section in the column with a name. -/
def metaField (text : Text) (name : Text) (column : String) : Option Text :=
  (sobekRowsOf text name "meta").head?.bind fun r => field ((rows text).headD []) r column

/-- **C48, partial.** Each cross-section has one metadata row. It holds the branch, chainage and section widths; whether
there is a summer dike, and if there is one its crest level, its base level (the crest level if unknown) and its total
area. Missing: the flow area, and that the row has as many fields as the header has columns; both are false. -/
theorem C48_columns_partial (ft : FloatText K) (cs : List (ExportCss K)) (hn : ∀ c ∈ cs, CsvName c.name)
    (hb : ∀ c ∈ cs, ',' ∉ c.branch ∧ '\n' ∉ c.branch) (hd : (cs.map (·.name)).Nodup) (c : ExportCss K) (hc : c ∈ cs) :
    (sobekRowsOf (exportSobekGeometry ft cs) c.name "meta").length = 1 ∧
    metaField (exportSobekGeometry ft cs) c.name "branch" = some c.branch ∧
    metaField (exportSobekGeometry ft cs) c.name "chainage" = some (ft.repr c.chainage) ∧
    metaField (exportSobekGeometry ft cs) c.name "width main channel" = some (ft.repr c.widths.main) ∧
    metaField (exportSobekGeometry ft cs) c.name "widthfloodplain 1" = some (ft.repr c.widths.floodplain1) ∧
    metaField (exportSobekGeometry ft cs) c.name "width floodplain 2" = some (ft.repr c.widths.floodplain2) ∧
    (0 < c.extraTotalVolume →
      metaField (exportSobekGeometry ft cs) c.name "Use Summerdike" = some "1".toList ∧
      metaField (exportSobekGeometry ft cs) c.name "Crest level summerdike" = some (ft.repr c.crestLevel) ∧
      metaField (exportSobekGeometry ft cs) c.name "Floodplainbaselevel behind summerdike" =
        some (ft.repr (c.floodplainBase.getD c.crestLevel)) ∧
      metaField (exportSobekGeometry ft cs) c.name "Total area behind summerdike" = some (ft.repr c.extraTotalArea)) ∧
    (c.extraTotalVolume ≤ 0 →
      metaField (exportSobekGeometry ft cs) c.name "Use Summerdike" = some "0".toList ∧
      metaField (exportSobekGeometry ft cs) c.name "Crest level summerdike" = some [] ∧
      metaField (exportSobekGeometry ft cs) c.name "Floodplainbaselevel behind summerdike" = some [] ∧
      metaField (exportSobekGeometry ft cs) c.name "Flow area behind summerdike" = some [] ∧
      metaField (exportSobekGeometry ft cs) c.name "Total area behind summerdike" = some []) := by
  have hm : ∀ column i, sobekColumns.idxOf (String.toList column) = i →
      metaField (exportSobekGeometry ft cs) c.name column = (metaFields ft c)[i]? := by
    intro column i hi
    unfold metaField
    rw [(rowsOf_eq ft cs hn hb hd c hc).1, sobek_rows ft cs hn hb]
    simp only [List.head?_cons, Option.bind_some, List.headD_cons, field, hi]
  rw [hm "branch" 7 (by decide +kernel), hm "chainage" 8 (by decide +kernel),
    hm "width main channel" 9 (by decide +kernel), hm "widthfloodplain 1" 10 (by decide +kernel),
    hm "width floodplain 2" 11 (by decide +kernel), hm "Use Summerdike" 13 (by decide +kernel),
    hm "Crest level summerdike" 14 (by decide +kernel), hm "Floodplainbaselevel behind summerdike" 15 (by decide +kernel),
    hm "Flow area behind summerdike" 16 (by decide +kernel), hm "Total area behind summerdike" 17 (by decide +kernel),
    (rowsOf_eq ft cs hn hb hd c hc).1]
  refine ⟨rfl, rfl, rfl, rfl, rfl, rfl, fun h => ?_, fun h => ?_⟩
  · refine ⟨?_, ?_, ?_, ?_⟩ <;> simp [metaFields, h]
  · have h' := not_lt.2 h
    refine ⟨?_, ?_, ?_, ?_, ?_⟩ <;> simp [metaFields, h']

/-- **C48, violated.** For every cross-section with a summer dike the column of the flow area holds the total area. -/
theorem C48_flow_area_violated (ft : FloatText K) (cs : List (ExportCss K)) (hn : ∀ c ∈ cs, CsvName c.name)
    (hb : ∀ c ∈ cs, ',' ∉ c.branch ∧ '\n' ∉ c.branch) (hd : (cs.map (·.name)).Nodup) (c : ExportCss K) (hc : c ∈ cs)
    (hv : 0 < c.extraTotalVolume) :
    metaField (exportSobekGeometry ft cs) c.name "Flow area behind summerdike" = some (ft.repr c.extraTotalArea) := by
  have hi : sobekColumns.idxOf ("Flow area behind summerdike".toList) = 16 := by decide +kernel
  unfold metaField
  rw [(rowsOf_eq ft cs hn hb hd c hc).1, sobek_rows ft cs hn hb]
  simp only [List.head?_cons, Option.bind_some, List.headD_cons, field, hi]
  simp [metaFields, hv]

/-- **C48, violated.** The header has twenty columns and every metadata row twenty-four fields. -/
theorem C48_field_count_violated (ft : FloatText K) (cs : List (ExportCss K)) (hn : ∀ c ∈ cs, CsvName c.name)
    (hb : ∀ c ∈ cs, ',' ∉ c.branch ∧ '\n' ∉ c.branch) (hd : (cs.map (·.name)).Nodup) (c : ExportCss K) (hc : c ∈ cs) :
    ((rows (exportSobekGeometry ft cs)).headD []).length = 20 ∧
      ∀ r ∈ sobekRowsOf (exportSobekGeometry ft cs) c.name "meta", r.length = 24 := by
  rw [(rowsOf_eq ft cs hn hb hd c hc).1, sobek_rows ft cs hn hb]
  refine ⟨rfl, fun r hr => ?_⟩
  rw [List.mem_singleton.1 hr]
  simp [metaFields]

example : (∀ c ∈ [sampleCss, sampleCss2], CsvName c.name) ∧
    (∀ c ∈ [sampleCss, sampleCss2], ',' ∉ c.branch ∧ '\n' ∉ c.branch) ∧ sampleCss.z.Pairwise (· ≤ ·) ∧
    0 < sampleCss.extraTotalVolume ∧ sampleCss.extraTotalArea ≠ sampleCss.extraFlowArea ∧
    (sampleCss.flowWidth.length = sampleCss.totalWidth.length ∧ sampleCss.z.length = sampleCss.totalWidth.length) := by
  decide +kernel

/-! ## C83: the test format -/

private theorem testRow_split (ft : FloatText K) (a b c d : K) :
    splitSep ',' (strip (ft.repr a ++ ", ".toList ++ ft.repr b ++ ", ".toList ++ ft.repr c ++ ",".toList ++ ft.repr d ++
      ['\n'])) = [ft.repr a, ' ' :: ft.repr b, ' ' :: ft.repr c, ft.repr d] := by
  have hno : ∀ x : K, ',' ∉ ft.repr x := fun x h => by
    have := ft.repr_chars x _ h
    revert this; decide
  have hsp : ∀ x : K, ∀ c ∈ ft.repr x, isSpace c = false := fun x c hc => (numberChars_noSpace c (ft.repr_chars x c hc)).1
  have e : strip (ft.repr a ++ ", ".toList ++ ft.repr b ++ ", ".toList ++ ft.repr c ++ ",".toList ++ ft.repr d ++ ['\n']) =
      ft.repr a ++ ',' :: ((' ' :: ft.repr b) ++ ',' :: ((' ' :: ft.repr c) ++ ',' :: ft.repr d)) := by
    have h1 : ft.repr a ++ ", ".toList ++ ft.repr b ++ ", ".toList ++ ft.repr c ++ ",".toList ++ ft.repr d ++ ['\n'] =
        ft.repr a ++ ',' :: ((' ' :: ft.repr b) ++ ',' :: ((' ' :: ft.repr c) ++ ',' :: ft.repr d)) ++ ['\n'] := by
      simp
    have h2 := strip_pad [] (ft.repr a ++ ',' :: ((' ' :: ft.repr b) ++ ',' :: ((' ' :: ft.repr c) ++ ',' :: ft.repr d)))
      ['\n'] (by simp) (by decide)
    rw [h1]
    rw [List.nil_append] at h2
    rw [h2]
    apply strip_of_trimmed
    constructor
    · intro ch hch
      cases ha : ft.repr a with
      | nil => exact absurd ha (ft.repr_ne_nil a)
      | cons x xs =>
        rw [ha] at hch
        simp only [List.cons_append, List.head?_cons, Option.mem_def, Option.some.injEq] at hch
        rw [← hch]
        exact hsp a x (by rw [ha]; simp)
    · intro ch hch
      apply hsp d
      have hne := ft.repr_ne_nil d
      have : (ft.repr a ++ ',' :: ((' ' :: ft.repr b) ++ ',' :: ((' ' :: ft.repr c) ++ ',' :: ft.repr d))) =
          (ft.repr a ++ ',' :: ((' ' :: ft.repr b) ++ ',' :: ((' ' :: ft.repr c) ++ [',']))) ++ ft.repr d := by simp
      rw [this, List.getLast?_append_of_ne_nil _ hne] at hch
      exact List.mem_of_mem_getLast? hch
  rw [e, splitSep_append _ _ _ (hno a), splitSep_append _ _ _ (by simpa using hno b),
    splitSep_append _ _ _ (by simpa using hno c), splitSep_single _ _ (hno d)]

/-- **C83.** The test file lists, for each cross-section in order and each of its levels, the chainage, level, total
width and flow width; reading the numbers gives them back exactly. -/
theorem C83_rows (ft : FloatText K) (cs : List (ExportCss K))
    (hl : ∀ c ∈ cs, c.totalWidth.length = c.z.length ∧ c.flowWidth.length = c.z.length)
    (hf : ∀ c ∈ cs, ft.representable c.chainage ∧ ∀ x ∈ c.z ++ c.totalWidth ++ c.flowWidth, ft.representable x) :
    ∃ text, exportTestGeometry ft cs = .ok text ∧
      (rows text).headD [] = ["chainage", "z", "total width", "flow width"].map String.toList ∧
      (rows text).tail.map (fun r => r.map ft.parse) =
        (cs.map fun c => (c.z.zip (c.totalWidth.zip c.flowWidth)).map fun q =>
          [some c.chainage, some q.1, some q.2.1, some q.2.2]).flatten := by
  let line : K → K × K × K → Text := fun ch q =>
    ft.repr ch ++ ", ".toList ++ ft.repr q.1 ++ ", ".toList ++ ft.repr q.2.1 ++ ",".toList ++ ft.repr q.2.2
  have hrow : ∀ c ∈ cs, testRows ft c = .ok ((c.z.zip (c.totalWidth.zip c.flowWidth)).map (line c.chainage)) := by
    intro c hc
    obtain ⟨h1, h2⟩ := hl c hc
    unfold testRows
    have e : (c.z.zip (c.totalWidth.zip c.flowWidth)).map (line c.chainage) =
        (List.range c.z.length).map fun i => (((c.z.zip (c.totalWidth.zip c.flowWidth))[i]?).map (line c.chainage)).getD [] := by
      apply List.ext_getElem?
      intro i
      rw [List.getElem?_map, List.getElem?_map]
      by_cases hi : i < c.z.length
      · have hlen : i < (c.z.zip (c.totalWidth.zip c.flowWidth)).length := by simp; omega
        rw [List.getElem?_range hi, Option.map_some, List.getElem?_eq_getElem hlen]
        rfl
      · rw [List.getElem?_eq_none (by simp; omega), List.getElem?_eq_none (by simp; omega)]
        rfl
    rw [e]
    apply collect_ok
    intro i hi
    have hi' : i < c.z.length := List.mem_range.1 hi
    have hz : c.z[i]? = some c.z[i] := List.getElem?_eq_getElem hi'
    have ht : c.totalWidth[i]? = some (c.totalWidth[i]'(by omega)) := List.getElem?_eq_getElem _
    have hw : c.flowWidth[i]? = some (c.flowWidth[i]'(by omega)) := List.getElem?_eq_getElem _
    have hq : (c.z.zip (c.totalWidth.zip c.flowWidth))[i]? = some (c.z[i], c.totalWidth[i]'(by omega), c.flowWidth[i]'(by omega)) :=
      List.getElem?_zip_eq_some.2 ⟨hz, List.getElem?_zip_eq_some.2 ⟨ht, hw⟩⟩
    rw [hq]
    simp only [hz, ht, hw]
    rfl
  have hex : exportTestGeometry ft cs = .ok (unlines ("chainage,z,total width,flow width".toList ::
      (cs.map fun c => (c.z.zip (c.totalWidth.zip c.flowWidth)).map (line c.chainage)).flatten)) := by
    unfold exportTestGeometry
    rw [collect_ok _ _ _ hrow]
  refine ⟨_, hex, ?_⟩
  have hnb : ∀ x : K, '\n' ∉ ft.repr x := fun x h => by
    have := ft.repr_chars x _ h
    revert this; decide
  have hrows : rows (unlines ("chainage,z,total width,flow width".toList ::
      (cs.map fun c => (c.z.zip (c.totalWidth.zip c.flowWidth)).map (line c.chainage)).flatten)) =
      ["chainage", "z", "total width", "flow width"].map String.toList ::
        (cs.map fun c => (c.z.zip (c.totalWidth.zip c.flowWidth)).map fun q =>
          [ft.repr c.chainage, ' ' :: ft.repr q.1, ' ' :: ft.repr q.2.1, ft.repr q.2.2]).flatten := by
    unfold rows
    have hh : splitSep ',' (strip ("chainage,z,total width,flow width".toList ++ ['\n'])) =
      ["chainage", "z", "total width", "flow width"].map String.toList := by decide +kernel
    rw [fileLines_unlines', List.map_cons, List.map_cons, hh]
    · refine congrArg _ ?_
      rw [List.map_map, List.map_flatten, List.map_map]
      refine congrArg List.flatten (List.map_congr_left fun c _ => ?_)
      rw [Function.comp_apply, List.map_map]
      apply List.map_congr_left
      intro q _
      exact testRow_split ft _ _ _ _
    · intro l hl
      rcases List.mem_cons.1 hl with e | hl
      · rw [e]; decide +kernel
      · obtain ⟨b, hb', hl⟩ := List.mem_flatten.1 hl
        obtain ⟨c, hc, rfl⟩ := List.mem_map.1 hb'
        obtain ⟨q, _, rfl⟩ := List.mem_map.1 hl
        simp only [line, List.mem_append, not_or]
        repeat' apply And.intro
        all_goals first
          | exact hnb _
          | decide
  rw [hrows]
  refine ⟨rfl, ?_⟩
  rw [List.tail_cons, List.map_flatten, List.map_map]
  refine congrArg List.flatten (List.map_congr_left fun c hc => ?_)
  rw [Function.comp_apply, List.map_map]
  apply List.map_congr_left
  intro q hq
  obtain ⟨f1, f2⟩ := hf c hc
  have hq1 := List.of_mem_zip hq
  have hq2 := List.of_mem_zip (a := q.2.1) (b := q.2.2) hq1.2
  have hp : ∀ x : K, ft.parse (' ' :: ft.repr x) = ft.parse (ft.repr x) := by
    intro x
    rw [← ft.parse_strip (' ' :: ft.repr x)]
    have := strip_pad [' '] (ft.repr x) [] (by decide) (by simp)
    rw [List.append_nil, List.singleton_append] at this
    rw [this, ft.parse_strip]
  simp only [Function.comp_apply, List.map_cons, List.map_nil, hp]
  rw [ft.parse_repr _ f1, ft.parse_repr _ (f2 _ (by simp [hq1.1])), ft.parse_repr _ (f2 _ (by simp [hq2.1])),
    ft.parse_repr _ (f2 _ (by simp [hq2.2]))]

example : (match exportTestGeometry (decimalText ℚ) [{ sampleCss with flowWidth := [10, 20, 1 / 2] }] with
    | .error _ => []
    | .ok t => (rows t).tail.map fun r => r.map (decimalText ℚ).parse) =
    [[some (100 : ℚ), some 1, some 12, some 10], [some 100, some (3 / 2), some 24, some 20],
      [some 100, some 2, some 30, some (1 / 2)]] := by decide +kernel

/-! ## C80: the SOBEK 3 roughness file -/

/-- **C80.** The SOBEK 3 roughness file has, for each section, each cross-section with that section and each level of its
table, in this order, one row with branch, chainage, section, level and roughness. -/
theorem C80_rows (ft : FloatText K) (cs : List (ExportCss K)) (hb : ∀ c ∈ cs, CsvName c.branch)
    (hs : ∀ c ∈ cs, ∀ p ∈ c.tables, p.1 ∈ ["main".toList, "floodplain1".toList, "floodplain2".toList]) :
    ∃ text, exportSobekRoughness ft cs = .ok text ∧
      (rows text).tail.map (fun r => ["Name", "Chainage", "SectionType", "H_pos", "R_pos__f(h)"].map
          (field ((rows text).headD []) r)) =
        ([("floodplain1", "FloodPlain1"), ("floodplain2", "FloodPlain2"), ("main", "Main")].map fun s =>
          (cs.map fun c => match sectionTable c s.1.toList with
            | none => []
            | some t => (t.level.zip t.friction).map fun q =>
              [some c.branch, some (ft.repr c.chainage), some s.2.toList, some (ft.repr q.1), some (ft.repr q.2)]).flatten).flatten := by
  simp only [sectionTable_eq]
  have hcond : (cs.any fun c => c.tables.any fun p => decide (sobekSection p.1 = none)) = false := by
    rw [List.any_eq_false]
    intro c hc h
    obtain ⟨p, hp, h⟩ := List.any_eq_true.1 h
    have := hs c hc p hp
    simp only [List.mem_cons, List.not_mem_nil, or_false] at this
    rcases this with e | e | e <;> rw [e] at h <;> exact absurd h (by decide)
  refine ⟨unlines (sobekRoughnessHeader :: (["floodplain1".toList, "floodplain2".toList, "main".toList].map
      (sobekRoughnessRows ft cs)).flatten), ?_, ?_⟩
  · unfold exportSobekRoughness; rw [if_neg (by rw [hcond]; simp)]
  have hrows : rows (unlines (sobekRoughnessHeader :: (["floodplain1".toList, "floodplain2".toList, "main".toList].map
      (sobekRoughnessRows ft cs)).flatten)) = splitSep ',' sobekRoughnessHeader ::
        (["floodplain1".toList, "floodplain2".toList, "main".toList].map (fun s => (sobekRoughnessRows ft cs s).map
          fun l => splitSep ',' (strip (l ++ ['\n'])))).flatten := by
    unfold rows
    have hh : splitSep ',' (strip (sobekRoughnessHeader ++ ['\n'])) = splitSep ',' sobekRoughnessHeader := by decide +kernel
    rw [fileLines_unlines', List.map_cons, List.map_cons, hh]
    · refine congrArg _ ?_
      rw [List.map_map, List.map_flatten, List.map_map]
      rfl
    · intro l hl
      rcases List.mem_cons.1 hl with e | hl
      · rw [e]; decide +kernel
      · obtain ⟨b, hb', hl⟩ := List.mem_flatten.1 hl
        obtain ⟨s, _, rfl⟩ := List.mem_map.1 hb'
        unfold sobekRoughnessRows at hl
        obtain ⟨b2, hb2, hl⟩ := List.mem_flatten.1 hl
        obtain ⟨c, hc, rfl⟩ := List.mem_map.1 hb2
        cases ht : tableOf c s with
        | none => rw [ht] at hl; simp at hl
        | some t =>
          cases hsec : sobekSection s with
          | none => rw [ht, hsec] at hl; simp at hl
          | some plain =>
            rw [ht, hsec] at hl
            obtain ⟨q, _, rfl⟩ := List.mem_map.1 hl
            exact roughRow_noBreak ft c plain _ _ (hb c hc).2.1 (sobekSection_some s plain hsec).2
  rw [hrows, List.tail_cons, List.headD_cons]
  have i0 : (splitSep ',' sobekRoughnessHeader).idxOf "Name".toList = 0 := by decide +kernel
  have i1 : (splitSep ',' sobekRoughnessHeader).idxOf "Chainage".toList = 1 := by decide +kernel
  have i3 : (splitSep ',' sobekRoughnessHeader).idxOf "SectionType".toList = 3 := by decide +kernel
  have i10 : (splitSep ',' sobekRoughnessHeader).idxOf "H_pos".toList = 10 := by decide +kernel
  have i11 : (splitSep ',' sobekRoughnessHeader).idxOf "R_pos__f(h)".toList = 11 := by decide +kernel
  have hone : ∀ s plain : String, sobekSection s.toList = some plain.toList →
      ((sobekRoughnessRows ft cs s.toList).map fun l => splitSep ',' (strip (l ++ ['\n']))).map
        (fun r => ["Name", "Chainage", "SectionType", "H_pos", "R_pos__f(h)"].map
          (field (splitSep ',' sobekRoughnessHeader) r)) =
      (cs.map fun c => match tableOf c s.toList with
        | none => []
        | some t => (t.level.zip t.friction).map fun q =>
          [some c.branch, some (ft.repr c.chainage), some plain.toList, some (ft.repr q.1), some (ft.repr q.2)]).flatten := by
    intro s plain hsec
    unfold sobekRoughnessRows
    rw [List.map_map, List.map_flatten, List.map_map]
    refine congrArg List.flatten (List.map_congr_left fun c hc => ?_)
    rw [Function.comp_apply, hsec]
    cases tableOf c s.toList with
    | none => rfl
    | some t =>
      simp only [List.map_map]
      apply List.map_congr_left
      intro q _
      simp only [Function.comp_apply]
      rw [rough_split ft c _ _ _ (hb c hc) (sobekSection_some _ _ hsec).1]
      simp only [List.map_cons, List.map_nil, field, i0, i1, i3, i10, i11, roughFields]
      rfl
  have h1 := hone "floodplain1" "FloodPlain1" (by decide)
  have h2 := hone "floodplain2" "FloodPlain2" (by decide)
  have h3 := hone "main" "Main" (by decide)
  simp only [List.map_cons, List.map_nil, List.flatten_cons, List.flatten_nil, List.append_nil, List.map_append]
  simp only [List.map_cons, List.map_nil] at h1 h2 h3
  rw [h1, h2, h3]

/-- **C80.** The file is refused exactly when some cross-section has a section other than these three. -/
theorem C80_refused_iff (ft : FloatText K) (cs : List (ExportCss K)) :
    exportSobekRoughness ft cs = .error .valueError ↔
      ∃ c ∈ cs, ∃ p ∈ c.tables, p.1 ∉ ["main".toList, "floodplain1".toList, "floodplain2".toList] := by
  have hsec : ∀ s : Text, sobekSection s = none ↔ s ∉ ["main".toList, "floodplain1".toList, "floodplain2".toList] := by
    intro s
    unfold sobekSection
    by_cases h1 : s = "main".toList
    · rw [h1]; decide
    · by_cases h2 : s = "floodplain1".toList
      · rw [h2]; decide
      · by_cases h3 : s = "floodplain2".toList
        · rw [h3]; decide
        · rw [if_neg h1, if_neg h2, if_neg h3]
          refine iff_of_true rfl fun h => ?_
          rcases List.mem_cons.1 h with e | h
          · exact h1 e
          rcases List.mem_cons.1 h with e | h
          · exact h2 e
          · exact h3 (List.mem_singleton.1 h)
  unfold exportSobekRoughness
  by_cases h : (cs.any fun c => c.tables.any fun p => decide (sobekSection p.1 = none)) = true
  · rw [if_pos h]
    simp only [true_iff]
    obtain ⟨c, hc, h⟩ := List.any_eq_true.1 h
    obtain ⟨p, hp, h⟩ := List.any_eq_true.1 h
    exact ⟨c, hc, p, hp, (hsec _).1 (of_decide_eq_true h)⟩
  · rw [if_neg h]
    simp only [reduceCtorEq, false_iff]
    rintro ⟨c, hc, p, hp, hn⟩
    exact h (List.any_eq_true.2 ⟨c, hc, List.any_eq_true.2 ⟨p, hp, decide_eq_true ((hsec _).2 hn)⟩⟩)

example : (∀ c ∈ [sampleCss, sampleCss2], CsvName c.branch) ∧ ∀ c ∈ [sampleCss, sampleCss2], ∀ p ∈ c.tables,
    p.1 ∈ ["main".toList, "floodplain1".toList, "floodplain2".toList] := by decide +kernel

/-! ## C26: the D-Flow 1D roughness file -/

/-- **C26.** Each branch with a cross-section that has the section occurs in exactly one branch block. -/
theorem C26_branches (ft : FloatText K) (sig : SigText ft) (cs : List (ExportCss K)) (s : Text)
    (hb : ∀ c ∈ cs, PlainName c.branch) (hs : '\n' ∉ s) :
    ((sections "[BranchProperties]" (exportRoughness ft sig.text cs s)).map fun x => x.get "branchId").Nodup ∧
      ∀ b, some b ∈ ((sections "[BranchProperties]" (exportRoughness ft sig.text cs s)).map fun x => x.get "branchId") ↔
        ∃ c ∈ cs, c.branch = b ∧ ∃ t, sectionTable c (lower s) = some t := by
  simp only [sectionTable_eq]
  rw [(sections_roughness ft sig cs s (fun c hc => (hb c hc).2.1) hs).1, List.map_map]
  have e : (branchEntries (lower s) [] cs).map
      ((fun x : Section => x.get "branchId") ∘ fun p => ⟨"[BranchProperties]".toList, branchEntry p⟩) =
      ((branchEntries (lower s) [] cs).map (·.1)).map some := by
    rw [List.map_map]
    apply List.map_congr_left
    intro p hp
    obtain ⟨c, hc, e, _⟩ := mem_branchEntries _ _ _ _ hp
    have : strip p.1 = p.1 := by rw [← e]; exact (hb c hc).2.2
    simp only [Function.comp_apply, Section.get, branchEntry, List.find?_cons, this]
    rfl
  rw [e]
  refine ⟨(branchEntries_nodup _ _ _).1.map (Option.some_injective _), fun b => ?_⟩
  rw [← branchEntries_mem (lower s) [] cs b (by simp)]
  simp

/-- **C26.** A branch block declares as many levels as it lists, and these are the levels of the table of a
cross-section on the branch. -/
theorem C26_levels (ft : FloatText K) (sig : SigText ft) (cs : List (ExportCss K)) (s : Text)
    (hb : ∀ c ∈ cs, PlainName c.branch) (hs : '\n' ∉ s) :
    ∀ x ∈ sections "[BranchProperties]" (exportRoughness ft sig.text cs s), ∃ c ∈ cs, ∃ t, ∃ lv,
      sectionTable c (lower s) = some t ∧ x.get "branchId" = some c.branch ∧ x.get "levels" = some lv ∧
      x.get "numLevels" = some (natText (splitWs lv).length) ∧ decimals lv = t.level.map fun z => some (roundTo 4 z) := by
  simp only [sectionTable_eq]
  rw [(sections_roughness ft sig cs s (fun c hc => (hb c hc).2.1) hs).1]
  intro x hx
  obtain ⟨p, hp, rfl⟩ := List.mem_map.1 hx
  obtain ⟨c, hc, e, ht⟩ := mem_branchEntries _ _ _ _ hp
  refine ⟨c, hc, p.2, fixed4 p.2.level, ht, ?_, rfl, ?_, decimals_fixed4 _⟩
  · have : strip p.1 = p.1 := by rw [← e]; exact (hb c hc).2.2
    simp only [Section.get, branchEntry, List.find?_cons, this, e]
    rfl
  · have : (splitWs (fixed4 p.2.level)).length = p.2.level.length := by
      have := congrArg List.length (decimals_fixed4 p.2.level)
      simpa [decimals] using this
    rw [this]; rfl

/-- **C26.** The cross-sections that have the section get one definition block each, in order, with their branch,
chainage and roughness values. -/
theorem C26_definitions (ft : FloatText K) (sig : SigText ft) (cs : List (ExportCss K)) (s : Text)
    (hb : ∀ c ∈ cs, PlainName c.branch) (hs : '\n' ∉ s) :
    (sections "[Definition]" (exportRoughness ft sig.text cs s)).map
        (fun x => (x.get "branchId", x.get "chainage", (x.get "values").map splitWs)) =
      cs.filterMap fun c => (sectionTable c (lower s)).map fun t =>
        (some c.branch, some (ft.repr c.chainage), some (t.friction.map sig.text)) := by
  simp only [sectionTable_eq]
  rw [(sections_roughness ft sig cs s (fun c hc => (hb c hc).2.1) hs).2, List.map_map]
  unfold frictionEntries
  rw [List.map_filterMap]
  apply List.filterMap_congr
  intro c hc
  rw [Option.map_map]
  cases tableOf c (lower s) with
  | none => rfl
  | some t =>
    have hvals : splitWs (joinWith [' '] (t.friction.map sig.text)) = t.friction.map sig.text := by
      apply splitWs_joined
      · intro w hw; obtain ⟨x, _, rfl⟩ := List.mem_map.1 hw; exact sig.ne_nil x
      · intro w hw; obtain ⟨x, _, rfl⟩ := List.mem_map.1 hw
        exact fun c hc => (numberChars_noSpace c (sig.chars x c hc)).1
    have h1 : Section.get ⟨"[Definition]".toList, frictionEntry ft sig.text (c, t)⟩ "values" =
        some (joinWith [' '] (t.friction.map sig.text)) := rfl
    have h2 : Section.get ⟨"[Definition]".toList, frictionEntry ft sig.text (c, t)⟩ "chainage" =
        some (ft.repr c.chainage) := rfl
    have h3 : Section.get ⟨"[Definition]".toList, frictionEntry ft sig.text (c, t)⟩ "branchId" = some c.branch := by
      have : Section.get ⟨"[Definition]".toList, frictionEntry ft sig.text (c, t)⟩ "branchId" = some (strip c.branch) := rfl
      rw [this, (hb c hc).2.2]
    simp only [Option.map_some, Function.comp_apply, h1, h2, h3, hvals]

/-- **C26.** When the tables of a section share their levels, a definition block lists one value for each level of the
block of its branch. -/
theorem C26_rectangular (ft : FloatText K) (sig : SigText ft) (cs : List (ExportCss K)) (s : Text) (levels : List K)
    (hb : ∀ c ∈ cs, PlainName c.branch) (hs : '\n' ∉ s)
    (ht : ∀ c ∈ cs, ∀ t, sectionTable c (lower s) = some t → t.level = levels ∧ t.friction.length = t.level.length) :
    ∀ d ∈ sections "[Definition]" (exportRoughness ft sig.text cs s),
      ∃ x ∈ sections "[BranchProperties]" (exportRoughness ft sig.text cs s),
        x.get "branchId" = d.get "branchId" ∧ ∃ lv vs, x.get "levels" = some lv ∧ d.get "values" = some vs ∧
          (splitWs vs).length = (splitWs lv).length := by
  intro d hd
  have hmap := C26_definitions ft sig cs s hb hs
  have hd' : (d.get "branchId", d.get "chainage", (d.get "values").map splitWs) ∈
      cs.filterMap fun c => (sectionTable c (lower s)).map fun t =>
        (some c.branch, some (ft.repr c.chainage), some (t.friction.map sig.text)) := by
    rw [← hmap]; exact List.mem_map.2 ⟨d, hd, rfl⟩
  obtain ⟨c, hc, e⟩ := List.mem_filterMap.1 hd'
  obtain ⟨t, htc, e⟩ := Option.map_eq_some_iff.1 e
  simp only [Prod.mk.injEq] at e
  obtain ⟨e1, -, e3⟩ := e
  obtain ⟨x, hx, hxb⟩ := List.mem_map.1 (((C26_branches ft sig cs s hb hs).2 c.branch).2 ⟨c, hc, rfl, t, htc⟩)
  obtain ⟨c', hc', t', lv, ht', -, h3, -, h5⟩ := C26_levels ft sig cs s hb hs x hx
  obtain ⟨vs, hvs, hvs'⟩ := Option.map_eq_some_iff.1 e3.symm
  refine ⟨x, hx, by rw [hxb, e1], lv, vs, h3, hvs, ?_⟩
  have h6 : (splitWs lv).length = t'.level.length := by
    have := congrArg List.length h5
    simpa [decimals] using this
  rw [hvs', h6, List.length_map, (ht c hc t htc).2, (ht c hc t htc).1, (ht c' hc' t' ht').1]

example : (∀ c ∈ [sampleCss, sampleCss2], PlainName c.branch) ∧ '\n' ∉ "Main".toList ∧
    ∀ c ∈ [sampleCss, sampleCss2], ∀ t ∈ sectionTable c (lower "Main".toList), t.level = [0, 1] ∧
      t.friction.length = t.level.length := by decide +kernel

/-! ## C72: names -/

/-- **C72.** A name made of a branch, an underscore and a number is split into exactly that branch and that number
(rounded to two decimals), also when the branch contains underscores. -/
theorem C72_parse (ft : FloatText K) (branch number : Text) (x : K) (hu : '_' ∉ number) (hx : ft.parse number = some x) :
    parseCssName ft (branch ++ '_' :: number) = .ok (branch, ft.near (roundTo 2 x)) := by
  unfold parseCssName rsplitUnderscore
  rw [List.reverse_append, List.reverse_cons, List.append_assoc, List.singleton_append,
    partition_append _ _ _ (by simpa using hu)]
  simp [hx]

/-- **C72.** The other parser of names gives the same branch, and the number itself. -/
theorem C72_split (ft : FloatText K) (branch number : Text) (x : K) (hu : '_' ∉ number) (hx : ft.parse number = some x) :
    splitCss ft (branch ++ '_' :: number) = .ok (branch ++ '_' :: number, x, branch) := by
  have h : ∀ b : Text, splitSep '_' (b ++ '_' :: number) = splitSep '_' b ++ [number] := by
    intro b
    induction b with
    | nil =>
      have := splitSep_append '_' [] number (by simp)
      rw [this, splitSep_single _ _ hu]; rfl
    | cons c b ih =>
      rw [List.cons_append, splitSep, splitSep]
      by_cases hc : c = '_'
      · rw [if_pos hc, if_pos hc, ih]; rfl
      · rw [if_neg hc, if_neg hc, ih]
        cases hs : splitSep '_' b with
        | nil => exact absurd hs (splitSep_ne_nil _ _)
        | cons w ws => rfl
  unfold splitCss
  rw [h, List.getLast?_append]
  simp only [List.getLast?_singleton, Option.some_or, Option.getD_some, hx, List.dropLast_concat, join_splitSep]

example : '_' ∉ "200.5".toList ∧ (decimalText ℚ).parse "200.5".toList = some (401 / 2) ∧
    parseCssName (decimalText ℚ) "rhine_1_200.5".toList = .ok ("rhine_1".toList, 401 / 2) := by decide +kernel

/-! ## C79: roughness read back -/

/-- **C79, partial.** Reading the exported roughness of a cross-section by its name gives the levels and the roughness
values of its table. Missing: branch names with capitals, for which nothing is found; it is also assumed that the name
is the branch and the chainage up to two decimals. -/
theorem C79_read_back_partial (ft : FloatText K) (sig : SigText ft) (cs : List (ExportCss K)) (s : Text)
    (hb : ∀ c ∈ cs, PlainName c.branch) (hlow : ∀ c ∈ cs, lower c.branch = c.branch)
    (hr : ∀ c ∈ cs, ft.representable c.chainage) (hs : '\n' ∉ s) (c : ExportCss K) (hc : c ∈ cs) (t : FrictionTable K)
    (ht : sectionTable c (lower s) = some t) (number : Text) (x : K) (hname : c.name = c.branch ++ '_' :: number)
    (hu : '_' ∉ number) (hx : ft.parse number = some x) (hchain : c.chainage = ft.near (roundTo 2 x))
    (hdist : ∀ d ∈ cs, d.branch = c.branch → d.chainage = c.chainage → d = c)
    (hlev : ∀ d ∈ cs, d.branch = c.branch → ∀ t', sectionTable d (lower s) = some t' → t'.level = t.level) :
    readRoughness ft (exportRoughness ft sig.text cs s) c.name =
      .ok ⟨some (t.level.map (as4 ft)), some (t.friction.map fun f => some (sig.value f))⟩ := by
  simp only [sectionTable_eq] at ht hlev
  unfold readRoughness
  rw [hname, C72_parse ft c.branch number x hu hx, ← hchain]
  simp only
  rw [rough_file ft sig cs s c.branch c.chainage hb hr hs, levelsAfter_eq ft c.branch _ _ t.level,
    valuesAfter_eq sig c.branch c.chainage _ _ t.friction]
  · rintro p hp ⟨h1, h2⟩
    obtain ⟨hp1, hp2⟩ := (mem_frictionEntries _ _ _).1 hp
    rw [hlow _ hp1] at h1
    have := hdist p.1 hp1 h1 h2
    rw [this, ht] at hp2
    rw [Option.some.inj hp2]
  · exact ⟨(c, t), (mem_frictionEntries _ _ _).2 ⟨hc, ht⟩, hlow c hc, rfl⟩
  · intro p hp h
    obtain ⟨d, hd, e, htd⟩ := mem_branchEntries _ _ _ _ hp
    rw [← e, hlow d hd] at h
    exact hlev d hd h p.2 htd
  · obtain ⟨p, hp, e⟩ := List.mem_map.1 ((branchEntries_mem (lower s) [] cs c.branch (by simp)).2 ⟨c, hc, rfl, t, ht⟩)
    exact ⟨p, hp, by rw [e]; exact hlow c hc⟩

private theorem toLower_toLower (c : Char) : c.toLower.toLower = c.toLower := by
  by_cases h : c.val ≥ 'A'.val ∧ c.val ≤ 'Z'.val
  · obtain ⟨h1, h2⟩ := h
    have h1' : 65 ≤ c.toNat := h1
    have h2' : c.toNat ≤ 90 := h2
    have : c = Char.ofNat c.toNat := (Char.ofNat_toNat c).symm
    rw [this]
    generalize c.toNat = n at *
    interval_cases n <;> decide
  · have : c.toLower = c := by unfold Char.toLower; rw [dif_neg h]
    rw [this, this]

/-- **C79, violated.** For every cross-section on a branch with a capital in its name neither levels nor values are
found, whatever was exported. -/
theorem C79_capitals_violated (ft : FloatText K) (sig : SigText ft) (cs : List (ExportCss K)) (s : Text)
    (hb : ∀ c ∈ cs, PlainName c.branch) (hr : ∀ c ∈ cs, ft.representable c.chainage) (hs : '\n' ∉ s) (c : ExportCss K)
    (number : Text) (x : K) (hname : c.name = c.branch ++ '_' :: number) (hu : '_' ∉ number)
    (hx : ft.parse number = some x) (hcap : lower c.branch ≠ c.branch) :
    readRoughness ft (exportRoughness ft sig.text cs s) c.name = .ok ⟨none, none⟩ := by
  have hll : ∀ b : Text, lower b ≠ c.branch := by
    intro b e
    apply hcap
    rw [← e]
    unfold lower
    rw [List.map_map]
    apply List.map_congr_left
    intro ch _
    simp only [Function.comp_apply]
    exact toLower_toLower ch
  unfold readRoughness
  rw [hname, C72_parse ft c.branch number x hu hx]
  simp only
  rw [rough_file ft sig cs s c.branch _ hb hr hs]
  have h1 : ∀ (es : List (Text × FrictionTable K)) (r : RoughnessInfo K), levelsAfter ft c.branch es r = r := by
    intro es r
    induction es with
    | nil => rfl
    | cons p es ih => unfold levelsAfter at ih ⊢; rw [List.foldl_cons, if_neg (hll _)]; exact ih
  have h2 : ∀ (es : List (ExportCss K × FrictionTable K)) (r : RoughnessInfo K) (z : K),
      valuesAfter sig c.branch z es r = r := by
    intro es r z
    induction es with
    | nil => rfl
    | cons p es ih => unfold valuesAfter at ih ⊢; rw [List.foldl_cons, if_neg fun h => hll _ h.1]; exact ih
  rw [h1, h2]

example : readRoughness (decimalText ℚ) (exportRoughness (decimalText ℚ) sampleSig.text [sampleCss, sampleCss2] "Main".toList)
    sampleCss2.name = .ok ⟨some [some 0, some 1], some [some 41, some 46]⟩ := by decide +kernel

example : readRoughness (decimalText ℚ) (exportRoughness (decimalText ℚ) sampleSig.text
    [{ sampleCss with name := "Rhine_100".toList, branch := "Rhine".toList }] "Main".toList) "Rhine_100".toList =
    .ok ⟨none, none⟩ := by decide +kernel

/-! ## C62: the crest drawn -/

private theorem foldl_max_spec (l : List K) (a : K) : (∀ x ∈ a :: l, x ≤ l.foldl max a) ∧ l.foldl max a ∈ a :: l := by
  induction l generalizing a with
  | nil => simp
  | cons b l ih =>
    rw [List.foldl_cons]
    obtain ⟨h1, h2⟩ := ih (max a b)
    have h3 := h1 (max a b) (by simp)
    refine ⟨?_, ?_⟩
    · intro x hx
      rcases List.mem_cons.1 hx with rfl | hx
      · exact (le_max_left _ _).trans h3
      · rcases List.mem_cons.1 hx with rfl | hx
        · exact (le_max_right _ _).trans h3
        · exact h1 x (by simp [hx])
    · rcases List.mem_cons.1 h2 with h | h
      · rw [h]
        rcases max_choice a b with e | e <;> rw [e] <;> simp
      · simp [h]

private theorem foldl_min_spec (l : List K) (a : K) : (∀ x ∈ a :: l, l.foldl min a ≤ x) ∧ l.foldl min a ∈ a :: l := by
  induction l generalizing a with
  | nil => simp
  | cons b l ih =>
    rw [List.foldl_cons]
    obtain ⟨h1, h2⟩ := ih (min a b)
    have h3 := h1 (min a b) (by simp)
    refine ⟨?_, ?_⟩
    · intro x hx
      rcases List.mem_cons.1 hx with rfl | hx
      · exact h3.trans (min_le_left _ _)
      · rcases List.mem_cons.1 hx with rfl | hx
        · exact h3.trans (min_le_right _ _)
        · exact h1 x (by simp [hx])
    · rcases List.mem_cons.1 h2 with h | h
      · rw [h]
        rcases min_choice a b with e | e <;> rw [e] <;> simp
      · simp [h]

/-- **C62.** The crest drawn lies in the range of the levels. It is the exported crest, not marked as cropped, when that
lies in the range; otherwise it is marked as cropped and is the level of the range nearest to the exported crest. -/
theorem C62_clamped (levels : List K) (crest lo hi : K) (hlo : lo ∈ levels) (hhi : hi ∈ levels)
    (hr : ∀ z ∈ levels, lo ≤ z ∧ z ≤ hi) :
    ∃ style drawn, sdPlotInfo levels crest = .ok (style, drawn) ∧ lo ≤ drawn ∧ drawn ≤ hi ∧
      (style = .inside ↔ lo ≤ crest ∧ crest ≤ hi) ∧ (style = .inside → drawn = crest) ∧
      (hi < crest → drawn = hi) ∧ (crest < lo → drawn = lo) := by
  cases levels with
  | nil => simp at hlo
  | cons a l =>
    have hmax : l.foldl max a = hi :=
      le_antisymm ((hr _ (foldl_max_spec l a).2).2) ((foldl_max_spec l a).1 hi hhi)
    have hmin : l.foldl min a = lo :=
      le_antisymm ((foldl_min_spec l a).1 lo hlo) ((hr _ (foldl_min_spec l a).2).1)
    have hle : lo ≤ hi := (hr lo hlo).2
    unfold sdPlotInfo listMin listMax
    simp only [hmax, hmin]
    by_cases h1 : crest ≤ hi
    · by_cases h2 : lo ≤ crest
      · exact ⟨.inside, crest, by rw [if_pos h1, if_pos h2], h2, h1, by simp [h1, h2], fun _ => rfl,
          fun h => absurd h1 (not_le.2 h), fun h => absurd h2 (not_le.2 h)⟩
      · exact ⟨.cropped, lo, by rw [if_pos h1, if_neg h2], le_refl _, hle, by simp [h2], by simp,
          fun h => absurd h1 (not_le.2 h), fun _ => rfl⟩
    · exact ⟨.cropped, hi, by rw [if_neg h1], hle, le_refl _, by simp [h1], by simp, fun _ => rfl,
        fun h => absurd (hle.trans (not_le.1 h1).le) (not_le.2 h)⟩

example : sdPlotInfo [1, 3, 2] (5 : ℚ) = .ok (.cropped, 3) ∧ sdPlotInfo [1, 3, 2] (5 / 2 : ℚ) = .ok (.inside, 5 / 2) := by
  decide +kernel

end Fm2prof.Props

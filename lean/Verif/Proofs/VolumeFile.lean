import Verif.Proofs.Export

/-! Helper lemmas about the exported volume table. -/

set_option linter.unusedSectionVars false

namespace Fm2prof

open Spec

variable {K : Type} [Field K] [LinearOrder K] [IsStrictOrderedRing K] [FloorRing K]

/-- The numbers of row `i`. -/
def VolumeTable.entry (t : VolumeTable K) (i : Nat) : List (Option K) :=
  (VolumeTable.columns t).map fun col => (col[i]?).getD none

/-- The text of a row. -/
def rowText (ft : FloatText K) (name : Text) (r : List (Option K)) : Text :=
  joinWith [','] (name :: r.map (optText ft))

theorem volumeRow_ok (ft : FloatText K) (name : Text) (t : VolumeTable K) (ht : VolumeTable.Rectangular t) (i : Nat)
    (hi : i < t.z.length) : volumeRow ft name t i = .ok (rowText ft name (t.entry i)) := by
  have h : ∀ col ∈ VolumeTable.columns t, ∃ x, col[i]? = some x := fun col hc => by
    have := ht col hc
    exact ⟨col[i]'(by omega), List.getElem?_eq_getElem _⟩
  simp only [VolumeTable.columns, List.mem_cons, List.not_mem_nil, or_false, forall_eq_or_imp, forall_eq] at h
  obtain ⟨⟨x1, h1⟩, ⟨x2, h2⟩, ⟨x3, h3⟩, ⟨x4, h4⟩, ⟨x5, h5⟩, ⟨x6, h6⟩, ⟨x7, h7⟩, ⟨x8, h8⟩, ⟨x9, h9⟩, ⟨x10, h10⟩, ⟨x11, h11⟩⟩ := h
  unfold volumeRow
  rw [h1, h2, h3, h4, h5, h6, h7, h8, h9, h10, h11]
  simp only [VolumeTable.entry, VolumeTable.columns, List.map_cons, List.map_nil, h1, h2, h3, h4, h5, h6, h7, h8, h9, h10,
    h11, Option.getD_some, rowText]

theorem exportVolumes_ok (ft : FloatText K) (cs : List (ExportCss K)) (ht : ∀ c ∈ cs, VolumeTable.Rectangular c.volumes) :
    exportVolumes ft cs = .ok (unlines (volumeHeader ::
      (cs.map fun c => (List.range c.volumes.z.length).map fun i => rowText ft c.name (c.volumes.entry i)).flatten)) := by
  unfold exportVolumes
  rw [collect_ok (volumeRows ft) fun c => (List.range c.volumes.z.length).map fun i => rowText ft c.name (c.volumes.entry i)]
  intro c hc
  unfold volumeRows
  rw [collect_ok]
  intro i hi
  exact volumeRow_ok ft c.name c.volumes (ht c hc) i (List.mem_range.1 hi)

theorem joinWith_cons (w : Text) (ws : List Text) (h : ws ≠ []) (sep : Text) :
    joinWith sep (w :: ws) = w ++ sep ++ joinWith sep ws := by
  cases ws with
  | nil => exact absurd rfl h
  | cons v vs => rw [joinWith]; simp

theorem rowText_strip (ft : FloatText K) (name : Text) (r : List (Option K)) (hr : r ≠ []) (hn : CsvName name) :
    strip (rowText ft name r ++ ['\n']) = rowText ft name r := by
  have hb : ∀ c ∈ joinWith [','] (r.map (optText ft)), isSpace c = false := by
    intro c hc
    rcases joinWith_chars _ _ _ hc with h | ⟨w, hw, h⟩
    · rw [List.mem_singleton.1 h]; decide
    · obtain ⟨o, _, rfl⟩ := List.mem_map.1 hw
      exact optText_noSpace ft o c h
  unfold rowText
  rw [joinWith_cons _ _ (by simpa using hr), List.append_assoc, List.append_assoc]
  simp only [List.cons_append, List.nil_append]
  rw [strip_middle _ _ _ (by decide), rstrip_append_space (joinWith [','] (r.map (optText ft))) ['\n'] (by decide)]
  have h1 : lstrip name = name := by
    apply lstrip_of_head
    have := (strip_trimmed name).1
    rwa [hn.2.2.1] at this
  have h2 : rstrip (joinWith [','] (r.map (optText ft))) = joinWith [','] (r.map (optText ft)) := by
    have := strip_noSpace _ hb
    unfold strip at this
    rwa [lstrip_of_head _ fun c hc => hb c (List.mem_of_mem_head? hc)] at this
  rw [h1, h2]
  simp

theorem rowText_split (ft : FloatText K) (name : Text) (r : List (Option K)) (hn : ',' ∉ name) :
    splitSep ',' (rowText ft name r) = name :: r.map (optText ft) := by
  unfold rowText
  apply splitSep_join
  · simp
  · intro w hw
    rcases List.mem_cons.1 hw with rfl | hw
    · exact hn
    · obtain ⟨o, _, rfl⟩ := List.mem_map.1 hw
      exact optText_no ft o _ (by decide) (by decide) (by decide)

theorem entry_mem (t : VolumeTable K) (i : Nat) (x : K) (h : some x ∈ t.entry i) :
    ∃ col ∈ VolumeTable.columns t, some x ∈ col := by
  obtain ⟨col, hc, e⟩ := List.mem_map.1 h
  refine ⟨col, hc, ?_⟩
  cases hi : col[i]? with
  | none => rw [hi] at e; simp at e
  | some y => rw [hi] at e; simp only [Option.getD_some] at e; rw [← e]; exact List.mem_of_getElem? hi

theorem fields_ok (ft : FloatText K) (name : Text) (t : VolumeTable K) (i : Nat)
    (hf : ∀ x, some x ∈ t.entry i → ft.representable x) :
    collect (volumeField ft (name :: (t.entry i).map (optText ft))) (List.range 11) = .ok (t.entry i) := by
  have hlen : (t.entry i).length = 11 := by simp [VolumeTable.entry, VolumeTable.columns]
  rw [collect_ok _ fun (j : Nat) => ((t.entry i)[j]?).getD none]
  · congr 1
  · intro j hj
    have hj := List.mem_range.1 hj
    unfold volumeField
    rw [List.getElem?_cons_succ, List.getElem?_map, List.getElem?_eq_getElem (by omega)]
    simp only [Option.map_some, Option.getD_some]
    apply parseNan_opt
    intro x hx
    exact hf x (by rw [← hx]; exact List.getElem_mem _)

theorem volumeLine_row (ft : FloatText K) (name cname : Text) (t0 t : VolumeTable K) (i : Nat) (hn : CsvName cname)
    (hf : ∀ x, some x ∈ t.entry i → ft.representable x) :
    volumeLine ft name t0 (rowText ft cname (t.entry i) ++ ['\n']) =
      if cname = name then .ok (t0.push (t.entry i)) else .ok t0 := by
  have hne : t.entry i ≠ [] := by simp [VolumeTable.entry, VolumeTable.columns]
  unfold volumeLine
  rw [rowText_strip ft cname _ hne hn, rowText_split ft cname _ hn.1]
  simp only [List.head?_cons, Option.some.injEq]
  by_cases h : cname = name
  · rw [if_pos h, if_pos h, fields_ok ft cname t i hf]
  · rw [if_neg h, if_neg h]

theorem volumeLines_append (ft : FloatText K) (name : Text) (a b : List Text) (t : VolumeTable K) :
    volumeLines ft name (a ++ b) t =
      match volumeLines ft name a t with
      | .error e => .error e
      | .ok t' => volumeLines ft name b t' := by
  induction a generalizing t with
  | nil => rfl
  | cons l a ih =>
    rw [List.cons_append, volumeLines, volumeLines]
    cases volumeLine ft name t l with
    | error e => rfl
    | ok t' => exact ih t'

/-- Two tables below each other. -/
def VolumeTable.app (t s : VolumeTable K) : VolumeTable K :=
  ⟨t.z ++ s.z, t.tv2d ++ s.tv2d, t.fv2d ++ s.fv2d, t.wa2d ++ s.wa2d, t.fa2d ++ s.fa2d, t.tvsd1d ++ s.tvsd1d,
    t.tv1d ++ s.tv1d, t.fvsd1d ++ s.fvsd1d, t.fv1d ++ s.fv1d, t.tw1d ++ s.tw1d, t.fw1d ++ s.fw1d⟩

/-- Some rows of a table. -/
def VolumeTable.rowsAt (t : VolumeTable K) (is : List Nat) : VolumeTable K :=
  ⟨is.map fun i => (t.z[i]?).getD none, is.map fun i => (t.tv2d[i]?).getD none, is.map fun i => (t.fv2d[i]?).getD none,
    is.map fun i => (t.wa2d[i]?).getD none, is.map fun i => (t.fa2d[i]?).getD none,
    is.map fun i => (t.tvsd1d[i]?).getD none, is.map fun i => (t.tv1d[i]?).getD none,
    is.map fun i => (t.fvsd1d[i]?).getD none, is.map fun i => (t.fv1d[i]?).getD none,
    is.map fun i => (t.tw1d[i]?).getD none, is.map fun i => (t.fw1d[i]?).getD none⟩

theorem rowsAt_cons (t0 t : VolumeTable K) (i : Nat) (is : List Nat) :
    (t0.push (t.entry i)).app (t.rowsAt is) = t0.app (t.rowsAt (i :: is)) := by
  simp [VolumeTable.push, VolumeTable.entry, VolumeTable.columns, VolumeTable.app, VolumeTable.rowsAt]

theorem volumeLines_own (ft : FloatText K) (name : Text) (t0 t : VolumeTable K) (is : List Nat) (hn : CsvName name)
    (hf : VolumeTable.Floats ft t) :
    volumeLines ft name (is.map fun i => rowText ft name (t.entry i) ++ ['\n']) t0 = .ok (t0.app (t.rowsAt is)) := by
  induction is generalizing t0 with
  | nil => simp [volumeLines, VolumeTable.app, VolumeTable.rowsAt]
  | cons i is ih =>
    rw [List.map_cons, volumeLines, volumeLine_row ft name name t0 t i hn, if_pos rfl]
    · simp only
      rw [ih, rowsAt_cons]
    · intro x hx
      obtain ⟨col, hc, hx⟩ := entry_mem t i x hx
      exact hf col hc x hx

theorem volumeLines_other (ft : FloatText K) (name cname : Text) (t0 t : VolumeTable K) (is : List Nat) (hn : CsvName cname)
    (hf : VolumeTable.Floats ft t) (hne : cname ≠ name) :
    volumeLines ft name (is.map fun i => rowText ft cname (t.entry i) ++ ['\n']) t0 = .ok t0 := by
  induction is generalizing t0 with
  | nil => rfl
  | cons i is ih =>
    rw [List.map_cons, volumeLines, volumeLine_row ft name cname t0 t i hn, if_neg hne]
    · exact ih t0
    · intro x hx
      obtain ⟨col, hc, hx⟩ := entry_mem t i x hx
      exact hf col hc x hx

theorem rowsAt_all (t : VolumeTable K) (ht : VolumeTable.Rectangular t) : t.rowsAt (List.range t.z.length) = t := by
  have h : ∀ col ∈ VolumeTable.columns t, (List.range t.z.length).map (fun i => (col[i]?).getD none) = col := by
    intro col hc
    rw [← ht col hc]
    apply List.ext_getElem?
    intro j
    rw [List.getElem?_map]
    by_cases hj : j < col.length
    · rw [List.getElem?_range hj, Option.map_some, List.getElem?_eq_getElem hj, Option.getD_some]
    · rw [List.getElem?_eq_none (by simp; omega), List.getElem?_eq_none (by omega), Option.map_none]
  simp only [VolumeTable.columns, List.mem_cons, List.not_mem_nil, or_false, forall_eq_or_imp, forall_eq] at h
  obtain ⟨h1, h2, h3, h4, h5, h6, h7, h8, h9, h10, h11⟩ := h
  unfold VolumeTable.rowsAt
  rw [h1, h2, h3, h4, h5, h6, h7, h8, h9, h10, h11]

theorem rowText_noBreak (ft : FloatText K) (name : Text) (r : List (Option K)) (hn : '\n' ∉ name) :
    '\n' ∉ rowText ft name r := by
  intro h
  rcases joinWith_chars _ _ _ h with h | ⟨w, hw, h'⟩
  · simp at h
  · rcases List.mem_cons.1 hw with rfl | hw
    · exact hn h'
    · obtain ⟨o, _, rfl⟩ := List.mem_map.1 hw
      exact optText_no ft o _ (by decide) (by decide) (by decide) h'

/-- The lines of a cross-section. -/
def cssLines' (ft : FloatText K) (c : ExportCss K) : List Text :=
  (List.range c.volumes.z.length).map fun i => rowText ft c.name (c.volumes.entry i)

theorem volumeLines_all (ft : FloatText K) (name : Text) (cs : List (ExportCss K)) (hc : ∀ c ∈ cs, CsvName c.name)
    (hf : ∀ c ∈ cs, VolumeTable.Floats ft c.volumes) (hn : name ∉ cs.map (·.name)) (t0 : VolumeTable K) :
    volumeLines ft name ((cs.map (cssLines' ft)).flatten.map (· ++ ['\n'])) t0 = .ok t0 := by
  induction cs with
  | nil => rfl
  | cons c cs ih =>
    rw [List.map_cons, List.flatten_cons, List.map_append, volumeLines_append]
    have h := volumeLines_other ft name c.name t0 c.volumes (List.range c.volumes.z.length) (hc c (by simp))
      (hf c (by simp)) fun e => hn (by simp [e])
    have e : (cssLines' ft c).map (· ++ ['\n']) =
        (List.range c.volumes.z.length).map fun i => rowText ft c.name (c.volumes.entry i) ++ ['\n'] := by
      simp [cssLines']
    rw [e, h]
    exact ih (fun c h => hc c (by simp [h])) (fun c h => hf c (by simp [h])) fun h => hn (by simp at h ⊢; tauto)

theorem volumeLines_found (ft : FloatText K) (cs : List (ExportCss K)) (hc : ∀ c ∈ cs, CsvName c.name)
    (hf : ∀ c ∈ cs, VolumeTable.Floats ft c.volumes) (ht : ∀ c ∈ cs, VolumeTable.Rectangular c.volumes)
    (hd : (cs.map (·.name)).Nodup) (c : ExportCss K) (hm : c ∈ cs) :
    volumeLines ft c.name ((cs.map (cssLines' ft)).flatten.map (· ++ ['\n'])) .empty = .ok c.volumes := by
  induction cs with
  | nil => simp at hm
  | cons b cs ih =>
    rw [List.map_cons, List.flatten_cons, List.map_append, volumeLines_append]
    have e : (cssLines' ft b).map (· ++ ['\n']) =
        (List.range b.volumes.z.length).map fun i => rowText ft b.name (b.volumes.entry i) ++ ['\n'] := by
      simp [cssLines']
    rw [e]
    rw [List.map_cons, List.nodup_cons] at hd
    by_cases hb : c = b
    · subst hb
      rw [volumeLines_own ft c.name _ c.volumes _ (hc c hm) (hf c hm), rowsAt_all _ (ht c hm)]
      have : (VolumeTable.empty : VolumeTable K).app c.volumes = c.volumes := by
        simp [VolumeTable.app, VolumeTable.empty]
      simp only [this]
      exact volumeLines_all ft c.name cs (fun c h => hc c (by simp [h])) (fun c h => hf c (by simp [h])) hd.1 _
    · have hm' : c ∈ cs := by simpa [hb] using hm
      have hne : b.name ≠ c.name := fun e => hd.1 (by rw [e]; exact List.mem_map.2 ⟨c, hm', rfl⟩)
      rw [volumeLines_other ft c.name b.name _ b.volumes _ (hc b (by simp)) (hf b (by simp)) hne]
      exact ih (fun c h => hc c (by simp [h])) (fun c h => hf c (by simp [h])) (fun c h => ht c (by simp [h])) hd.2 hm'

theorem readVolumes_export (ft : FloatText K) (cs : List (ExportCss K)) (hc : ∀ c ∈ cs, CsvName c.name)
    (hi : ∀ c ∈ cs, c.name ≠ "id".toList) (hf : ∀ c ∈ cs, VolumeTable.Floats ft c.volumes)
    (ht : ∀ c ∈ cs, VolumeTable.Rectangular c.volumes) (hd : (cs.map (·.name)).Nodup) (c : ExportCss K) (hm : c ∈ cs) :
    ∃ text, exportVolumes ft cs = .ok text ∧ readVolumes ft text c.name = .ok c.volumes := by
  refine ⟨_, exportVolumes_ok ft cs ht, ?_⟩
  unfold readVolumes
  rw [fileLines_unlines']
  · rw [List.map_cons, volumeLines]
    have h0 : volumeLine ft c.name .empty (volumeHeader ++ ['\n']) = .ok .empty := by
      unfold volumeLine
      rw [if_neg]
      have : (splitSep ',' (strip (volumeHeader ++ ['\n']))).head? = some "id".toList := by decide +kernel
      rw [this]
      exact fun e => hi c hm (Option.some.inj e).symm
    rw [h0]
    exact volumeLines_found ft cs hc hf ht hd c hm
  · intro l hl
    rcases List.mem_cons.1 hl with e | hl
    · rw [e]; decide +kernel
    · obtain ⟨b, hb', hl⟩ := List.mem_flatten.1 hl
      obtain ⟨c, hc', rfl⟩ := List.mem_map.1 hb'
      obtain ⟨i, _, rfl⟩ := List.mem_map.1 hl
      exact rowText_noBreak ft _ _ (hc c hc').2.1

end Fm2prof

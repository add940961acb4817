import Verif.Spec.Reader
import Verif.Proofs.Compare
import Verif.Proofs.Export

/-!
# Lemmas about reading results for a comparison
-/

set_option linter.unusedSectionVars false

namespace Fm2prof

open Spec

theorem removeText_skip (pat a t : Text) : removeText pat a.length (a ++ t) = removeText pat 0 t := by
  induction a with
  | nil => rfl
  | cons c cs ih => exact ih

theorem removeText_pat (c : Char) (cs t : Text) : removeText (c :: cs) 0 (c :: cs ++ t) = removeText (c :: cs) 0 t := by
  have hp : (c :: cs).isPrefixOf (c :: (cs ++ t)) = true := by
    rw [isPrefixOf_iff]; exact ⟨t, rfl⟩
  show (if (c :: cs).isPrefixOf (c :: (cs ++ t)) then removeText (c :: cs) ((c :: cs).length - 1) (cs ++ t) else _) = _
  rw [if_pos hp]
  exact removeText_skip (c :: cs) cs t

theorem removeText_none (c : Char) (cs t : Text) (h : c ∉ t) : removeText (c :: cs) 0 t = t := by
  induction t with
  | nil => rfl
  | cons d ds ih =>
    have hd : c ≠ d := fun e => h (e ▸ List.mem_cons_self)
    have hp : ¬ (c :: cs).isPrefixOf (d :: ds) = true := by
      rw [isPrefixOf_iff]
      rintro ⟨r, hr⟩
      exact hd (List.cons.inj hr).1
    show (if (c :: cs).isPrefixOf (d :: ds) then _ else d :: removeText (c :: cs) 0 ds) = _
    rw [if_neg hp, ih fun e => h (List.mem_cons_of_mem _ e)]

theorem rstrip_append (a b : Text) (ha : rstrip a = a) : rstrip (a ++ b) = a ++ rstrip b := by
  unfold rstrip at ha ⊢
  rw [List.reverse_append, List.dropWhile_append]
  split
  · rename_i h
    rw [List.isEmpty_iff] at h
    rw [ha, h]
    simp
  · rw [List.reverse_append, List.reverse_reverse]

theorem lstrip_append (a b : Text) (hne : a ≠ []) (ha : lstrip a = a) : lstrip (a ++ b) = a ++ b := by
  unfold lstrip at ha ⊢
  rw [List.dropWhile_append, ha]
  rw [if_neg]
  rw [List.isEmpty_iff]
  exact hne

theorem lstrip_length_le (t : Text) : (lstrip t).length ≤ t.length := by
  unfold lstrip; exact (List.dropWhile_suffix _).length_le

theorem rstrip_length_le (t : Text) : (rstrip t).length ≤ t.length := by
  unfold rstrip
  rw [List.length_reverse]
  exact le_trans (List.dropWhile_suffix _).length_le (by rw [List.length_reverse])

theorem lstrip_of_strip (t : Text) (h : strip t = t) : lstrip t = t := by
  have h1 : t.length ≤ (lstrip t).length := by
    conv_lhs => rw [← h]
    exact rstrip_length_le _
  unfold lstrip at h1 ⊢
  exact (List.dropWhile_suffix _).eq_of_length_le h1

theorem rstrip_of_strip (t : Text) (h : strip t = t) : rstrip t = t := by
  have h1 := lstrip_of_strip t h
  unfold strip at h
  rwa [h1] at h

theorem strip_append_trimmed (a b : Text) (hne : a ≠ []) (ha : strip a = a) : strip (a ++ b) = a ++ rstrip b := by
  unfold strip
  rw [lstrip_append a b hne (lstrip_of_strip a ha), rstrip_append a b (rstrip_of_strip a ha)]

theorem stamp_noS (clock : Clock) (t : Int) : 's' ∉ clock.stamp t := fun h =>
  absurd (clock.stamp_chars t 's' h) (by decide)

theorem stamp_comma (clock : Clock) (t : Int) : ',' ∉ clock.stamp t := fun h =>
  absurd (clock.stamp_chars t ',' h) (by decide)

theorem stamp_newline (clock : Clock) (t : Int) : '\n' ∉ clock.stamp t := fun h =>
  absurd (clock.stamp_chars t '\n' h) (by decide)

theorem date_comma (clock : Clock) (t : Int) : ',' ∉ clock.date t := fun h =>
  absurd (clock.date_chars t ',' h) (by decide)

theorem date_newline (clock : Clock) (t : Int) : '\n' ∉ clock.date t := fun h =>
  absurd (clock.date_chars t '\n' h) (by decide)

theorem parseStart_of_startsAt (clock : Clock) (units : Text) (t0 : Int) (h : StartsAt clock units t0) :
    parseStart clock units = .ok t0 := by
  obtain ⟨rest, hs, rfl⟩ := h
  have hr : removeText "seconds since ".toList 0 ("seconds since ".toList ++ (clock.stamp t0 ++ rest)) =
      clock.stamp t0 ++ rest := by
    have h1 := removeText_pat 's' "econds since ".toList (clock.stamp t0 ++ rest)
    have h2 := removeText_none 's' "econds since ".toList (clock.stamp t0 ++ rest) (by
      rw [List.mem_append]; rintro (h | h)
      · exact stamp_noS clock t0 h
      · exact hs h)
    exact h1.trans h2
  unfold parseStart
  rw [hr, strip_append_trimmed _ _ (clock.stamp_trimmed t0).1 (clock.stamp_trimmed t0).2]
  by_cases he : rstrip rest = []
  · rw [he, List.append_nil]
    simp only [clock.strptime_stamp]
  · simp only [clock.strptime_rest t0 _ he]
    rw [List.length_append, Nat.add_sub_cancel, List.take_left]
    simp only [clock.strptime_stamp]

theorem parseTimes_of_startsAt (clock : Clock) (units : Text) (t0 : Int) (seconds : List Int)
    (h : StartsAt clock units t0) : parseTimes clock units seconds = .ok (seconds.map fun s => t0 + s) := by
  unfold parseTimes
  rw [parseStart_of_startsAt clock units t0 h]

section Tables

variable {K : Type} [Field K] [LinearOrder K] [IsStrictOrderedRing K] [FloorRing K]

theorem makeFrame_table (ft : FloatText K) (times : List Int) (names : List Text) (data : List (List (Option K)))
    (h : IsTable ft times.length names.length data) : makeFrame times names data = .ok ⟨.times times, names, data⟩ := by
  unfold makeFrame
  rw [if_pos ⟨h.1, fun row hr => (h.2 row hr).1⟩]

theorem import1d_good (clock : Clock) (ft : FloatText K) (his : His1d K) (t0 offset : Int) (h : Good1d clock ft his t0) :
    import1d clock offset his = .ok (levels1d t0 offset his, discharges1d t0 offset his) := by
  have ht : (his.seconds.map fun s => t0 + s).map (· + offset) = timesOf t0 offset his.seconds := by
    unfold timesOf; rw [List.map_map]; rfl
  have hl : (timesOf t0 offset his.seconds).length = his.seconds.length := by unfold timesOf; rw [List.length_map]
  unfold import1d
  rw [parseTimes_of_startsAt clock _ _ _ h.start]
  simp only [ht]
  rw [makeFrame_table ft _ _ _ (hl ▸ h.levels), makeFrame_table ft _ _ _ (hl ▸ h.discharges)]
  rfl

/-! ## Csv -/

theorem csvLines_unlines (ls : List Text) (h : ∀ l ∈ ls, l ≠ [] ∧ '\n' ∉ l) : csvLines (unlines ls) = ls := by
  unfold csvLines
  rw [splitSep_unlines ls fun l hl => (h l hl).2, List.filter_append]
  have h1 : ls.filter (fun l => decide (l ≠ [])) = ls := by
    rw [List.filter_eq_self]
    intro l hl
    exact decide_eq_true (h l hl).1
  rw [h1]
  simp

theorem cellText_comma (ft : FloatText K) (v : Option K) : ',' ∉ cellText ft v := by
  cases v with
  | none => exact List.not_mem_nil
  | some x => exact fun h => absurd (ft.repr_chars x _ h) (by decide)

theorem cellText_newline (ft : FloatText K) (v : Option K) : '\n' ∉ cellText ft v := by
  cases v with
  | none => exact List.not_mem_nil
  | some x => exact fun h => absurd (ft.repr_chars x _ h) (by decide)

theorem cellValue_cellText (ft : FloatText K) (v : Option K) (h : ∀ x, v = some x → ft.representable x) :
    cellValue ft (cellText ft v) = .ok v := by
  cases v with
  | none => rfl
  | some x =>
    unfold cellValue cellText
    rw [if_neg (ft.repr_ne_nil x), ft.parse_repr x (h x rfl)]

theorem joinWith_newline (ws : List Text) (h : ∀ w ∈ ws, '\n' ∉ w) : '\n' ∉ joinWith [','] ws := by
  induction ws with
  | nil => exact List.not_mem_nil
  | cons w ws ih =>
    cases ws with
    | nil => exact h w List.mem_cons_self
    | cons v vs =>
      show '\n' ∉ w ++ [','] ++ joinWith [','] (v :: vs)
      rw [List.mem_append, List.mem_append]
      rintro ((h1 | h1) | h1)
      · exact h w List.mem_cons_self h1
      · exact absurd h1 (by decide)
      · exact ih (fun x hx => h x (List.mem_cons_of_mem _ hx)) h1

theorem joinWith_ne_nil (w : Text) (ws : List Text) (h : w ≠ []) : joinWith [','] (w :: ws) ≠ [] := by
  cases ws with
  | nil => exact h
  | cons v vs =>
    show w ++ [','] ++ joinWith [','] (v :: vs) ≠ []
    intro e
    rw [List.append_assoc] at e
    exact h (List.append_eq_nil_iff.1 e).1

theorem header_ne_nil (cols : List Text) (h : cols ≠ []) : joinWith [','] ([] :: cols) ≠ [] := by
  cases cols with
  | nil => exact absurd rfl h
  | cons v vs =>
    show [] ++ [','] ++ joinWith [','] (v :: vs) ≠ []
    intro e
    rw [List.nil_append] at e
    exact absurd (List.append_eq_nil_iff.1 e).1 (by decide)

/-- What a line of values is read as. -/
theorem readRow_rowText (ft : FloatText K) (label : Text) (row : List (Option K)) (hl : ',' ∉ label)
    (h : ∀ x, some x ∈ row → ft.representable x) : readRow ft row.length (csvRowText ft label row) = .ok (label, row) := by
  have hs : splitSep ',' (csvRowText ft label row) = label :: row.map (cellText ft) := by
    unfold csvRowText
    apply splitSep_join
    · exact List.cons_ne_nil _ _
    · intro w hw
      rcases List.mem_cons.1 hw with rfl | hw
      · exact hl
      · obtain ⟨v, _, rfl⟩ := List.mem_map.1 hw
        exact cellText_comma ft v
  unfold readRow
  rw [hs]
  simp only [List.length_cons, List.length_map, List.tail_cons, List.headD_cons]
  rw [if_neg (lt_irrefl _)]
  have hc : collect (cellValue ft) (row.map (cellText ft)) = .ok row := by
    have := collect_map (cellValue ft) (cellText ft) id row fun v hv =>
      cellValue_cellText ft v fun x hx => h x (hx ▸ hv)
    rw [this, List.map_id]
  rw [hc]
  simp

/-- The lines of a table, given its labels. -/
theorem readFrame_lines (clock : Clock) (ft : FloatText K) (cols : List Text) (ls : List (Text × List (Option K)))
    (hc : cols ≠ []) (hp : ∀ n ∈ cols, ',' ∉ n ∧ '\n' ∉ n)
    (hl : ∀ r ∈ ls, r.1 ≠ [] ∧ ',' ∉ r.1 ∧ '\n' ∉ r.1)
    (hr : ∀ r ∈ ls, r.2.length = cols.length ∧ ∀ x, some x ∈ r.2 → ft.representable x) :
    readFrame clock ft (unlines (joinWith [','] ([] :: cols) :: ls.map fun r => csvRowText ft r.1 r.2)) =
      .ok ⟨readIndex clock (ls.map (·.1)), cols, ls.map (·.2)⟩ := by
  have hlines : csvLines (unlines (joinWith [','] ([] :: cols) :: ls.map fun r => csvRowText ft r.1 r.2)) =
      joinWith [','] ([] :: cols) :: ls.map fun r => csvRowText ft r.1 r.2 := by
    apply csvLines_unlines
    intro l hl'
    rcases List.mem_cons.1 hl' with rfl | hl'
    · refine ⟨header_ne_nil cols hc, joinWith_newline _ ?_⟩
      intro w hw
      rcases List.mem_cons.1 hw with rfl | hw
      · exact List.not_mem_nil
      · exact (hp w hw).2
    · obtain ⟨r, hr', rfl⟩ := List.mem_map.1 hl'
      refine ⟨joinWith_ne_nil _ _ (hl r hr').1, joinWith_newline _ ?_⟩
      intro w hw
      rcases List.mem_cons.1 hw with rfl | hw
      · exact (hl r hr').2.2
      · obtain ⟨v, _, rfl⟩ := List.mem_map.1 hw
        exact cellText_newline ft v
  have hcols : (splitSep ',' (joinWith [','] ([] :: cols))).tail = cols := by
    rw [splitSep_join ',' _ (List.cons_ne_nil _ _)]
    · rfl
    · intro w hw
      rcases List.mem_cons.1 hw with rfl | hw
      · exact List.not_mem_nil
      · exact (hp w hw).1
  unfold readFrame
  rw [hlines]
  simp only [hcols]
  have hcollect : collect (readRow ft cols.length) (ls.map fun r => csvRowText ft r.1 r.2) = .ok ls := by
    have := collect_map (readRow ft cols.length) (fun r : Text × List (Option K) => csvRowText ft r.1 r.2) id ls fun r hr' => by
      have := readRow_rowText ft r.1 r.2 (hl r hr').2.1 (hr r hr').2
      rw [(hr r hr').1] at this
      exact this
    rw [this, List.map_id]
  rw [hcollect]

theorem zipWith_rowText (ft : FloatText K) (labels : List Text) (rows : List (List (Option K))) :
    List.zipWith (csvRowText ft) labels rows = (labels.zip rows).map fun r => csvRowText ft r.1 r.2 := by
  rw [List.zip, List.map_zipWith]

/-- Reading back a text made of labels and rows. -/
theorem readFrame_zip (clock : Clock) (ft : FloatText K) (cols labels : List Text) (rows : List (List (Option K)))
    (hc : cols ≠ []) (hp : ∀ n ∈ cols, ',' ∉ n ∧ '\n' ∉ n) (hlen : labels.length = rows.length)
    (hl : ∀ l ∈ labels, l ≠ [] ∧ ',' ∉ l ∧ '\n' ∉ l)
    (hr : ∀ r ∈ rows, r.length = cols.length ∧ ∀ x, some x ∈ r → ft.representable x) :
    readFrame clock ft (unlines (joinWith [','] ([] :: cols) :: List.zipWith (csvRowText ft) labels rows)) =
      .ok ⟨readIndex clock labels, cols, rows⟩ := by
  rw [zipWith_rowText, readFrame_lines clock ft cols (labels.zip rows) hc hp
    (fun r h => hl r.1 (List.of_mem_zip h).1) (fun r h => hr r.2 (List.of_mem_zip h).2),
    List.map_fst_zip hlen.le, List.map_snd_zip hlen.ge]

theorem readIndex_stamps (clock : Clock) (l : List Int) : readIndex clock (l.map clock.stamp) = .times l := by
  unfold readIndex
  rw [if_pos]
  · congr 1
    rw [List.filterMap_map]
    have : ((fun t => (clock.strptime t).toOption) ∘ clock.stamp) = some := by
      funext t
      show (clock.strptime (clock.stamp t)).toOption = some t
      rw [clock.strptime_stamp]; rfl
    rw [this, List.filterMap_some]
  · rw [List.all_eq_true]
    intro x hx
    obtain ⟨t, _, rfl⟩ := List.mem_map.1 hx
    rw [clock.strptime_stamp]; rfl

theorem readIndex_dates (clock : Clock) (l : List Int) (hne : l ≠ []) :
    readIndex clock (l.map clock.date) = .texts (l.map clock.date) := by
  unfold readIndex
  rw [if_neg]
  rw [List.all_eq_true]
  intro h
  cases l with
  | nil => exact hne rfl
  | cons t l =>
    have := h (clock.date t) List.mem_cons_self
    rw [clock.strptime_date] at this
    exact absurd this (by decide)

theorem indexTexts_stamps (clock : Clock) (l : List Int) (h : ∃ t ∈ l, clock.midnight t = false) :
    indexTexts clock (.times l) = l.map clock.stamp := by
  show (if l.all clock.midnight then l.map clock.date else l.map clock.stamp) = _
  rw [if_neg]
  rw [List.all_eq_true]
  intro h'
  obtain ⟨t, ht, hm⟩ := h
  rw [h' t ht] at hm
  exact absurd hm (by decide)

theorem indexTexts_dates (clock : Clock) (l : List Int) (h : ∀ t ∈ l, clock.midnight t = true) :
    indexTexts clock (.times l) = l.map clock.date := by
  show (if l.all clock.midnight then l.map clock.date else l.map clock.stamp) = _
  rw [if_pos (List.all_eq_true.2 h)]

theorem stamps_plain (clock : Clock) (l : List Int) : ∀ t ∈ l.map clock.stamp, t ≠ [] ∧ ',' ∉ t ∧ '\n' ∉ t := by
  intro t ht
  obtain ⟨s, _, rfl⟩ := List.mem_map.1 ht
  exact ⟨(clock.stamp_trimmed s).1, stamp_comma clock s, stamp_newline clock s⟩

theorem dates_plain (clock : Clock) (l : List Int) : ∀ t ∈ l.map clock.date, t ≠ [] ∧ ',' ∉ t ∧ '\n' ∉ t := by
  intro t ht
  obtain ⟨s, _, rfl⟩ := List.mem_map.1 ht
  exact ⟨clock.date_ne_nil s, date_comma clock s, date_newline clock s⟩

theorem plain_csv (cols : List Text) (h : ∀ n ∈ cols, Plain n) : ∀ n ∈ cols, ',' ∉ n ∧ '\n' ∉ n := fun n hn =>
  ⟨(h n hn).2 ',' (by decide), (h n hn).2 '\n' (by decide)⟩

/-- A table with a time of day comes back from its text as it was; also when only its first rows are there. -/
theorem readFrame_prefix (clock : Clock) (ft : FloatText K) (times : List Int) (cols : List Text)
    (rows : List (List (Option K))) (k : Nat) (hc : cols ≠ []) (hp : ∀ n ∈ cols, Plain n)
    (ht : IsTable ft times.length cols.length rows) (hm : ∃ t ∈ times, clock.midnight t = false) :
    readFrame clock ft (unlines ((frameLines clock ft ⟨.times times, cols, rows⟩).take (k + 1))) =
      .ok ⟨.times (times.take k), cols, rows.take k⟩ := by
  unfold frameLines
  rw [List.take_succ_cons, List.take_zipWith]
  simp only [indexTexts_stamps clock times hm]
  rw [← List.map_take, readFrame_zip clock ft cols _ _ hc (plain_csv cols hp), readIndex_stamps]
  · rw [List.length_map, List.length_take, List.length_take, ht.1]
  · exact stamps_plain clock _
  · exact fun r hr => ht.2 r (List.mem_of_mem_take hr)

theorem readFrame_frameText (clock : Clock) (ft : FloatText K) (times : List Int) (cols : List Text)
    (rows : List (List (Option K))) (hc : cols ≠ []) (hp : ∀ n ∈ cols, Plain n)
    (ht : IsTable ft times.length cols.length rows) (hm : ∃ t ∈ times, clock.midnight t = false) :
    readFrame clock ft (frameText clock ft ⟨.times times, cols, rows⟩) = .ok ⟨.times times, cols, rows⟩ := by
  have h := readFrame_prefix clock ft times cols rows times.length hc hp ht hm
  have e : (frameLines clock ft ⟨.times times, cols, rows⟩).take (times.length + 1) =
      frameLines clock ft ⟨.times times, cols, rows⟩ := by
    apply List.take_of_length_le
    unfold frameLines
    simp only [indexTexts_stamps clock times hm]
    rw [List.length_cons, List.length_zipWith, List.length_map]
    omega
  rw [e, List.take_length, ← ht.1, List.take_length] at h
  exact h

theorem readFrame_midnight (clock : Clock) (ft : FloatText K) (times : List Int) (cols : List Text)
    (rows : List (List (Option K))) (hc : cols ≠ []) (hp : ∀ n ∈ cols, Plain n)
    (ht : IsTable ft times.length cols.length rows) (hne : times ≠ []) (hm : ∀ t ∈ times, clock.midnight t = true) :
    readFrame clock ft (frameText clock ft ⟨.times times, cols, rows⟩) =
      .ok ⟨.texts (times.map clock.date), cols, rows⟩ := by
  unfold frameText frameLines
  simp only [indexTexts_dates clock times hm]
  rw [readFrame_zip clock ft cols _ _ hc (plain_csv cols hp), readIndex_dates clock times hne]
  · rw [List.length_map, ht.1]
  · exact dates_plain clock _
  · exact ht.2

/-! ## Files -/

theorem store_set_same (d : Store) (f t : Text) : d.set f t f = some t := if_pos rfl

theorem store_set_other (d : Store) (f t g : Text) (h : g ≠ f) : d.set f t g = d g := if_neg h

theorem load1d_import (clock : Clock) (ft : FloatText K) (his : His1d K) (t0 offset : Int) (h : Good1d clock ft his t0)
    (dir : Store) (hd : dir file1dQ = none ∨ dir file1dH = none) :
    load1d clock ft offset (.ok his) dir =
      (writeAll dir (writes1d clock ft (levels1d t0 offset his, discharges1d t0 offset his)),
        .ok (levels1d t0 offset his, discharges1d t0 offset his)) := by
  unfold load1d
  rw [if_neg]
  · simp only [import1d_good clock ft his t0 offset h]
  · rw [Bool.and_eq_true]
    rintro ⟨h1, h2⟩
    rcases hd with hd | hd
    · rw [hd] at h1; exact absurd h1 (by decide)
    · rw [hd] at h2; exact absurd h2 (by decide)

theorem load1d_cached (clock : Clock) (ft : FloatText K) (his : Except PyErr (His1d K)) (offset : Int) (dir : Store)
    (tq th : Text) (hq : dir file1dQ = some tq) (hh : dir file1dH = some th) :
    load1d clock ft offset his dir = (dir, match readFrame clock ft tq with
      | .error e => .error e
      | .ok q => match readFrame clock ft th with
        | .error e => .error e
        | .ok h => .ok (h, q)) := by
  unfold load1d
  rw [if_pos (by rw [hq, hh]; rfl)]
  have e1 : readFile clock ft dir file1dQ = readFrame clock ft tq := by unfold readFile; rw [hq]
  have e2 : readFile clock ft dir file1dH = readFrame clock ft th := by unfold readFile; rw [hh]
  rw [e1, e2]
  cases readFrame clock ft tq <;> cases readFrame clock ft th <;> rfl

theorem writes1d_q (clock : Clock) (ft : FloatText K) (dir : Store) (hq : Frame K × Frame K) :
    writeAll dir (writes1d clock ft hq) file1dQ = some (frameText clock ft hq.2) := by
  show ((dir.set file1dH (frameText clock ft hq.1)).set file1dQ (frameText clock ft hq.2)) file1dQ = _
  rw [store_set_same]

theorem writes1d_h (clock : Clock) (ft : FloatText K) (dir : Store) (hq : Frame K × Frame K) :
    writeAll dir (writes1d clock ft hq) file1dH = some (frameText clock ft hq.1) := by
  show ((dir.set file1dH (frameText clock ft hq.1)).set file1dQ (frameText clock ft hq.2)) file1dH = _
  rw [store_set_other _ _ _ _ (by decide), store_set_same]

theorem writes1d_other (clock : Clock) (ft : FloatText K) (dir : Store) (hq : Frame K × Frame K) (f : Text)
    (h1 : f ≠ file1dQ) (h2 : f ≠ file1dH) : writeAll dir (writes1d clock ft hq) f = dir f := by
  show ((dir.set file1dH (frameText clock ft hq.1)).set file1dQ (frameText clock ft hq.2)) f = _
  rw [store_set_other _ _ _ _ h1, store_set_other _ _ _ _ h2]

theorem timesOf_length (t0 offset : Int) (l : List Int) : (timesOf t0 offset l).length = l.length := List.length_map ..

/-! ## The mapping -/

theorem mapName_cases (names : List Text) (n : Text) : mapName names n = [] ∨ mapName names n ∈ names := by
  rcases mapName_isMatch names n with ⟨b, a, h, _⟩ | ⟨h, _⟩
  · exact .inr (mem_of_split h)
  · exact .inl h

/-- What an entry of the mapping is read as. -/
def labelOf (t : Text) : Option Text := if t = [] then none else some t

theorem nil_missing : ([] : Text) ∈ missingTexts := List.mem_cons_self

theorem readLabels_plain (ft : FloatText K) (l : List Text)
    (h : ∀ t ∈ l, t = [] ∨ (t ∉ missingTexts ∧ ft.parse t = none)) : readLabels ft l = l.map labelOf := by
  unfold readLabels
  split
  · rename_i hall
    rw [List.all_eq_true] at hall
    apply List.map_congr_left
    intro t ht
    rcases h t ht with rfl | ⟨h1, h2⟩
    · rfl
    · have := hall t ht
      rw [h2, decide_eq_false h1] at this
      exact Bool.noConfusion this
  · apply List.map_congr_left
    intro t ht
    unfold labelOf
    rcases h t ht with rfl | ⟨h1, _⟩
    · rw [if_pos nil_missing, if_pos rfl]
    · rw [if_neg h1, if_neg]
      rintro rfl
      exact h1 nil_missing

theorem stationMap_lines (hnames qnames names : List Text) (hn : ∀ n ∈ names, Plain n) (hh : ∀ n ∈ hnames, Plain n)
    (hq : ∀ n ∈ qnames, Plain n) :
    ∀ r ∈ stationMap hnames qnames names, r.1 ≠ [] ∧ ∀ w ∈ [r.1, r.2.1, r.2.2], ',' ∉ w ∧ '\n' ∉ w := by
  have hplain : ∀ l : List Text, (∀ n ∈ l, Plain n) → ∀ n, ',' ∉ mapName l n ∧ '\n' ∉ mapName l n := by
    intro l hl n
    rcases mapName_cases l n with h | h
    · rw [h]; exact ⟨List.not_mem_nil, List.not_mem_nil⟩
    · exact plain_csv l hl _ h
  intro r hr
  obtain ⟨n, hn', rfl⟩ := List.mem_map.1 hr
  refine ⟨(hn n hn').1, ?_⟩
  intro w hw
  rcases List.mem_cons.1 hw with rfl | hw
  · exact plain_csv names hn _ hn'
  rcases List.mem_cons.1 hw with rfl | hw
  · exact hplain hnames hh n
  rcases List.mem_cons.1 hw with rfl | hw
  · exact hplain qnames hq n
  · exact absurd hw List.not_mem_nil

theorem readMap_rows (ft : FloatText K) (rows : List (Text × Text × Text))
    (h : ∀ r ∈ rows, r.1 ≠ [] ∧ ∀ w ∈ [r.1, r.2.1, r.2.2], ',' ∉ w ∧ '\n' ∉ w) :
    readMap ft (unlines ("1D,2D_H,2D_Q".toList :: rows.map fun r => joinWith [','] [r.1, r.2.1, r.2.2])) =
      .ok (rows.map (·.1), readLabels ft (rows.map (·.2.1)), readLabels ft (rows.map (·.2.2))) := by
  have hl : csvLines (unlines ("1D,2D_H,2D_Q".toList :: rows.map fun r => joinWith [','] [r.1, r.2.1, r.2.2])) =
      "1D,2D_H,2D_Q".toList :: rows.map fun r => joinWith [','] [r.1, r.2.1, r.2.2] := by
    apply csvLines_unlines
    intro l hl
    rcases List.mem_cons.1 hl with rfl | hl
    · exact ⟨by decide, by decide⟩
    · obtain ⟨r, hr, rfl⟩ := List.mem_map.1 hl
      exact ⟨joinWith_ne_nil _ _ (h r hr).1, joinWith_newline _ fun w hw => ((h r hr).2 w hw).2⟩
  have hsplit : (rows.map fun r => joinWith [','] [r.1, r.2.1, r.2.2]).map (splitSep ',') =
      rows.map fun r => [r.1, r.2.1, r.2.2] := by
    rw [List.map_map]
    apply List.map_congr_left
    intro r hr
    exact splitSep_join ',' _ (List.cons_ne_nil _ _) fun w hw => ((h r hr).2 w hw).1
  unfold readMap
  rw [hl]
  simp only
  rw [if_neg]
  · rw [hsplit, List.map_map, List.map_map, List.map_map]
    rfl
  · rw [Bool.not_eq_true, List.any_eq_false]
    intro l hl' hlt
    have : splitSep ',' l ∈ (rows.map fun r => joinWith [','] [r.1, r.2.1, r.2.2]).map (splitSep ',') :=
      List.mem_map.2 ⟨l, hl', rfl⟩
    rw [hsplit] at this
    obtain ⟨r, _, hr⟩ := List.mem_map.1 this
    rw [← hr] at hlt
    exact absurd (of_decide_eq_true hlt) (lt_irrefl 3)

theorem readMap_stationMap (ft : FloatText K) (hnames qnames names : List Text) (hn : ∀ n ∈ names, Plain n)
    (hh : ∀ n ∈ hnames, PlainStation ft n) (hq : ∀ n ∈ qnames, PlainStation ft n) :
    readMap ft (stationMapText hnames qnames names) =
      .ok (names, names.map fun n => labelOf (mapName hnames n), names.map fun n => labelOf (mapName qnames n)) := by
  unfold stationMapText
  rw [readMap_rows ft _ (stationMap_lines hnames qnames names hn (fun n h => (hh n h).1) fun n h => (hq n h).1)]
  have hcase : ∀ l : List Text, (∀ n ∈ l, PlainStation ft n) → ∀ t ∈ names.map (mapName l),
      t = [] ∨ (t ∉ missingTexts ∧ ft.parse t = none) := by
    intro l hl t ht
    obtain ⟨n, _, rfl⟩ := List.mem_map.1 ht
    rcases mapName_cases l n with h | h
    · exact .inl h
    · exact .inr (hl _ h).2
  have e1 : (stationMap hnames qnames names).map (·.1) = names := by
    unfold stationMap; rw [List.map_map]; exact List.map_id names
  have e2 : (stationMap hnames qnames names).map (·.2.1) = names.map (mapName hnames) := by
    unfold stationMap; rw [List.map_map]; rfl
  have e3 : (stationMap hnames qnames names).map (·.2.2) = names.map (mapName qnames) := by
    unfold stationMap; rw [List.map_map]; rfl
  rw [e1, e2, e3, readLabels_plain ft _ (hcase hnames hh), readLabels_plain ft _ (hcase qnames hq), List.map_map,
    List.map_map]
  rfl

theorem findIdx_split (names b a : List Text) (m : Text) (P : Text → Bool) (h : names = b ++ m :: a) (hm : P m = true)
    (hb : ∀ x ∈ b, P x = false) : names.findIdx? P = some b.length := by
  subst h
  rw [List.findIdx?_append]
  have h1 : b.findIdx? P = none := by
    rw [List.findIdx?_eq_none_iff]; exact hb
  rw [h1, List.findIdx?_cons, hm]
  simp

theorem cell2d_matched (ft : FloatText K) (names : List Text) (row : List (Option K)) (n : Text)
    (hn : ∀ m ∈ names, PlainStation ft m) :
    cell2d names row (labelOf (mapName names n)) = matchedValue names row n := by
  unfold matchedValue
  rcases mapName_isMatch names n with ⟨b, a, h, hm, hb⟩ | ⟨h, hno⟩
  · have hmem : mapName names n ∈ names := mem_of_split h
    have hidx : names.findIdx? (· = mapName names n) = some b.length :=
      findIdx_split names b a _ _ h (decide_eq_true rfl) fun x hx => decide_eq_false fun e => hb x hx (e ▸ hm)
    have hidx' : names.findIdx? (fun m => (n.take 9).isPrefixOf m) = some b.length :=
      findIdx_split names b a _ _ h ((isPrefixOf_iff _ _).2 hm) fun x hx => by
        rw [Bool.eq_false_iff, ne_eq, isPrefixOf_iff]; exact hb x hx
    have hlab : labelOf (mapName names n) = some (mapName names n) := if_neg (hn _ hmem).1.1
    rw [hlab, hidx']
    unfold cell2d
    simp only [hidx]
  · have hidx' : names.findIdx? (fun m => (n.take 9).isPrefixOf m) = none := by
      rw [List.findIdx?_eq_none_iff]
      intro x hx
      rw [Bool.eq_false_iff, ne_eq, isPrefixOf_iff]; exact hno x hx
    rw [h, hidx']
    rfl

theorem cell2d_mem (names : List Text) (row : List (Option K)) (l : Option Text) (x : K)
    (h : cell2d names row l = some x) : some x ∈ row := by
  cases l with
  | none => exact absurd h (by simp [cell2d])
  | some m =>
    unfold cell2d at h
    simp only at h
    split at h
    · cases h
    · rename_i i _
      cases hi : row[i]? with
      | none => rw [hi] at h; cases h
      | some v =>
        rw [hi] at h
        have : v = some x := h
        rw [← this]
        exact List.mem_of_getElem? hi

theorem matchedValue_mem (names : List Text) (row : List (Option K)) (n : Text) (x : K)
    (h : matchedValue names row n = some x) : some x ∈ row := by
  unfold matchedValue at h
  split at h
  · rename_i i _
    cases hi : row[i]? with
    | none => rw [hi] at h; cases h
    | some v =>
      rw [hi] at h
      have : v = some x := h
      rw [← this]
      exact List.mem_of_getElem? hi
  · cases h

theorem matchedTable_table (ft : FloatText K) (t0 : Int) (seconds : List Int) (names : List Text)
    (data : List (List (Option K))) (stations : List Text) (w : Nat) (h : IsTable ft seconds.length w data) :
    IsTable ft seconds.length stations.length (matchedTable t0 seconds names data stations).rows := by
  refine ⟨(List.length_map ..).trans h.1, ?_⟩
  intro r hr
  obtain ⟨row, hrow, rfl⟩ := List.mem_map.1 hr
  refine ⟨List.length_map .., ?_⟩
  intro x hx
  obtain ⟨n, _, hn⟩ := List.mem_map.1 hx
  exact (h.2 row hrow).2 x (matchedValue_mem _ _ _ _ hn)

theorem times_zero (t0 : Int) (seconds : List Int) : (seconds.map fun s => t0 + s) = timesOf t0 0 seconds := by
  unfold timesOf
  apply List.map_congr_left
  intro s _
  omega

theorem table2d_good (clock : Clock) (ft : FloatText K) (units : Text) (t0 : Int) (seconds : List Int) (names : List Text)
    (data : List (List (Option K))) (stations : List Text) (w : Nat) (hs : StartsAt clock units t0)
    (hn : ∀ m ∈ names, PlainStation ft m) (ht : IsTable ft seconds.length w data) :
    table2d clock units seconds names data stations (stations.map fun n => labelOf (mapName names n)) =
      .ok (matchedTable t0 seconds names data stations) := by
  have e : (data.map fun row => (stations.map fun n => labelOf (mapName names n)).map (cell2d names row)) =
      (matchedTable t0 seconds names data stations).rows := by
    apply List.map_congr_left
    intro row _
    rw [List.map_map]
    apply List.map_congr_left
    intro n _
    exact cell2d_matched ft names row n hn
  unfold table2d
  rw [parseTimes_of_startsAt clock units t0 seconds hs]
  simp only [times_zero]
  rw [e]
  have h := matchedTable_table ft t0 seconds names data stations w ht
  rw [← timesOf_length t0 0 seconds] at h
  exact makeFrame_table ft _ _ _ h

/-- Importing the 2D results with the mapping of `stations`. -/
theorem import2d_good (clock : Clock) (ft : FloatText K) (his : His2d K) (t0 : Int) (h : Good2d clock ft his t0)
    (stations : List Text) (hs : ∀ n ∈ stations, Plain n) (dir : Store)
    (hm : dir fileMap = some (stationMapText his.hnames his.qnames stations)) :
    import2d clock ft (.ok his) dir =
      ((dir.set file2dQ (frameText clock ft (discharges2d t0 his stations))).set
        file2dH (frameText clock ft (levels2d t0 his stations)), .ok ()) := by
  unfold import2d
  simp only [hm, readMap_stationMap ft his.hnames his.qnames stations hs h.hnames h.qnames]
  simp only [table2d_good clock ft his.units t0 his.seconds his.qnames his.discharges stations _ h.start h.qnames
    h.discharges, table2d_good clock ft his.units t0 his.seconds his.hnames his.levels stations _ h.start h.hnames h.levels]
  rfl

theorem matched_read (clock : Clock) (ft : FloatText K) (t0 : Int) (seconds : List Int) (names : List Text)
    (data : List (List (Option K))) (stations : List Text) (w : Nat) (hs : ∀ n ∈ stations, Plain n) (hne : stations ≠ [])
    (ht : IsTable ft seconds.length w data) (hm : HasTimeOfDay clock t0 0 seconds) :
    readFrame clock ft (frameText clock ft (matchedTable t0 seconds names data stations)) =
      .ok (matchedTable t0 seconds names data stations) := by
  have h := matchedTable_table ft t0 seconds names data stations w ht
  rw [← timesOf_length t0 0 seconds] at h
  exact readFrame_frameText clock ft _ _ _ hne hs h hm

/-- The 2D part of a reading with the mapping of `stations`: the tables are what is read back from the files. -/
theorem load2d_import_read (clock : Clock) (ft : FloatText K) (his : His2d K) (t0 : Int) (h : Good2d clock ft his t0)
    (stations : List Text) (hs : ∀ n ∈ stations, Plain n)
    (dir : Store) (hmap : dir fileMap = some (stationMapText his.hnames his.qnames stations))
    (hd : dir file2dQ = none ∨ dir file2dH = none) (lev dis : Frame K)
    (hl : readFrame clock ft (frameText clock ft (levels2d t0 his stations)) = .ok lev)
    (hq : readFrame clock ft (frameText clock ft (discharges2d t0 his stations)) = .ok dis) :
    load2d clock ft (.ok his) dir =
      ((dir.set file2dQ (frameText clock ft (discharges2d t0 his stations))).set
        file2dH (frameText clock ft (levels2d t0 his stations)), .ok (lev, dis)) := by
  unfold load2d
  rw [if_neg]
  · rw [import2d_good clock ft his t0 h stations hs dir hmap]
    simp only
    unfold read2d readFile
    rw [store_set_same, store_set_other _ _ _ _ (by decide), store_set_same]
    simp only [hl, hq]
  · rw [Bool.and_eq_true]
    rintro ⟨h1, h2⟩
    rcases hd with hd | hd
    · rw [hd] at h1; exact absurd h1 (by decide)
    · rw [hd] at h2; exact absurd h2 (by decide)

theorem load2d_import (clock : Clock) (ft : FloatText K) (his : His2d K) (t0 : Int) (h : Good2d clock ft his t0)
    (stations : List Text) (hs : ∀ n ∈ stations, Plain n) (hne : stations ≠ []) (hm : HasTimeOfDay clock t0 0 his.seconds)
    (dir : Store) (hmap : dir fileMap = some (stationMapText his.hnames his.qnames stations))
    (hd : dir file2dQ = none ∨ dir file2dH = none) :
    load2d clock ft (.ok his) dir =
      ((dir.set file2dQ (frameText clock ft (discharges2d t0 his stations))).set
        file2dH (frameText clock ft (levels2d t0 his stations)),
        .ok (levels2d t0 his stations, discharges2d t0 his stations)) :=
  load2d_import_read clock ft his t0 h stations hs dir hmap hd _ _
    (matched_read clock ft t0 _ _ _ stations _ hs hne h.levels hm)
    (matched_read clock ft t0 _ _ _ stations _ hs hne h.discharges hm)

theorem matched_midnight (clock : Clock) (ft : FloatText K) (t0 : Int) (seconds : List Int) (names : List Text)
    (data : List (List (Option K))) (stations : List Text) (w : Nat) (hs : ∀ n ∈ stations, Plain n) (hne : stations ≠ [])
    (ht : IsTable ft seconds.length w data) (hn : seconds ≠ [])
    (hm : ∀ t ∈ timesOf t0 0 seconds, clock.midnight t = true) :
    readFrame clock ft (frameText clock ft (matchedTable t0 seconds names data stations)) =
      .ok ⟨.texts ((timesOf t0 0 seconds).map clock.date), stations,
        (matchedTable t0 seconds names data stations).rows⟩ := by
  have h := matchedTable_table ft t0 seconds names data stations w ht
  rw [← timesOf_length t0 0 seconds] at h
  refine readFrame_midnight clock ft _ _ _ hne hs h ?_ hm
  intro e
  unfold timesOf at e
  exact hn (List.map_eq_nil_iff.1 e)

theorem load2d_cached (clock : Clock) (ft : FloatText K) (his : Except PyErr (His2d K)) (dir : Store) (tq th : Text)
    (h q : Frame K) (hq : dir file2dQ = some tq) (hh : dir file2dH = some th) (hq' : readFrame clock ft tq = .ok q)
    (hh' : readFrame clock ft th = .ok h) : load2d clock ft his dir = (dir, .ok (h, q)) := by
  unfold load2d
  rw [if_pos (by rw [hq, hh]; rfl)]
  unfold read2d readFile
  rw [hq, hh]
  simp only [hq', hh']

theorem good1d_read_levels (clock : Clock) (ft : FloatText K) (his : His1d K) (t0 offset : Int)
    (h : Good1d clock ft his t0) (hm : HasTimeOfDay clock t0 offset his.seconds) :
    readFrame clock ft (frameText clock ft (levels1d t0 offset his)) = .ok (levels1d t0 offset his) := by
  have ht := h.levels
  rw [← timesOf_length t0 offset his.seconds] at ht
  exact readFrame_frameText clock ft _ _ _ h.stations h.names ht hm

theorem good1d_read_discharges (clock : Clock) (ft : FloatText K) (his : His1d K) (t0 offset : Int)
    (h : Good1d clock ft his t0) (hm : HasTimeOfDay clock t0 offset his.seconds) :
    readFrame clock ft (frameText clock ft (discharges1d t0 offset his)) = .ok (discharges1d t0 offset his) := by
  have ht := h.discharges
  rw [← timesOf_length t0 offset his.seconds] at ht
  exact readFrame_frameText clock ft _ _ _ h.stations h.names ht hm

theorem load1d_again (clock : Clock) (ft : FloatText K) (his : His1d K) (t0 offset : Int) (h : Good1d clock ft his t0)
    (hm : HasTimeOfDay clock t0 offset his.seconds) (dir : Store)
    (hq : dir file1dQ = some (frameText clock ft (discharges1d t0 offset his)))
    (hh : dir file1dH = some (frameText clock ft (levels1d t0 offset his))) (offset' : Int)
    (his' : Except PyErr (His1d K)) :
    load1d clock ft offset' his' dir = (dir, .ok (levels1d t0 offset his, discharges1d t0 offset his)) := by
  rw [load1d_cached clock ft his' offset' dir _ _ hq hh, good1d_read_discharges clock ft his t0 offset h hm,
    good1d_read_levels clock ft his t0 offset h hm]

theorem makeMap_new (his : His2d K) (names : List Text) (dir : Store) (h : dir fileMap = none) :
    makeMap (.ok his) names dir = (dir.set fileMap (stationMapText his.hnames his.qnames names), .ok ()) := by
  unfold makeMap
  rw [h]
  rfl

theorem makeMap_old (his : Except PyErr (His2d K)) (names : List Text) (dir : Store) (t : Text) (h : dir fileMap = some t) :
    makeMap his names dir = (dir, .ok ()) := by
  unfold makeMap
  rw [h]
  rfl

theorem writeAll_other (d : Store) (ws : List (Text × Text)) (f : Text) (h : f ∉ ws.map (·.1)) : writeAll d ws f = d f := by
  induction ws generalizing d with
  | nil => rfl
  | cons w ws ih =>
    rw [List.map_cons, List.mem_cons, not_or] at h
    show writeAll (d.set w.1 w.2) ws f = d f
    rw [ih _ h.2, store_set_other _ _ _ _ h.1]

theorem writeAll_mem (d : Store) (ws : List (Text × Text)) (hn : (ws.map (·.1)).Nodup) (w : Text × Text) (h : w ∈ ws) :
    writeAll d ws w.1 = some w.2 := by
  induction ws generalizing d with
  | nil => exact absurd h List.not_mem_nil
  | cons v ws ih =>
    rw [List.map_cons, List.nodup_cons] at hn
    show writeAll (d.set v.1 v.2) ws w.1 = some w.2
    rcases List.mem_cons.1 h with rfl | h
    · rw [writeAll_other _ _ _ hn.1, store_set_same]
    · exact ih _ hn.2 h

theorem writeAll_append (d : Store) (a b : List (Text × Text)) : writeAll d (a ++ b) = writeAll (writeAll d a) b := by
  induction a generalizing d with
  | nil => rfl
  | cons w a ih => exact ih _

theorem writesOf_names (clock : Clock) (ft : FloatText K) (t1 offset t2 : Int) (his1 : His1d K) (his2 : His2d K) :
    (writesOf clock ft t1 offset t2 his1 his2).map (·.1) = [file1dH, file1dQ, fileMap, file2dQ, file2dH] := rfl

theorem writesOf_nodup (clock : Clock) (ft : FloatText K) (t1 offset t2 : Int) (his1 : His1d K) (his2 : His2d K) :
    ((writesOf clock ft t1 offset t2 his1 his2).map (·.1)).Nodup := by
  rw [writesOf_names]; decide

theorem set_set_same (d : Store) (f a b : Text) : (d.set f a).set f b = d.set f b := by
  funext g
  by_cases h : g = f
  · rw [h, store_set_same, store_set_same]
  · rw [store_set_other _ _ _ _ h, store_set_other _ _ _ _ h, store_set_other _ _ _ _ h]

theorem set_of_eq (d : Store) (f t : Text) (h : d f = some t) : d.set f t = d := by
  funext g
  by_cases hg : g = f
  · rw [hg, store_set_same, h]
  · rw [store_set_other _ _ _ _ hg]

theorem set_comm (d : Store) (f g a b : Text) (h : f ≠ g) : (d.set f a).set g b = (d.set g b).set f a := by
  funext k
  by_cases hf : k = f
  · subst hf
    rw [store_set_other _ _ _ _ h, store_set_same, store_set_same]
  · rw [store_set_other _ f _ k hf]
    by_cases hg : k = g
    · subst hg; rw [store_set_same, store_set_same]
    · rw [store_set_other _ g _ k hg, store_set_other _ g _ k hg, store_set_other _ f _ k hf]

theorem fileLines_take_unlines (ls : List Text) (k : Nat) (h : ∀ l ∈ ls, '\n' ∉ l) :
    (unlines ls).take (lineEnd k (unlines ls)) = unlines (ls.take k) := by
  unfold lineEnd
  rw [fileLines_unlines' ls h, ← List.map_take]
  have e : unlines ls = unlines (ls.take k) ++ unlines (ls.drop k) := by
    rw [← unlines_append, List.take_append_drop]
  rw [e]
  exact List.take_left

theorem frameLines_newline (clock : Clock) (ft : FloatText K) (times : List Int) (cols : List Text)
    (rows : List (List (Option K))) (hp : ∀ n ∈ cols, Plain n) :
    ∀ l ∈ frameLines clock ft ⟨.times times, cols, rows⟩, '\n' ∉ l := by
  have hlab : ∀ t ∈ indexTexts clock (.times times), '\n' ∉ t := by
    show ∀ t ∈ (if times.all clock.midnight then times.map clock.date else times.map clock.stamp), '\n' ∉ t
    split
    · exact fun t ht => (dates_plain clock times t ht).2.2
    · exact fun t ht => (stamps_plain clock times t ht).2.2
  intro l hl
  unfold frameLines at hl
  rcases List.mem_cons.1 hl with rfl | hl
  · apply joinWith_newline
    intro w hw
    rcases List.mem_cons.1 hw with rfl | hw
    · exact List.not_mem_nil
    · exact (plain_csv cols hp w hw).2
  · rw [zipWith_rowText] at hl
    obtain ⟨r, hr, rfl⟩ := List.mem_map.1 hl
    apply joinWith_newline
    intro w hw
    rcases List.mem_cons.1 hw with rfl | hw
    · exact hlab _ (List.of_mem_zip hr).1
    · obtain ⟨v, _, rfl⟩ := List.mem_map.1 hw
      exact cellText_newline ft v

/-- A table of which only the first `k` rows were written. -/
theorem readFrame_torn (clock : Clock) (ft : FloatText K) (times : List Int) (cols : List Text)
    (rows : List (List (Option K))) (k : Nat) (hc : cols ≠ []) (hp : ∀ n ∈ cols, Plain n)
    (ht : IsTable ft times.length cols.length rows) (hm : ∃ t ∈ times, clock.midnight t = false) :
    readFrame clock ft ((frameText clock ft ⟨.times times, cols, rows⟩).take
        (lineEnd (k + 1) (frameText clock ft ⟨.times times, cols, rows⟩))) =
      .ok (firstRows k ⟨.times times, cols, rows⟩) := by
  unfold frameText
  rw [fileLines_take_unlines _ _ (frameLines_newline clock ft times cols rows hp),
    readFrame_prefix clock ft times cols rows k hc hp ht hm]
  rfl

theorem mapText_torn (hnames qnames names : List Text) (k : Nat) (hn : ∀ n ∈ names, Plain n)
    (hh : ∀ n ∈ hnames, Plain n) (hq : ∀ n ∈ qnames, Plain n) :
    (stationMapText hnames qnames names).take (lineEnd (k + 1) (stationMapText hnames qnames names)) =
      stationMapText hnames qnames (names.take k) := by
  unfold stationMapText
  rw [fileLines_take_unlines, List.take_succ_cons]
  · unfold stationMap
    rw [← List.map_take, ← List.map_take]
  · intro l hl
    rcases List.mem_cons.1 hl with rfl | hl
    · decide
    · obtain ⟨r, hr, rfl⟩ := List.mem_map.1 hl
      exact joinWith_newline _ fun w hw => ((stationMap_lines hnames qnames names hn hh hq r hr).2 w hw).2

/-- A reading put together from its parts. -/
theorem readAllData_of (clock : Clock) (ft : FloatText K) (offset : Int) (his1 : Except PyErr (His1d K))
    (his2 : Except PyErr (His2d K)) (dir dir1 dir2 dir3 : Store) (one two : Frame K × Frame K)
    (h1 : load1d clock ft offset his1 dir = (dir1, .ok one)) (h2 : makeMap his2 one.1.columns dir1 = (dir2, .ok ()))
    (h3 : load2d clock ft his2 dir2 = (dir3, .ok two)) :
    readAllData clock ft offset his1 his2 dir = (dir3, .ok (one, two)) := by
  unfold readAllData
  simp only [h1, h2, h3]

/-! ## Interrupted readings -/

/-- Five files. -/
def fiveFiles (a b c d e : Text) : List (Text × Text) :=
  [(file1dH, a), (file1dQ, b), (fileMap, c), (file2dQ, d), (file2dH, e)]

theorem crash_first (dir : Store) (a b c d e : Text) (p : Nat) :
    afterCrash dir (fiveFiles a b c d e) 0 (some p) = dir.set file1dH (a.take p) := rfl

theorem crash_none0 (dir : Store) (a b c d e : Text) : afterCrash dir (fiveFiles a b c d e) 0 none = dir := rfl

theorem crash_none1 (dir : Store) (a b c d e : Text) : afterCrash dir (fiveFiles a b c d e) 1 none = dir.set file1dH a := rfl

theorem crash_second (dir : Store) (a b c d e : Text) (p : Nat) :
    afterCrash dir (fiveFiles a b c d e) 1 (some p) = (dir.set file1dH a).set file1dQ (b.take p) := rfl

theorem crash_none2 (dir : Store) (a b c d e : Text) :
    afterCrash dir (fiveFiles a b c d e) 2 none = (dir.set file1dH a).set file1dQ b := rfl

theorem crash_third (dir : Store) (a b c d e : Text) (p : Nat) :
    afterCrash dir (fiveFiles a b c d e) 2 (some p) = ((dir.set file1dH a).set file1dQ b).set fileMap (c.take p) := rfl

theorem crash_none3 (dir : Store) (a b c d e : Text) :
    afterCrash dir (fiveFiles a b c d e) 3 none = ((dir.set file1dH a).set file1dQ b).set fileMap c := rfl

theorem crash_fourth (dir : Store) (a b c d e : Text) (p : Nat) : afterCrash dir (fiveFiles a b c d e) 3 (some p) =
    (((dir.set file1dH a).set file1dQ b).set fileMap c).set file2dQ (d.take p) := rfl

theorem crash_none4 (dir : Store) (a b c d e : Text) : afterCrash dir (fiveFiles a b c d e) 4 none =
    (((dir.set file1dH a).set file1dQ b).set fileMap c).set file2dQ d := rfl

theorem crash_fifth (dir : Store) (a b c d e : Text) (p : Nat) : afterCrash dir (fiveFiles a b c d e) 4 (some p) =
    ((((dir.set file1dH a).set file1dQ b).set fileMap c).set file2dQ d).set file2dH (e.take p) := rfl

theorem writeAll_five (dir : Store) (a b c d e : Text) : writeAll dir (fiveFiles a b c d e) =
    ((((dir.set file1dH a).set file1dQ b).set fileMap c).set file2dQ d).set file2dH e := rfl

theorem crash_none5 (dir : Store) (a b c d e : Text) :
    afterCrash dir (fiveFiles a b c d e) 5 none = writeAll dir (fiveFiles a b c d e) := rfl

section Readings

variable (clock : Clock) (ft : FloatText K) (his1 : His1d K) (his2 : His2d K) (t1 t2 offset : Int)

theorem writesOf_eq : writesOf clock ft t1 offset t2 his1 his2 =
    fiveFiles (frameText clock ft (levels1d t1 offset his1)) (frameText clock ft (discharges1d t1 offset his1))
      (stationMapText his2.hnames his2.qnames his1.names) (frameText clock ft (discharges2d t2 his2 his1.names))
      (frameText clock ft (levels2d t2 his2 his1.names)) := rfl

/-- The tables of a reading. -/
def tablesOf : (Frame K × Frame K) × (Frame K × Frame K) :=
  ((levels1d t1 offset his1, discharges1d t1 offset his1), (levels2d t2 his2 his1.names, discharges2d t2 his2 his1.names))

theorem readAllData_fresh (h1 : Good1d clock ft his1 t1) (h2 : Good2d clock ft his2 t2)
    (m2 : HasTimeOfDay clock t2 0 his2.seconds) (dir : Store) (hq : dir file1dQ = none ∨ dir file1dH = none)
    (hm : dir fileMap = none) (hd : dir file2dQ = none ∨ dir file2dH = none) :
    readAllData clock ft offset (.ok his1) (.ok his2) dir =
      (writeAll dir (writesOf clock ft t1 offset t2 his1 his2), .ok (tablesOf his1 his2 t1 t2 offset)) := by
  refine readAllData_of clock ft offset _ _ dir _ _ _ _ _ (load1d_import clock ft his1 t1 offset h1 dir hq)
    (makeMap_new his2 his1.names _ ?_)
    (load2d_import clock ft his2 t2 h2 his1.names h1.names h1.stations m2 _ (store_set_same _ _ _) ?_)
  · rw [writes1d_other _ _ _ _ _ (by decide) (by decide)]
    exact hm
  · rw [store_set_other _ _ _ _ (by decide), writes1d_other _ _ _ _ _ (by decide) (by decide),
      store_set_other _ _ _ _ (by decide), writes1d_other _ _ _ _ _ (by decide) (by decide)]
    exact hd

theorem readAllData_loaded (h1 : Good1d clock ft his1 t1) (h2 : Good2d clock ft his2 t2)
    (m1 : HasTimeOfDay clock t1 offset his1.seconds) (m2 : HasTimeOfDay clock t2 0 his2.seconds) (dir : Store)
    (hh : dir file1dH = some (frameText clock ft (levels1d t1 offset his1)))
    (hq : dir file1dQ = some (frameText clock ft (discharges1d t1 offset his1)))
    (hm : dir fileMap = none) (hd : dir file2dQ = none ∨ dir file2dH = none) :
    readAllData clock ft offset (.ok his1) (.ok his2) dir =
      (writeAll dir ((writesOf clock ft t1 offset t2 his1 his2).drop 2), .ok (tablesOf his1 his2 t1 t2 offset)) := by
  refine readAllData_of clock ft offset _ _ dir _ _ _ _ _ (load1d_again clock ft his1 t1 offset h1 m1 dir hq hh offset _)
    (makeMap_new his2 his1.names _ hm)
    (load2d_import clock ft his2 t2 h2 his1.names h1.names h1.stations m2 _ (store_set_same _ _ _) ?_)
  rw [store_set_other _ _ _ _ (by decide), store_set_other _ _ _ _ (by decide)]
  exact hd

theorem readAllData_mapped (h1 : Good1d clock ft his1 t1) (h2 : Good2d clock ft his2 t2)
    (m1 : HasTimeOfDay clock t1 offset his1.seconds) (m2 : HasTimeOfDay clock t2 0 his2.seconds) (dir : Store)
    (hh : dir file1dH = some (frameText clock ft (levels1d t1 offset his1)))
    (hq : dir file1dQ = some (frameText clock ft (discharges1d t1 offset his1)))
    (hm : dir fileMap = some (stationMapText his2.hnames his2.qnames his1.names))
    (hd : dir file2dQ = none ∨ dir file2dH = none) :
    readAllData clock ft offset (.ok his1) (.ok his2) dir =
      (writeAll dir ((writesOf clock ft t1 offset t2 his1 his2).drop 3), .ok (tablesOf his1 his2 t1 t2 offset)) :=
  readAllData_of clock ft offset _ _ dir _ _ _ _ _ (load1d_again clock ft his1 t1 offset h1 m1 dir hq hh offset _)
    (makeMap_old _ his1.names _ _ hm)
    (load2d_import clock ft his2 t2 h2 his1.names h1.names h1.stations m2 _ hm hd)

theorem readAllData_complete (h1 : Good1d clock ft his1 t1) (h2 : Good2d clock ft his2 t2)
    (m1 : HasTimeOfDay clock t1 offset his1.seconds) (m2 : HasTimeOfDay clock t2 0 his2.seconds) (dir : Store)
    (hs : ∀ w ∈ writesOf clock ft t1 offset t2 his1 his2, dir w.1 = some w.2) (offset' : Int)
    (his1' : Except PyErr (His1d K)) (his2' : Except PyErr (His2d K)) :
    readAllData clock ft offset' his1' his2' dir = (dir, .ok (tablesOf his1 his2 t1 t2 offset)) := by
  have hH := hs _ List.mem_cons_self
  have hQ := hs _ (List.mem_cons_of_mem _ List.mem_cons_self)
  have hM := hs _ (List.mem_cons_of_mem _ (List.mem_cons_of_mem _ List.mem_cons_self))
  have hQ2 := hs _ (List.mem_cons_of_mem _ (List.mem_cons_of_mem _ (List.mem_cons_of_mem _ List.mem_cons_self)))
  have hH2 := hs _ (List.mem_cons_of_mem _ (List.mem_cons_of_mem _ (List.mem_cons_of_mem _
    (List.mem_cons_of_mem _ List.mem_cons_self))))
  exact readAllData_of clock ft offset' his1' his2' dir _ _ _ _ _
    (load1d_again clock ft his1 t1 offset h1 m1 dir hQ hH offset' his1') (makeMap_old his2' _ dir _ hM)
    (load2d_cached clock ft his2' dir _ _ _ _ hQ2 hH2
      (matched_read clock ft t2 _ _ _ his1.names _ h1.names h1.stations h2.discharges m2)
      (matched_read clock ft t2 _ _ _ his1.names _ h1.names h1.stations h2.levels m2))

theorem readLabels_numbers (ft : FloatText K) (l : List Text)
    (h : ∀ t ∈ l, t = [] ∨ (ft.parse t).isSome = true) : readLabels ft l = l.map fun _ => none := by
  unfold readLabels
  rw [if_pos]
  rw [List.all_eq_true]
  intro t ht
  rcases h t ht with rfl | h
  · rw [decide_eq_true nil_missing]; rfl
  · rw [h, Bool.or_true]

theorem load2d_numbers (hne : his1.names ≠ []) (hn : ∀ n ∈ his1.names, Plain n) (hs2 : StartsAt clock his2.units t2)
    (hh : ∀ n ∈ his2.hnames, Plain n ∧ (ft.parse n).isSome = true) (hq : ∀ n ∈ his2.qnames, PlainStation ft n)
    (ht : IsTable ft his2.seconds.length his2.hnames.length his2.levels)
    (htq : IsTable ft his2.seconds.length his2.qnames.length his2.discharges)
    (m2 : HasTimeOfDay clock t2 0 his2.seconds) (dir : Store)
    (hm : dir fileMap = some (stationMapText his2.hnames his2.qnames his1.names)) (hd : dir file2dQ = none) :
    ∃ dir3 h q, load2d clock ft (.ok his2) dir = (dir3, .ok (h, q)) ∧ h.columns = his1.names ∧
      ∀ row ∈ h.rows, ∀ v ∈ row, v = none := by
  have hmap : readMap ft (stationMapText his2.hnames his2.qnames his1.names) =
      .ok (his1.names, his1.names.map (fun _ => none), his1.names.map fun n => labelOf (mapName his2.qnames n)) := by
    unfold stationMapText
    rw [readMap_rows ft _ (stationMap_lines his2.hnames his2.qnames his1.names hn (fun n h => (hh n h).1)
      fun n h => (hq n h).1)]
    have e1 : (stationMap his2.hnames his2.qnames his1.names).map (·.1) = his1.names := by
      unfold stationMap; rw [List.map_map]; exact List.map_id _
    have e2 : (stationMap his2.hnames his2.qnames his1.names).map (·.2.1) = his1.names.map (mapName his2.hnames) := by
      unfold stationMap; rw [List.map_map]; rfl
    have e3 : (stationMap his2.hnames his2.qnames his1.names).map (·.2.2) = his1.names.map (mapName his2.qnames) := by
      unfold stationMap; rw [List.map_map]; rfl
    rw [e1, e2, e3, readLabels_numbers ft, readLabels_plain ft, List.map_map, List.map_map]
    · rfl
    · intro t ht
      obtain ⟨n, _, rfl⟩ := List.mem_map.1 ht
      rcases mapName_cases his2.qnames n with h | h
      · exact .inl h
      · exact .inr (hq _ h).2
    · intro t ht
      obtain ⟨n, _, rfl⟩ := List.mem_map.1 ht
      rcases mapName_cases his2.hnames n with h | h
      · exact .inl h
      · exact .inr (hh _ h).2
  have hrows : IsTable ft (timesOf t2 0 his2.seconds).length his1.names.length
      (his2.levels.map fun row => (his1.names.map fun _ => (none : Option Text)).map (cell2d his2.hnames row)) := by
    refine ⟨by rw [List.length_map, timesOf_length]; exact ht.1, ?_⟩
    intro r hr
    obtain ⟨row, _, rfl⟩ := List.mem_map.1 hr
    refine ⟨by rw [List.length_map, List.length_map], ?_⟩
    intro x hx
    rw [List.map_map] at hx
    obtain ⟨n, _, e⟩ := List.mem_map.1 hx
    have e : (none : Option K) = some x := e
    cases e
  have hnone : ∀ row ∈ (his2.levels.map fun row =>
      (his1.names.map fun _ => (none : Option Text)).map (cell2d his2.hnames row)), ∀ v ∈ row, v = none := by
    intro r hr
    obtain ⟨row, _, rfl⟩ := List.mem_map.1 hr
    intro v hv
    rw [List.map_map] at hv
    obtain ⟨n, _, e⟩ := List.mem_map.1 hv
    exact e.symm
  have hlev : table2d clock his2.units his2.seconds his2.hnames his2.levels his1.names (his1.names.map fun _ => none) =
      .ok ⟨.times (timesOf t2 0 his2.seconds), his1.names,
        his2.levels.map fun row => (his1.names.map fun _ => (none : Option Text)).map (cell2d his2.hnames row)⟩ := by
    unfold table2d
    rw [parseTimes_of_startsAt clock his2.units t2 his2.seconds hs2]
    simp only [times_zero]
    exact makeFrame_table ft _ _ _ hrows
  have hread := readFrame_frameText clock ft _ _ _ hne hn hrows m2
  generalize hf : (⟨.times (timesOf t2 0 his2.seconds), his1.names, his2.levels.map fun row =>
    (his1.names.map fun _ => (none : Option Text)).map (cell2d his2.hnames row)⟩ : Frame K) = f at hlev hread
  have himp : import2d clock ft (.ok his2) dir =
      ((dir.set file2dQ (frameText clock ft (discharges2d t2 his2 his1.names))).set file2dH (frameText clock ft f),
        .ok ()) := by
    unfold import2d
    simp only [hm, hmap, table2d_good clock ft his2.units t2 his2.seconds his2.qnames his2.discharges his1.names _ hs2 hq
      htq, hlev]
    rfl
  refine ⟨(dir.set file2dQ (frameText clock ft (discharges2d t2 his2 his1.names))).set file2dH (frameText clock ft f), f,
    discharges2d t2 his2 his1.names, ?_, by rw [← hf], by rw [← hf]; exact hnone⟩
  unfold load2d
  rw [if_neg (by rw [hd]; exact Bool.noConfusion), himp]
  simp only
  unfold read2d readFile
  rw [store_set_same, store_set_other _ _ _ _ (by decide), store_set_same]
  simp only [discharges2d]
  rw [hread, matched_read clock ft t2 _ _ _ his1.names _ hn hne htq m2]

end Readings

end Tables

end Fm2prof

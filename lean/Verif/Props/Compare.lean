import Mathlib.Algebra.Order.Field.Rat
import Mathlib.Data.Rat.Floor
import Verif.Spec.Compare
import Verif.Proofs.Compare

/-! # Comparing 1D and 2D results: C58-C61, C63, C70, C88-C92 -/

set_option linter.unusedSectionVars false

namespace Fm2prof.Props

open Spec

section Window

variable {T : Type} [LinearOrder T] {α : Type}

/-! ## C58: the time window -/

/-- **C58.** With a start and a stop time set, a series that is not empty is returned as exactly its rows from start to stop,
in order, unless the start is not before the stop or not before the last record, or the stop is not after the first
record: those are errors. The times set stay as they are. -/
theorem C58_window (a b : T) (first last : T × α) (data : List (T × α)) (hf : data.head? = some first)
    (hl : data.getLast? = some last) :
    (applyWindow ⟨some a, some b⟩ data).1 = ⟨some a, some b⟩ ∧
    ((b ≤ a ∨ last.1 ≤ a ∨ b ≤ first.1) → (applyWindow ⟨some a, some b⟩ data).2 = .error .valueError) ∧
    (a < b → a < last.1 → first.1 < b →
      (applyWindow ⟨some a, some b⟩ data).2 = .ok (data.filter fun r => a ≤ r.1 ∧ r.1 ≤ b)) := by
  rw [applyWindow_cons _ first last data hf hl]
  simp only [Option.getD_some]
  refine ⟨trivial, fun h => ?_, fun h1 h2 h3 => ?_⟩
  · split
    · rfl
    · split
      · rfl
      · split
        · rfl
        · rename_i h1 h2 h3
          rcases h with h | h | h
          · exact absurd h h1
          · exact absurd h h2
          · exact absurd h h3
  · rw [if_neg (not_le.2 h1), if_neg (not_le.2 h2), if_neg (not_le.2 h3)]
    congr 1
    exact List.filter_congr fun x _ => by simp

/-- **C58, history.** With a start and a stop time set, every series is returned as if it were the only one. -/
theorem C58_history (a b : T) (ds : List (List (T × α))) :
    readAll ⟨some a, some b⟩ ds = ds.map fun d => (applyWindow ⟨some a, some b⟩ d).2 := by
  induction ds with
  | nil => rfl
  | cons d ds ih =>
    have : (applyWindow ⟨some a, some b⟩ d).1 = ⟨some a, some b⟩ := by
      unfold applyWindow
      cases d.head? <;> cases d.getLast? <;> rfl
    rw [readAll, this, ih]
    rfl

/-- **C58, unset, partial.** Without a start and a stop time, the first series read is returned completely if its times
increase and there are at least two records. What is missing: later series are cut to the times of the first one, see
`C58_unset_violated`. -/
theorem C58_unset_partial (data : List (T × α)) (hs : data.Pairwise fun x y => x.1 < y.1) (hn : 2 ≤ data.length) :
    (applyWindow ⟨none, none⟩ data).2 = .ok data := by
  match data, hn with
  | x :: y :: rest, _ =>
    obtain ⟨last, hl⟩ : ∃ last, (x :: y :: rest).getLast? = some last :=
      ⟨_, List.getLast?_eq_some_getLast (by simp)⟩
    have hlm : last ∈ y :: rest := by
      rw [List.getLast?_cons_cons] at hl
      exact List.mem_of_getLast? hl
    have hxl : x.1 < last.1 := (List.pairwise_cons.1 hs).1 last hlm
    rw [applyWindow_cons _ x last _ rfl hl]
    simp only [Option.getD_none]
    rw [if_neg (not_le.2 hxl), if_neg (not_le.2 hxl), if_neg (not_le.2 hxl)]
    congr 1
    rw [List.filter_eq_self]
    intro r hr
    have h1 : x.1 ≤ r.1 := by
      rcases List.mem_cons.1 hr with rfl | hr
      · exact le_refl _
      · exact le_of_lt ((List.pairwise_cons.1 hs).1 r hr)
    have h2 : r.1 ≤ last.1 := by
      obtain ⟨l, hl'⟩ : ∃ l, x :: y :: rest = l ++ [last] := ⟨_, (List.dropLast_append_getLast? last hl).symm⟩
      rw [hl'] at hr hs
      rcases List.mem_append.1 hr with hr | hr
      · exact le_of_lt ((List.pairwise_append.1 hs).2.2 r hr last List.mem_cons_self)
      · rw [List.mem_singleton.1 hr]
    simp [h1, h2]

/-- **C58, violated: times not set.** The second of two series read without start and stop time loses the records outside the
times of the first one. -/
theorem C58_unset_violated :
    readAll (⟨none, none⟩ : Window Nat) [[(10, 'a'), (20, 'b')], [(5, 'c'), (15, 'd'), (25, 'e')]] =
      [.ok [(10, 'a'), (20, 'b')], .ok [(15, 'd')]] := rfl

example : (applyWindow ⟨some 12, some 30⟩ [(10, 'a'), (20, 'b'), (30, 'c'), (40, 'd')]).2.toOption =
    some [(20, 'b'), (30, 'c')] := by decide

/-! ## C63: looking up a time -/

/-- **C63.** The index found for a date in a series that is not empty is a valid index. It is the first record at or after the
date if there is one, and the last record otherwise. -/
theorem C63_lookup (index : List T) (date : T) (hne : index ≠ []) :
    ∃ k : Nat, nearestTime index date = k ∧ k < index.length ∧
      ((∃ t, index[k]? = some t ∧ date ≤ t ∧ ∀ (i : Nat), i < k → ∀ s, index[i]? = some s → s < date) ∨
        (k + 1 = index.length ∧ ∀ t ∈ index, t < date)) := by
  unfold nearestTime
  cases h : index.findIdx? fun t => !decide (t < date) with
  | some k =>
    rw [List.findIdx?_eq_some_iff_getElem] at h
    obtain ⟨hk, hp, hb⟩ := h
    refine ⟨k, rfl, hk, Or.inl ⟨index[k], List.getElem?_eq_getElem hk, ?_, fun i hi s hs => ?_⟩⟩
    · simpa using hp
    · obtain ⟨hi', rfl⟩ := List.getElem?_eq_some_iff.1 hs
      simpa using hb i hi
  | none =>
    rw [List.findIdx?_eq_none_iff] at h
    have hpos : 0 < index.length := List.length_pos_iff.2 hne
    refine ⟨index.length - 1, by simp only; omega, by omega, Or.inr ⟨by omega, fun t ht => ?_⟩⟩
    simpa using h t ht

example : nearestTime [10, 20, 30] 15 = 1 ∧ nearestTime [10, 20, 30] 35 = 2 ∧ nearestTime [10, 20, 30] 20 = 1 := by decide

end Window

/-! ## C59: the mapping of stations -/

/-- **C59.** Every 1D station gets one row, in order, with the first 2D station whose name starts with the first nine characters
of its name, for levels and for discharges. -/
theorem C59_rows (hnames qnames names : List Text) :
    List.Forall₂ (fun n r => r.1 = n ∧ IsMatch hnames n r.2.1 ∧ IsMatch qnames n r.2.2) names
      (stationMap hnames qnames names) := by
  unfold stationMap
  rw [List.forall₂_map_right_iff]
  exact List.forall₂_same.2 fun n _ => ⟨rfl, mapName_isMatch hnames n, mapName_isMatch qnames n⟩

/-- **C59, empty.** A station gets an empty name exactly when no 2D name starts with the first nine characters of its name,
if no 2D name is empty. -/
theorem C59_empty (names : List Text) (n : Text) (h : [] ∉ names) :
    mapName names n = [] ↔ ∀ x ∈ names, ¬ n.take 9 <+: x := by
  rcases mapName_isMatch names n with ⟨before, after, he, hp, _⟩ | ⟨h1, h2⟩
  · constructor
    · intro h0
      rw [h0] at he
      rw [he] at h
      exact absurd (List.mem_append_right _ List.mem_cons_self) h
    · intro hx
      exact absurd hp (hx _ (mem_of_split he))
  · exact ⟨fun _ => h2, fun _ => h1⟩

/-- **C59, short names.** A station of at most nine characters that is in the 2D names is mapped to a 2D name that it is a
prefix of. -/
theorem C59_short (names : List Text) (n : Text) (hn : n ∈ names) (hl : n.length ≤ 9) :
    mapName names n ∈ names ∧ n <+: mapName names n := by
  have ht : n.take 9 = n := List.take_of_length_le hl
  rcases mapName_isMatch names n with ⟨before, after, he, hp, _⟩ | ⟨_, h2⟩
  · rw [ht] at hp
    exact ⟨mem_of_split he, hp⟩
  · exact absurd (List.take_prefix 9 n) (h2 n hn)

/-- **C59, file.** The file lists these rows: with names without commas and line breaks, splitting its lines at commas gives
the header and the rows. -/
theorem C59_file (hnames qnames names : List Text) (h : ∀ n ∈ names ++ hnames ++ qnames, ',' ∉ n ∧ '\n' ∉ n) :
    splitSep '\n' (stationMapText hnames qnames names) =
      ("1D,2D_H,2D_Q".toList :: (stationMap hnames qnames names).map fun r => joinWith [','] [r.1, r.2.1, r.2.2]) ++ [[]] ∧
    (stationMap hnames qnames names).map (fun r => splitSep ',' (joinWith [','] [r.1, r.2.1, r.2.2])) =
      (stationMap hnames qnames names).map fun r => [r.1, r.2.1, r.2.2] := by
  have hmem : ∀ ns n : _, mapName ns n = [] ∨ mapName ns n ∈ ns := fun ns n => by
    rcases mapName_isMatch ns n with ⟨b, a, he, _⟩ | ⟨h1, _⟩
    · exact Or.inr (mem_of_split he)
    · exact Or.inl h1
  have hfield : ∀ r ∈ stationMap hnames qnames names, ∀ f ∈ [r.1, r.2.1, r.2.2], ',' ∉ f ∧ '\n' ∉ f := by
    intro r hr f hf
    obtain ⟨n, hn, rfl⟩ := List.mem_map.1 hr
    have hm : ∀ ns, (∀ x ∈ ns, ',' ∉ x ∧ '\n' ∉ x) → ',' ∉ mapName ns n ∧ '\n' ∉ mapName ns n := fun ns hns => by
      rcases hmem ns n with h0 | h0
      · rw [h0]; exact ⟨by simp, by simp⟩
      · exact hns _ h0
    simp only [List.mem_cons, List.not_mem_nil, or_false] at hf
    rcases hf with rfl | rfl | rfl
    · exact h _ (by simp [hn])
    · exact hm hnames fun x hx => h x (by simp [hx])
    · exact hm qnames fun x hx => h x (by simp [hx])
  constructor
  · unfold stationMapText
    rw [splitSep_unlines]
    intro l hl
    rcases List.mem_cons.1 hl with rfl | hl
    · decide
    · obtain ⟨r, hr, rfl⟩ := List.mem_map.1 hl
      have := hfield r hr
      simp only [joinWith, List.mem_append, List.mem_singleton, not_or]
      exact ⟨⟨(this r.1 (by simp)).2, by decide⟩, ⟨(this r.2.1 (by simp)).2, by decide⟩, (this r.2.2 (by simp)).2⟩
  · apply List.map_congr_left
    intro r hr
    exact splitSep_join ',' _ (by simp) fun w hw => (hfield r hr w hw).1

/-- **C59, data.** The 2D series of a station that is mapped to a name is the series of the first 2D station with that name. -/
theorem C59_column {V : Type} (before after : List Text) (mapped : Text) (data : List (List V)) (hm : mapped ≠ [])
    (hb : mapped ∉ before) (hd : ∀ row ∈ data, row.length = (before ++ mapped :: after).length) :
    ∃ col, column2d (before ++ mapped :: after) data mapped = some col ∧
      List.Forall₂ (fun row v => row[before.length]? = some v) data col := by
  have hf : (before ++ mapped :: after).findIdx? (· = mapped) = some before.length := by
    rw [List.findIdx?_append, List.findIdx?_eq_none_iff.2 (fun x hx => decide_eq_false fun e : x = mapped => hb (e ▸ hx))]
    simp [List.findIdx?_cons]
  unfold column2d
  rw [if_neg hm, hf]
  refine ⟨_, rfl, ?_⟩
  clear hf
  induction data with
  | nil => exact .nil
  | cons row rest ih =>
    have hl := hd row List.mem_cons_self
    have hlt : before.length < row.length := by rw [hl]; simp
    rw [List.filterMap_cons, List.getElem?_eq_getElem hlt]
    exact .cons (List.getElem?_eq_getElem hlt) (ih fun r hr => hd r (List.mem_cons_of_mem _ hr))

example : stationMap ["NR_919.00_x".toList, "NR_919.00".toList] ["LK_900".toList] ["NR_919.00_LMW".toList] =
    [("NR_919.00_LMW".toList, "NR_919.00_x".toList, [])] := by decide

/-! ## C88: stations of the same name -/

/-- **C88, partial.** A station whose name is a 2D name as well is mapped to that name if no earlier 2D name has the same first
nine characters. What is missing: with such a name it is mapped to that one, see `C88_violated`. -/
theorem C88_same_name_partial (names : List Text) (n : Text) (hn : n ∈ names)
    (h : ∀ x ∈ names, n.take 9 <+: x → x = n) : mapName names n = n := by
  rcases mapName_isMatch names n with ⟨before, after, he, hp, _⟩ | ⟨_, h2⟩
  · exact h _ (mem_of_split he) hp
  · exact absurd (List.take_prefix 9 n) (h2 n hn)

/-- **C88, violated.** Two 2D stations along the Waal with the same first nine characters: the second one is compared with the
first one. -/
theorem C88_violated :
    mapName ["WL_900.00_LMW".toList, "WL_900.00".toList] "WL_900.00".toList = "WL_900.00_LMW".toList ∧
      "WL_900.00".toList ∈ ["WL_900.00_LMW".toList, "WL_900.00".toList] := by decide

section Numbers

variable {K : Type} [Field K] [LinearOrder K] [IsStrictOrderedRing K]

/-! ## C60: digitised levels -/

/-- **C60, partial.** With increasing bins, the first entry is the mean of the known levels at discharges below the first bin, and
the entry of every other bin is the mean of the known levels at discharges from the previous bin up to, but not including,
the bin itself. What is missing: the entries are labelled with the upper end instead of the lower one, and discharges from
the last bin upwards are not used, see `C60_label_violated` and `C60_last_violated`. -/
theorem C60_bins_partial (bins : List K) (hb : bins.Pairwise (· < ·)) (rows : List (Option K × Option K)) :
    (digitizeColumn bins rows).length = bins.length ∧
    (∀ b, bins[0]? = some b →
      (digitizeColumn bins rows)[0]? = some (meanOf (levelsWhere (fun q => decide (q < b)) rows))) ∧
    ∀ (i : Nat) a b, bins[i]? = some a → bins[i + 1]? = some b →
      (digitizeColumn bins rows)[i + 1]? = some (meanOf (levelsWhere (fun q => decide (a ≤ q ∧ q < b)) rows)) := by
  refine ⟨by simp [digitizeColumn], fun b h0 => ?_, fun i a b ha hb' => ?_⟩
  · obtain ⟨hlt, _⟩ := List.getElem?_eq_some_iff.1 h0
    rw [digitizeColumn_getElem bins rows 0 hlt]
    congr 3
    funext q
    congr 1
    rw [digitize_sorted bins hb, eq_iff_iff]
    constructor
    · rintro ⟨_, h⟩
      exact not_le.1 fun hle => absurd ((h 0 b h0).1 hle) (by omega)
    · intro hq
      refine ⟨by omega, fun k c hc => ⟨fun hle => ?_, fun hk => absurd hk (by omega)⟩⟩
      have : b ≤ c := sorted_get bins hb 0 k b c h0 hc (by omega)
      exact absurd (lt_of_lt_of_le hq (le_trans this hle)) (lt_irrefl _)
  · obtain ⟨hlt, _⟩ := List.getElem?_eq_some_iff.1 hb'
    rw [digitizeColumn_getElem bins rows (i + 1) hlt]
    congr 3
    funext q
    congr 1
    rw [digitize_sorted bins hb, eq_iff_iff]
    constructor
    · rintro ⟨_, h⟩
      exact ⟨(h i a ha).2 (by omega), not_le.1 fun hle => absurd ((h (i + 1) b hb').1 hle) (by omega)⟩
    · rintro ⟨h1, h2⟩
      refine ⟨by omega, fun k c hc => ⟨fun hle => ?_, fun hk => ?_⟩⟩
      · by_contra hk
        have : b ≤ c := sorted_get bins hb (i + 1) k b c hb' hc (by omega)
        exact absurd (lt_of_lt_of_le h2 (le_trans this hle)) (lt_irrefl _)
      · exact le_trans (sorted_get bins hb k i c a hc ha (by omega)) h1

/-- **C60, used once.** No level is used for two entries: the numbers of levels used for the entries add up to at most the
number of levels. -/
theorem C60_once (bins : List K) (rows : List (Option K × Option K)) :
    ((List.range bins.length).map fun i => (rows.filter fun r => digitize bins r.1 = i).length).sum ≤ rows.length := by
  induction rows with
  | nil => simp
  | cons r rest ih =>
    have h : ∀ n : Nat, ((List.range n).map fun i => ((r :: rest).filter fun r => digitize bins r.1 = i).length).sum ≤
        ((List.range n).map fun i => (rest.filter fun r => digitize bins r.1 = i).length).sum +
          (if digitize bins r.1 < n then 1 else 0) := by
      intro n
      induction n with
      | zero => simp
      | succ n ihn =>
        rw [List.range_succ, List.map_append, List.map_append, List.sum_append, List.sum_append]
        simp only [List.map_cons, List.map_nil, List.sum_cons, List.sum_nil, List.filter_cons]
        simp only [List.filter_cons] at ihn
        by_cases he : digitize bins r.1 = n
        · simp only [he, decide_true, if_true, List.length_cons]
          rw [he, if_neg (lt_irrefl n)] at ihn
          rw [if_pos (by omega)]
          omega
        · simp only [he, decide_false, Bool.false_eq_true, if_false]
          by_cases hlt : digitize bins r.1 < n
          · rw [if_pos hlt] at ihn
            rw [if_pos (by omega)]
            omega
          · rw [if_neg hlt] at ihn
            rw [if_neg (by omega)]
            omega
    have := h bins.length
    rw [List.length_cons]
    split at this <;> omega

/-- **C60, violated: labels.** The levels at discharges from 200 to 400 are labelled with 400. -/
theorem C60_label_violated :
    ([0, 200, 400] : List ℚ).zip (digitizeColumn ([0, 200, 400] : List ℚ) [(some 250, some 3), (some 300, some 5)]) =
      [(0, none), (200, none), (400, some 4)] := by decide +kernel

/-- **C60, violated: large discharges.** A level at a discharge at or above the last bin is used nowhere. -/
theorem C60_last_violated :
    digitizeColumn ([0, 200, 400] : List ℚ) [(some 400, some 3)] = [none, none, none] := by decide +kernel

example : digitizeColumn ([0, 200, 400] : List ℚ) [(some 50, some 1), (some 0, some 3), (some 250, some 7), (none, some 9)] =
    [none, some 2, some 7] := by decide +kernel

/-! ## C61: labels along a route -/

/-- **C61.** For stations at kilometres that are not negative, the labels are those chosen by going along the route: exactly the
measuring stations not closer than five kilometres to the last label. They show the last part of the name. -/
theorem C61_labelled (l : List (Text × K)) (h : ∀ x ∈ l, 0 ≤ x.2) :
    ∃ out, Labelled none l out ∧ labels l = out.map fun x => ((splitSep '_' x.1).getLastD [], x.2) :=
  ⟨_, labelled_none l fun x hx => le_trans (by norm_num) (h x hx), rfl⟩

/-- **C61, consequences.** Labels chosen that way are a subsequence of the stations, all measuring stations, consecutive ones are
at least five kilometres apart, every measuring station is less than five kilometres from a label, and along a route with
increasing kilometres no two labels are closer than five kilometres. -/
theorem C61_consequences (l out : List (Text × K)) (h : Labelled none l out) :
    List.Sublist out l ∧ (∀ x ∈ out, IsMeasuring x.1) ∧ (out.IsChain fun a b => 5 ≤ |a.2 - b.2|) ∧
      (∀ x ∈ l, IsMeasuring x.1 → ∃ y ∈ out, |y.2 - x.2| < 5) ∧
      ((l.Pairwise fun a b => a.2 ≤ b.2) → out.Pairwise fun a b => 5 ≤ b.2 - a.2) := by
  obtain ⟨h1, h2⟩ := labelled_sublist h
  refine ⟨h1, h2, labelled_chain h, fun x hx hm => ?_, fun hs => ?_⟩
  · rcases labelled_cover h x hx hm with h | ⟨p, hp, _⟩
    · exact h
    · cases hp
  · have hs' := hs.sublist h1
    have hc := labelled_chain h
    clear h h1 h2 hs
    induction out with
    | nil => exact .nil
    | cons a rest ih =>
      rw [List.pairwise_cons] at hs' ⊢
      refine ⟨fun b hb => ?_, ih hs'.2 hc.tail⟩
      cases rest with
      | nil => cases hb
      | cons c cs =>
        have h5 : 5 ≤ |a.2 - c.2| := (List.isChain_cons_cons.1 hc).1
        have hac := hs'.1 c List.mem_cons_self
        rw [abs_sub_comm, abs_of_nonneg (by linarith)] at h5
        rcases List.mem_cons.1 hb with rfl | hb
        · exact h5
        · have := (List.pairwise_cons.1 hs'.2).1 b hb
          linarith

/-- **C61, unique.** The labels are determined by going along the route. -/
theorem C61_unique (l out out' : List (Text × K)) (h : Labelled none l out) (h' : Labelled none l out') : out = out' :=
  labelled_unique h h'

example : labels ([("NR_900_LMW_Lobith".toList, 900), ("NR_902".toList, 902), ("NR_903_LMW_x".toList, 903),
    ("NR_905_lmw_y".toList, 905)] : List (Text × ℚ)) = [("Lobith".toList, 900), ("y".toList, 905)] := by
  decide +kernel

/-! ## C70: stations along a route -/

/-- **C70.** The stations of a route are returned with their kilometres, sorted by kilometre. Up to the order they are the
stations of the branches of the route, branch by branch, that have a kilometre in their name. -/
theorem C70_route (s : ArgSort K) (parse : Text → Option K) (names route : List Text) :
    let r := getRoute s parse names route
    r.1.length = r.2.length ∧ (r.2.Pairwise (· ≤ ·)) ∧
      (r.1.zip r.2).Perm ((route.flatMap fun b => names.filter fun n => decide (stationBranch n = b)).filterMap
        fun n => (stationKm parse n).map fun km => (n, km)) := by
  have hr : getRoute s parse names route =
      ((picked (routeStations parse names route) (s.order ((routeStations parse names route).map (·.2)))).map (·.1),
       (picked (routeStations parse names route) (s.order ((routeStations parse names route).map (·.2)))).map (·.2)) := rfl
  simp only [hr]
  refine ⟨by simp, ?_, ?_⟩
  · rw [List.pairwise_map]
    exact picked_sorted s _
  · rw [zip_map_fst_snd]
    refine (picked_perm _ _ ?_).trans ?_
    · have := s.perm ((routeStations parse names route).map (·.2))
      rwa [List.length_map] at this
    · unfold routeStations
      rw [← List.map_flatMap, List.filterMap_map]
      exact List.Perm.refl _

/-- **C70, membership.** A station is on the route with a kilometre exactly when it is a 2D station of a branch of the route with
that kilometre in its name. -/
theorem C70_members (s : ArgSort K) (parse : Text → Option K) (names route : List Text) (n : Text) (km : K) :
    let r := getRoute s parse names route
    (n, km) ∈ r.1.zip r.2 ↔ n ∈ names ∧ (∃ b ∈ route, IsBranch n b) ∧ IsKm parse n km := by
  intro r
  rw [(C70_route s parse names route).2.2.mem_iff]
  simp only [List.mem_filterMap, List.mem_flatMap, List.mem_filter, decide_eq_true_eq, Option.map_eq_some_iff,
    stationBranch_iff, stationKm_iff]
  constructor
  · rintro ⟨n', ⟨b, hb, hn, hbr⟩, km', hk, he⟩
    obtain ⟨rfl, rfl⟩ := Prod.mk.inj he
    exact ⟨hn, ⟨b, hb, hbr⟩, hk⟩
  · rintro ⟨hn, ⟨b, hb, hbr⟩, hk⟩
    exact ⟨n, ⟨b, hb, hn, hbr⟩, km, hk, rfl⟩

/-- **C70, repetitions.** With different stations and a route without repeated branches, no station is repeated. -/
theorem C70_nodup (s : ArgSort K) (parse : Text → Option K) (names route : List Text) (hn : names.Nodup)
    (hr : route.Nodup) : (getRoute s parse names route).1.Nodup := by
  obtain ⟨hl, _, hp⟩ := C70_route s parse names route
  have h1 : ((getRoute s parse names route).1.zip (getRoute s parse names route).2).map (·.1) =
      (getRoute s parse names route).1 := List.map_fst_zip (le_of_eq hl)
  rw [← h1]
  refine ((hp.map (·.1)).nodup_iff).2 ?_
  have h2 : (route.flatMap fun b => names.filter fun n => decide (stationBranch n = b)).Nodup := by
    rw [List.nodup_flatMap]
    refine ⟨fun b _ => hn.filter _, hr.imp ?_⟩
    intro a b hab x hx hy
    simp only [List.mem_filter, decide_eq_true_eq] at hx hy
    exact hab (hx.2.symm.trans hy.2)
  generalize (route.flatMap fun b => names.filter fun n => decide (stationBranch n = b)) = l at h2 ⊢
  induction l with
  | nil => exact List.nodup_nil
  | cons x xs ih =>
    rw [List.nodup_cons] at h2
    rw [List.filterMap_cons]
    cases stationKm parse x with
    | none => exact ih h2.2
    | some km =>
      simp only [Option.map_some, List.map_cons, List.nodup_cons]
      refine ⟨fun hx => ?_, ih h2.2⟩
      obtain ⟨y, hy, rfl⟩ := List.mem_map.1 hx
      obtain ⟨z, hz, hzy⟩ := List.mem_filterMap.1 hy
      obtain ⟨k, _, rfl⟩ := Option.map_eq_some_iff.1 hzy
      exact h2.1 hz

/-- **C70, measuring stations.** The measuring stations returned along with a route are those of the stations of its branches with
LMW in their names, sorted by kilometre, those without a kilometre last. -/
theorem C70_measuring (s : ArgSort K) (parse : Text → Option K) (names route : List Text) :
    (getRouteLmw s parse names route).Perm ((routeStations parse names route).filter fun x =>
      containsText "LMW".toList x.1) ∧
    (getRouteLmw s parse names route).Pairwise fun a b => ∀ y, b.2 = some y → ∃ x, a.2 = some x ∧ x ≤ y := by
  unfold getRouteLmw
  generalize (routeStations parse names route).filter (fun x => containsText "LMW".toList x.1) = l
  constructor
  · have := (s.perm (l.map (·.2))).filterMap fun i => l[i]?
    rwa [List.length_map, range_filterMap_getElem?] at this
  · simp only
    rw [List.pairwise_filterMap]
    refine (s.sorted (l.map (·.2))).imp ?_
    intro i j hij a ha b hb y hy
    obtain ⟨x, hx, hle⟩ := hij y (by rw [List.getElem?_map, hb, ← hy]; rfl)
    rw [List.getElem?_map, ha] at hx
    exact ⟨x, Option.some.inj hx, hle⟩

/-- A reader of whole kilometres. -/
def sampleParse (t : Text) : Option ℚ :=
  if t ≠ [] ∧ t.all Char.isDigit then some (t.foldl (fun n c => 10 * n + (c.toNat - 48)) 0 : Nat) else none

example : getRoute insertionArgSort sampleParse
    ["NR_20".toList, "LK_5".toList, "XX_1".toList, "NR_10_LMW".toList, "NR".toList, "LK_15".toList]
    ["NR".toList, "LK".toList] =
    (["LK_5".toList, "NR_10_LMW".toList, "LK_15".toList, "NR_20".toList], [5, 10, 15, 20]) := by decide +kernel

/-! ## C89: the moments drawn along a route -/

/-- **C89, partial.** For a series of at least six days, between six and eleven moments are drawn, from the first day on, at equal
distances, all before the last day, and the last one not further from it than the others are apart. What is missing:
shorter series, see `C89_short_violated`. -/
theorem C89_moments_partial (n : Nat) (h : 6 ≤ n) :
    ∃ step count, 0 < step ∧ 6 ≤ count ∧ count ≤ 11 ∧
      momentDays n = .ok ((List.range count).map fun i => i * step) ∧
      (∀ i < count, i * step < n) ∧ n ≤ count * step := by
  have hs : 0 < n / 6 := Nat.div_pos h (by norm_num)
  have h1 : n / 6 * 6 ≤ n := Nat.div_mul_le_self n 6
  have h2 : n < n / 6 * 6 + 6 := by omega
  refine ⟨n / 6, (n + n / 6 - 1) / (n / 6), hs, ?_, ?_, ?_, ?_, ?_⟩
  · rw [Nat.le_div_iff_mul_le hs]; omega
  · refine Nat.lt_succ_iff.1 ((Nat.div_lt_iff_lt_mul hs).2 ?_)
    omega
  · unfold momentDays
    rw [if_neg (by omega)]
  · intro i hi
    have : (i + 1) * (n / 6) ≤ n + n / 6 - 1 := (Nat.le_div_iff_mul_le hs).1 hi
    rw [Nat.add_mul, Nat.one_mul] at this
    omega
  · have := Nat.lt_div_mul_add (a := n + n / 6 - 1) hs
    omega

/-- **C89, violated.** For every series of less than six days the figure cannot be made: a `ValueError` is raised. -/
theorem C89_short_violated (n : Nat) (h : n < 6) : momentDays n = .error .valueError := by
  unfold momentDays
  rw [if_pos (by omega)]

example : (momentDays 13).toOption = some [0, 2, 4, 6, 8, 10, 12] := by decide

/-! ## C90: the data along a route -/

/-- **C90, partial.** If the stations of a route all have a series, the data along the route are the kilometres and series of the
stations, in order, without the stations whose series is the same as that of an earlier station. If no two series are the
same, they are all there. What is missing: stations with equal series, see `C90_violated`. -/
theorem C90_data_partial {V : Type} [DecidableEq V] (series : Text → V) (stations : List Text) (rkms : List K)
    (hl : stations.length = rkms.length) :
    ∃ rows, dataAlongRoute (fun n => some (series n)) stations rkms = .ok rows ∧
      List.Sublist rows (rkms.zip (stations.map series)) ∧
      (∀ n ∈ stations, ∃ km, (km, series n) ∈ rows) ∧
      ((stations.map series).Nodup → rows = rkms.zip (stations.map series)) := by
  have hc : collect (fun n => match (some (series n) : Option V) with
      | some v => (.ok v : Except PyErr V) | none => .error .keyError) stations = .ok (stations.map series) :=
    collect_ok _ series stations fun _ _ => rfl
  obtain ⟨h1, _, _, h4⟩ := dropDuplicates_spec (rkms.zip (stations.map series)) []
  have hsnd : (rkms.zip (stations.map series)).map (·.2) = stations.map series :=
    List.map_snd_zip (by rw [List.length_map, hl])
  refine ⟨dropDuplicates (rkms.zip (stations.map series)) [], ?_, h1, fun n hn => ?_, fun hnd => ?_⟩
  · unfold dataAlongRoute
    simp only at hc ⊢
    rw [hc]
  · have : series n ∈ (rkms.zip (stations.map series)).map (·.2) := by
      rw [hsnd]; exact List.mem_map.2 ⟨n, hn, rfl⟩
    obtain ⟨x, hx, hxn⟩ := List.mem_map.1 this
    rcases h4 x hx with h | ⟨r, h⟩
    · cases h
    · exact ⟨r, by rw [← hxn]; exact h⟩
  · exact dropDuplicates_nodup _ _ (by rw [hsnd]; exact hnd) fun _ _ => List.not_mem_nil

/-- **C90, violated.** Of two stations with the same levels only the first one is drawn. -/
theorem C90_violated :
    (dataAlongRoute (fun n => if n = "c".toList then some [1, 3] else some [1, 2]) ["a".toList, "b".toList, "c".toList]
      ([10, 20, 30] : List ℚ)).toOption = some [(10, [1, 2]), (30, [1, 3])] := by decide +kernel

/-! ## C91: the discharges of a figure of rating curves -/

/-- **C91, partial.** If the last station has a digitised level, the discharges chosen are at most `n` strictly increasing positive
discharges of the table. What is missing: a station without levels, see `C91_violated`. -/
theorem C91_discharges_partial (n : Nat) (column : List (K × Option K)) (hs : column.Pairwise fun a b => a.1 < b.1)
    (hpos : ∀ r ∈ column, 0 ≤ r.1) (hne : ∃ r ∈ column, r.2 ≠ none) :
    ∃ qs, dischargeSteps n column = .ok qs ∧ qs.length ≤ n ∧ qs.Pairwise (· < ·) ∧
      ∀ q ∈ qs, 0 < q ∧ ∃ h, (q, some h) ∈ column := by
  unfold dischargeSteps
  simp only
  set table := column.filterMap fun r => r.2.map fun v => (r.1, v) with htable
  have hmem : ∀ q h, (q, h) ∈ table → (q, some h) ∈ column := by
    intro q h hm
    obtain ⟨r, hr, he⟩ := List.mem_filterMap.1 hm
    obtain ⟨v, hv, hvr⟩ := Option.map_eq_some_iff.1 he
    obtain ⟨rfl, rfl⟩ := Prod.mk.inj hvr
    rw [← hv]
    exact hr
  have htne : table ≠ [] := by
    obtain ⟨r, hr, hv⟩ := hne
    obtain ⟨v, hv⟩ := Option.ne_none_iff_exists'.1 hv
    exact List.ne_nil_of_mem (List.mem_filterMap.2 ⟨r, hr, by rw [hv]; rfl⟩)
  have hts : table.Pairwise fun a b => a.1 < b.1 := by
    rw [htable, List.pairwise_filterMap]
    refine hs.imp ?_
    intro a b hab x hx y hy
    obtain ⟨v, _, rfl⟩ := Option.map_eq_some_iff.1 hx
    obtain ⟨v', _, rfl⟩ := Option.map_eq_some_iff.1 hy
    exact hab
  have hemp : table.isEmpty = false := by
    cases h : table with
    | nil => exact absurd h htne
    | cons _ _ => rfl
  rw [hemp]
  obtain ⟨hi, hhi⟩ : ∃ hi, (table.map (·.2)).max? = some hi := by
    cases h : (table.map (·.2)).max? with
    | some hi => exact ⟨hi, rfl⟩
    | none => rw [List.max?_eq_none_iff, List.map_eq_nil_iff] at h; exact absurd h htne
  have hsome : ∀ t ∈ dischargeLevels n table, ∃ q, dischargeAt table t = some q ∧ 0 ≤ q := by
    intro t _
    obtain ⟨r, hr, hq⟩ := dischargeAt_some table htne t
    exact ⟨r.1, hq, hpos _ (hmem r.1 r.2 hr)⟩
  have hmono : (dischargeLevels n table).Pairwise fun t t' => ∀ q q', dischargeAt table t = some q →
      dischargeAt table t' = some q' → q ≤ q' := by
    unfold dischargeLevels
    rw [hhi, List.pairwise_map]
    cases hlo : ((table.filter fun r => decide (0 < r.1)).map (·.2)).min? with
    | none =>
      refine List.Pairwise.imp ?_ (List.pairwise_lt_range (n := n))
      intro i j _ q q' hq hq'
      rw [hq] at hq'
      exact le_of_eq (Option.some.inj hq')
    | some lo =>
      have hlohi : lo ≤ hi := by
        have h1 := (List.min?_eq_some_iff.1 hlo).1
        obtain ⟨r, hr, hrl⟩ := List.mem_map.1 h1
        have hr' := (List.mem_filter.1 hr).1
        exact (List.max?_eq_some_iff.1 hhi).2 lo (List.mem_map.2 ⟨r, hr', hrl⟩)
      have hstep : 0 ≤ (hi - lo) / ((n : K) + 1) := div_nonneg (by linarith) (by positivity)
      refine List.Pairwise.imp_of_mem ?_ (List.pairwise_lt_range (n := n))
      intro i j hi' hj hij q q' hq hq'
      have hjn : j < n := List.mem_range.1 hj
      refine dischargeAt_mono table hts _ _ ?_ ?_ q q' hq hq'
      · have : (i : K) ≤ (j : K) := by exact_mod_cast le_of_lt hij
        have := mul_le_mul_of_nonneg_right (add_le_add_left this 1) hstep
        linarith
      · have hm := (List.max?_eq_some_iff.1 hhi).1
        obtain ⟨r, hr, hrh⟩ := List.mem_map.1 hm
        refine ⟨r, hr, ?_⟩
        rw [hrh]
        have hj1 : (j : K) + 1 ≤ (n : K) + 1 := by exact_mod_cast Nat.succ_le_succ (le_of_lt hjn)
        have h1 := mul_le_mul_of_nonneg_right hj1 hstep
        have h2 : ((n : K) + 1) * ((hi - lo) / ((n : K) + 1)) = hi - lo := by
          have : (n : K) + 1 ≠ 0 := by positivity
          field_simp
        linarith
  obtain ⟨h1, h2, h3, h4, _⟩ := dischargeLoop_spec table 0 (dischargeLevels n table) hsome hmono
  refine ⟨_, rfl, ?_, h1, fun q hq => ⟨h2 q hq, ?_⟩⟩
  · exact le_trans h3 (by simp [dischargeLevels])
  · obtain ⟨t, _, ht⟩ := h4 q hq
    obtain ⟨r, hr, hrq⟩ := dischargeAt_some table htne t
    rw [ht] at hrq
    obtain rfl := Option.some.inj hrq
    exact ⟨r.2, hmem _ _ hr⟩

/-- **C91, levels.** A discharge chosen for a level that some entry of the table reaches is the first one at which the level is
reached. -/
theorem C91_first (table : List (K × K)) (t : K) (h : ∃ r ∈ table, t ≤ r.2) :
    ∃ before r after, table = before ++ r :: after ∧ dischargeAt table (some t) = some r.1 ∧ t ≤ r.2 ∧
      ∀ x ∈ before, x.2 < t := dischargeAt_first table t h

/-- **C91, violated.** If no level of the last station is known, choosing the discharges raises a `ValueError` instead of
choosing none. -/
theorem C91_violated : dischargeSteps 8 ([(0, none), (200, none)] : List (ℚ × Option ℚ)) = .error .valueError := rfl

example : (dischargeSteps 3 ([(0, none), (200, some 1), (400, some 2), (600, none), (800, some 5)] :
    List (ℚ × Option ℚ))).toOption = some [400, 800] := by decide +kernel

/-! ## C92: the statistics -/

variable {T : Type} [LinearOrder T]

/-- **C92, bias and mean absolute error.** They are taken over exactly the times at which both models have a level. -/
theorem C92_common (a b : List (T × Option K)) (ha : (a.map (·.1)).Nodup) :
    bias (diffSeries a b) = meanOf (commonDiffs a b) ∧
    mae (diffSeries a b) = meanOf ((commonDiffs a b).map fun x => |x|) := by
  have hp := diffs_perm a b ha
  constructor
  · unfold bias
    rw [nanmean_meanOf]
    exact meanOf_perm hp
  · unfold mae
    rw [nanmean_meanOf]
    refine Eq.trans (congrArg meanOf ?_) (meanOf_perm (hp.map fun x => |x|))
    generalize diffSeries a b = d
    induction d with
    | nil => rfl
    | cons r rest ih =>
      obtain ⟨t, v⟩ := r
      cases v with
      | none => simp only [List.map_cons, Option.map_none, List.reduceOption_cons_of_none]; exact ih
      | some v => simp only [List.map_cons, Option.map_some, List.reduceOption_cons_of_some]; rw [ih]

/-- **C92, bounds.** The bias is not larger in size than the mean absolute error. -/
theorem C92_bias_mae (d : List (T × Option K)) :
    match bias d, mae d with
    | some x, some y => |x| ≤ y
    | none, none => True
    | _, _ => False := by
  unfold bias mae
  rw [nanmean_meanOf, nanmean_meanOf]
  have : (d.map fun r => r.2.map fun x => |x|).reduceOption = (d.map (·.2)).reduceOption.map fun x => |x| := by
    induction d with
    | nil => rfl
    | cons r rest ih =>
      obtain ⟨t, v⟩ := r
      cases v with
      | none => simp only [List.map_cons, Option.map_none, List.reduceOption_cons_of_none]; exact ih
      | some v => simp only [List.map_cons, Option.map_some, List.reduceOption_cons_of_some]; rw [ih]
  rw [this]
  generalize (d.map (·.2)).reduceOption = xs
  unfold meanOf
  by_cases hx : xs = []
  · subst hx; exact trivial
  · rw [if_neg hx, if_neg (by simpa using hx)]
    simp only
    rw [List.length_map, abs_div, abs_of_pos (length_pos_cast xs hx)]
    exact div_le_div_of_nonneg_right (abs_sum_le xs) (le_of_lt (length_pos_cast xs hx))

/-- **C92, constant difference.** If the 1D level is the 2D level plus `c` at all times at which both are known, and there is
such a time, the bias is `c`, the mean absolute error is `|c|`, and the variance is zero if there are two such times. -/
theorem C92_offset (a b : List (T × Option K)) (c : K) (ha : (a.map (·.1)).Nodup) (hne : commonDiffs a b ≠ [])
    (h : ∀ r ∈ a, ∀ x y, r.2 = some x → seriesAt b r.1 = some y → x = y + c) :
    bias (diffSeries a b) = some c ∧ mae (diffSeries a b) = some |c| ∧
      (2 ≤ (commonDiffs a b).length → variance (diffSeries a b) = some 0) := by
  have hall : ∀ x ∈ commonDiffs a b, x = c := by
    intro x hx
    obtain ⟨r, hr, he⟩ := List.mem_filterMap.1 hx
    cases h1 : r.2 with
    | none => rw [h1] at he; cases he
    | some u =>
      cases h2 : seriesAt b r.1 with
      | none => rw [h1, h2] at he; cases he
      | some v =>
        rw [h1, h2] at he
        obtain rfl := Option.some.inj he
        rw [h r hr u v h1 h2]
        ring
  have hrep : commonDiffs a b = List.replicate (commonDiffs a b).length c := List.eq_replicate_iff.2 ⟨rfl, hall⟩
  have hlen : ((commonDiffs a b).length : K) ≠ 0 := ne_of_gt (length_pos_cast _ hne)
  have hmean : ∀ (xs : List K) (v : K), (∀ x ∈ xs, x = v) → xs ≠ [] → xs.sum / (xs.length : K) = v := by
    intro xs v hv hxs
    rw [List.eq_replicate_iff.2 ⟨rfl, hv⟩, List.sum_replicate, List.length_replicate, nsmul_eq_mul]
    exact mul_div_cancel_left₀ v (ne_of_gt (length_pos_cast xs hxs))
  obtain ⟨hb, hm⟩ := C92_common a b ha
  refine ⟨?_, ?_, fun h2 => ?_⟩
  · rw [hb]
    unfold meanOf
    rw [if_neg hne, hmean _ c hall hne]
  · rw [hm]
    unfold meanOf
    have hne' : (commonDiffs a b).map (fun x => |x|) ≠ [] := by simpa using hne
    rw [if_neg hne', hmean _ |c| (fun x hx => ?_) hne']
    obtain ⟨y, hy, rfl⟩ := List.mem_map.1 hx
    rw [hall y hy]
  · have hp := diffs_perm a b ha
    unfold variance
    simp only
    have hx : ∀ x ∈ ((diffSeries a b).map (·.2)).reduceOption, x = c := fun x hx => hall x (hp.mem_iff.1 hx)
    have hxne : ((diffSeries a b).map (·.2)).reduceOption ≠ [] := fun e => hne (by rw [e] at hp; exact hp.nil_eq.symm)
    rw [if_neg (by rw [hp.length_eq]; omega), hmean _ c hx hxne]
    have : (((diffSeries a b).map (·.2)).reduceOption.map fun x => (x - c) ^ 2).sum = 0 := by
      apply List.sum_eq_zero
      intro y hy
      obtain ⟨x, hxm, rfl⟩ := List.mem_map.1 hy
      rw [hx x hxm]
      ring
    rw [this, zero_div]

/-- **C92, highest levels.** The mean of the `n` highest levels is at least the mean of any `n` of the levels. -/
theorem C92_highest (n : Nat) (d : List (T × Option K)) (ys : List K)
    (hy : List.Subperm ys (d.map (·.2)).reduceOption) (hn : ys.length = n) (hpos : 0 < n) :
    ∃ m, maxMean n d = some m ∧ ys.sum / (n : K) ≤ m := by
  rw [maxMean_eq]
  generalize (d.map (·.2)).reduceOption = vs at hy
  have hlen : ys.length ≤ vs.length := hy.length_le
  have hl : ((vs.insertionSort (· ≥ ·)).take n).length = n := by
    rw [List.length_take, List.length_insertionSort]; omega
  have hne : (vs.insertionSort (· ≥ ·)).take n ≠ [] := fun e => by rw [e] at hl; simp at hl; omega
  refine ⟨((vs.insertionSort (· ≥ ·)).take n).sum / (((vs.insertionSort (· ≥ ·)).take n).length : K), ?_, ?_⟩
  · unfold meanOf; rw [if_neg hne]
  · rw [hl]
    refine div_le_div_of_nonneg_right ?_ (Nat.cast_nonneg n)
    have hz : List.Sublist (ys.insertionSort (· ≥ ·)) (vs.insertionSort (· ≥ ·)) :=
      List.sublist_insertionSort' (List.pairwise_insertionSort _ _) ((List.perm_insertionSort _ ys).subperm.trans hy)
    have := sublist_sum_le (vs.insertionSort (· ≥ ·)) (ys.insertionSort (· ≥ ·)) (List.pairwise_insertionSort _ _) hz
    rw [(List.perm_insertionSort (· ≥ ·) ys).sum_eq, List.length_insertionSort, hn] at this
    exact this

/-- **C92, order.** The mean of fewer of the highest levels is not smaller, and none is smaller than the mean of all levels. -/
theorem C92_highest_order (n m : Nat) (d : List (T × Option K)) (hn : 0 < n) (hnm : n ≤ m)
    (hd : (d.map (·.2)).reduceOption ≠ []) :
    ∃ x y z, maxMean n d = some x ∧ maxMean m d = some y ∧ nanmean (d.map (·.2)) = some z ∧ y ≤ x ∧ z ≤ y := by
  rw [maxMean_eq, maxMean_eq, nanmean_meanOf]
  generalize (d.map (·.2)).reduceOption = vs at hd
  have hs := List.pairwise_insertionSort (· ≥ ·) vs
  have hp := List.perm_insertionSort (· ≥ ·) vs
  rw [← meanOf_perm hp]
  have hsne : vs.insertionSort (· ≥ ·) ≠ [] := fun e => hd (by rw [e] at hp; exact hp.nil_eq.symm)
  generalize vs.insertionSort (· ≥ ·) = s at hs hsne
  have hlen : 0 < s.length := List.length_pos_iff.2 hsne
  have key : ∀ k, 0 < k → meanOf (s.take k) = some ((s.take (min k s.length)).sum / ((min k s.length : Nat) : K)) := by
    intro k hk
    have h1 : s.take k = s.take (min k s.length) := by
      rcases Nat.le_total k s.length with h | h
      · rw [Nat.min_eq_left h]
      · rw [Nat.min_eq_right h, List.take_of_length_le h, List.take_length]
    unfold meanOf
    have hne : s.take k ≠ [] := fun e => by
      have := congrArg List.length e
      rw [List.length_take, List.length_nil] at this
      omega
    rw [if_neg hne]
    congr 2
    · rw [h1]
    · rw [List.length_take]
  have comp : ∀ i j : Nat, 0 < i → i ≤ j → j ≤ s.length → (s.take j).sum / (j : K) ≤ (s.take i).sum / (i : K) := by
    intro i j hi hij hj
    have hi' : (0 : K) < (i : K) := by exact_mod_cast hi
    have hj' : (0 : K) < (j : K) := by exact_mod_cast lt_of_lt_of_le hi hij
    rw [div_le_div_iff₀ hj' hi']
    have := take_mean_anti s hs i j hi hij hj
    linarith
  refine ⟨_, _, s.sum / (s.length : K), key n hn, key m (by omega), ?_, ?_, ?_⟩
  · unfold meanOf; rw [if_neg hsne]
  · exact comp _ _ (by omega) (by omega) (by omega)
  · have := comp (min m s.length) s.length (by omega) (by omega) (le_refl _)
    rwa [List.take_length] at this

example : bias (diffSeries [(1, some (3 : ℚ)), (2, none), (3, some 5)] [(1, some 1), (3, some 4), (4, some 7)]) = some (3 / 2) ∧
    mae (diffSeries [(1, some (3 : ℚ)), (2, none), (3, some 5)] [(1, some 4), (3, some 4), (4, some 7)]) = some 1 ∧
    maxMean 2 [(1, some (3 : ℚ)), (2, none), (3, some 5), (4, some 1)] = some 4 := by decide +kernel

end Numbers

end Fm2prof.Props

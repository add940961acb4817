import Verif.Model.Figures
import Verif.Spec.Figures
import Verif.Props.Pipeline
import Verif.Props.Range
import Verif.Proofs.Reader

/-!
# Figures of the results

C132–C139: what the visualiser lists, draws and saves.
-/

set_option linter.unusedSectionVars false

namespace Fm2prof.Props

open Spec

variable {K : Type} [Field K] [LinearOrder K] [IsStrictOrderedRing K] [FloorRing K]

/-! ## C132: names and branches -/

private theorem splitAll_ok (ft : FloatText K) (names : List Text) (out : List (Text × K × Text))
    (h : List.Forall₂ (fun n o => o.1 = n ∧ RiverName ft n o.2.2 o.2.1) names out) : splitAll ft names = .ok out := by
  induction h with
  | nil => rfl
  | @cons n o ns os hn _ ih =>
    obtain ⟨h1, number, e, hu, hx⟩ := hn
    have := C72_split ft o.2.2 number o.2.1 hu hx
    rw [← e] at this
    unfold splitAll
    rw [this, ih]
    simp only
    rw [← h1]

/-- **C132, partial.** When all names are of the form `branch_number`, each is split in its branch and number, in the order of the file.
The branches that are listed are those that occur, in alphabetical order. What is missing: other names; see
`C132_other_names_violated`. -/
theorem C132_branches_partial (ft : FloatText K) (names : List Text) (out : List (Text × K × Text))
    (h : List.Forall₂ (fun n o => o.1 = n ∧ RiverName ft n o.2.2 o.2.1) names out) :
    splitAll ft names = .ok out ∧ (branchesOf out).1.Pairwise (· < ·) ∧
      (∀ b, b ∈ (branchesOf out).1 ↔ ∃ n ∈ names, ∃ x, RiverName ft n b x) := by
  refine ⟨splitAll_ok ft names out h, npUnique_sorted _, fun b => ?_⟩
  unfold branchesOf
  rw [mem_npUnique, List.mem_map]
  constructor
  · rintro ⟨o, ho, rfl⟩
    obtain ⟨n, hn, _, hr⟩ := forall₂_mem h o ho
    exact ⟨n, hn, _, hr⟩
  · rintro ⟨n, hn, x, number, e, hu, hx⟩
    obtain ⟨o, ho, h1, number', e', hu', hx'⟩ := forall₂_mem h.flip n hn
    refine ⟨o, ho, ?_⟩
    have a := C72_split ft b number x hu hx
    have a' := C72_split ft o.2.2 number' o.2.1 hu' hx'
    rw [← e] at a
    rw [← e', a] at a'
    exact (Prod.mk.inj (Prod.mk.inj (Except.ok.inj a')).2).2.symm

/-- **C132 is violated.** One name of which the part after the last underscore is no number, or a name without underscore that is no number,
makes that no branch can be listed. -/
theorem C132_other_names_violated (ft : FloatText K) (names : List Text) (n : Text) (hn : n ∈ names)
    (hp : ft.parse ((splitSep '_' n).getLast?.getD []) = none) : splitAll ft names = .error .valueError := by
  induction names with
  | nil => cases hn
  | cons a as ih =>
    unfold splitAll
    rcases List.mem_cons.1 hn with rfl | hn
    · unfold splitCss
      rw [hp]
    · have := ih hn
      rw [this]
      unfold splitCss
      cases ft.parse ((splitSep '_' a).getLast?.getD []) <;> rfl

/-- After a run: the names that are listed are those of the locations that have a cross-section, in the order in which they were requested. -/
theorem C132_after_run (x : Tools K) (cfg : RunConfig K) (i : Inputs K) (hi : Consistent i) (o : Surroundings)
    (hdir : o.dirExists = true) (hw : ∀ f, IsResult f → Sound o.faults f) (overwrite : Bool) (s : Store)
    (h : (run (jobOf x cfg i o) overwrite s).2 = .ok true) (m : Model2d K) (hm : setModelData x.nn i = .ok m)
    (xs : List (Loc K)) (hx : Requested cfg.cssSelection m.stations xs) (hu : ∃ l ∈ xs, Usable m l)
    (hn : ∀ l ∈ xs, PlainName l.id)
    (hfull : ∀ l ∈ xs, ∀ c, buildCss x cfg m l = .ok c → FullNumbers x.ft c) :
    ∃ text defs, (run (jobOf x cfg i o) overwrite s).1 "CrossSectionDefinitions.ini".toList = some text ∧
      readDefinitions x.ft text = .ok defs ∧ defs.map (·.id) = (xs.filter fun l => decide (Usable m l)).map (·.id) := by
  obtain ⟨cs, text, hcs, ht, hd⟩ := run_definitions x cfg i hi o hdir hw overwrite s h m hm xs hx hu hn hfull
  refine ⟨text, _, ht, hd, ?_⟩
  rw [List.map_map]
  clear hd
  generalize (xs.filter fun l => decide (Usable m l)) = ls at hcs
  induction hcs with
  | nil => rfl
  | @cons l c ls cs hb _ ih =>
    rw [List.map_cons, List.map_cons, ih]
    congr 1
    exact (buildCss_ok x cfg m l c hb).2.2.2.2.2.2.1

/-- Three names on two branches. -/
example : List.Forall₂ (fun n (o : Text × ℚ × Text) => o.1 = n ∧ RiverName (decimalText ℚ) n o.2.2 o.2.1)
    ["waal_2_10.5".toList, "rhine_900".toList, "rhine_1000".toList]
    [("waal_2_10.5".toList, 21 / 2, "waal_2".toList), ("rhine_900".toList, 900, "rhine".toList),
      ("rhine_1000".toList, 1000, "rhine".toList)] ∧
    (branchesOf [("waal_2_10.5".toList, (21 / 2 : ℚ), "waal_2".toList), ("rhine_900".toList, 900, "rhine".toList),
      ("rhine_1000".toList, 1000, "rhine".toList)]) = (["rhine".toList, "waal_2".toList], ["rhine".toList, "waal".toList]) := by
  refine ⟨.cons ⟨rfl, "10.5".toList, by decide +kernel⟩ (.cons ⟨rfl, "900".toList, by decide +kernel⟩
    (.cons ⟨rfl, "1000".toList, by decide +kernel⟩ .nil)), by decide +kernel⟩

/-- A name without a number. -/
example : (decimalText ℚ).parse ((splitSep '_' "rhine_km".toList).getLast?.getD []) = none := by decide +kernel

/-! ## C133: the cross-sections of a branch -/

private theorem unique_all_eq (b : Text) (l : List Text) (hne : l ≠ []) (h : ∀ a ∈ l, a = b) : npUnique l = [b] := by
  have h1 : ∀ a ∈ npUnique l, a = b := fun a ha => h a ((mem_npUnique _ _).1 ha)
  have h2 := nodup_npUnique l
  have h3 : b ∈ npUnique l := by
    obtain ⟨a, ha⟩ := List.exists_mem_of_ne_nil _ hne
    rw [mem_npUnique, ← h a ha]; exact ha
  match hl : npUnique l with
  | [] => rw [hl] at h3; cases h3
  | [a] => rw [hl] at h1; rw [h1 a List.mem_cons_self]
  | a :: c :: t =>
    rw [hl] at h1 h2
    have ha := h1 a List.mem_cons_self
    have hc := h1 c (List.mem_cons_of_mem _ List.mem_cons_self)
    rw [ha, hc] at h2
    exact absurd List.mem_cons_self (List.nodup_cons.1 h2).1

private theorem head_part_prefix (t : Text) : (splitSep '_' t).head?.getD [] <+: t := by
  induction t with
  | nil => exact List.prefix_refl _
  | cons c t ih =>
    unfold splitSep
    split
    · exact List.nil_prefix
    · cases h : splitSep '_' t with
      | nil => exact absurd h (splitSep_ne_nil _ _)
      | cons w ws =>
        rw [h] at ih
        obtain ⟨r, hr⟩ := ih
        exact ⟨r, congrArg (c :: ·) hr⟩

/-- **C133, partial.** When all cross-sections are on one branch, asking for that branch gives all of them, in the order of the file, with the
number of their name as chainage, and so does asking for the part of the name before the first underscore. Asking for another one
raises `KeyError`. What is missing: models with more than one branch; see `C133_branches_violated`. -/
theorem C133_one_branch_partial (ft : FloatText K) (text : Text) (defs : List (CssDef K)) (hd : readDefinitions ft text = .ok defs)
    (hne : defs ≠ []) (branch : Text) (xs : List K)
    (h : List.Forall₂ (fun (d : CssDef K) x => RiverName ft d.id branch x) defs xs) :
    crossSectionsForBranch ft text branch = .ok (List.zipWith (fun d x => (d.id, x, branch)) defs xs) ∧
      crossSectionsForBranch ft text ((splitSep '_' branch).head?.getD []) = .ok (List.zipWith (fun d x => (d.id, x, branch)) defs xs) ∧
      ∀ other, other ≠ branch → other ≠ (splitSep '_' branch).head?.getD [] →
        crossSectionsForBranch ft text other = .error .keyError := by
  have hsplit : splitAll ft (defs.map (·.id)) = .ok (List.zipWith (fun d x => (d.id, x, branch)) defs xs) := by
    apply splitAll_ok
    clear hd hne
    induction h with
    | nil => exact .nil
    | cons hr _ ih => exact .cons ⟨rfl, hr⟩ ih
  set names : List (Text × K × Text) := List.zipWith (fun d x => (d.id, x, branch)) defs xs with hnames
  have hall : ∀ n ∈ names, n.2.2 = branch := by
    intro n hn
    rw [hnames] at hn
    clear_value names
    clear hsplit hd hne hnames
    induction h with
    | nil => cases hn
    | cons hr _ ih =>
      rw [List.zipWith_cons_cons] at hn
      rcases List.mem_cons.1 hn with rfl | hn
      · rfl
      · exact ih hn
  have hnn : names ≠ [] := by
    have : names.length = defs.length := by
      rw [hnames, List.length_zipWith, ← h.length_eq, Nat.min_self]
    intro e
    rw [e] at this
    exact hne (List.length_eq_zero_iff.1 this.symm)
  have hb1 : npUnique (names.map (·.2.2)) = [branch] := by
    apply unique_all_eq
    · rw [Ne, List.map_eq_nil_iff]; exact hnn
    · intro a ha
      obtain ⟨n, hn, rfl⟩ := List.mem_map.1 ha
      exact hall n hn
  have hb2 : branchesOf names = ([branch], [(splitSep '_' branch).head?.getD []]) := by
    unfold branchesOf
    simp only [hb1]
    congr 1
  have hcss : cssForBranch names branch = names := by
    unfold cssForBranch
    rw [List.filter_eq_self]
    intro n hn
    rw [hall n hn, List.isPrefixOf_iff_prefix]
  have hdraw : ∀ part : Text, part <+: branch → inBranches ([branch], [(splitSep '_' branch).head?.getD []]) part = .ok true →
      crossSectionsForBranch ft text part = .ok names := by
    intro part hpart hin
    unfold crossSectionsForBranch
    rw [hd]
    simp only
    rw [hsplit]
    simp only
    rw [hb2, hin]
    have hpre : part.isPrefixOf branch = true := by rw [List.isPrefixOf_iff_prefix]; exact hpart
    simp only
    rw [List.filter_cons, if_pos hpre, List.filter_nil, unique_all_eq branch [branch] (by simp) (by simp)]
    simp only [chainParts, hcss, List.append_nil]
    congr 1
    rw [List.map_congr_left (g := id), List.map_id]
    intro n _
    simp
  refine ⟨hdraw branch (List.prefix_refl _) ?_, hdraw _ (head_part_prefix branch) ?_, ?_⟩
  · unfold inBranches arrayIs
    simp only [decide_true]
  · unfold inBranches arrayIs
    by_cases e : branch = (splitSep '_' branch).head?.getD []
    · simp only [← e, decide_true]
    · simp only [e, decide_false, decide_true]
  · intro other h1 h2
    unfold crossSectionsForBranch
    rw [hd]
    simp only
    rw [hsplit]
    simp only
    rw [hb2]
    unfold inBranches arrayIs
    simp only [h1.symm, h2.symm, decide_false]

/-- **C133 is violated.** As soon as there are cross-sections on two branches, asking for any branch raises `ValueError`. -/
theorem C133_branches_violated (ft : FloatText K) (text : Text) (defs : List (CssDef K)) (hd : readDefinitions ft text = .ok defs)
    (out : List (Text × K × Text))
    (h : List.Forall₂ (fun (d : CssDef K) o => o.1 = d.id ∧ RiverName ft d.id o.2.2 o.2.1) defs out)
    (o o' : Text × K × Text) (ho : o ∈ out) (ho' : o' ∈ out) (hne : o.2.2 ≠ o'.2.2) (branch : Text) :
    crossSectionsForBranch ft text branch = .error .valueError := by
  have hsplit : splitAll ft (defs.map (·.id)) = .ok out :=
    splitAll_ok ft _ _ (List.forall₂_map_left_iff.2 h)
  unfold crossSectionsForBranch
  rw [hd]
  simp only
  rw [hsplit]
  simp only
  have h1 : o.2.2 ∈ npUnique (out.map (·.2.2)) := (mem_npUnique _ _).2 (List.mem_map_of_mem ho)
  have h2 : o'.2.2 ∈ npUnique (out.map (·.2.2)) := (mem_npUnique _ _).2 (List.mem_map_of_mem ho')
  unfold inBranches branchesOf
  simp only
  match hl : npUnique (out.map (·.2.2)) with
  | [] => rw [hl] at h1; cases h1
  | [a] =>
    rw [hl] at h1 h2
    exact absurd ((List.mem_singleton.1 h1).trans (List.mem_singleton.1 h2).symm) hne
  | a :: c :: t => rw [hl]; rfl

/-! ## C134: all figures in one go -/

/-- **C134 is violated.** Plotting all cross-sections raises `TypeError` whenever there is one, and leaves no figure: after a run that reports
success, whatever its input. -/
theorem C134_plot_all_violated (x : Tools K) (cfg : RunConfig K) (i : Inputs K) (hi : Consistent i) (o : Surroundings)
    (hdir : o.dirExists = true) (hw : ∀ f, IsResult f → Sound o.faults f) (overwrite : Bool) (s : Store)
    (h : (run (jobOf x cfg i o) overwrite s).2 = .ok true) (m : Model2d K) (hm : setModelData x.nn i = .ok m)
    (xs : List (Loc K)) (hx : Requested cfg.cssSelection m.stations xs) (hu : ∃ l ∈ xs, Usable m l)
    (hn : ∀ l ∈ xs, PlainName l.id)
    (hfull : ∀ l ∈ xs, ∀ c, buildCss x cfg m l = .ok c → FullNumbers x.ft c) :
    plotCrossSections x.ft (run (jobOf x cfg i o) overwrite s).1 =
      ((run (jobOf x cfg i o) overwrite s).1, .error .typeError) := by
  obtain ⟨text, defs, ht, hd, hids⟩ := C132_after_run x cfg i hi o hdir hw overwrite s h m hm xs hx hu hn hfull
  unfold plotCrossSections
  rw [ht]
  simp only
  rw [hd]
  cases defs with
  | cons d ds => rfl
  | nil =>
    obtain ⟨l, hl, hlu⟩ := hu
    have : l.id ∈ (xs.filter fun l => decide (Usable m l)).map (·.id) :=
      List.mem_map_of_mem (List.mem_filter.2 ⟨hl, decide_eq_true hlu⟩)
    rw [← hids] at this
    cases this

/-! ## C135: one figure -/

/-- **C135 is violated.** After a run that reports success without section polygons, in a directory without earlier results, no figure can be
made of any cross-section. -/
theorem C135_no_sections_violated (x : Tools K) (cfg : RunConfig K) (i : Inputs K) (hi : Consistent i)
    (hs : i.sections = none) (o : Surroundings) (overwrite : Bool) (s : Store) (hclean : s "roughness-Main.ini".toList = none)
    (h : (run (jobOf x cfg i o) overwrite s).2 = .ok true) (save : FigureData K → Except PyErr Text) (d : CssDef K) (again : Bool)
    (hfresh : (run (jobOf x cfg i o) overwrite s).1 (figureFile d.id) = none ∨ again = true) :
    figureCrossSection x.ft save d again (run (jobOf x cfg i o) overwrite s).1 = ((run (jobOf x cfg i o) overwrite s).1, true) := by
  have hr := (C98_no_roughness_violated x cfg i hi hs o overwrite s h).1 ("main", "roughness-Main.ini", "Main") (.head _)
  have hr : (run (jobOf x cfg i o) overwrite s).1 "roughness-Main.ini".toList = s "roughness-Main.ini".toList := hr
  rw [hclean] at hr
  have hfd : ∃ e, figureData x.ft (run (jobOf x cfg i o) overwrite s).1 d = .error e := by
    unfold figureData
    rw [hr]
    split
    · exact ⟨_, rfl⟩
    · split
      · exact ⟨_, rfl⟩
      · split
        · exact ⟨_, rfl⟩
        · exact ⟨_, rfl⟩
  obtain ⟨e, he⟩ := hfd
  unfold figureCrossSection
  rw [if_neg]
  · rw [he]
  · rintro ⟨h1, h2⟩
    rcases hfresh with e | e
    · rw [e] at h1; cases h1
    · rw [e] at h2; cases h2

private theorem resampled_length (t : FrictionTable K) (h : WellFormedTable t) (g : List K) :
    (resampled g t).friction.length = g.length ∧ (resampled g t).level = g := by
  obtain ⟨fr, h1, h2, h3⟩ := interpolate_ok t h.lengths h.nonempty g
  rw [interpolate_resampled t h g] at h1
  rw [Except.ok.inj h1]
  exact ⟨h2, rfl⟩

private theorem levelsAfter_shape (ft : FloatText K) (b : Text) (g : List K) (es : List (Text × FrictionTable K))
    (h : ∀ p ∈ es, p.2.level = g) (r : RoughnessInfo K) (hr : r.levels = none ∨ r.levels = some (g.map (as4 ft))) :
    ((levelsAfter ft b es r).levels = none ∨ (levelsAfter ft b es r).levels = some (g.map (as4 ft))) ∧
      (levelsAfter ft b es r).values = r.values := by
  unfold levelsAfter
  induction es generalizing r with
  | nil => exact ⟨hr, rfl⟩
  | cons p es ih =>
    rw [List.foldl_cons]
    have ih := ih (fun q hq => h q (List.mem_cons_of_mem _ hq))
    by_cases hc : lower p.1 = b
    · rw [if_pos hc]
      exact ih { r with levels := some (p.2.level.map (as4 ft)) } (Or.inr (by rw [h p List.mem_cons_self]))
    · rw [if_neg hc]; exact ih r hr

private theorem valuesAfter_shape {ft : FloatText K} (sig : SigText ft) (b : Text) (c : K) (n : Nat)
    (es : List (ExportCss K × FrictionTable K)) (h : ∀ p ∈ es, p.2.friction.length = n) (r : RoughnessInfo K)
    (hr : ∀ v, r.values = some v → v.length = n) :
    (∀ v, (valuesAfter sig b c es r).values = some v → v.length = n) ∧ (valuesAfter sig b c es r).levels = r.levels := by
  unfold valuesAfter
  induction es generalizing r with
  | nil => exact ⟨hr, rfl⟩
  | cons p es ih =>
    rw [List.foldl_cons]
    have ih := ih (fun q hq => h q (List.mem_cons_of_mem _ hq))
    by_cases hc : lower p.1.branch = b ∧ p.1.chainage = c
    · rw [if_pos hc]
      refine ih { r with values := some (p.2.friction.map fun x => some (sig.value x)) } fun v hv => ?_
      rw [← Option.some.inj hv, List.length_map]
      exact h p List.mem_cons_self
    · rw [if_neg hc]; exact ih r hr

/-- Reading a roughness file after a run succeeds, and gives as many values as levels. -/
private theorem run_roughness_read (x : Tools K) (sig : SigText x.ft) (hsig : x.sig = sig.text) (cfg : RunConfig K)
    (hf : cfg.frictionWeighing = 0) (i : Inputs K) (hi : Consistent i) (o : Surroundings) (hdir : o.dirExists = true)
    (hw : ∀ f, IsResult f → Sound o.faults f) (overwrite : Bool) (s : Store)
    (h : (run (jobOf x cfg i o) overwrite s).2 = .ok true) (m : Model2d K) (hm : setModelData x.nn i = .ok m)
    (xs : List (Loc K)) (hx : Requested cfg.cssSelection m.stations xs) (hn : ∀ l ∈ xs, PlainName l.branch)
    (hlab : ∀ t ∈ m.edges.sect, ∃ q ∈ roughnessFiles, t = q.1.toList)
    (hz : ∀ l ∈ xs, ∀ c, buildCss x cfg m l = .ok c → ∀ z, some z ∈ c.css.raw.zRoughness → -10 ^ 20 ≤ z ∧ z ≤ 10 ^ 20)
    (hrep : ∀ l ∈ xs, x.ft.representable l.chainage)
    (q : String × String × String) (hq : q ∈ roughnessFiles) (hu : ∃ l ∈ xs, Usable m l ∧ HasEdge m l q.1.toList) :
    ∃ text, (run (jobOf x cfg i o) overwrite s).1 q.2.1.toList = some text ∧
      ∀ name branch y, RiverName x.ft name branch y → ∃ r, readRoughness x.ft text name = .ok r ∧
        ∀ l v, r.levels = some l → r.values = some v → l.length = v.length := by
  obtain ⟨cs, hcs, htab, heq, hplain, hfile⟩ := run_roughness_text x sig hsig cfg hf i hi o hdir hw overwrite s h m hm xs hx hn hlab hz
    q hq hu
  refine ⟨_, hfile, fun name branch y hr => ?_⟩
  obtain ⟨number, rfl, hnu, hny⟩ := hr
  have hlow := known_names q hq
  set g := gridOf q.1.toList (cs.map fun c => c.out.tables) with hg
  have htables : ∀ c ∈ (harmoniseCss cs).map (·.out), ∀ t, tableOf c q.1.toList = some t →
      t.level = g ∧ t.friction.length = g.length := by
    intro c hc t ht
    rw [heq] at hc
    obtain ⟨c, hc', rfl⟩ := List.mem_map.1 hc
    obtain ⟨c, hc2, rfl⟩ := List.mem_map.1 hc'
    rw [tableOf_resampled c (fun r => gridOf r (cs.map fun c => c.out.tables))] at ht
    obtain ⟨t', ht', rfl⟩ := Option.map_eq_some_iff.1 ht
    have := resampled_length t' ((htab c hc2).2 _ (tableOf_mem _ _ _ ht')) g
    exact ⟨this.2, this.1⟩
  have hchain : ∀ c ∈ (harmoniseCss cs).map (·.out), x.ft.representable c.chainage := by
    intro c hc
    rw [heq] at hc
    obtain ⟨c, hc', rfl⟩ := List.mem_map.1 hc
    obtain ⟨c, hc2, rfl⟩ := List.mem_map.1 hc'
    obtain ⟨l, hl, hb⟩ := forall₂_mem hcs c hc2
    show x.ft.representable c.out.chainage
    rw [(buildCss_ok x cfg m l c hb).2.2.2.2.2.2.2.2.1]
    exact hrep l (List.mem_filter.1 hl).1
  unfold readRoughness
  rw [C72_parse x.ft branch number y hnu hny]
  simp only
  rw [rough_file x.ft sig _ _ branch _ hplain hchain hlow.2, hlow.1]
  refine ⟨_, rfl, ?_⟩
  have hL := levelsAfter_shape x.ft branch g (branchEntries q.1.toList [] ((harmoniseCss cs).map (·.out)))
    (fun p hp => by
      obtain ⟨c, hc, _, ht⟩ := mem_branchEntries _ _ _ _ hp
      exact (htables c hc _ ht).1) ⟨none, none⟩ (Or.inl rfl)
  have hV := valuesAfter_shape sig branch (x.ft.near (roundTo 2 y)) g.length (frictionEntries q.1.toList ((harmoniseCss cs).map (·.out)))
    (fun p hp => by
      obtain ⟨hp1, hp2⟩ := (mem_frictionEntries _ _ _).1 hp
      exact (htables p.1 hp1 _ hp2).2)
    (levelsAfter x.ft branch (branchEntries q.1.toList [] ((harmoniseCss cs).map (·.out))) ⟨none, none⟩)
    (fun v hv => by rw [hL.2] at hv; cases hv)
  intro l v hl hv
  rw [hV.2] at hl
  rw [hV.1 v hv]
  rcases hL.1 with e | e
  · rw [e] at hl; cases hl
  · rw [e] at hl
    rw [← Option.some.inj hl, List.length_map]

private theorem listMin_some {a : K} {l : List K} (h : a ∈ l) : ∃ b, listMin l = some b := by
  cases l with
  | nil => cases h
  | cons b l => exact ⟨_, rfl⟩

private theorem listMax_some {a : K} {l : List K} (h : a ∈ l) : ∃ b, listMax l = some b := by
  cases l with
  | nil => cases h
  | cons b l => exact ⟨_, rfl⟩

private theorem allSome_as4 (ft : FloatText K) (l : List K) :
    allSome (l.map (as4 ft)) = some (l.map fun x => ft.near (roundTo 4 x)) := by
  rw [allSome_eq, List.map_map]
  rfl

private theorem roughnessSeries_ok (label : String) (r : RoughnessInfo K)
    (h : ∀ l v, r.levels = some l → r.values = some v → l.length = v.length) : ∃ l, roughnessSeries label r = .ok l := by
  unfold roughnessSeries
  split
  · rename_i l v hl hv
    rw [if_pos (h l v hl hv)]
    exact ⟨_, rfl⟩
  · exact ⟨_, rfl⟩

/-- **C135, partial.** After a run that reports success, with names of the form `branch_number`, edges in the sections main, floodplain1 and
floodplain2 of which some in the main channel, a figure can be made of each cross-section in the definition file: it is saved when
matplotlib can save it. What is missing: runs without section polygons; see `C135_no_sections_violated`. -/
theorem C135_figure_partial (x : Tools K) (hb : ∀ y, y < x.bump y) (sig : SigText x.ft) (hsig : x.sig = sig.text) (cfg : RunConfig K)
    (hf : cfg.frictionWeighing = 0) (hmax : 2 ≤ cfg.pipeline.maximumPoints) (i : Inputs K) (hi : Consistent i) (o : Surroundings)
    (hdir : o.dirExists = true) (hw : ∀ f, IsResult f → Sound o.faults f) (overwrite : Bool) (s : Store)
    (h : (run (jobOf x cfg i o) overwrite s).2 = .ok true) (m : Model2d K) (hm : setModelData x.nn i = .ok m)
    (xs : List (Loc K)) (hx : Requested cfg.cssSelection m.stations xs)
    (hn : ∀ l ∈ xs, PlainName l.id ∧ PlainName l.branch ∧ CsvName l.id ∧ l.id ≠ "id".toList ∧
      (∃ y, RiverName x.ft l.id l.branch y) ∧ x.ft.representable l.chainage)
    (hd : (xs.map (·.id)).Nodup)
    (hfull : ∀ l ∈ xs, ∀ c, buildCss x cfg m l = .ok c → FullNumbers x.ft c ∧
      VolumeTable.Floats x.ft (volumeTableOf c.css) ∧ ∀ z, some z ∈ c.css.raw.zRoughness → -10 ^ 20 ≤ z ∧ z ≤ 10 ^ 20)
    (hlab : ∀ t ∈ m.edges.sect, ∃ q ∈ roughnessFiles, t = q.1.toList)
    (hmain : ∃ l ∈ xs, Usable m l ∧ HasEdge m l "main".toList)
    (hfp : (∃ l ∈ xs, Usable m l ∧ HasEdge m l "floodplain1".toList) ∨
      (run (jobOf x cfg i o) overwrite s).1 "roughness-FloodPlain1.ini".toList = none)
    (save : FigureData K → Except PyErr Text) (hsave : ∀ f, ∃ image, save f = .ok image) (again : Bool) :
    ∃ text defs, (run (jobOf x cfg i o) overwrite s).1 "CrossSectionDefinitions.ini".toList = some text ∧
      readDefinitions x.ft text = .ok defs ∧
      defs.map (·.id) = (xs.filter fun l => decide (Usable m l)).map (·.id) ∧
      ∀ d ∈ defs, (figureCrossSection x.ft save d again (run (jobOf x cfg i o) overwrite s).1).2 = false := by
  have hu : ∃ l ∈ xs, Usable m l := by
    obtain ⟨l, hl, hlu, _⟩ := hmain
    exact ⟨l, hl, hlu⟩
  obtain ⟨cs, text, hcs, ht, hdefs⟩ := run_definitions x cfg i hi o hdir hw overwrite s h m hm xs hx hu (fun l hl => (hn l hl).1)
    fun l hl c hc => (hfull l hl c hc).1
  obtain ⟨text', defs', ht', hd', hids⟩ := C132_after_run x cfg i hi o hdir hw overwrite s h m hm xs hx hu (fun l hl => (hn l hl).1)
    fun l hl c hc => (hfull l hl c hc).1
  obtain rfl := Option.some.inj (ht.symm.trans ht')
  obtain rfl := Except.ok.inj (hdefs.symm.trans hd')
  refine ⟨text, _, ht, hdefs, hids, fun d hdm => ?_⟩
  obtain ⟨p1, _, p3, p4⟩ := C97_points x hb cfg i hi o hdir hw overwrite s h m hm xs hx hu (fun l hl => (hn l hl).1)
    (fun l hl c hc => (hfull l hl c hc).1) hmax text _ ht hdefs d hdm
  obtain ⟨c, hc, rfl⟩ := List.mem_map.1 hdm
  obtain ⟨l, hl, hbc⟩ := forall₂_mem hcs c hc
  obtain ⟨hl, hlu⟩ := List.mem_filter.1 hl
  have hname : (definitionOf x.ft c.out).id = l.id := (buildCss_ok x cfg m l c hbc).2.2.2.2.2.2.1
  obtain ⟨volumes, b, v, hv, hread, hbg, hvz, htv, _⟩ := C99_volumes x hb cfg i hi o hdir hw overwrite s h m hm xs hx
    (fun l hl => ⟨(hn l hl).2.2.1, (hn l hl).2.2.2.1⟩) hd (fun l hl c hc => (hfull l hl c hc).2.1) l hl
    (of_decide_eq_true hlu)
  obtain ⟨acc, _, a1, _, _, _, _, a2, _⟩ := C07_arrays_aligned hbg
  rw [← hname] at hread
  have hzne : v.z ≠ [] := by
    intro e
    rw [e, a1] at hvz
    simp at hvz
    omega
  have htne : v.tv2d ≠ [] := by
    intro e
    rw [htv] at e
    rw [e] at a2
    simp at a2
    omega
  -- the profile
  obtain ⟨w0, hw0⟩ : ∃ w, w ∈ (c.out.z.map fun y => x.ft.near (roundTo 4 y)) := by
    have p1 : 2 ≤ (c.out.z.map (as4 x.ft)).length := p1
    rw [List.length_map] at p1
    cases hz : c.out.z with
    | nil => rw [hz] at p1; simp at p1
    | cons a as => exact ⟨_, List.mem_cons_self⟩
  obtain ⟨lo, hlo⟩ := listMin_some hw0
  obtain ⟨top, htop⟩ := listMax_some hw0
  have hlowest : ∃ w, lowestWaterLevel x.ft volumes (definitionOf x.ft c.out).id = .ok w := by
    unfold lowestWaterLevel
    rw [hread]
    simp only
    rw [if_neg htne]
    have hk : firstKnown v.tv2d < v.z.length := by
      have hlen : v.tv2d.length = v.z.length := by rw [htv, a2, hvz, a1]
      rw [← hlen]
      have : firstKnown v.tv2d = (v.tv2d.findIdx? (·.isSome)).getD 0 := by
        unfold firstKnown
        cases hq : v.tv2d with
        | nil => rfl
        | cons _ _ => rfl
      rw [this]
      cases hfi : v.tv2d.findIdx? (·.isSome) with
      | none => exact List.length_pos_iff.2 htne
      | some k => exact (List.findIdx?_eq_some_iff_getElem.1 hfi).1
    rw [List.getElem?_eq_getElem hk]
    exact ⟨_, rfl⟩
  obtain ⟨water, hwater⟩ := hlowest
  have hcrest : ∃ y, sdPlotInfo (c.out.z.map fun y => x.ft.near (roundTo 4 y)) (x.ft.near (roundTo 4 c.out.crestLevel)) = .ok y := by
    unfold sdPlotInfo
    rw [hlo, htop]
    simp only
    split
    · split <;> exact ⟨_, rfl⟩
    · exact ⟨_, rfl⟩
  obtain ⟨crest, hcrest⟩ := hcrest
  have hgeo : ∃ g, plotGeometry x.ft volumes (definitionOf x.ft c.out) = .ok g := by
    unfold plotGeometry
    have e1 : allSome (definitionOf x.ft c.out).totalWidth = some _ := allSome_as4 x.ft c.out.totalWidth
    have e2 : allSome (definitionOf x.ft c.out).flowWidth = some _ := allSome_as4 x.ft c.out.flowWidth
    have e3 : allSome (definitionOf x.ft c.out).levels = some _ := allSome_as4 x.ft c.out.z
    have e4 : (definitionOf x.ft c.out).mainSectionWidth = some (x.ft.near (roundTo 4 c.out.widths.main)) := rfl
    have e5 : (definitionOf x.ft c.out).fp1SectionWidth = some (x.ft.near (roundTo 4 c.out.widths.floodplain1)) := rfl
    have e6 : (definitionOf x.ft c.out).sdCrest = some (x.ft.near (roundTo 4 c.out.crestLevel)) := rfl
    rw [e1, e2, e3, e4, e5, e6]
    simp only
    obtain ⟨first, hfirst⟩ : ∃ a, (c.out.z.map fun y => x.ft.near (roundTo 4 y)).head? = some a := by
      cases hz : c.out.z with
      | nil => rw [hz] at hw0; cases hw0
      | cons a as => exact ⟨_, rfl⟩
    rw [hlo, hfirst]
    simp only
    rw [hwater]
    simp only
    rw [hcrest]
    simp only
    rw [if_pos]
    · exact ⟨_, rfl⟩
    · have p3 : (c.out.totalWidth.map (as4 x.ft)).length = (c.out.z.map (as4 x.ft)).length := p3
      have p4 : (c.out.flowWidth.map (as4 x.ft)).length = (c.out.z.map (as4 x.ft)).length := p4
      rw [List.length_map, List.length_map] at p3 p4
      simp only [List.length_map]
      exact ⟨p3, p4⟩
  obtain ⟨geo, hgeo⟩ := hgeo
  have hvol : ∃ y, plotVolume x.ft volumes (definitionOf x.ft c.out) = .ok y := by
    unfold plotVolume
    rw [hread]
    simp only
    rw [if_neg hzne]
    exact ⟨_, rfl⟩
  obtain ⟨vol, hvol⟩ := hvol
  -- the roughness
  obtain ⟨y, hy⟩ := (hn l hl).2.2.2.2.1
  have hrough : ∃ r, plotRoughness x.ft ((run (jobOf x cfg i o) overwrite s).1 "roughness-Main.ini".toList)
      ((run (jobOf x cfg i o) overwrite s).1 "roughness-FloodPlain1.ini".toList) (definitionOf x.ft c.out) = .ok r := by
    obtain ⟨t1, ht1, hr1⟩ := run_roughness_read x sig hsig cfg hf i hi o hdir hw overwrite s h m hm xs hx (fun l hl => (hn l hl).2.1)
      hlab (fun l hl c hc => (hfull l hl c hc).2.2) (fun l hl => (hn l hl).2.2.2.2.2) ("main", "roughness-Main.ini", "Main")
      (.head _) hmain
    have ht1 : (run (jobOf x cfg i o) overwrite s).1 "roughness-Main.ini".toList = some t1 := ht1
    obtain ⟨r1, e1, s1⟩ := hr1 l.id l.branch y hy
    unfold plotRoughness
    rw [ht1, hname]
    simp only
    rw [e1]
    simp only
    rcases hfp with hfp | hfp
    · obtain ⟨t2, ht2, hr2⟩ := run_roughness_read x sig hsig cfg hf i hi o hdir hw overwrite s h m hm xs hx
        (fun l hl => (hn l hl).2.1) hlab (fun l hl c hc => (hfull l hl c hc).2.2) (fun l hl => (hn l hl).2.2.2.2.2)
        ("floodplain1", "roughness-FloodPlain1.ini", "FloodPlain1") (.tail _ (.head _)) hfp
      have ht2 : (run (jobOf x cfg i o) overwrite s).1 "roughness-FloodPlain1.ini".toList = some t2 := ht2
      obtain ⟨r2, e2, s2⟩ := hr2 l.id l.branch y hy
      rw [ht2]
      simp only
      rw [e2]
      simp only
      obtain ⟨l2, hl2⟩ := roughnessSeries_ok "Floodplain1" r2 s2
      rw [hl2]
      exact ⟨_, rfl⟩
    · rw [hfp]
      exact ⟨_, rfl⟩
  obtain ⟨rough, hrough⟩ := hrough
  have hfig : ∃ f, figureData x.ft (run (jobOf x cfg i o) overwrite s).1 (definitionOf x.ft c.out) = .ok f := by
    unfold figureData
    rw [hv]
    simp only
    rw [hgeo]
    simp only
    rw [hvol]
    simp only
    rw [hrough]
    simp only
    have e3 : allSome (definitionOf x.ft c.out).levels = some _ := allSome_as4 x.ft c.out.z
    rw [e3, Option.bind_some, Option.bind_some, hlo, htop]
    exact ⟨_, rfl⟩
  obtain ⟨f, hfig⟩ := hfig
  obtain ⟨image, himage⟩ := hsave f
  unfold figureCrossSection
  split
  · rfl
  · rw [hfig]
    simp only
    rw [himage]

/-- The sample run with section polygons meets the hypotheses. -/
example : (∀ y, y < sampleTools.bump y) ∧ sampleTools.sig = sampleSig.text ∧ sampleRunConfig.frictionWeighing = 0 ∧
    2 ≤ sampleRunConfig.pipeline.maximumPoints ∧ Consistent sampleSectionInputs ∧
    (run (jobOf sampleTools sampleRunConfig sampleSectionInputs sampleSurroundings) false noFiles).2 = .ok true ∧
    ∃ m, setModelData sampleTools.nn sampleSectionInputs = .ok m ∧
      (∀ l ∈ m.stations, PlainName l.id ∧ PlainName l.branch ∧ CsvName l.id ∧ l.id ≠ "id".toList ∧
        (∃ y, RiverName sampleTools.ft l.id l.branch y) ∧ sampleTools.ft.representable l.chainage) ∧
      (m.stations.map (·.id)).Nodup ∧ (∀ t ∈ m.edges.sect, ∃ q ∈ roughnessFiles, t = q.1.toList) ∧
      (∃ l ∈ m.stations, Usable m l ∧ HasEdge m l "main".toList) ∧
      (∃ l ∈ m.stations, Usable m l ∧ HasEdge m l "floodplain1".toList) ∧
      ∀ l ∈ m.stations, ∀ c, buildCss sampleTools sampleRunConfig m l = .ok c → FullNumbers sampleTools.ft c ∧
        VolumeTable.Floats sampleTools.ft (volumeTableOf c.css) ∧
        ∀ z, some z ∈ c.css.raw.zRoughness → -10 ^ 20 ≤ z ∧ z ≤ 10 ^ 20 := by
  have hload : setModelData firstNearest sampleSectionInputs = .ok (sampleLoaded sampleSectionInputs) := by
    have h : (setModelData firstNearest sampleSectionInputs).toOption.isSome = true := by decide +kernel
    unfold sampleLoaded
    cases hm : setModelData firstNearest sampleSectionInputs with
    | error e => rw [hm] at h; cases h
    | ok m => rfl
  have hrun : (run (jobOf sampleTools sampleRunConfig sampleSectionInputs sampleSurroundings) false noFiles).2.toOption = some true := by
    decide +kernel
  refine ⟨fun y => by show y < y + 1 / 1000; linarith, rfl, rfl, by decide, sampleSectionInputs_consistent, ?_,
    sampleLoaded sampleSectionInputs, hload, ?_, by decide +kernel, by decide +kernel, by decide +kernel, by decide +kernel,
    fun l hl c hc => ?_⟩
  · cases hr : (run (jobOf sampleTools sampleRunConfig sampleSectionInputs sampleSurroundings) false noFiles).2 with
    | error e => rw [hr] at hrun; cases hrun
    | ok b => rw [hr] at hrun; cases hrun; rfl
  · have hst : (sampleLoaded sampleSectionInputs).stations =
        [⟨"rhine_100".toList, 5, 0, 10, "rhine".toList, 100⟩, ⟨"rhine_900".toList, 20, 0, 10, "rhine".toList, 900⟩] := by decide +kernel
    rw [hst]
    intro l hl
    rcases List.mem_cons.1 hl with rfl | hl
    · exact ⟨by decide, by decide, by decide, by decide, ⟨100, "100".toList, by decide +kernel⟩,
        show roundTo 6 (100 : ℚ) = 100 by decide +kernel⟩
    rcases List.mem_cons.1 hl with rfl | hl
    · exact ⟨by decide, by decide, by decide, by decide, ⟨900, "900".toList, by decide +kernel⟩,
        show roundTo 6 (900 : ℚ) = 900 by decide +kernel⟩
    · cases hl
  · have h : ∀ l ∈ (sampleLoaded sampleSectionInputs).stations,
        ((buildCss sampleTools sampleRunConfig (sampleLoaded sampleSectionInputs) l).toOption.all fun c =>
          decide (roundTo 6 c.out.extraFlowArea = c.out.extraFlowArea) && (c.out.floodplainBase.all fun b => decide (roundTo 6 b = b)) &&
          ((VolumeTable.columns (volumeTableOf c.css)).all fun col => col.all fun v => v.all fun v => decide (roundTo 6 v = v)) &&
          c.css.raw.zRoughness.all fun z => z.all fun z => decide (-10 ^ 20 ≤ z ∧ z ≤ 10 ^ 20)) = true := by decide +kernel
    have h := h l hl
    have hc : buildCss sampleTools sampleRunConfig (sampleLoaded sampleSectionInputs) l = .ok c := hc
    rw [hc] at h
    have h : (decide (roundTo 6 c.out.extraFlowArea = c.out.extraFlowArea) &&
          (c.out.floodplainBase.all fun b => decide (roundTo 6 b = b)) &&
          ((VolumeTable.columns (volumeTableOf c.css)).all fun col => col.all fun v => v.all fun v => decide (roundTo 6 v = v)) &&
          c.css.raw.zRoughness.all fun z => z.all fun z => decide (-10 ^ 20 ≤ z ∧ z ≤ 10 ^ 20)) = true := h
    rw [Bool.and_eq_true, Bool.and_eq_true, Bool.and_eq_true] at h
    obtain ⟨⟨⟨h1, h2⟩, h4⟩, h5⟩ := h
    refine ⟨⟨of_decide_eq_true (p := roundTo 6 _ = _) h1, fun b hb => ?_⟩, fun col hcol v hv => ?_, fun z hz => ?_⟩
    · rw [hb] at h2
      exact of_decide_eq_true (p := roundTo 6 _ = _) h2
    · exact of_decide_eq_true (p := roundTo 6 _ = _) (List.all_eq_true.1 (List.all_eq_true.1 h4 col hcol) _ hv)
    · exact of_decide_eq_true (List.all_eq_true.1 h5 _ hz)

/-- The sample run without section polygons meets the hypotheses of the counterexample. -/
example : sampleInputs.sections = none ∧ noFiles "roughness-Main.ini".toList = none ∧
    (run (jobOf sampleTools sampleRunConfig sampleInputs sampleSurroundings) false noFiles).2 = .ok true := by
  refine ⟨rfl, rfl, sampleRun_ok⟩

/-! ## C79 and C139: roughness after a run -/

/-- **C79 after a run, partial.** When the branch names have no capitals, names are the branch and the chainage rounded to two decimals, and no two
locations have the same branch and chainage, the roughness that is read for a location is that of its cross-section: at levels that are steps
of 0.1 m, the mean roughness of its edges in the section at each map, read at these levels. What is missing: branch names with capitals; see
`C79_capitals_violated`. -/
theorem C79_after_run_partial (x : Tools K) (sig : SigText x.ft) (hsig : x.sig = sig.text) (cfg : RunConfig K)
    (hf : cfg.frictionWeighing = 0) (i : Inputs K) (hi : Consistent i) (o : Surroundings) (hdir : o.dirExists = true)
    (hw : ∀ f, IsResult f → Sound o.faults f) (overwrite : Bool) (s : Store)
    (h : (run (jobOf x cfg i o) overwrite s).2 = .ok true) (m : Model2d K) (hm : setModelData x.nn i = .ok m)
    (xs : List (Loc K)) (hx : Requested cfg.cssSelection m.stations xs)
    (hn : ∀ l ∈ xs, PlainName l.branch ∧ lower l.branch = l.branch ∧ x.ft.representable l.chainage)
    (hlab : ∀ t ∈ m.edges.sect, ∃ q ∈ roughnessFiles, t = q.1.toList)
    (hz : ∀ l ∈ xs, ∀ c, buildCss x cfg m l = .ok c → ∀ z, some z ∈ c.css.raw.zRoughness → -10 ^ 20 ≤ z ∧ z ≤ 10 ^ 20)
    (q : String × String × String) (hq : q ∈ roughnessFiles) (l : Loc K) (hl : l ∈ xs) (hu : Usable m l)
    (he : HasEdge m l q.1.toList) (y : K) (hy : RiverName x.ft l.id l.branch y) (hchain : l.chainage = x.ft.near (roundTo 2 y))
    (hdist : ∀ l' ∈ xs, l'.branch = l.branch → l'.chainage = l.chainage → l' = l) :
    ∃ text grid level values, (run (jobOf x cfg i o) overwrite s).1 q.2.1.toList = some text ∧
      (∃ lo hi : K, UniformGrid lo hi grid) ∧
      FrictionTable.interpolate ⟨level, (List.range level.length).map fun k => meanWet
        (edgeRoughness m l q.1.toList (sliceStart m.nMaps cfg.pipeline.build.skipMaps + k))⟩ grid = .ok ⟨grid, values⟩ ∧
      readRoughness x.ft text l.id = .ok ⟨some (grid.map (as4 x.ft)), some (values.map fun f => some (sig.value f))⟩ := by
  have hl2 := loaded2d x.nn i hi m hm
  obtain ⟨cs, hcs, htab, heq, hplain, hfile⟩ := run_roughness_text x sig hsig cfg hf i hi o hdir hw overwrite s h m hm xs hx
    (fun l hl => (hn l hl).1) hlab hz q hq ⟨l, hl, hu, he⟩
  have hlow := known_names q hq
  obtain ⟨c, hc, hb⟩ := forall₂_mem hcs.flip l (List.mem_filter.2 ⟨hl, decide_eq_true hu⟩)
  obtain ⟨t, ht⟩ := (tableOf_isSome c.out q.1.toList).2 ((hasEdge_sections x cfg m hl2 l c hb _).2 he)
  obtain ⟨level, k1, _, k3⟩ := built_tables x cfg hf m hl2 l c hb (hz l hl c hb)
  obtain ⟨k4, k5⟩ := k3 _ (tableOf_mem _ _ _ ht)
  simp only at k4 k5
  have hmem : ∀ d ∈ (harmoniseCss cs).map (·.out), ∃ l' ∈ xs, ∃ c' ∈ cs, buildCss x cfg m l' = .ok c' ∧
      d = (c'.withTables (c'.out.tables.map fun p => (p.1, resampled (gridOf p.1 (cs.map fun c => c.out.tables)) p.2))).out ∧
      d.branch = l'.branch ∧ d.chainage = l'.chainage := by
    intro d hd
    rw [heq] at hd
    obtain ⟨d, hd', rfl⟩ := List.mem_map.1 hd
    obtain ⟨c', hc', rfl⟩ := List.mem_map.1 hd'
    obtain ⟨l', hl', hb'⟩ := forall₂_mem hcs c' hc'
    obtain ⟨_, _, _, _, _, _, _, h2, h3, _⟩ := buildCss_ok x cfg m l' c' hb'
    exact ⟨l', (List.mem_filter.1 hl').1, c', hc', hb', rfl, h2, h3⟩
  obtain ⟨_, _, _, _, _, _, h1, h2, h3, _⟩ := buildCss_ok x cfg m l c hb
  obtain ⟨number, e1, e2, e3⟩ := hy
  have htr := tableOf_resampled c (fun r => gridOf r (cs.map fun c => c.out.tables)) q.1.toList
  rw [ht, Option.map_some] at htr
  have hread := C79_read_back_partial x.ft sig ((harmoniseCss cs).map (·.out)) q.2.2.toList hplain
    (fun d hd => by
      obtain ⟨l', hl', _, _, _, _, eb, _⟩ := hmem d hd
      rw [eb]; exact (hn l' hl').2.1)
    (fun d hd => by
      obtain ⟨l', hl', _, _, _, _, _, ec⟩ := hmem d hd
      rw [ec]; exact (hn l' hl').2.2)
    hlow.2
    (c.withTables (c.out.tables.map fun p => (p.1, resampled (gridOf p.1 (cs.map fun c => c.out.tables)) p.2))).out
    (by rw [heq]; exact List.mem_map_of_mem (List.mem_map_of_mem hc))
    (resampled (gridOf q.1.toList (cs.map fun c => c.out.tables)) t) (by rw [hlow.1, sectionTable_eq]; exact htr) number y
    (show c.out.name = c.out.branch ++ '_' :: number by rw [h1, h2]; exact e1) e2 e3
    (show c.out.chainage = _ by rw [h3]; exact hchain)
    (fun d hd eb ec => by
      obtain ⟨l', hl', c', hc', hb', ed, eb', ec'⟩ := hmem d hd
      have eb : d.branch = c.out.branch := eb
      have ec : d.chainage = c.out.chainage := ec
      have := hdist l' hl' (by rw [← eb', eb, h2]) (by rw [← ec', ec, h3])
      rw [this, hb] at hb'
      rw [ed, ← Except.ok.inj hb'])
    (fun d hd _ t' ht' => by
      obtain ⟨l', hl', c', hc', hb', ed, _⟩ := hmem d hd
      rw [hlow.1, ed, sectionTable_eq, tableOf_resampled c' (fun r => gridOf r (cs.map fun c => c.out.tables))] at ht'
      obtain ⟨t'', _, rfl⟩ := Option.map_eq_some_iff.1 ht'
      rfl)
  refine ⟨_, gridOf q.1.toList (cs.map fun c => c.out.tables), level,
    (resampled (gridOf q.1.toList (cs.map fun c => c.out.tables)) t).friction, hfile, ?_, ?_, ?_⟩
  · refine gridOf_uniform _ ?_ ?_ _ ?_
    · intro t ht; obtain ⟨c, hc, rfl⟩ := List.mem_map.1 ht; exact (htab c hc).1
    · intro t ht; obtain ⟨c, hc, rfl⟩ := List.mem_map.1 ht; exact (htab c hc).2
    · exact ⟨_, List.mem_map_of_mem hc, (hasEdge_sections x cfg m hl2 l c hb _).2 he⟩
  · rw [← k5]; exact interpolate_resampled t k4 _
  · have : (c.withTables (c.out.tables.map fun p => (p.1, resampled (gridOf p.1 (cs.map fun c => c.out.tables)) p.2))).out.name = l.id :=
      h1
    rw [this] at hread
    exact hread

private theorem listMin_mem (l : List K) (b : K) (h : listMin l = some b) : b ∈ l ∧ ∀ a ∈ l, b ≤ a := by
  cases l with
  | nil => cases h
  | cons c l =>
    obtain rfl := Option.some.inj h
    clear h
    induction l generalizing c with
    | nil => exact ⟨List.mem_cons_self, fun a ha => by rw [List.mem_singleton.1 ha]; exact le_rfl⟩
    | cons d l ih =>
      rw [List.foldl_cons]
      obtain ⟨h1, h2⟩ := ih (min c d)
      constructor
      · rcases List.mem_cons.1 h1 with e | e
        · rw [e]
          rcases min_choice c d with e' | e' <;> rw [e'] <;> simp
        · simp [e]
      · intro a ha
        have hm := h2 _ List.mem_cons_self
        rcases List.mem_cons.1 ha with rfl | ha
        · exact hm.trans (min_le_left _ _)
        rcases List.mem_cons.1 ha with rfl | ha
        · exact hm.trans (min_le_right _ _)
        · exact h2 a (List.mem_cons_of_mem _ ha)

private theorem findIdx_first' {α : Type} (p : α → Bool) (l : List α) (i : Nat) (x : α) (hi : l[i]? = some x) (hx : p x = true)
    (hb : ∀ j < i, ∀ y, l[j]? = some y → p y = false) : l.findIdx? p = some i := by
  induction l generalizing i with
  | nil => simp at hi
  | cons a l ih =>
    rw [List.findIdx?_cons]
    cases i with
    | zero =>
      rw [List.getElem?_cons_zero] at hi
      rw [Option.some.inj hi, hx]; rfl
    | succ i =>
      rw [hb 0 (by omega) a rfl, ih i (by simpa using hi) fun j hj y hy => hb (j + 1) (by omega) y (by simpa using hy)]
      rfl

private theorem listMax_mem (l : List K) (b : K) (h : listMax l = some b) : b ∈ l ∧ ∀ a ∈ l, a ≤ b := by
  cases l with
  | nil => cases h
  | cons c l =>
    obtain rfl := Option.some.inj h
    clear h
    induction l generalizing c with
    | nil => exact ⟨List.mem_cons_self, fun a ha => by rw [List.mem_singleton.1 ha]; exact le_rfl⟩
    | cons d l ih =>
      rw [List.foldl_cons]
      obtain ⟨h1, h2⟩ := ih (max c d)
      constructor
      · rcases List.mem_cons.1 h1 with e | e
        · rw [e]
          rcases max_choice c d with e' | e' <;> rw [e'] <;> simp
        · simp [e]
      · intro a ha
        have hm := h2 _ List.mem_cons_self
        rcases List.mem_cons.1 ha with rfl | ha
        · exact (le_max_left _ _).trans hm
        rcases List.mem_cons.1 ha with rfl | ha
        · exact (le_max_right _ _).trans hm
        · exact h2 a (List.mem_cons_of_mem _ ha)

/-- **C139, partial.** When all cross-sections are on one branch and the roughness of each can be read, the longitudinal figure shows at the
chainage of each cross-section, in kilometres, the smallest and the largest of its roughness values. What is missing: several branches, and branch
names with capitals; see `C139_branches_violated` and `C139_capitals_violated`. -/
theorem C139_range_partial (ft : FloatText K) (s : Store) (text main : Text) (ht : s "CrossSectionDefinitions.ini".toList = some text)
    (hmain : s "roughness-Main.ini".toList = some main) (defs : List (CssDef K)) (hd : readDefinitions ft text = .ok defs)
    (hne : defs ≠ []) (branch : Text) (xs : List K)
    (h : List.Forall₂ (fun (d : CssDef K) x => RiverName ft d.id branch x) defs xs) (values : List (List K))
    (hr : List.Forall₂ (fun (d : CssDef K) v => v ≠ [] ∧ ∃ levels, readRoughness ft main d.id = .ok ⟨levels, some (v.map some)⟩)
      defs values) :
    ∃ out, roughnessLongitudinal ft s branch = .ok out ∧ out.map (·.1) = xs.map (· / 1000) ∧
      List.Forall₂ (fun v (o : K × K × K) => IsRange v o.2.1 o.2.2) values out := by
  have hcss := (C133_one_branch_partial ft text defs hd hne branch xs h).1
  unfold roughnessLongitudinal
  rw [ht]
  simp only
  rw [hcss, hmain]
  have hgo : ∀ (defs : List (CssDef K)) (xs : List K) (values : List (List K)),
      List.Forall₂ (fun (d : CssDef K) x => RiverName ft d.id branch x) defs xs →
      List.Forall₂ (fun (d : CssDef K) v => v ≠ [] ∧ ∃ levels, readRoughness ft main d.id = .ok ⟨levels, some (v.map some)⟩)
        defs values →
      ∃ out, roughnessMinMax ft main (List.zipWith (fun d x => (d.id, x, branch)) defs xs) = .ok out ∧
        out.map (·.1) = xs.map (· / 1000) ∧ List.Forall₂ (fun v (o : K × K × K) => IsRange v o.2.1 o.2.2) values out := by
    intro defs
    induction defs with
    | nil =>
      intro xs values h1 h2
      cases h1
      cases h2
      exact ⟨[], rfl, rfl, .nil⟩
    | cons d ds ih =>
      intro xs values h1 h2
      cases h1 with
      | @cons _ x _ xs _ h1 =>
        cases h2 with
        | @cons _ v _ values hv h2 =>
          obtain ⟨out, e1, e2, e3⟩ := ih xs values h1 h2
          obtain ⟨hvne, levels, hread⟩ := hv
          obtain ⟨a, ha⟩ := List.exists_mem_of_ne_nil _ hvne
          obtain ⟨lo, hlo⟩ := listMin_some ha
          obtain ⟨hi, hhi⟩ := listMax_some ha
          refine ⟨(x / 1000, lo, hi) :: out, ?_, ?_, .cons ?_ e3⟩
          · rw [List.zipWith_cons_cons]
            unfold roughnessMinMax
            simp only
            rw [hread]
            simp only
            have hs : allSome (v.map some) = some v := (allSome_eq _ _).2 rfl
            rw [hs, Option.bind_some, Option.bind_some, hlo, hhi]
            simp only
            rw [e1]
          · rw [List.map_cons, List.map_cons, e2]
          · have a1 := listMin_mem v lo hlo
            have a2 := listMax_mem v hi hhi
            exact ⟨a1.1, a2.1, fun b hb => ⟨a1.2 b hb, a2.2 b hb⟩⟩
  obtain ⟨out, e1, e2, e3⟩ := hgo defs xs values h hr
  refine ⟨out, ?_, e2, e3⟩
  cases hdef : List.zipWith (fun (d : CssDef K) x => (d.id, x, branch)) defs xs with
  | nil =>
    have := congrArg List.length hdef
    rw [List.length_zipWith, ← h.length_eq, Nat.min_self] at this
    exact absurd (List.length_eq_zero_iff.1 this) hne
  | cons n ns =>
    simp only
    rw [← hdef]
    exact e1

/-- **C139 is violated.** With cross-sections on two branches there is no longitudinal figure of any branch: `ValueError` is raised. -/
theorem C139_branches_violated (ft : FloatText K) (s : Store) (text : Text) (ht : s "CrossSectionDefinitions.ini".toList = some text)
    (defs : List (CssDef K)) (hd : readDefinitions ft text = .ok defs) (out : List (Text × K × Text))
    (h : List.Forall₂ (fun (d : CssDef K) o => o.1 = d.id ∧ RiverName ft d.id o.2.2 o.2.1) defs out)
    (o o' : Text × K × Text) (ho : o ∈ out) (ho' : o' ∈ out) (hne : o.2.2 ≠ o'.2.2) (branch : Text) :
    roughnessLongitudinal ft s branch = .error .valueError := by
  unfold roughnessLongitudinal
  rw [ht]
  simp only
  rw [C133_branches_violated ft text defs hd out h o o' ho ho' hne branch]

/-- **C139 is violated.** When the name of the only branch has capitals there is no longitudinal figure: `TypeError` is raised. -/
theorem C139_capitals_violated (ft : FloatText K) (sig : SigText ft) (cs : List (ExportCss K)) (s : Store) (text : Text)
    (ht : s "CrossSectionDefinitions.ini".toList = some text)
    (hmain : s "roughness-Main.ini".toList = some (exportRoughness ft sig.text cs "Main".toList))
    (hb : ∀ c ∈ cs, PlainName c.branch) (hr : ∀ c ∈ cs, ft.representable c.chainage)
    (defs : List (CssDef K)) (hd : readDefinitions ft text = .ok defs) (branch : Text) (hcap : lower branch ≠ branch)
    (hdc : defs.map (·.id) = cs.map (·.name)) (hbr : ∀ c ∈ cs, c.branch = branch) (hne : cs ≠ []) (xs : List K)
    (h : List.Forall₂ (fun (d : CssDef K) x => RiverName ft d.id branch x) defs xs) :
    roughnessLongitudinal ft s branch = .error .typeError := by
  have hdne : defs ≠ [] := by
    rintro rfl
    exact hne (List.map_eq_nil_iff.1 hdc.symm)
  have hcss := (C133_one_branch_partial ft text defs hd hdne branch xs h).1
  unfold roughnessLongitudinal
  rw [ht]
  simp only
  rw [hcss, hmain]
  cases defs with
  | nil => exact absurd rfl hdne
  | cons d ds =>
    cases h with
    | @cons _ x _ xs hx _ =>
      cases cs with
      | nil => exact absurd rfl hne
      | cons c cs =>
        have hname : d.id = c.name := (List.cons.inj hdc).1
        obtain ⟨number, e1, e2, e3⟩ := hx
        have hcb := hbr c List.mem_cons_self
        have hread := C79_capitals_violated ft sig (c :: cs) "Main".toList hb hr (by decide) c number x
          (by rw [← hname, hcb]; exact e1) e2 e3 (by rw [hcb]; exact hcap)
        rw [List.zipWith_cons_cons]
        simp only
        unfold roughnessMinMax
        simp only
        rw [hname, hread]

/-! ## C136: the roughness in a figure -/

private theorem mem_roughnessSeries (label : String) (r : RoughnessInfo K) (l : List (Series K)) (h : roughnessSeries label r = .ok l)
    (c : Series K) : c ∈ l ↔ c.label = label ∧ r = ⟨some c.x, some c.y⟩ ∧ c.x.length = c.y.length := by
  obtain ⟨levels, values⟩ := r
  unfold roughnessSeries at h
  cases levels with
  | none =>
    obtain rfl := Except.ok.inj h
    exact ⟨fun h => (by cases h), fun h => (by cases h.2.1)⟩
  | some a =>
    cases values with
    | none =>
      obtain rfl := Except.ok.inj h
      exact ⟨fun h => (by cases h), fun h => (by cases h.2.1)⟩
    | some b =>
      simp only at h
      split at h
      · rename_i hl
        obtain rfl := Except.ok.inj h
        rw [List.mem_singleton]
        constructor
        · rintro rfl; exact ⟨rfl, rfl, hl⟩
        · rintro ⟨rfl, e, -⟩
          cases e
          rfl
      · cases h

/-- **C136.** The roughness graph of a figure has a curve for the main channel and one for the floodplain: exactly when the file of that
section gives levels and as many values for the cross-section, and then these. -/
theorem C136_roughness_curves (ft : FloatText K) (s : Store) (d : CssDef K) (f : FigureData K) (h : figureData ft s d = .ok f)
    (c : Series K) :
    c ∈ f.roughness ↔
      (c.label = "Main channel" ∧ ∃ text, s "roughness-Main.ini".toList = some text ∧
        readRoughness ft text d.id = .ok ⟨some c.x, some c.y⟩ ∧ c.x.length = c.y.length) ∨
      (c.label = "Floodplain1" ∧ ∃ text, s "roughness-FloodPlain1.ini".toList = some text ∧
        readRoughness ft text d.id = .ok ⟨some c.x, some c.y⟩ ∧ c.x.length = c.y.length) := by
  unfold figureData at h
  cases hv : s "volumes.csv".toList with
  | none => rw [hv] at h; cases h
  | some volumes =>
    rw [hv] at h
    simp only at h
    cases hg : plotGeometry ft volumes d with
    | error e => rw [hg] at h; cases h
    | ok g =>
      rw [hg] at h
      simp only at h
      cases hpv : plotVolume ft volumes d with
      | error e => rw [hpv] at h; cases h
      | ok v =>
        rw [hpv] at h
        simp only at h
        cases hr : plotRoughness ft (s "roughness-Main.ini".toList) (s "roughness-FloodPlain1.ini".toList) d with
        | error e => rw [hr] at h; cases h
        | ok r =>
          rw [hr] at h
          simp only at h
          have hf : f.roughness = r := by
            split at h
            · obtain rfl := Except.ok.inj h; rfl
            · cases h
          rw [hf]
          clear h hf hv hg hpv
          unfold plotRoughness at hr
          cases hm : s "roughness-Main.ini".toList with
          | none => rw [hm] at hr; cases hr
          | some main =>
            rw [hm] at hr
            simp only at hr
            cases h1 : readRoughness ft main d.id with
            | error e => rw [h1] at hr; cases hr
            | ok r1 =>
              rw [h1] at hr
              simp only at hr
              have hmain : ∀ first : List (Series K), (roughnessSeries "Main channel" r1 = .ok first ∨
                    (∃ e, roughnessSeries "Main channel" r1 = .error e) ∧ first = []) →
                  (c ∈ first ↔ (c.label = "Main channel" ∧ ∃ text, some main = some text ∧
                    readRoughness ft text d.id = .ok ⟨some c.x, some c.y⟩ ∧ c.x.length = c.y.length)) := by
                rintro first (hs | ⟨⟨e, hs⟩, rfl⟩)
                · rw [mem_roughnessSeries _ _ _ hs]
                  constructor
                  · rintro ⟨a1, rfl, a3⟩; exact ⟨a1, main, rfl, h1, a3⟩
                  · rintro ⟨a1, text, e1, e2, a3⟩
                    obtain rfl := Option.some.inj e1
                    rw [h1] at e2
                    exact ⟨a1, Except.ok.inj e2, a3⟩
                · refine ⟨fun h => (by cases h), ?_⟩
                  rintro ⟨-, text, e1, e2, e3⟩
                  obtain rfl := Option.some.inj e1
                  rw [h1] at e2
                  obtain rfl := Except.ok.inj e2
                  unfold roughnessSeries at hs
                  simp only [e3, if_true] at hs
                  cases hs
              obtain ⟨first, hfirst, hr⟩ : ∃ first : List (Series K), (roughnessSeries "Main channel" r1 = .ok first ∨
                    (∃ e, roughnessSeries "Main channel" r1 = .error e) ∧ first = []) ∧
                  (match s "roughness-FloodPlain1.ini".toList with
                  | none => .ok first
                  | some text =>
                    match readRoughness ft text d.id with
                    | .error e => .error e
                    | .ok r =>
                      match roughnessSeries "Floodplain1" r with
                      | .error e => .error e
                      | .ok l => .ok (first ++ l)) = Except.ok (ε := PyErr) r := by
                cases hs : roughnessSeries "Main channel" r1 with
                | error e => rw [hs] at hr; exact ⟨[], .inr ⟨⟨e, rfl⟩, rfl⟩, hr⟩
                | ok l => rw [hs] at hr; exact ⟨l, .inl rfl, hr⟩
              have hmain := hmain first hfirst
              cases hfp : s "roughness-FloodPlain1.ini".toList with
              | none =>
                rw [hfp] at hr
                simp only at hr
                obtain rfl := Except.ok.inj hr
                rw [hmain]
                constructor
                · exact .inl
                · rintro (h | ⟨-, text, e, -⟩)
                  · exact h
                  · cases e
              | some fp =>
                rw [hfp] at hr
                simp only at hr
                cases h2 : readRoughness ft fp d.id with
                | error e => rw [h2] at hr; cases hr
                | ok r2 =>
                  rw [h2] at hr
                  simp only at hr
                  cases hs : roughnessSeries "Floodplain1" r2 with
                  | error e => rw [hs] at hr; cases hr
                  | ok l =>
                    rw [hs] at hr
                    simp only at hr
                    obtain rfl := Except.ok.inj hr
                    rw [List.mem_append, hmain, mem_roughnessSeries _ _ _ hs]
                    refine or_congr Iff.rfl ?_
                    constructor
                    · rintro ⟨a1, rfl, a3⟩; exact ⟨a1, fp, rfl, h2, a3⟩
                    · rintro ⟨a1, text, e1, e2, a3⟩
                      obtain rfl := Option.some.inj e1
                      rw [h2] at e2
                      exact ⟨a1, Except.ok.inj e2, a3⟩

/-! ## C136: saving a figure -/

/-- **C136.** A figure that exists is left as it is unless it may be overwritten, and no error is reported. -/
theorem C136_kept (ft : FloatText K) (save : FigureData K → Except PyErr Text) (d : CssDef K) (s : Store) (image : Text)
    (h : s (figureFile d.id) = some image) : figureCrossSection ft save d false s = (s, false) := by
  unfold figureCrossSection
  rw [if_pos ⟨by rw [h]; rfl, rfl⟩]

/-- **C136.** When an error is reported nothing has changed. -/
theorem C136_failed (ft : FloatText K) (save : FigureData K → Except PyErr Text) (d : CssDef K) (overwrite : Bool) (s : Store)
    (h : (figureCrossSection ft save d overwrite s).2 = true) : (figureCrossSection ft save d overwrite s).1 = s := by
  unfold figureCrossSection at h ⊢
  split
  · rfl
  · rename_i hc
    rw [if_neg hc] at h
    cases hf : figureData ft s d with
    | error e => rfl
    | ok f =>
      rw [hf] at h
      simp only at h ⊢
      cases hs : save f with
      | error e => rfl
      | ok image => rw [hs] at h; cases h

/-- **C136.** No file but the figure itself changes. -/
theorem C136_others (ft : FloatText K) (save : FigureData K → Except PyErr Text) (d : CssDef K) (overwrite : Bool) (s : Store)
    (f : Text) (hf : f ≠ "figures/cross_sections/".toList ++ d.id ++ ".png".toList) :
    (figureCrossSection ft save d overwrite s).1 f = s f := by
  unfold figureCrossSection
  split
  · rfl
  · cases figureData ft s d with
    | error e => rfl
    | ok fd =>
      simp only
      cases save fd with
      | error e => rfl
      | ok image => exact store_set_other _ _ _ _ hf

/-- **C136.** When no error is reported there is a figure afterwards. If there was none, or it may be overwritten, it shows what is in the
files. -/
theorem C136_saved (ft : FloatText K) (save : FigureData K → Except PyErr Text) (d : CssDef K) (overwrite : Bool) (s : Store)
    (h : (figureCrossSection ft save d overwrite s).2 = false) :
    ∃ image, (figureCrossSection ft save d overwrite s).1 ("figures/cross_sections/".toList ++ d.id ++ ".png".toList) = some image ∧
      (s ("figures/cross_sections/".toList ++ d.id ++ ".png".toList) = none ∨ overwrite = true →
        ∃ f, figureData ft s d = .ok f ∧ save f = .ok image) := by
  show ∃ image, (figureCrossSection ft save d overwrite s).1 (figureFile d.id) = some image ∧
      (s (figureFile d.id) = none ∨ overwrite = true → ∃ f, figureData ft s d = .ok f ∧ save f = .ok image)
  unfold figureCrossSection at h ⊢
  split
  · rename_i hc
    obtain ⟨image, hi⟩ := Option.isSome_iff_exists.1 hc.1
    refine ⟨image, hi, fun hor => ?_⟩
    rcases hor with e | e
    · rw [e] at hi; cases hi
    · rw [e] at hc; cases hc.2
  · rename_i hc
    rw [if_neg hc] at h
    cases hf : figureData ft s d with
    | error e => rw [hf] at h; cases h
    | ok f =>
      rw [hf] at h
      simp only at h ⊢
      cases hs : save f with
      | error e => rw [hs] at h; cases h
      | ok image => exact ⟨image, store_set_same _ _ _, fun _ => ⟨f, rfl, hs⟩⟩

/-- **C136.** Figures of cross-sections with different names are in different files. -/
theorem C136_distinct (a b : Text) (h : figureFile a = figureFile b) : a = b := by
  unfold figureFile at h
  exact List.append_cancel_left (List.append_cancel_right h)

/-! ## C137: the volume graph -/

/-- **C137, partial.** Each curve of the volume graph has the water levels of the volume table, and is the column that its label says, but for
the flow volume with the correction. What is missing: that one; see `C137_flow_violated`. -/
theorem C137_labels_partial (ft : FloatText K) (volumes : Text) (d : CssDef K) (v : VolumeTable K)
    (hv : readVolumes ft volumes d.id = .ok v) (l : List (Series K)) (hl : plotVolume ft volumes d = .ok l) :
    l.map (·.label) = (labelledColumn v).map (·.1) ∧
      ∀ a ∈ l, a.x = v.z ∧ (a.label ≠ "1D Flow Volume (incl. SD)" → (a.label, a.y) ∈ labelledColumn v) := by
  unfold plotVolume at hl
  rw [hv] at hl
  simp only at hl
  split at hl
  · cases hl
  · obtain rfl := Except.ok.inj hl
    refine ⟨rfl, fun a ha => ?_⟩
    unfold labelledColumn
    rcases List.mem_cons.1 ha with rfl | ha
    · exact ⟨rfl, fun _ => List.mem_cons_self⟩
    rcases List.mem_cons.1 ha with rfl | ha
    · exact ⟨rfl, fun _ => .tail _ (.head _)⟩
    rcases List.mem_cons.1 ha with rfl | ha
    · exact ⟨rfl, fun h => absurd rfl h⟩
    rcases List.mem_cons.1 ha with rfl | ha
    · exact ⟨rfl, fun _ => .tail _ (.tail _ (.tail _ (.head _)))⟩
    rcases List.mem_cons.1 ha with rfl | ha
    · exact ⟨rfl, fun _ => .tail _ (.tail _ (.tail _ (.tail _ (.head _))))⟩
    rcases List.mem_cons.1 ha with rfl | ha
    · exact ⟨rfl, fun _ => .tail _ (.tail _ (.tail _ (.tail _ (.tail _ (.head _)))))⟩
    · cases ha

/-- **C137 is violated.** The curve labelled as the flow volume with the correction is that without it. -/
theorem C137_flow_violated (ft : FloatText K) (volumes : Text) (d : CssDef K) (v : VolumeTable K)
    (hv : readVolumes ft volumes d.id = .ok v) (l : List (Series K)) (hl : plotVolume ft volumes d = .ok l) :
    ∃ a ∈ l, a.label = "1D Flow Volume (incl. SD)" ∧ a.y = v.fv1d ∧ (v.fvsd1d ≠ v.fv1d → (a.label, a.y) ∉ labelledColumn v) := by
  unfold plotVolume at hl
  rw [hv] at hl
  simp only at hl
  split at hl
  · cases hl
  · obtain rfl := Except.ok.inj hl
    refine ⟨⟨"1D Flow Volume (incl. SD)", v.z, v.fv1d⟩, .tail _ (.tail _ (.head _)), rfl, rfl, fun hne hmem => ?_⟩
    have key : ∀ p ∈ labelledColumn v, p.1 = "1D Flow Volume (incl. SD)" → p.2 = v.fvsd1d := by
      intro p hp e
      unfold labelledColumn at hp
      rcases List.mem_cons.1 hp with rfl | hp
      · exact absurd e (by show ¬"1D Total Volume (incl. SD)" = "1D Flow Volume (incl. SD)"; decide)
      rcases List.mem_cons.1 hp with rfl | hp
      · exact absurd e (by show ¬"1D Total Volume (excl. SD)" = "1D Flow Volume (incl. SD)"; decide)
      rcases List.mem_cons.1 hp with rfl | hp
      · rfl
      rcases List.mem_cons.1 hp with rfl | hp
      · exact absurd e (by show ¬"1D Flow Volume (excl. SD)" = "1D Flow Volume (incl. SD)"; decide)
      rcases List.mem_cons.1 hp with rfl | hp
      · exact absurd e (by show ¬"2D Total Volume" = "1D Flow Volume (incl. SD)"; decide)
      rcases List.mem_cons.1 hp with rfl | hp
      · exact absurd e (by show ¬"2D Flow Volume" = "1D Flow Volume (incl. SD)"; decide)
      · cases hp
    exact hne (key _ hmem rfl).symm

/-! ## C138: the drawing of the profile -/

private theorem allSome_map {α : Type} (l : List (Option α)) (v : List α) (h : allSome l = some v) : l = v.map some :=
  (allSome_eq _ _).1 h

/-- **C138.** The drawing of a cross-section is symmetric and shows its profile: the levels with the lowest one repeated at width zero, and
half the widths on either side. When the flow width is nowhere larger than the total width, the line of the flow width is nowhere outside
that of the total width. -/
theorem C138_profile (ft : FloatText K) (volumes : Text) (d : CssDef K) (g : GeometryPlot K)
    (h : plotGeometry ft volumes d = .ok g) :
    g.title = d.id ∧ g.totalLeft = g.totalRight.map (- ·) ∧ g.flowLeft = g.flowRight.map (- ·) ∧
      g.levels.head?.map some = d.levels.head? ∧ g.levels.tail.map some = d.levels ∧
      g.totalRight.head? = some 0 ∧ (g.totalRight.tail.map fun w => some (2 * w)) = d.totalWidth ∧
      g.flowRight.head? = some 0 ∧ (g.flowRight.tail.map fun w => some (2 * w)) = d.flowWidth ∧
      g.totalRight.length = g.levels.length ∧ g.flowRight.length = g.levels.length ∧
      (List.Forall₂ (fun f t => ∀ a b, f = some a → t = some b → a ≤ b) d.flowWidth d.totalWidth →
        List.Forall₂ (· ≤ ·) g.flowRight g.totalRight) := by
  unfold plotGeometry at h
  split at h
  · rename_i tw fw levels main fp1 crest htw hfw hlev _ _ _
    have htw := allSome_map _ _ htw
    have hfw := allSome_map _ _ hfw
    have hlev := allSome_map _ _ hlev
    split at h
    · rename_i lo first hlo hfirst
      split at h
      · cases h
      · split at h
        · cases h
        · split at h
          · rename_i hlen
            obtain rfl := Except.ok.inj h
            have hneg : ∀ l : List K, l.map (fun w => -1 * w / 2) = (l.map fun w => 1 * w / 2).map (- ·) := by
              intro l
              rw [List.map_map]
              refine List.map_congr_left fun w _ => ?_
              simp only [Function.comp_apply]
              ring
            have hdbl : ∀ l : List K, ((l.map fun w => 1 * w / 2).map fun w => some (2 * w)) = l.map some := by
              intro l
              rw [List.map_map]
              refine List.map_congr_left fun w _ => ?_
              simp only [Function.comp_apply]
              congr 1
              ring
            refine ⟨rfl, hneg _, hneg _, ?_, hlev.symm, ?_, ?_, ?_, ?_, ?_, ?_, ?_⟩
            · rw [hlev, List.head?_map, hfirst]; rfl
            · show some (1 * 0 / 2 : K) = _; congr 1; ring
            · rw [htw]; exact hdbl tw
            · show some (1 * 0 / 2 : K) = _; congr 1; ring
            · rw [hfw]; exact hdbl fw
            · simp [hlen.1]
            · simp [hlen.2]
            · intro hle
              rw [hfw, htw, List.forall₂_map_left_iff, List.forall₂_map_right_iff] at hle
              refine .cons le_rfl ?_
              rw [List.forall₂_map_left_iff, List.forall₂_map_right_iff]
              refine hle.imp fun a b hab => ?_
              have := hab a b rfl rfl
              linarith
          · cases h
    · cases h
  · cases h

/-- **C138, the other lines.** The bar of the main section has its width, and the bar of the floodplain section is wider by the width of
that section, both with the middle in the middle and a quarter of a metre below the lowest level of the profile. The line for the lowest
water level is at the level of the first row of the volume table that has a 2D volume. The crest is drawn at its level when this is
within the levels of the profile, and otherwise at the lowest or highest of them. -/
theorem C138_lines (ft : FloatText K) (volumes : Text) (d : CssDef K) (g : GeometryPlot K) (h : plotGeometry ft volumes d = .ok g) :
    (∃ main fp1, d.mainSectionWidth = some main ∧ d.fp1SectionWidth = some fp1 ∧
      g.mainSection.1 = - g.mainSection.2 ∧ g.mainSection.2 - g.mainSection.1 = main ∧
      g.floodplainSection.1 = - g.floodplainSection.2 ∧ g.floodplainSection.2 - g.floodplainSection.1 = main + fp1) ∧
    (g.sectionLevel + 1 / 4 ∈ g.levels ∧ ∀ z ∈ g.levels, g.sectionLevel + 1 / 4 ≤ z) ∧
    (∃ t, readVolumes ft volumes d.id = .ok t ∧ ∀ (k : Nat) v z, t.tv2d[k]? = some (some v) → (∀ j < k, t.tv2d[j]? = some none) →
      t.z[k]? = some z → g.lowestWater = z) ∧
    ∃ crest, d.sdCrest = some crest ∧
      ((∃ a ∈ g.levels, a ≤ crest) → (∃ b ∈ g.levels, crest ≤ b) → g.crest = (.inside, crest)) ∧
      ((∀ a ∈ g.levels, crest < a) → g.crest = (.cropped, g.sectionLevel + 1 / 4)) ∧
      ((∀ a ∈ g.levels, a < crest) → g.crest.1 = .cropped ∧ g.crest.2 ∈ g.levels ∧ ∀ a ∈ g.levels, a ≤ g.crest.2) := by
  unfold plotGeometry at h
  split at h
  · rename_i tw fw levels main fp1 crest _ _ _ hmain hfp1 hcrest
    split at h
    · rename_i lo first hlo hfirst
      split at h
      · cases h
      · rename_i water hwater
        split at h
        · cases h
        · rename_i c hc
          split at h
          · obtain rfl := Except.ok.inj h
            obtain ⟨m1, m2⟩ := listMin_mem levels lo hlo
            have hfm : first ∈ levels := List.mem_of_mem_head? hfirst
            have hmem : ∀ z, z ∈ first :: levels ↔ z ∈ levels := fun z =>
              ⟨fun hz => (List.mem_cons.1 hz).elim (fun e => e ▸ hfm) id, List.mem_cons_of_mem _⟩
            have hq : lo - 1 / 4 + 1 / 4 = lo := by ring
            unfold sdPlotInfo at hc
            rw [hlo] at hc
            obtain ⟨hi, hhi⟩ : ∃ hi, listMax levels = some hi := by
              cases hhi : listMax levels with
              | none => rw [hhi] at hc; cases hc
              | some hi => exact ⟨hi, rfl⟩
            rw [hhi] at hc
            simp only at hc
            obtain ⟨x1, x2⟩ := listMax_mem levels hi hhi
            refine ⟨⟨main, fp1, hmain, hfp1, ?_, ?_, ?_, ?_⟩, ⟨?_, ?_⟩, ?_, crest, hcrest, ?_, ?_, ?_⟩
            · show -(1 / 2) * main = -(1 / 2 * main); ring
            · show 1 / 2 * main - -(1 / 2) * main = main; ring
            · show -(1 / 2) * (main + fp1) = -(1 / 2 * (main + fp1)); ring
            · show 1 / 2 * (main + fp1) - -(1 / 2) * (main + fp1) = main + fp1; ring
            · show lo - 1 / 4 + 1 / 4 ∈ first :: levels
              rw [hq]; exact (hmem _).2 m1
            · intro z hz
              show lo - 1 / 4 + 1 / 4 ≤ z
              rw [hq]; exact m2 z ((hmem z).1 hz)
            · unfold lowestWaterLevel at hwater
              split at hwater
              · cases hwater
              · rename_i t ht
                refine ⟨t, ht, fun k v z hv hb hz => ?_⟩
                split at hwater
                · cases hwater
                · rename_i hne
                  have hk : firstKnown t.tv2d = k := by
                    have h := findIdx_first' (·.isSome) t.tv2d k (some v) hv rfl fun j hj y hy => by
                      rw [hb j hj] at hy; rw [← Option.some.inj hy]; rfl
                    cases hl : t.tv2d with
                    | nil => exact absurd hl hne
                    | cons a l => rw [firstKnown, ← hl, h]; · rfl
                                  · simp
                  rw [hk, hz] at hwater
                  exact (Except.ok.inj hwater).symm
            · rintro ⟨a, ha, hac⟩ ⟨b, hb, hcb⟩
              rw [if_pos (hcb.trans (x2 b ((hmem b).1 hb))), if_pos ((m2 a ((hmem a).1 ha)).trans hac)] at hc
              exact (Except.ok.inj hc).symm
            · intro hall
              have hlt := hall lo ((hmem _).2 m1)
              rw [if_pos (hall hi ((hmem _).2 x1)).le, if_neg (not_le.2 hlt)] at hc
              rw [hq]
              exact (Except.ok.inj hc).symm
            · intro hall
              rw [if_neg (not_le.2 (hall hi ((hmem _).2 x1)))] at hc
              obtain rfl := Except.ok.inj hc
              exact ⟨rfl, (hmem _).2 x1, fun a ha => x2 a ((hmem a).1 ha)⟩
          · cases h
    · cases h
  · cases h

/-! ## A directory with results -/

/-- The files of the two cross-sections of the examples. -/
def sampleResults : Store := fun f =>
  if f = "CrossSectionDefinitions.ini".toList then some (exportDefinitions (decimalText ℚ) [sampleCss, sampleCss2])
  else if f = "volumes.csv".toList then (exportVolumes (decimalText ℚ) [sampleCss, sampleCss2]).toOption
  else if f = "roughness-Main.ini".toList then
    some (exportRoughness (decimalText ℚ) sampleSig.text [sampleCss, sampleCss2] "Main".toList)
  else none

/-- The definition read for the first one. -/
def sampleDef : CssDef ℚ := definitionOf (decimalText ℚ) sampleCss

/-- Both are on one branch: asking for it gives both, with their chainage. -/
example : (crossSectionsForBranch (decimalText ℚ) (exportDefinitions (decimalText ℚ) [sampleCss, sampleCss2])
      "rhine_1".toList).toOption =
    some [("rhine_1_100".toList, 100, "rhine_1".toList), ("rhine_1_200.5".toList, 401 / 2, "rhine_1".toList)] := by decide +kernel

/-- The hypotheses of C133: the definitions are read, and all names are of the branch. -/
example : readDefinitions (decimalText ℚ) (exportDefinitions (decimalText ℚ) [sampleCss, sampleCss2]) =
      .ok [definitionOf (decimalText ℚ) sampleCss, definitionOf (decimalText ℚ) sampleCss2] ∧
    List.Forall₂ (fun (d : CssDef ℚ) x => RiverName (decimalText ℚ) d.id "rhine_1".toList x)
      [definitionOf (decimalText ℚ) sampleCss, definitionOf (decimalText ℚ) sampleCss2] [100, 401 / 2] := by
  refine ⟨?_, .cons ⟨"100".toList, by decide +kernel⟩ (.cons ⟨"200.5".toList, by decide +kernel⟩ .nil)⟩
  refine C43_round_trip (decimalText ℚ) [sampleCss, sampleCss2] (by decide +kernel) ?_ ?_
  · intro c hc
    rcases List.mem_cons.1 hc with rfl | hc
    · show roundTo 6 _ = _; decide +kernel
    rcases List.mem_cons.1 hc with rfl | hc
    · show roundTo 6 _ = _; decide +kernel
    · cases hc
  · intro c hc x hx
    rcases List.mem_cons.1 hc with rfl | hc
    · cases hx
    rcases List.mem_cons.1 hc with rfl | hc
    · cases hx
    · cases hc

/-- With the second one on another branch there is a `ValueError`. -/
example : (match crossSectionsForBranch (decimalText ℚ)
      (exportDefinitions (decimalText ℚ) [sampleCss, { sampleCss2 with name := "waal_200.5".toList }]) "rhine_1".toList with
    | .error .valueError => true
    | _ => false) = true := by decide +kernel

/-- The figure of the first cross-section. -/
example : ((figureData (decimalText ℚ) sampleResults sampleDef).toOption.map fun f =>
      (f.geometry.levels, f.geometry.totalRight, f.geometry.flowLeft, f.geometry.lowestWater)) =
    some ([1, 1, 3 / 2, 2], [0, 6, 12, 15], [0, -5, -10, -(3333 / 20000)], some 2) := by decide +kernel

/-- The bars and lines in it: the hypothesis of C138 for the other lines. -/
example : ((figureData (decimalText ℚ) sampleResults sampleDef).toOption.map fun f =>
      (f.geometry.mainSection, f.geometry.floodplainSection, f.geometry.sectionLevel, f.geometry.crest.2)) =
    some ((-5, 5), (-15, 15), 3 / 4, 7 / 4) := by decide +kernel

/-- Its roughness, and the curves of the volumes that are labelled as flow volume. -/
example : ((figureData (decimalText ℚ) sampleResults sampleDef).toOption.map fun f =>
      (f.roughness, (f.volume.map (·.y))[2]?, (f.volume.map (·.y))[3]?)) =
    some ([⟨"Main channel", [some 0, some 1], [some 40, some 45]⟩], some [some 1, some 5], some [some 1, some 5]) ∧
    (sampleCss.volumes.fvsd1d ≠ sampleCss.volumes.fv1d) := by decide +kernel

/-- With a file for the floodplain there are two curves in the roughness graph. -/
example : ((figureData (decimalText ℚ) (sampleResults.set "roughness-FloodPlain1.ini".toList
      (exportRoughness (decimalText ℚ) sampleSig.text [sampleCss, sampleCss2] "Main".toList)) sampleDef).toOption.map fun f =>
    f.roughness.map (·.label)) = some ["Main channel", "Floodplain1"] := by decide +kernel

/-- Saving it: the figure is there afterwards, a second time it is left alone, and when saving fails nothing changes. -/
example : ((figureCrossSection (decimalText ℚ) (fun f => .ok f.geometry.title) sampleDef false sampleResults).1
      (figureFile sampleDef.id)) = some sampleDef.id ∧
    (figureCrossSection (decimalText ℚ) (fun f => .ok f.geometry.title) sampleDef false sampleResults).2 = false ∧
    (figureCrossSection (decimalText ℚ) (fun f => .ok f.geometry.title) sampleDef false
      (sampleResults.set (figureFile sampleDef.id) "old".toList)).1 (figureFile sampleDef.id) = some "old".toList ∧
    (figureCrossSection (decimalText ℚ) (fun f => .ok f.geometry.title) sampleDef true
      (sampleResults.set (figureFile sampleDef.id) "old".toList)).1 (figureFile sampleDef.id) = some sampleDef.id ∧
    (figureCrossSection (decimalText ℚ) (fun _ => .error .osError) sampleDef true sampleResults).2 = true := by decide +kernel

/-- The roughness along the branch. -/
example : (roughnessLongitudinal (decimalText ℚ) sampleResults "rhine_1".toList).toOption =
    some [(1 / 10, 40, 45), (401 / 2000, 41, 46)] := by decide +kernel

/-- All figures in one go. -/
example : (match (plotCrossSections (decimalText ℚ) sampleResults).2 with
    | .error .typeError => true
    | _ => false) = true := by decide +kernel

end Fm2prof.Props

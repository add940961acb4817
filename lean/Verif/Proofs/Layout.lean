import Verif.Proofs.IniPrint
import Verif.Proofs.Export
import Verif.Spec.Layout

/-! Helper lemmas about the layout of configuration files. -/

set_option linter.unusedSectionVars false

namespace Fm2prof.LayoutProof

open Spec

/-! ## Lines -/

theorem iniLines_append (p : IniParse) (a b : List Text) :
    iniLines p (a ++ b) = match iniLines p a with
      | .error e => .error e
      | .ok q => iniLines q b := by
  induction a generalizing p with
  | nil => rfl
  | cons l a ih =>
    rw [List.cons_append, iniLines, iniLines]
    cases iniLine p l with
    | error e => rfl
    | ok q => exact ih q

theorem strip_break (l : Text) : strip (l ++ ['\n']) = strip l := by
  have h := strip_pad [] l ['\n'] (by simp) (by intro c hc; rw [List.mem_singleton] at hc; rw [hc]; decide)
  rw [List.nil_append] at h
  exact h

theorem iniLine_comment (p : IniParse) (c : Text) (h : IsComment c) : iniLine p (c ++ ['\n']) = .ok p := by
  have h' : (strip c).head? = some '#' ∨ (strip c).head? = some ';' := h
  unfold iniLine
  rw [strip_break, if_pos h']

/-- A comment does not matter. -/
theorem params_comment (before : List Text) (c after : Text) (hb : ∀ l ∈ before, '\n' ∉ l) (hc : '\n' ∉ c) (h : IsComment c) :
    iniParams (unlines (before ++ [c]) ++ after) = iniParams (unlines before ++ after) := by
  unfold iniParams
  have e1 : fileLines (unlines before ++ after) = before.map (· ++ ['\n']) ++ fileLines after :=
    fileLines_unlines before hb after
  have e2 : fileLines (unlines (before ++ [c]) ++ after) = (before ++ [c]).map (· ++ ['\n']) ++ fileLines after :=
    fileLines_unlines (before ++ [c]) (by
      intro l hl
      rcases List.mem_append.1 hl with hl | hl
      · exact hb l hl
      · rw [List.mem_singleton] at hl; rw [hl]; exact hc) after
  rw [e1, e2, List.map_append, List.append_assoc, iniLines_append, iniLines_append _ (before.map _)]
  cases iniLines ⟨[], [], none, none, 0⟩ (before.map (· ++ ['\n'])) with
  | error e => rfl
  | ok q =>
    simp only [List.map_cons, List.map_nil, List.cons_append, List.nil_append]
    rw [iniLines, iniLine_comment q c h]

/-! ## Blank lines -/

/-- Options with the same keys and texts. -/
def NearOptions (o o' : List (Text × List Text)) : Prop :=
  List.Forall₂ (fun a b : Text × List Text => a.1 = b.1 ∧ optionText a.2 = optionText b.2) o o'

/-- States of the parser that only differ in blank lines. -/
structure Near (p q : IniParse) : Prop where
  cur : p.cur = q.cur
  opt : p.opt = q.opt
  margin : p.indent = 0 ∧ q.indent = 0
  sections : List.Forall₂ (fun a b : Text × List (Text × List Text) => a.1 = b.1 ∧ NearOptions a.2 b.2) p.sections q.sections
  defaults : NearOptions p.defaults q.defaults

/-- The section and the option being read exist. -/
structure Placed (p : IniParse) : Prop where
  cur : ∀ s, p.cur = some (some s) → s ∈ p.sections.map (·.1)
  opt : ∀ k, p.opt = some k → k ∈ p.options.map (·.1)
  start : p.cur = none → p.opt = none

theorem nearOptions_refl (o : List (Text × List Text)) : NearOptions o o :=
  List.forall₂_same.2 fun _ _ => ⟨rfl, rfl⟩

theorem near_refl (p : IniParse) (h : p.indent = 0) : Near p p :=
  ⟨rfl, rfl, ⟨h, h⟩, List.forall₂_same.2 fun _ _ => ⟨rfl, nearOptions_refl _⟩, nearOptions_refl _⟩

theorem forall2_dictGet {α β : Type} {R : α → β → Prop} {d : List (Text × α)} {d' : List (Text × β)}
    (h : List.Forall₂ (fun a b => a.1 = b.1 ∧ R a.2 b.2) d d') (k : Text) : Option.Rel R (dictGet d k) (dictGet d' k) := by
  induction h with
  | nil => exact .none
  | @cons a b l m hab _ ih =>
    rw [dictGet_cons, dictGet_cons, ← hab.1]
    split
    · exact .some hab.2
    · exact ih

theorem forall2_dictSet {α β : Type} {R : α → β → Prop} {d : List (Text × α)} {d' : List (Text × β)}
    (h : List.Forall₂ (fun a b => a.1 = b.1 ∧ R a.2 b.2) d d') (k : Text) (v : α) (w : β) (hvw : R v w) :
    List.Forall₂ (fun a b => a.1 = b.1 ∧ R a.2 b.2) (dictSet k v d) (dictSet k w d') := by
  induction h with
  | nil => exact .cons ⟨rfl, hvw⟩ .nil
  | @cons a b l m hab hlm ih =>
    rw [dictSet, dictSet, ← hab.1]
    split
    · exact .cons ⟨rfl, hvw⟩ hlm
    · exact .cons hab ih

theorem near_keys {o o' : List (Text × List Text)} (h : NearOptions o o') : o.map (·.1) = o'.map (·.1) := by
  induction h with
  | nil => rfl
  | cons hab _ ih => rw [List.map_cons, List.map_cons, hab.1, ih]

theorem isSome_rel {α β : Type} {R : α → β → Prop} {a : Option α} {b : Option β} (h : Option.Rel R a b) :
    a.isSome = b.isSome := by
  cases h <;> rfl

theorem Near.options {p q : IniParse} (h : Near p q) : NearOptions p.options q.options := by
  unfold IniParse.options
  rw [← h.cur]
  rcases p.cur with _ | _ | s
  · exact .nil
  · exact h.defaults
  · have hr := forall2_dictGet h.sections s
    simp only
    generalize dictGet p.sections s = a at hr
    generalize dictGet q.sections s = b at hr
    cases hr with
    | none => exact .nil
    | some hr => exact hr

theorem Near.setOptions {p q : IniParse} (h : Near p q) {o o' : List (Text × List Text)} (ho : NearOptions o o') :
    Near (p.setOptions o) (q.setOptions o') := by
  obtain ⟨ps, pd, pc, po, pi⟩ := p
  obtain ⟨qs, qd, qc, qo, qi⟩ := q
  obtain ⟨hc, ho', hm, hs, hd⟩ := h
  obtain rfl : pc = qc := hc
  rcases pc with _ | _ | s
  · exact ⟨rfl, ho', hm, hs, hd⟩
  · exact ⟨rfl, ho', hm, hs, ho⟩
  · exact ⟨rfl, ho', hm, forall2_dictSet hs s o o' ho, hd⟩

/-- Options before and after a blank line. -/
theorem near_blank (o : List (Text × List Text)) (k : Text) (h : k ∈ o.map (·.1)) :
    NearOptions (dictSet k (((dictGet o k).getD []) ++ [[]]) o) o := by
  induction o with
  | nil => cases h
  | cons a o ih =>
    rw [dictSet, dictGet_cons]
    by_cases ha : a.1 = k
    · rw [if_pos ha, if_pos ha]
      refine .cons ⟨ha.symm, ?_⟩ (nearOptions_refl o)
      rw [Option.getD_some, optionText_blank]
    · rw [if_neg ha, if_neg ha]
      refine .cons ⟨rfl, rfl⟩ (ih ?_)
      rw [List.map_cons, List.mem_cons] at h
      rcases h with e | h
      · exact absurd e.symm ha
      · exact h

theorem dictSet_same {α : Type} (d : List (Text × α)) (k : Text) (v : α) (h : dictGet d k = some v) : dictSet k v d = d := by
  induction d with
  | nil => cases h
  | cons a d ih =>
    rw [dictGet_cons] at h
    rw [dictSet]
    by_cases ha : a.1 = k
    · rw [if_pos ha] at h ⊢
      obtain rfl := Option.some.inj h
      rw [← ha]
    · rw [if_neg ha] at h ⊢
      rw [ih h]

theorem setOptions_options (p : IniParse) (h : Placed p) : p.setOptions p.options = p := by
  obtain ⟨ps, pd, pc, po, pi⟩ := p
  rcases pc with _ | _ | s
  · rfl
  · rfl
  · have hs := (dictGet_isSome ps s).2 (h.cur s rfl)
    obtain ⟨o, ho⟩ := Option.isSome_iff_exists.1 hs
    unfold IniParse.setOptions IniParse.options
    simp only
    rw [ho, Option.getD_some, dictSet_same _ _ _ ho]

theorem setOptions_cur (p : IniParse) (o : List (Text × List Text)) : (p.setOptions o).cur = p.cur ∧ (p.setOptions o).opt = p.opt := by
  obtain ⟨ps, pd, pc, po, pi⟩ := p
  rcases pc with _ | _ | s
  · exact ⟨rfl, rfl⟩
  · exact ⟨rfl, rfl⟩
  · exact ⟨rfl, rfl⟩

theorem options_setOptions (p : IniParse) (h : p.cur ≠ none) (o : List (Text × List Text)) : (p.setOptions o).options = o := by
  unfold IniParse.setOptions IniParse.options
  rcases hc : p.cur with _ | _ | s
  · exact absurd hc h
  · rfl
  · simp only
    rw [dictGet_set, if_pos rfl]; rfl

theorem placed_setOptions (p : IniParse) (hc : p.cur ≠ none) (o : List (Text × List Text)) (opt : Option Text)
    (ho : ∀ k, opt = some k → k ∈ o.map (·.1)) : Placed { p.setOptions o with opt := opt } := by
  obtain ⟨e1, e2⟩ := setOptions_cur p o
  refine ⟨?_, ?_, ?_⟩
  · intro s hs
    have hs' : p.cur = some (some s) := by rw [← e1]; exact hs
    show s ∈ (p.setOptions o).sections.map (·.1)
    unfold IniParse.setOptions
    rw [hs']
    simp only
    exact (dictGet_isSome _ _).1 (by rw [dictGet_set, if_pos rfl]; rfl)
  · intro k hk
    have hopts : ({ p.setOptions o with opt := opt } : IniParse).options = (p.setOptions o).options := rfl
    rw [hopts, options_setOptions p hc]
    exact ho k hk
  · intro hn
    exact absurd (by rw [← e1]; exact hn) hc

theorem near_append (p : IniParse) (h : Placed p) (hi : p.indent = 0) (k : Text) (hk : p.opt = some k) :
    Near (p.append k []) p ∧ Placed (p.append k []) := by
  have hc : p.cur ≠ none := fun hc => by rw [h.start hc] at hk; cases hk
  have hm := h.opt k hk
  have hn := near_blank p.options k hm
  constructor
  · have := (near_refl p hi).setOptions hn
    rw [setOptions_options p h] at this
    exact this
  · have := placed_setOptions p hc (dictSet k (((dictGet p.options k).getD []) ++ [[]]) p.options) p.opt (by
      intro k' hk'
      rw [near_keys hn]; exact h.opt k' hk')
    have e : ({ p.setOptions (dictSet k (((dictGet p.options k).getD []) ++ [[]]) p.options) with opt := p.opt } : IniParse) =
        p.append k [] := by
      unfold IniParse.append
      have e2 := (setOptions_cur p (dictSet k (((dictGet p.options k).getD []) ++ [[]]) p.options)).2
      generalize p.setOptions (dictSet k (((dictGet p.options k).getD []) ++ [[]]) p.options) = r at e2
      cases r
      simp only at e2
      rw [e2]
    rw [← e]; exact this

/-- What lines at the margin do to two such states. -/
def Follows (a b : Except PyErr IniParse) : Prop :=
  match a, b with
  | .error e, .error e' => e = e'
  | .ok p, .ok q => Near p q ∧ Placed p ∧ Placed q
  | _, _ => False

theorem header_follows {p q : IniParse} (h : Near p q) (name : Text) : Follows (p.header name) (q.header name) := by
  unfold IniParse.header
  rw [isSome_rel (forall2_dictGet h.sections name)]
  split
  · exact rfl
  · split
    · exact ⟨⟨rfl, rfl, h.margin, h.sections, h.defaults⟩, ⟨fun s hs => (by cases hs), fun k hk => (by cases hk), fun _ => rfl⟩,
        ⟨fun s hs => (by cases hs), fun k hk => (by cases hk), fun _ => rfl⟩⟩
    · refine ⟨⟨rfl, rfl, h.margin, ?_, h.defaults⟩, ⟨?_, fun k hk => (by cases hk), fun _ => rfl⟩,
        ⟨?_, fun k hk => (by cases hk), fun _ => rfl⟩⟩
      · refine List.rel_append h.sections (.cons ⟨rfl, .nil⟩ .nil)
      · intro s hs
        obtain rfl := Option.some.inj (Option.some.inj hs)
        show name ∈ (p.sections ++ [(name, [])]).map Prod.fst
        rw [List.map_append]
        exact List.mem_append_right _ List.mem_cons_self
      · intro s hs
        obtain rfl := Option.some.inj (Option.some.inj hs)
        show name ∈ (q.sections ++ [(name, [])]).map Prod.fst
        rw [List.map_append]
        exact List.mem_append_right _ List.mem_cons_self

theorem option_follows {p q : IniParse} (h : Near p q) (value : Text) :
    Follows (p.option value) (q.option value) := by
  unfold IniParse.option
  rw [← h.cur]
  rcases hc : p.cur with _ | c
  · exact rfl
  · cases optionLine value with
    | none => exact rfl
    | some kv =>
      obtain ⟨k, v⟩ := kv
      simp only
      split
      · exact rfl
      · rw [isSome_rel (forall2_dictGet (R := fun a b => optionText a = optionText b) h.options (lower k))]
        split
        · exact rfl
        · have hn : NearOptions (p.options ++ [(lower k, [v])]) (q.options ++ [(lower k, [v])]) :=
            List.rel_append h.options (.cons ⟨rfl, rfl⟩ .nil)
          have hs := h.setOptions hn
          have hpc : p.cur ≠ none := by rw [hc]; simp
          have hqc : q.cur ≠ none := by rw [← h.cur, hc]; simp
          refine ⟨⟨hs.cur, rfl, hs.margin, hs.sections, hs.defaults⟩,
            placed_setOptions p hpc _ _ ?_, placed_setOptions q hqc _ _ ?_⟩
          · intro k' hk'
            obtain rfl := Option.some.inj hk'
            rw [List.map_append]
            exact List.mem_append_right _ List.mem_cons_self
          · intro k' hk'
            obtain rfl := Option.some.inj hk'
            rw [List.map_append]
            exact List.mem_append_right _ List.mem_cons_self

theorem strip_blank (l : Text) : IsBlank l ↔ strip l = [] := by
  constructor
  · intro h
    have := strip_pad l [] [] h (by simp)
    rw [List.append_nil, List.append_nil] at this
    exact this
  · intro h c hc
    by_contra hs
    have := mem_strip_of_mem hc (by simpa using hs)
    rw [h] at this
    cases this

theorem blank_follows {p : IniParse} (h : Placed p) (hi : p.indent = 0) (l : Text) (hl : IsBlank l) :
    ∃ p', iniLine p (l ++ ['\n']) = .ok p' ∧ Near p' p ∧ Placed p' := by
  unfold iniLine
  rw [strip_break, (strip_blank l).1 hl]
  rw [if_neg (by simp), if_pos rfl]
  cases hk : p.opt with
  | none => exact ⟨p, rfl, near_refl p hi, h⟩
  | some k => exact ⟨_, rfl, near_append p h hi k hk⟩

theorem near_trans {p q r : IniParse} (h : Near p q) (h' : Near q r) : Near p r := by
  have ht : ∀ {a b c : List (Text × List Text)}, NearOptions a b → NearOptions b c → NearOptions a c := by
    intro a b c hab
    unfold NearOptions at hab ⊢
    induction hab generalizing c with
    | nil => intro h; cases h; exact .nil
    | cons h1 _ ih =>
      intro h
      cases h with
      | cons h2 h3 => exact .cons ⟨h1.1.trans h2.1, h1.2.trans h2.2⟩ (ih h3)
  refine ⟨h.cur.trans h'.cur, h.opt.trans h'.opt, ⟨h.margin.1, h'.margin.2⟩, ?_, ht h.defaults h'.defaults⟩
  have hs := h.sections
  have hs' := h'.sections
  revert hs hs'
  generalize p.sections = a
  generalize q.sections = b
  generalize r.sections = c
  intro hs
  induction hs generalizing c with
  | nil => intro h; cases h; exact .nil
  | cons h1 _ ih =>
    intro h
    cases h with
    | cons h2 h3 => exact .cons ⟨h1.1.trans h2.1, ht h1.2 h2.2⟩ (ih _ h3)

theorem near_symm {p q : IniParse} (h : Near p q) : Near q p := by
  have ht : ∀ {a b : List (Text × List Text)}, NearOptions a b → NearOptions b a := by
    intro a b hab
    unfold NearOptions at hab ⊢
    induction hab with
    | nil => exact .nil
    | cons h1 _ ih => exact .cons ⟨h1.1.symm, h1.2.symm⟩ ih
  refine ⟨h.cur.symm, h.opt.symm, ⟨h.margin.2, h.margin.1⟩, ?_, ht h.defaults⟩
  have hs := h.sections
  revert hs
  generalize p.sections = a
  generalize q.sections = b
  intro hs
  induction hs with
  | nil => exact .nil
  | cons h1 _ ih => exact .cons ⟨h1.1.symm, ht h1.2⟩ ih

theorem line_follows {p q : IniParse} (h : Near p q) (hp : Placed p) (hq : Placed q) (l : Text) (hl : AtMargin l) :
    Follows (iniLine p (l ++ ['\n'])) (iniLine q (l ++ ['\n'])) := by
  by_cases hc : IsComment l
  · rw [iniLine_comment p l hc, iniLine_comment q l hc]
    exact ⟨h, hp, hq⟩
  by_cases hb : IsBlank l
  · obtain ⟨p', e1, n1, s1⟩ := blank_follows hp h.margin.1 l hb
    obtain ⟨q', e2, n2, s2⟩ := blank_follows hq h.margin.2 l hb
    rw [e1, e2]
    exact ⟨near_trans n1 (near_trans h (near_symm n2)), s1, s2⟩
  have hm : ∀ c, l.head? = some c → isSpace c = false := (hl.resolve_left hc).resolve_left hb
  have hw : ((l ++ ['\n']).takeWhile isSpace).length = 0 := by
    cases l with
    | nil => exact absurd (fun c hc => by cases hc) hb
    | cons c l =>
      rw [List.cons_append, List.takeWhile_cons, hm c rfl]; rfl
  have hc' : ¬ ((strip l).head? = some '#' ∨ (strip l).head? = some ';') := hc
  unfold iniLine
  rw [strip_break, if_neg hc', if_neg (fun e => hb ((strip_blank l).2 e)), if_neg hc', if_neg (fun e => hb ((strip_blank l).2 e)), hw,
    if_neg (fun e => Nat.not_lt_zero _ e.2), if_neg (fun e => Nat.not_lt_zero _ e.2)]
  have h0 : Near ({ p with indent := 0 } : IniParse) ({ q with indent := 0 } : IniParse) :=
    ⟨h.cur, h.opt, ⟨rfl, rfl⟩, h.sections, h.defaults⟩
  cases sectionHeader (strip l) with
  | some name => exact header_follows h0 name
  | none => exact option_follows h0 _

theorem lines_follow (ls : List Text) (hl : ∀ l ∈ ls, AtMargin l) {p q : IniParse} (h : Near p q) (hp : Placed p) (hq : Placed q) :
    Follows (iniLines p (ls.map (· ++ ['\n']))) (iniLines q (ls.map (· ++ ['\n']))) := by
  induction ls generalizing p q with
  | nil => exact ⟨h, hp, hq⟩
  | cons l ls ih =>
    rw [List.map_cons, iniLines, iniLines]
    have hf := line_follows h hp hq l (hl l List.mem_cons_self)
    generalize iniLine p (l ++ ['\n']) = a at hf
    generalize iniLine q (l ++ ['\n']) = b at hf
    cases a with
    | error e =>
      cases b with
      | error e' => exact hf
      | ok q' => exact hf.elim
    | ok p' =>
      cases b with
      | error e' => exact hf.elim
      | ok q' => exact ih (fun x hx => hl x (List.mem_cons_of_mem _ hx)) hf.1 hf.2.1 hf.2.2

theorem near_optionTexts {o o' : List (Text × List Text)} (h : NearOptions o o') : optionTexts o = optionTexts o' := by
  induction h with
  | nil => rfl
  | cons hab _ ih => rw [optionTexts, optionTexts, hab.1, hab.2, ih]

theorem near_sectionOptions {d d' o o' : List (Text × List Text)} (hd : NearOptions d d') (ho : NearOptions o o') :
    NearOptions (sectionOptions d o) (sectionOptions d' o') := by
  unfold sectionOptions
  refine List.rel_append ho ?_
  induction hd with
  | nil => exact .nil
  | @cons a b l m hab _ ih =>
    have e : (dictGet o a.1).isNone = (dictGet o' b.1).isNone := by
      have := isSome_rel (forall2_dictGet (R := fun a b => optionText a = optionText b) ho a.1)
      rw [hab.1] at this ⊢
      revert this
      cases dictGet o b.1 <;> cases dictGet o' b.1 <;> simp
    rw [List.filter_cons, List.filter_cons, e]
    split
    · exact .cons hab ih
    · exact ih

theorem near_sectionTexts {d d' : List (Text × List Text)} (hd : NearOptions d d')
    {s s' : List (Text × List (Text × List Text))}
    (hs : List.Forall₂ (fun a b : Text × List (Text × List Text) => a.1 = b.1 ∧ NearOptions a.2 b.2) s s')
    (acc : List (Text × List (Text × Text))) : sectionTexts d s acc = sectionTexts d' s' acc := by
  induction hs generalizing acc with
  | nil => rfl
  | cons hab _ ih =>
    rw [sectionTexts, sectionTexts, near_optionTexts (near_sectionOptions hd hab.2), hab.1]
    split
    · rfl
    · exact ih _

/-- A blank line between lines at the margin does not matter. -/
theorem params_blank (before : List Text) (b : Text) (after : List Text) (hl : ∀ l ∈ before ++ after, '\n' ∉ l ∧ AtMargin l)
    (hn : '\n' ∉ b) (hb : IsBlank b) : iniParams (unlines (before ++ b :: after)) = iniParams (unlines (before ++ after)) := by
  unfold iniParams
  have e1 : fileLines (unlines (before ++ after)) = (before ++ after).map (· ++ ['\n']) := fileLines_unlines' _ fun l h => (hl l h).1
  have e2 : fileLines (unlines (before ++ b :: after)) = (before ++ b :: after).map (· ++ ['\n']) := by
    refine fileLines_unlines' _ fun l h => ?_
    rcases List.mem_append.1 h with h | h
    · exact (hl l (List.mem_append_left _ h)).1
    · rcases List.mem_cons.1 h with rfl | h
      · exact hn
      · exact (hl l (List.mem_append_right _ h)).1
  rw [e1, e2, List.map_append, List.map_append, List.map_cons, iniLines_append, iniLines_append _ (before.map _)]
  have hf := lines_follow before (fun l h => (hl l (List.mem_append_left _ h)).2) (near_refl ⟨[], [], none, none, 0⟩ rfl)
    ⟨fun s hs => (by cases hs), fun k hk => (by cases hk), fun _ => rfl⟩
    ⟨fun s hs => (by cases hs), fun k hk => (by cases hk), fun _ => rfl⟩
  revert hf
  cases iniLines ⟨[], [], none, none, 0⟩ (before.map (· ++ ['\n'])) with
  | error e => intro _; rfl
  | ok p =>
    intro hf
    have hf' : Near p p ∧ Placed p ∧ Placed p := hf
    obtain ⟨hpp, hp, _⟩ := hf'
    simp only
    obtain ⟨p', e, n, s⟩ := blank_follows hp hpp.margin.1 b hb
    rw [iniLines, e]
    simp only
    have hg := lines_follow after (fun l h => (hl l (List.mem_append_right _ h)).2) n s hp
    generalize iniLines p' (after.map (· ++ ['\n'])) = x at hg
    generalize iniLines p (after.map (· ++ ['\n'])) = y at hg
    cases x with
    | error e =>
      cases y with
      | error e' =>
        have he : e = e' := hg
        rw [he]
      | ok q' => exact hg.elim
    | ok p' =>
      cases y with
      | error e' => exact hg.elim
      | ok q' =>
        have hg' : Near p' q' ∧ Placed p' ∧ Placed q' := hg
        exact near_sectionTexts hg'.1.defaults hg'.1.sections []

/-! ## What a text says -/

variable {K : Type} [Field K] [LinearOrder K] [IsStrictOrderedRing K] [FloorRing K]

/-- Which sections there are, and the texts for keys. -/
def sayings : Except PyErr (List (Text × List (Text × Text))) → Except PyErr ((Text → Bool) × (Text → Text → Option Text))
  | .error e => .error e
  | .ok found => .ok (fun sec => (dictGet found sec).isSome,
      fun sec k => (dictGet found sec).bind fun items => dictGet items (lower k))

/-- The directories one after the other. -/
def setOutputs (creatable : Text → Bool) : List Text → IniState K → IniState K × Option PyErr
  | [], s => (s, none)
  | d :: ds, s =>
    match setOutputDirectory creatable d s with
    | (s', none) => setOutputs creatable ds s'
    | (s', some e) => (s', some e)

theorem outputItems_dirs (creatable : Text → Bool) (items : List (Text × Text)) (s : IniState K) :
    outputItems creatable items s = setOutputs creatable (outputDirs items) s := by
  induction items generalizing s with
  | nil => rfl
  | cons it items ih =>
    rw [outputItems]
    by_cases hk : lower it.1 = lower "OutputDirectory".toList
    · rw [if_pos (hk.trans lower_output), outputDirs_pos it items hk, setOutputs]
      cases setOutputDirectory creatable it.2 s with
      | mk s' e =>
        cases e with
        | some e => rfl
        | none => exact ih s'
    · rw [if_neg (fun e => hk (e.trans lower_output.symm)), outputDirs_neg it items hk]
      exact ih s

theorem outputDirs_good (items : List (Text × Text)) (h : GoodOptions items) :
    outputDirs items = (dictGet items (lower "OutputDirectory".toList)).toList := by
  induction items with
  | nil => rfl
  | cons it items ih =>
    obtain ⟨hn, hl⟩ := h
    rw [List.map_cons, List.nodup_cons] at hn
    have hi := ih ⟨hn.2, fun p hp => hl p (List.mem_cons_of_mem _ hp)⟩
    have hit := hl it List.mem_cons_self
    rw [dictGet_cons]
    by_cases hk : lower it.1 = lower "OutputDirectory".toList
    · rw [outputDirs_pos it items hk, hi, if_pos (hit.symm.trans hk)]
      have : dictGet items (lower "OutputDirectory".toList) = none := by
        rw [dictGet_none, ← hk, hit]; exact hn.1
      rw [this]; rfl
    · rw [outputDirs_neg it items hk, hi, if_neg (fun e => hk (hit.trans e))]

theorem dirs_supplied (text : Text) (found : List (Text × List (Text × Text))) (h : iniParams text = .ok found) :
    outputDirs ((dictGet found "output".toList).getD []) =
      ((dictGet found "output".toList).bind fun items => dictGet items (lower "OutputDirectory".toList)).toList := by
  rw [outputDirs_good _ (supplied_good text found h _)]
  cases dictGet found "output".toList <;> rfl

theorem state_ext (a b : IniState K) (h1 : a.config = b.config) (h2 : a.disk = b.disk) : a = b := by
  cases a; cases b
  simp only at h1 h2
  rw [h1, h2]

theorem extract_same (ft : FloatText K) (sec : Text) (entries : List (Entry K)) (t u : Text)
    (a b : List (Text × List (Text × Text))) (ha : iniParams t = .ok a) (hb : iniParams u = .ok b)
    (h : ∀ sec k, ((dictGet a sec).bind fun items => dictGet items (lower k)) = (dictGet b sec).bind fun items => dictGet items (lower k))
    (s : IniState K) (hs : TemplateKeys s.config) :
    extractParameters ft sec entries a s = extractParameters ft sec entries b s := by
  obtain ⟨k1, d1⟩ := extract_keys ft sec entries a s
  obtain ⟨k2, d2⟩ := extract_keys ft sec entries b s
  refine state_ext _ _ (config_ext _ _ (k1.trans hs) (k2.trans hs) fun s' k => ?_) (d1.trans d2.symm)
  rw [extract_look, extract_look, newest_supplied _ t a ha, newest_supplied _ u b hb, h]

/-- Reading a file depends on what it says only. -/
theorem readInifile_says (ft : FloatText K) (creatable : Text → Bool) (dir t u : Text)
    (h : sayings (iniParams t) = sayings (iniParams u)) (s : IniState K) (hs : TemplateKeys s.config) :
    readInifile ft creatable dir t s = readInifile ft creatable dir u s := by
  unfold readInifile
  cases ha : iniParams t with
  | error e =>
    cases hb : iniParams u with
    | error e' =>
      rw [ha, hb] at h
      rw [Except.error.inj h]
    | ok b => rw [ha, hb] at h; cases h
  | ok a =>
    cases hb : iniParams u with
    | error e' => rw [ha, hb] at h; cases h
    | ok b =>
      rw [ha, hb] at h
      obtain ⟨h1, h2⟩ := Prod.mk.inj (Except.ok.inj h)
      have h1' : ∀ sec, (dictGet a sec).isSome = (dictGet b sec).isSome := fun sec => congrFun h1 sec
      have h2' : ∀ sec k, ((dictGet a sec).bind fun items => dictGet items (lower k)) =
          (dictGet b sec).bind fun items => dictGet items (lower k) := fun sec k => congrFun (congrFun h2 sec) k
      simp only
      have hd := dirs_supplied t a ha
      rw [h2', ← dirs_supplied u b hb] at hd
      have hin1 := newest_supplied (K := K) (inputValue dir s.disk.files) t a ha "input".toList
      have hin2 := newest_supplied (K := K) (inputValue dir s.disk.files) u b hb "input".toList
      have pin := h1' "input".toList
      have pout := h1' "output".toList
      have hset := input_setter (K := K) dir s.disk.files
      cases ia : dictGet a "input".toList with
      | none =>
        cases ib : dictGet b "input".toList with
        | none => rfl
        | some items => rw [ia, ib] at pin; cases pin
      | some items =>
        cases ib : dictGet b "input".toList with
        | none => rw [ia, ib] at pin; cases pin
        | some items' =>
          simp only
          have e1 : items.foldl (inputItem dir) s = items'.foldl (inputItem dir) s := by
            refine state_ext _ _ (config_ext _ _ ((hset.fold_keys items s).trans hs) ((hset.fold_keys items' s).trans hs) fun s' k => ?_)
              ((hset.fold_disk items s).trans (hset.fold_disk items' s).symm)
            rw [hset.fold items s rfl, hset.fold items' s rfl]
            have e := hin1 k
            have e' := hin2 k
            rw [h2'] at e
            rw [← e'] at e
            rw [ia, ib] at e
            have e'' : newest (inputValue dir s.disk.files) items k = newest (inputValue dir s.disk.files) items' k := e
            rw [e'']
          rw [e1]
          have ks := (hset.fold_keys items' s).trans hs
          rw [extract_same ft _ parameterTemplate t u a b ha hb h2' _ ks,
            extract_same ft _ debugTemplate t u a b ha hb h2' _ ((extract_keys ft _ _ b _).1.trans ks)]
          cases oa : dictGet a "output".toList with
          | none =>
            cases ob : dictGet b "output".toList with
            | none => rfl
            | some items => rw [oa, ob] at pout; cases pout
          | some outs =>
            cases ob : dictGet b "output".toList with
            | none => rw [oa, ob] at pout; cases pout
            | some outs' =>
              simp only
              rw [oa, ob] at hd
              have hd' : outputDirs outs = outputDirs outs' := hd
              rw [outputItems_dirs, outputItems_dirs, hd']

theorem loadConfiguration_says (ft : FloatText K) (creatable : Text → Bool) (dir t u : Text)
    (h : sayings (iniParams t) = sayings (iniParams u)) (s : IniState K) (hs : TemplateKeys s.config) :
    loadConfiguration ft creatable dir (some t) s = loadConfiguration ft creatable dir (some u) s := by
  unfold loadConfiguration
  simp only
  have hk := readInifile_keys ft creatable dir u s
  rw [readInifile_says ft creatable dir t u h s hs]
  cases hr : readInifile ft creatable dir u s with
  | mk s' e =>
    cases e with
    | some e => rfl
    | none =>
      rw [hr] at hk
      exact readInifile_says ft creatable dir t u h s' (hk.trans hs)

variable {S C : Type}

theorem any_dirs (f : Text → Bool) (items : List (Text × Text)) :
    (items.any fun item => decide (lower item.1 = "outputdirectory".toList ∧ f item.2 = true)) = (outputDirs items).any f := by
  induction items with
  | nil => rfl
  | cons it items ih =>
    rw [List.any_cons, ih]
    by_cases hk : lower it.1 = lower "OutputDirectory".toList
    · rw [outputDirs_pos it items hk, List.any_cons]
      refine congrArg (· || _) ?_
      have := hk.trans lower_output
      cases hf : f it.2
      · exact decide_eq_false fun h => by cases h.2
      · exact decide_eq_true ⟨this, rfl⟩
    · rw [outputDirs_neg it items hk, decide_eq_false fun h => hk (h.1.trans lower_output.symm), Bool.false_or]

theorem parentMissing_says (x : Setup K S C) (t u : Text) (h : sayings (iniParams t) = sayings (iniParams u)) :
    parentMissing x t = parentMissing x u := by
  unfold parentMissing
  cases ha : iniParams t with
  | error e =>
    cases hb : iniParams u with
    | error e' => rfl
    | ok b => rw [ha, hb] at h; cases h
  | ok a =>
    cases hb : iniParams u with
    | error e' => rw [ha, hb] at h; cases h
    | ok b =>
      rw [ha, hb] at h
      obtain ⟨_, h2⟩ := Prod.mk.inj (Except.ok.inj h)
      have h2' : ∀ sec k, ((dictGet a sec).bind fun items => dictGet items (lower k)) =
          (dictGet b sec).bind fun items => dictGet items (lower k) := fun sec k => congrFun (congrFun h2 sec) k
      have hd := dirs_supplied t a ha
      rw [h2', ← dirs_supplied u b hb] at hd
      have e : ∀ items : List (Text × Text), (items.any fun item =>
          decide (lower item.1 = "outputdirectory".toList ∧ x.mkdir item.2 = .notFound)) =
          (outputDirs items).any fun d => decide (x.mkdir d = .notFound) := by
        intro items
        rw [← any_dirs]
        refine congrArg (fun f => List.any items f) ?_
        funext item
        exact decide_eq_decide.2 (and_congr_right fun _ => (decide_eq_true_iff).symm)
      simp only
      rw [e, e, hd]

/-! ## Commands -/

/-- Opening a project whose configuration files say the same. -/
theorem openRunner_says (x : Setup K S C) (path : Text) (tv tw : Store) (d : Disk) (r : Text → Store)
    (h : Option.Rel (fun t u => sayings (iniParams t) = sayings (iniParams u)) (tv path) (tw path)) :
    openRunner x path ⟨tv, d, r⟩ =
      ({ (openRunner x path ⟨tw, d, r⟩).1 with texts := tv }, (openRunner x path ⟨tw, d, r⟩).2) := by
  have hload : loadProject x path ⟨tv, d, r⟩ = loadProject x path ⟨tw, d, r⟩ := by
    unfold loadProject
    simp only
    generalize tv path = a at h
    generalize tw path = b at h
    cases h with
    | none => rfl
    | @some t u h =>
      simp only
      rw [loadConfiguration_says x.ft _ _ t u h _ rfl]
  have hpar : parentMissing x ((tv path).getD []) = parentMissing x ((tw path).getD []) := by
    generalize tv path = a at h
    generalize tw path = b at h
    cases h with
    | none => rfl
    | some h => exact parentMissing_says x _ _ h
  unfold openRunner
  rw [hload]
  simp only
  rw [hpar]
  rcases loadProject x path ⟨tw, d, r⟩ with ⟨dir, s, _ | e⟩
  · simp only
    rcases hasOutputDirectory x.ft x.mkdir dir s with e | ⟨_ | _, s'⟩
    · rfl
    · rfl
    · simp only
      cases getOutputDirectory x.ft dir s'.config with
      | error e => rfl
      | ok out =>
        simp only
        split <;> rfl
  · simp only
    split <;> rfl

theorem runProject_texts (x : Setup K S C) (p : Opened K) (overwrite : Bool) (w : World) (tv : Store) :
    runProject x p overwrite { w with texts := tv } =
      ({ (runProject x p overwrite w).1 with texts := tv }, (runProject x p overwrite w).2) := by
  unfold runProject
  rcases p with _ | ⟨dir, c⟩
  · rfl
  · simp only
    cases getOutputDirectory x.ft dir c <;> rfl

theorem compareProject_texts (x : Setup K S C) (p : Opened K) (a b c : Text) (w : World) (tv : Store) :
    compareProject x p a b c { w with texts := tv } =
      ({ (compareProject x p a b c w).1 with texts := tv }, (compareProject x p a b c w).2) := by
  unfold compareProject
  rcases p with _ | ⟨dir, c'⟩
  · rfl
  · simp only
    cases getOutputDirectory x.ft dir c' with
    | error e => rfl
    | ok out =>
      simp only
      split <;> rfl

theorem openRunner_texts (x : Setup K S C) (path : Text) (w : World) : (openRunner x path w).1.texts = w.texts := by
  have := openRunner_says x path w.texts w.texts w.disk w.results (by
    cases w.texts path with
    | none => exact .none
    | some t => exact .some rfl)
  have e : (⟨w.texts, w.disk, w.results⟩ : World) = w := rfl
  rw [e] at this
  exact congrArg (fun q => q.1.texts) this

theorem runProject_keeps (x : Setup K S C) (p : Opened K) (overwrite : Bool) (w : World) :
    (runProject x p overwrite w).1.texts = w.texts :=
  congrArg (fun q => q.1.texts) (runProject_texts x p overwrite w w.texts)

theorem compareProject_keeps' (x : Setup K S C) (p : Opened K) (a b c : Text) (w : World) :
    (compareProject x p a b c w).1.texts = w.texts :=
  congrArg (fun q => q.1.texts) (compareProject_texts x p a b c w w.texts)

/-- A command other than `create`. -/
theorem command_says (x : Setup K S C) (tv tw : Store) (d : Disk) (r : Text → Store)
    (h : ∀ path, Option.Rel (fun t u => sayings (iniParams t) = sayings (iniParams u)) (tv path) (tw path)) (a : Command)
    (ha : ∀ name, a ≠ .create name) :
    command x ⟨tv, d, r⟩ a = ({ (command x ⟨tw, d, r⟩ a).1 with texts := tv }, (command x ⟨tw, d, r⟩ a).2) ∧
      (command x ⟨tw, d, r⟩ a).1.texts = tw := by
  cases a with
  | create name => exact absurd rfl (ha name)
  | check name =>
    show cliCheck x name ⟨tv, d, r⟩ = _ ∧ (cliCheck x name ⟨tw, d, r⟩).1.texts = tw
    rw [command]
    unfold cliCheck
    cases withSuffix ".ini".toList name with
    | error e => exact ⟨rfl, rfl⟩
    | ok path =>
      simp only
      have hk := openRunner_texts x path ⟨tw, d, r⟩
      rw [openRunner_says x path tv tw d r (h path)]
      revert hk
      rcases openRunner x path ⟨tw, d, r⟩ with ⟨w', e | p⟩
      · exact fun hk => ⟨rfl, hk⟩
      · exact fun hk => ⟨rfl, hk⟩
  | run name overwrite post =>
    show cliRun x name overwrite post ⟨tv, d, r⟩ = _ ∧ (cliRun x name overwrite post ⟨tw, d, r⟩).1.texts = tw
    rw [command]
    unfold cliRun
    cases withSuffix ".ini".toList name with
    | error e => exact ⟨rfl, rfl⟩
    | ok path =>
      simp only
      have hk := openRunner_texts x path ⟨tw, d, r⟩
      rw [openRunner_says x path tv tw d r (h path)]
      revert hk
      rcases openRunner x path ⟨tw, d, r⟩ with ⟨w', e | p⟩
      · exact fun hk => ⟨rfl, hk⟩
      · intro hk
        simp only
        have hr := runProject_keeps x p overwrite w'
        rw [runProject_texts x p overwrite w' tv]
        revert hr
        rcases runProject x p overwrite w' with ⟨w'', e | b⟩
        · exact fun hr => ⟨rfl, hr.trans hk⟩
        · intro hr
          simp only
          have hp : postProcess x p { w'' with texts := tv } = postProcess x p w'' := rfl
          rw [hp]
          split
          · cases postProcess x p w'' with
            | none => exact ⟨rfl, hr.trans hk⟩
            | some e => exact ⟨rfl, hr.trans hk⟩
          · exact ⟨rfl, hr.trans hk⟩
  | compare name p1 p2 routes =>
    show cliCompare x name p1 p2 routes ⟨tv, d, r⟩ = _ ∧ (cliCompare x name p1 p2 routes ⟨tw, d, r⟩).1.texts = tw
    rw [command]
    unfold cliCompare
    cases withSuffix ".ini".toList name with
    | error e => exact ⟨rfl, rfl⟩
    | ok path =>
      simp only
      have hk := openRunner_texts x path ⟨tw, d, r⟩
      rw [openRunner_says x path tv tw d r (h path)]
      revert hk
      rcases openRunner x path ⟨tw, d, r⟩ with ⟨w', e | p⟩
      · exact fun hk => ⟨rfl, hk⟩
      · intro hk
        simp only
        have hr := compareProject_keeps' x p p1 p2 routes w'
        rw [compareProject_texts x p p1 p2 routes w' tv]
        revert hr
        rcases compareProject x p p1 p2 routes w' with ⟨w'', e | b⟩
        · exact fun hr => ⟨rfl, hr.trans hk⟩
        · exact fun hr => ⟨rfl, hr.trans hk⟩

end Fm2prof.LayoutProof

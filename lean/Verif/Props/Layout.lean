import Verif.Proofs.Layout
import Verif.Props.Cli

/-!
# The layout of configuration files (C188)

Comments, blank lines, and the order of sections and lines have no influence on what commands do. The layouts of a text are given by
`Relayout` of `Spec/Layout.lean`.
-/

set_option linter.unusedSectionVars false

namespace Fm2prof.Props

open Spec LayoutProof

variable {K : Type} [Field K] [LinearOrder K] [IsStrictOrderedRing K] [FloorRing K]

private theorem relayout_sayings {t u : Text} (h : Relayout t u) : sayings (iniParams t) = sayings (iniParams u) := by
  induction h with
  | refl => rfl
  | symm _ ih => exact ih.symm
  | trans _ _ ih1 ih2 => exact ih1.trans ih2
  | comment before c after hb hc h => rw [params_comment before c after hb hc h]
  | blank before b after hl hn hb => rw [params_blank before b after hl hn hb]
  | order f g hf hg h =>
    rw [iniParams_file f hf, iniParams_file g hg]
    have e : ∀ k : FileContent, ∀ n : Text, (dictGet (contentOf k) n).isSome = decide (∃ s ∈ k, lower s.1 = n) := by
      intro k n
      refine Bool.eq_iff_iff.2 ?_
      rw [decide_eq_true_iff, dictGet_isSome]
      unfold contentOf
      rw [List.map_map, List.mem_map]
      rfl
    have h1 : (fun n => (dictGet (contentOf f) n).isSome) = fun n => (dictGet (contentOf g) n).isSome := by
      funext n
      rw [e, e]
      exact decide_eq_decide.2 (h.1 n)
    have h2 : (fun sec k => (dictGet (contentOf f) sec).bind fun items => dictGet items (lower k)) =
        fun sec k => (dictGet (contentOf g) sec).bind fun items => dictGet items (lower k) := by
      funext sec k
      rw [contentOf_value, contentOf_value]
      exact C40_order f g hf hg h.2 sec k
    exact congrArg Except.ok (Prod.ext h1 h2)

/-- **C188, loading.** Loading a configuration file gives the same values, the same exception and the same directories for any layout of
it. -/
theorem C188_load (ft : FloatText K) (creatable : Text → Bool) (dir t u : Text) (h : Relayout t u) (s : IniState K)
    (hs : keysOf s.config = keysOf (template (K := K))) :
    loadConfiguration ft creatable dir (some t) s = loadConfiguration ft creatable dir (some u) s :=
  loadConfiguration_says ft creatable dir t u (relayout_sayings h) s hs

private theorem rel_sayings {a b : Option Text} (h : Option.Rel Relayout a b) :
    Option.Rel (fun t u => sayings (iniParams t) = sayings (iniParams u)) a b := by
  cases h with
  | none => exact .none
  | some h => exact .some (relayout_sayings h)

private theorem rel_refl (a : Option Text) : Option.Rel Relayout a a := by
  cases a with
  | none => exact .none
  | some t => exact .some (.refl t)

/-- **C188, commands.** A command ends with the same exit status and leaves the same files behind, whatever the layout of the
configuration files; those stay as they were laid out. -/
theorem C188_command {S C : Type} (x : Setup K S C) (v w : World) (h : SameButLayout v w) (a : Command) :
    (command x v a).2 = (command x w a).2 ∧ SameButLayout (command x v a).1 (command x w a).1 ∧
      ((∀ name, a ≠ .create name) → (command x v a).1.texts = v.texts) := by
  obtain ⟨tv, d, r⟩ := v
  obtain ⟨tw, d', r'⟩ := w
  obtain ⟨h1, h2, h3⟩ := h
  obtain rfl : d = d' := h1
  obtain rfl : r = r' := h2
  have h3' : ∀ path, Option.Rel Relayout (tv path) (tw path) := h3
  by_cases ha : ∀ name, a ≠ .create name
  · obtain ⟨e, k⟩ := command_says x tv tw d r (fun path => rel_sayings (h3' path)) a ha
    rw [e]
    refine ⟨rfl, ⟨rfl, rfl, ?_⟩, fun _ => rfl⟩
    intro path
    rw [k]
    exact h3' path
  · push Not at ha
    obtain ⟨name, rfl⟩ := ha
    show (cliCreate x name ⟨tv, d, r⟩).2 = (cliCreate x name ⟨tw, d, r⟩).2 ∧
      SameButLayout (cliCreate x name ⟨tv, d, r⟩).1 (cliCreate x name ⟨tw, d, r⟩).1 ∧ _
    refine ⟨?_, ?_, fun h => absurd rfl (h name)⟩
    · unfold cliCreate
      simp only
      split <;> rfl
    · unfold cliCreate
      simp only
      split
      · refine ⟨rfl, rfl, fun path => ?_⟩
        show Option.Rel Relayout (tv.set _ _ path) (tw.set _ _ path)
        unfold Store.set
        split
        · exact .some (.refl _)
        · exact h3' path
      · exact ⟨rfl, rfl, h3'⟩

/-- **C188, histories.** The same for any number of commands. -/
theorem C188_commands {S C : Type} (x : Setup K S C) (v w : World) (h : SameButLayout v w) (cs : List Command) :
    SameButLayout (commands x cs v) (commands x cs w) := by
  induction cs generalizing v w with
  | nil => exact h
  | cons a cs ih => exact ih _ _ (C188_command x v w h a).2.1

/-! ## The hypotheses are met -/

/-- The sections of `projectContent` the other way around. -/
def turnedContent : FileContent :=
  [("Output".toList, [("OutputDirectory".toList, " out".toList)]), ("parameters".toList, [("SkipMaps".toList, " 7".toList)]),
    ("INPUT".toList, [("CrossSectionLocationFile".toList, " loc.txt".toList), ("2DMapOutput ".toList, " map.nc".toList)])]

theorem turnedContent_plain : PlainFile turnedContent := by
  have key : ∀ t : Text, (t ≠ [] ∧ (t.headD '#' ≠ '#' ∧ isSpace (t.headD '#') = false ∧ t.headD '#' ≠ ';' ∧
      t.headD '#' ≠ '[') ∧ '=' ∉ t ∧ ':' ∉ t ∧ '\n' ∉ t) → PlainKey t := by
    intro t ⟨h1, h2, h3⟩
    refine ⟨h1, ?_, h3⟩
    intro c hc
    cases t with
    | nil => cases hc
    | cons d l =>
      cases hc
      exact ⟨h2.2.1, h2.1, h2.2.2⟩
  refine ⟨by decide +kernel, by decide +kernel, ?_⟩
  have hall : ∀ s ∈ turnedContent, (s.2.map fun i => lower (rstrip i.1)).Nodup ∧ ∀ i ∈ s.2,
      (i.1 ≠ [] ∧ (i.1.headD '#' ≠ '#' ∧ isSpace (i.1.headD '#') = false ∧ i.1.headD '#' ≠ ';' ∧
        i.1.headD '#' ≠ '[') ∧ '=' ∉ i.1 ∧ ':' ∉ i.1 ∧ '\n' ∉ i.1) ∧ '\n' ∉ i.2 ∧ '%' ∉ i.2 := by decide +kernel
  exact fun s hs => ⟨(hall s hs).1, fun i hi => ⟨key _ ((hall s hs).2 i hi).1, ((hall s hs).2 i hi).2⟩⟩

theorem turned_same : SameLines projectContent turnedContent := by
  constructor
  · intro n
    have e : ∀ f : FileContent, (∃ s ∈ f, lower s.1 = n) ↔ n ∈ f.map fun s => lower s.1 := by
      intro f; rw [List.mem_map]
    rw [e, e]
    have h1 : ∀ n ∈ projectContent.map (fun s => lower s.1), n ∈ turnedContent.map fun s => lower s.1 := by decide +kernel
    have h2 : ∀ n ∈ turnedContent.map (fun s => lower s.1), n ∈ projectContent.map fun s => lower s.1 := by decide +kernel
    exact ⟨h1 n, h2 n⟩
  · intro n i
    have e : ∀ f : FileContent, (∃ s ∈ f, lower s.1 = n ∧ i ∈ s.2) ↔
        (n, i) ∈ (f.map fun s => s.2.map fun i => (lower s.1, i)).flatten := by
      intro f
      rw [List.mem_flatten]
      constructor
      · rintro ⟨s, hs, rfl, hi⟩
        exact ⟨_, List.mem_map.2 ⟨s, hs, rfl⟩, List.mem_map.2 ⟨i, hi, rfl⟩⟩
      · rintro ⟨l, hl, hi⟩
        obtain ⟨s, hs, rfl⟩ := List.mem_map.1 hl
        obtain ⟨j, hj, e⟩ := List.mem_map.1 hi
        obtain ⟨rfl, rfl⟩ := Prod.mk.inj e
        exact ⟨s, hs, rfl, hj⟩
    rw [e, e]
    have h1 : ∀ p ∈ (projectContent.map fun s => s.2.map fun i => (lower s.1, i)).flatten,
      p ∈ (turnedContent.map fun s => s.2.map fun i => (lower s.1, i)).flatten := by decide +kernel
    have h2 : ∀ p ∈ (turnedContent.map fun s => s.2.map fun i => (lower s.1, i)).flatten,
      p ∈ (projectContent.map fun s => s.2.map fun i => (lower s.1, i)).flatten := by decide +kernel
    exact ⟨h1 _, h2 _⟩

/-- The same with the sections the other way around, two comments and a blank line. -/
def laidOut : Text :=
  "# My project\n[Output]\nOutputDirectory= out\n   \n\n[parameters]\nSkipMaps= 7\n\n   ; in\n[INPUT]\nCrossSectionLocationFile= loc.txt\n2DMapOutput = map.nc\n\n".toList

instance (l : Text) : Decidable (IsComment l) := inferInstanceAs (Decidable (_ ∨ _))
instance (l : Text) : Decidable (IsBlank l) := inferInstanceAs (Decidable (∀ c ∈ l, isSpace c = true))

/-- Lines at the margin. -/
private theorem margin_of (l : Text) (h : IsComment l ∨ IsBlank l ∨ isSpace (l.headD 'x') = false) : AtMargin l := by
  refine h.imp id (Or.imp id fun h c hc => ?_)
  cases l with
  | nil => cases hc
  | cons d l =>
    cases hc
    exact h

private theorem comment_first (c rest : Text) (hn : '\n' ∉ c) (hc : IsComment c) : Relayout rest (unlines ([] ++ [c]) ++ rest) :=
  Relayout.comment [] c rest (fun _ h => by cases h) hn hc

theorem laidOut_same : Relayout (fileText projectContent) laidOut := by
  refine .trans (.order _ _ projectContent_plain turnedContent_plain turned_same) ?_
  have e0 : fileText turnedContent = unlines (["[Output]".toList, "OutputDirectory= out".toList] ++
      ["".toList, "[parameters]".toList, "SkipMaps= 7".toList, "".toList, "[INPUT]".toList, "CrossSectionLocationFile= loc.txt".toList,
        "2DMapOutput = map.nc".toList, "".toList]) := by decide +kernel
  rw [e0]
  refine .trans (.blank _ "   ".toList _ ?_ (by decide +kernel) (by decide +kernel)) ?_
  · have h : ∀ l ∈ (["[Output]".toList, "OutputDirectory= out".toList] ++
      ["".toList, "[parameters]".toList, "SkipMaps= 7".toList, "".toList, "[INPUT]".toList, "CrossSectionLocationFile= loc.txt".toList,
        "2DMapOutput = map.nc".toList, "".toList] : List Text), '\n' ∉ l ∧ (IsComment l ∨ IsBlank l ∨ isSpace (l.headD 'x') = false) := by
      decide +kernel
    exact fun l hl => ⟨(h l hl).1, margin_of l (h l hl).2⟩
  refine .trans (u := "[Output]\nOutputDirectory= out\n   \n\n[parameters]\nSkipMaps= 7\n\n   ; in\n[INPUT]\nCrossSectionLocationFile= loc.txt\n2DMapOutput = map.nc\n\n".toList) ?_ ?_
  · have e1 : unlines (["[Output]".toList, "OutputDirectory= out".toList] ++ "   ".toList ::
        ["".toList, "[parameters]".toList, "SkipMaps= 7".toList, "".toList, "[INPUT]".toList, "CrossSectionLocationFile= loc.txt".toList,
          "2DMapOutput = map.nc".toList, "".toList]) =
        unlines ["[Output]".toList, "OutputDirectory= out".toList, "   ".toList, "".toList, "[parameters]".toList, "SkipMaps= 7".toList,
          "".toList] ++ "[INPUT]\nCrossSectionLocationFile= loc.txt\n2DMapOutput = map.nc\n\n".toList := by decide +kernel
    have e2 : "[Output]\nOutputDirectory= out\n   \n\n[parameters]\nSkipMaps= 7\n\n   ; in\n[INPUT]\nCrossSectionLocationFile= loc.txt\n2DMapOutput = map.nc\n\n".toList =
        unlines (["[Output]".toList, "OutputDirectory= out".toList, "   ".toList, "".toList, "[parameters]".toList, "SkipMaps= 7".toList,
          "".toList] ++ ["   ; in".toList]) ++ "[INPUT]\nCrossSectionLocationFile= loc.txt\n2DMapOutput = map.nc\n\n".toList := by decide +kernel
    rw [e1, e2]
    exact .comment _ _ _ (by decide +kernel) (by decide +kernel) (by decide +kernel)
  · have e3 : laidOut = unlines ([] ++ ["# My project".toList]) ++
        "[Output]\nOutputDirectory= out\n   \n\n[parameters]\nSkipMaps= 7\n\n   ; in\n[INPUT]\nCrossSectionLocationFile= loc.txt\n2DMapOutput = map.nc\n\n".toList := by
      decide +kernel
    rw [e3]
    exact comment_first _ _ (by decide +kernel) (by decide +kernel)

/-- The project `rhine` of `sampleWorld` with this layout. -/
def laidOutWorld : World := { sampleWorld with
  texts := fun p => if p = "p/rhine.ini".toList then some laidOut
    else if p = "p/bad.ini".toList then some "rhine\n[input]\n".toList else none }

/-- The hypotheses of `C188_load`, `C188_command` and `C188_commands` are met; the layout is read, and a run starts. -/
example : Relayout (fileText projectContent) laidOut ∧ SameButLayout sampleWorld laidOutWorld ∧ fileText projectContent ≠ laidOut ∧
    ((loadConfiguration (decimalText ℚ) (fun _ => true) "p".toList (some laidOut) ⟨template, sampleWorld.disk⟩).2 = none) ∧
    (command sampleSetup laidOutWorld (.run "p/rhine".toList true false)).2 = 0 := by
  refine ⟨laidOut_same, ⟨rfl, rfl, fun path => ?_⟩, by decide +kernel, by decide +kernel, by decide +kernel⟩
  show Option.Rel Relayout (if path = "p/rhine.ini".toList then some (fileText projectContent) else _) (if path = _ then some laidOut else _)
  by_cases h1 : path = "p/rhine.ini".toList
  · rw [if_pos h1, if_pos h1]; exact .some laidOut_same
  · rw [if_neg h1, if_neg h1]; exact rel_refl _

/-- A blank line where a line continues the one above is part of the value, and an indented line is no line of its own. -/
example : (iniParams "[input]\na = 1\n 2\n".toList).toOption = some [("input".toList, [("a".toList, "1\n2".toList)])] ∧
    (iniParams "[input]\na = 1\n\n 2\n".toList).toOption = some [("input".toList, [("a".toList, "1\n\n2".toList)])] ∧
    (iniParams "[input]\na = 1\n b = 2\n".toList).toOption = some [("input".toList, [("a".toList, "1\nb = 2".toList)])] :=
  ⟨by decide +kernel, by decide +kernel, by decide +kernel⟩

end Fm2prof.Props

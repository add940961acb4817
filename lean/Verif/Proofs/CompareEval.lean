import Verif.Spec.CompareCommand
import Verif.Props.Longitudinal
import Verif.Proofs.CompareFiles

/-! Helper lemmas: what the figures of an evaluation show. -/

set_option linter.unusedSectionVars false

namespace Fm2prof

open Spec Props

variable {K : Type} [Field K] [LinearOrder K] [IsStrictOrderedRing K] [FloorRing K] {S C : Type}

theorem content_some (o : ArgSort K) (parse : Text → Option K) (c c' : Comparison K) (k : FigureKind)
    (h : figureContent o parse c k = (c', .ok none)) : ∃ r, k = .ratingCurve r := by
  unfold figureContent at h
  cases k with
  | ratingCurve r => exact ⟨r, rfl⟩
  | longitudinal r st => simp only at h; split at h <;> cases h
  | heatTime r => simp only at h; split at h <;> cases h
  | heatRating r => cases h
  | station n f => simp only at h; split at h <;> cases h
  | discharge st t => simp only at h; split at h <;> cases h

/-- An invariant of figures one after the other, and what holds of the contents that are left in the files. -/
theorem saveKinds_shows (o : ArgSort K) (parse : Text → Option K) (image : FigureContent K → Text) (I : Comparison K → Prop)
    (P : FigureKind → Option (FigureContent K) → Prop) (ks : List FigureKind)
    (hstep : ∀ k ∈ ks, ∀ c, I c → ∀ c' r, figureContent o parse c k = (c', .ok r) → I c' ∧ P k r)
    (c : Comparison K) (dir : Store) (hI : I c) (h : (saveKinds o parse image ks c dir).2.2 = .ok ()) :
    I (saveKinds o parse image ks c dir).1 ∧ ∀ file,
      (∃ k ∈ ks, ∃ f, figureKindFile k = file ∧ P k (some f) ∧ (saveKinds o parse image ks c dir).2.1 file = some (image f)) ∨
      ((saveKinds o parse image ks c dir).2.1 file = dir file ∧
        ∀ k ∈ ks, figureKindFile k = file → (∃ r, k = .ratingCurve r) ∧ P k none) := by
  induction ks generalizing c dir with
  | nil => exact ⟨hI, fun file => .inr ⟨rfl, fun _ hk => (by cases hk)⟩⟩
  | cons a ks ih =>
    have hstep' : ∀ k ∈ ks, ∀ c, I c → ∀ c' r, figureContent o parse c k = (c', .ok r) → I c' ∧ P k r :=
      fun k hk => hstep k (List.mem_cons_of_mem _ hk)
    rcases hc : figureContent o parse c a with ⟨c1, e | r⟩
    · exfalso
      unfold saveKinds saveKind at h
      rw [hc] at h
      cases h
    · obtain ⟨hI1, hP⟩ := hstep a List.mem_cons_self c hI c1 r hc
      cases r with
      | none =>
        obtain ⟨route, rfl⟩ := content_some o parse c c1 a hc
        have e : saveKinds o parse image (.ratingCurve route :: ks) c dir = saveKinds o parse image ks c1 dir := by
          conv_lhs => unfold saveKinds saveKind
          rw [hc]
        rw [e] at h ⊢
        obtain ⟨j1, j2⟩ := ih hstep' c1 dir hI1 h
        refine ⟨j1, fun file => ?_⟩
        rcases j2 file with ⟨k, hk, f, h1, h2, h3⟩ | ⟨h1, h2⟩
        · exact .inl ⟨k, List.mem_cons_of_mem _ hk, f, h1, h2, h3⟩
        · refine .inr ⟨h1, fun k hk hf => ?_⟩
          rcases List.mem_cons.1 hk with rfl | hk
          · exact ⟨⟨route, rfl⟩, hP⟩
          · exact h2 k hk hf
      | some f =>
        have e : saveKinds o parse image (a :: ks) c dir = saveKinds o parse image ks c1 (dir.set (figureKindFile a) (image f)) := by
          conv_lhs => unfold saveKinds saveKind
          rw [hc]
        rw [e] at h ⊢
        obtain ⟨j1, j2⟩ := ih hstep' c1 _ hI1 h
        refine ⟨j1, fun file => ?_⟩
        rcases j2 file with ⟨k, hk, f, h1, h2, h3⟩ | ⟨h1, h2⟩
        · exact .inl ⟨k, List.mem_cons_of_mem _ hk, f, h1, h2, h3⟩
        · by_cases hf : figureKindFile a = file
          · refine .inl ⟨a, List.mem_cons_self, f, hf, hP, ?_⟩
            rw [h1, ← hf]
            exact store_set_same _ _ _
          · refine .inr ⟨h1.trans (store_set_other _ _ _ _ (Ne.symm hf)), fun k hk hkf => ?_⟩
            rcases List.mem_cons.1 hk with rfl | hk
            · exact absurd hkf hf
            · exact h2 k hk hkf

theorem saveKinds_append (o : ArgSort K) (parse : Text → Option K) (image : FigureContent K → Text) (ks ks' : List FigureKind)
    (c : Comparison K) (dir : Store) (h : (saveKinds o parse image (ks ++ ks') c dir).2.2 = .ok ()) :
    (saveKinds o parse image ks c dir).2.2 = .ok () ∧ saveKinds o parse image (ks ++ ks') c dir =
      saveKinds o parse image ks' (saveKinds o parse image ks c dir).1 (saveKinds o parse image ks c dir).2.1 := by
  induction ks generalizing c dir with
  | nil => exact ⟨rfl, rfl⟩
  | cons a ks ih =>
    rw [List.cons_append] at h ⊢
    rcases hs : saveKind o parse image c dir a with ⟨c1, d1, e | u⟩
    · unfold saveKinds at h
      rw [hs] at h
      cases h
    · have e : ∀ l, saveKinds o parse image (a :: l) c dir = saveKinds o parse image l c1 d1 := by
        intro l
        conv_lhs => unfold saveKinds
        rw [hs]
      rw [e] at h
      rw [e, e]
      exact ih c1 d1 h

theorem figureLongitudinal_session (o : ArgSort K) (parse : Text → Option K) (s s' : Session K) (route : List Text) (stat : Text)
    (f : LongFigure K) (h : figureLongitudinal o parse s route stat = (s', .ok f)) :
    s' = { s with window := (windowed s.window s.h1).1 } := by
  unfold figureLongitudinal at h
  split at h
  · cases h
  · simp only at h
    rcases hw : windowed s.window s.h1 with ⟨w, e | one⟩
    · rw [hw] at h
      cases h
    · rw [hw] at h
      simp only at h
      split at h
      · cases h
      · exact (congrArg Prod.fst h).symm

theorem computeStatistics_set (parse : Text → Option K) (a b : Int) (h1 h2 : Frame K) :
    (computeStatistics parse ⟨some a, some b⟩ h1 h2).1 = ⟨some a, some b⟩ := by
  unfold computeStatistics
  have k1 := windowed_set a b h1
  rcases e1 : windowed ⟨some a, some b⟩ h1 with ⟨w, e | one⟩
  · rw [e1] at k1
    exact k1
  · rw [e1] at k1
    simp only at k1 ⊢
    subst k1
    have k2 := windowed_set a b h2
    rcases e2 : windowed ⟨some a, some b⟩ h2 with ⟨w, e | two⟩
    · rw [e2] at k2
      exact k2
    · rw [e2] at k2
      exact k2

/-- The levels of both models, and the times that are shown. -/
structure Shown (parse : Text → Option K) (h1 h2 : Frame K) (x y start stop : Int) (c : Comparison K) : Prop where
  one : c.session.h1 = h1
  two : c.session.h2 = h2
  begins : start = c.session.window.start.getD x
  ends : stop = c.session.window.stop.getD y
  statistics : ∀ st, c.session.statistics = some st → (computeStatistics parse ⟨some start, some stop⟩ h1 h2).2 = .ok st

theorem getStatistics_same (parse : Text → Option K) (h1 h2 : Frame K) (start stop : Int) (st : Option (List (StatRow K)))
    (hst : ∀ t, st = some t → (computeStatistics parse ⟨some start, some stop⟩ h1 h2).2 = .ok t) (n : Text) :
    (getStatistics parse ⟨h1, h2, ⟨some start, some stop⟩, st⟩ n).2 =
      (getStatistics parse ⟨h1, h2, ⟨some start, some stop⟩, none⟩ n).2 ∧
    (getStatistics parse ⟨h1, h2, ⟨some start, some stop⟩, st⟩ n).1.h1 = h1 ∧
    (getStatistics parse ⟨h1, h2, ⟨some start, some stop⟩, st⟩ n).1.h2 = h2 ∧
    (getStatistics parse ⟨h1, h2, ⟨some start, some stop⟩, st⟩ n).1.window = ⟨some start, some stop⟩ ∧
    ∀ t, (getStatistics parse ⟨h1, h2, ⟨some start, some stop⟩, st⟩ n).1.statistics = some t →
      (computeStatistics parse ⟨some start, some stop⟩ h1 h2).2 = .ok t := by
  have hw := computeStatistics_set parse start stop h1 h2
  rcases hc : computeStatistics parse ⟨some start, some stop⟩ h1 h2 with ⟨w, e | t⟩
  · rw [hc] at hw hst
    cases st with
    | some t => cases hst t rfl
    | none =>
      unfold getStatistics
      simp only
      rw [hc]
      exact ⟨by trivial, by trivial, by trivial, hw, fun t ht => (by cases ht)⟩
  · rw [hc] at hw hst
    cases st with
    | some t' =>
      obtain rfl := Except.ok.inj (hst t' rfl)
      unfold getStatistics
      simp only
      rw [hc]
      exact ⟨by trivial, by trivial, by trivial, by trivial, fun t' ht => by rw [Option.some.inj ht]⟩
    | none =>
      unfold getStatistics
      simp only
      rw [hc]
      exact ⟨by trivial, by trivial, by trivial, hw, fun t' ht => by rw [Option.some.inj ht]⟩

theorem stationCurves_window (c : Comparison K) (n : Text) (t2 : List Int) (x2 y2 start stop : Int)
    (ht : c.session.h2.index = .times t2) (hl : c.session.h2.rows.length = t2.length) (hx2 : t2.head? = some x2)
    (hy2 : t2.getLast? = some y2) (hstart : start = c.session.window.start.getD x2) (hstop : stop = c.session.window.stop.getD y2)
    (ho : start < stop) (hy2' : start < y2) (hx2' : x2 < stop) :
    (stationCurves c n "time".toList).1 = ⟨some start, some stop⟩ := by
  obtain ⟨two, e2⟩ := windowed_ok c.session.window t2 c.session.h2 x2 y2 ht hl hx2 hy2 (hstart ▸ hstop ▸ ho) (hstart ▸ hy2')
    (hstop ▸ hx2')
  rw [← hstart, ← hstop] at e2
  have hfunc : lower "time".toList = "time".toList := by decide
  have k := windowed_set start stop c.session.h1
  unfold stationCurves
  simp only
  rw [if_neg (by rw [hfunc]; decide), if_pos hfunc, e2]
  simp only
  split
  · rfl
  · rcases e1 : windowed ⟨some start, some stop⟩ c.session.h1 with ⟨w, e | one⟩
    · rw [e1] at k
      exact k
    · rw [e1] at k
      simp only
      split <;> exact k

/-- The figure of a station, after those of other stations. -/
theorem station_step (parse : Text → Option K) (h1 h2 : Frame K) (t1 t2 : List Int) (x y x2 y2 start stop : Int)
    (hs : SameStations t1 t2 h1 h2) (ov : Overlap t1 t2 x y x2 y2) (ho : start < stop) (hy' : start < y) (hx' : x < stop)
    (hy2' : start < y2) (hx2' : x2 < stop) (n : Text) (hn : n ∈ h1.columns) (c c' : Comparison K)
    (hI : Shown parse h1 h2 x2 y2 start stop c) (f : StationFigure K) (h : figureStation parse c n "time".toList = (c', .ok f)) :
    Shown parse h1 h2 x2 y2 start stop c' ∧ ShowsStation parse t1 t2 h1 h2 start stop n f := by
  obtain ⟨⟨f1, f2, win, st⟩, q1, q2, r1, r2, routes⟩ := c
  obtain ⟨hone, htwo, hb, he, hst⟩ := hI
  simp only at hone htwo hb he hst
  subst hone htwo
  have hw := stationCurves_window ⟨⟨f1, f2, win, st⟩, q1, q2, r1, r2, routes⟩ n t2 x2 y2 start stop hs.times2 hs.rows2 ov.first2 ov.last2
    hb he ho hy2' hx2'
  obtain ⟨f0, times, g1, g2, g3, g4, g5, g6⟩ := C161_time_partial parse ⟨⟨f1, f2, win, none⟩, q1, q2, r1, r2, routes⟩ n "time".toList
    (by decide) t1 t2 x y x2 y2 hs hn ov.first1 ov.last1 ov.first2 ov.last2 start stop hb he ho hy' hx' hy2' hx2' rfl
  have e0 : stationCurves ⟨⟨f1, f2, win, none⟩, q1, q2, r1, r2, routes⟩ n "time".toList =
    stationCurves ⟨⟨f1, f2, win, st⟩, q1, q2, r1, r2, routes⟩ n "time".toList := rfl
  unfold figureStation at h g1
  rw [e0] at g1
  rcases hc : stationCurves ⟨⟨f1, f2, win, st⟩, q1, q2, r1, r2, routes⟩ n "time".toList with ⟨w, e | curves⟩
  · rw [hc] at h
    cases h
  · rw [hc] at h g1 hw
    simp only at h g1 hw
    subst hw
    obtain ⟨k1, k2, k3, k4, k5⟩ := getStatistics_same parse f1 f2 start stop st hst n
    rcases hg : getStatistics parse ⟨f1, f2, ⟨some start, some stop⟩, st⟩ n with ⟨s', e | r⟩
    · rw [hg] at h
      cases h
    · rw [hg] at h k1 k2 k3 k4 k5
      rcases hg0 : getStatistics parse ⟨f1, f2, ⟨some start, some stop⟩, none⟩ n with ⟨s0, e | r0⟩
      · rw [hg0] at g1
        cases g1
      · rw [hg0] at g1 k1
        simp only at h g1 k1 k2 k3 k4 k5
        obtain rfl := Except.ok.inj k1
        have hf : f = f0 := by
          rw [← Except.ok.inj g1]
          exact (Except.ok.inj (congrArg Prod.snd h)).symm
        have hc' := (congrArg Prod.fst h).symm
        simp only at hc'
        subst hf hc'
        refine ⟨⟨k2, k3, ?_, ?_, k5⟩, ⟨times, g2, g3, g4⟩, g5, g6⟩
        · rw [k4]; rfl
        · rw [k4]; rfl

theorem within_period (t1 : List Int) (x y : Int) (hsort : t1.Pairwise (· < ·)) (h1 : t1.head? = some x) (h2 : t1.getLast? = some y)
    (t : Int) (ht : t ∈ t1) : x ≤ t ∧ t ≤ y := by
  constructor
  · obtain ⟨l, hl⟩ : ∃ l, t1 = x :: l := by
      cases ht1 : t1 with
      | nil => rw [ht1] at ht; cases ht
      | cons a l =>
        rw [ht1] at h1
        exact ⟨l, by rw [Option.some.inj h1]⟩
    rw [hl] at hsort ht
    rcases List.mem_cons.1 ht with e | e
    · exact e.ge
    · exact ((List.pairwise_cons.1 hsort).1 t e).le
  · obtain ⟨l, hl⟩ := List.getLast?_eq_some_iff.1 h2
    rw [hl] at hsort ht
    rcases List.mem_append.1 ht with e | e
    · exact ((List.pairwise_append.1 hsort).2.2 t e y List.mem_cons_self).le
    · rw [List.mem_singleton.1 e]

/-- The figure along a route, after others. -/
theorem route_step (o : ArgSort K) (parse : Text → Option K) (h1 h2 : Frame K) (t1 t2 : List Int) (x y x2 y2 : Int)
    (hs : SameStations t1 t2 h1 h2) (ov : Overlap t1 t2 x y x2 y2) (hm : ∃ t ∈ t2, x ≤ t ∧ t ≤ y) (h6 : 6 * 86400 ≤ y - x)
    (route : List Text) (s s' : Session K) (hone : s.h1 = h1) (htwo : s.h2 = h2) (hb : x = s.window.start.getD x)
    (he : y = s.window.stop.getD y) (f : LongFigure K) (h : figureLongitudinal o parse s route "time".toList = (s', .ok f)) :
    s' = { s with window := ⟨some x, some y⟩ } ∧ ShowsRoute o parse t1 t2 h1 h2 route x y f := by
  subst hone htwo
  have hall : ∀ t ∈ t1, x ≤ t ∧ t ≤ y := fun t ht => within_period t1 x y hs.increasing1 ov.first1 ov.last1 t ht
  have hfilter : (t1.filter fun t => decide (x ≤ t ∧ t ≤ y)) = t1 := List.filter_eq_self.2 fun t ht => decide_eq_true (hall t ht)
  obtain ⟨f0, ms, g1, g2, g3⟩ := C155_lines_partial o parse s route t1 t2 x y x2 y2 hs ov.first1 ov.last1 ov.first2 ov.last2 x y hb he
    ov.long1 ov.long1 ov.long1 ov.before ov.after hm x y (by rw [hfilter]; exact ov.first1) (by rw [hfilter]; exact ov.last1) h6
  rw [h] at g1
  obtain rfl := Except.ok.inj g1
  refine ⟨?_, ms, g2, g3.imp fun _ _ hh => ⟨hh.1, hh.2.1, hh.2.2.1⟩⟩
  obtain ⟨one, e1⟩ := windowed_ok s.window t1 s.h1 x y hs.times1 hs.rows1 ov.first1 ov.last1 (hb ▸ he ▸ ov.long1) (hb ▸ ov.long1)
    (he ▸ ov.long1)
  rw [figureLongitudinal_session o parse s s' route _ f h, e1, ← hb, ← he]

/-- The state of a comparison while the figures of routes are made. -/
structure Routing (h1 h2 : Frame K) (r1 r2 : Rating K) (x y : Int) (c : Comparison K) : Prop where
  one : c.session.h1 = h1
  two : c.session.h2 = h2
  curve1 : c.r1 = r1
  curve2 : c.r2 = r2
  begins : x = c.session.window.start.getD x
  ends : y = c.session.window.stop.getD y
  statistics : c.session.statistics = none

/-- What a figure of a route shows. -/
def RouteContent (o : ArgSort K) (parse : Text → Option K) (t1 t2 : List Int) (h1 h2 : Frame K) (r1 r2 : Rating K) (x y : Int) :
    FigureKind → Option (FigureContent K) → Prop
  | .longitudinal route _, f => ∃ g, f = some (.long g) ∧ ShowsRoute o parse t1 t2 h1 h2 route x y g
  | .heatTime route, f => ∃ g, f = some (.heatTime g) ∧ ShowsDifferences o parse t1 t2 h1 h2 route g
  | .heatRating route, f => f = some (.heatRating (heatMapRating o parse h1.columns r1 r2 route))
  | .ratingCurve route, f => ∃ g, f = g.map .rating ∧ figureRating o parse h1.columns r1 r2 route = .ok g
  | _, _ => True

theorem mem_routeKinds (k : FigureKind) (rs : List (List Text)) (hk : k ∈ rs.flatMap routeKinds) :
    ∃ route ∈ rs, k = .ratingCurve route ∨ k = .longitudinal route "time".toList ∨ k = .heatRating route ∨ k = .heatTime route := by
  obtain ⟨route, hr, hk⟩ := List.mem_flatMap.1 hk
  refine ⟨route, hr, ?_⟩
  unfold routeKinds at hk
  rcases List.mem_cons.1 hk with h | hk
  · exact .inl h
  rcases List.mem_cons.1 hk with h | hk
  · exact .inr (.inl h)
  rcases List.mem_cons.1 hk with h | hk
  · exact .inr (.inr (.inl h))
  · exact .inr (.inr (.inr (List.mem_singleton.1 hk)))

theorem routing_step (o : ArgSort K) (parse : Text → Option K) (h1 h2 : Frame K) (r1 r2 : Rating K) (t1 t2 : List Int)
    (x y x2 y2 : Int) (hs : SameStations t1 t2 h1 h2) (ov : Overlap t1 t2 x y x2 y2) (hm : ∃ t ∈ t2, x ≤ t ∧ t ≤ y)
    (h6 : 6 * 86400 ≤ y - x) (rs : List (List Text)) (k : FigureKind) (hk : k ∈ rs.flatMap routeKinds) (c : Comparison K)
    (hI : Routing h1 h2 r1 r2 x y c) (c' : Comparison K) (r : Option (FigureContent K))
    (h : figureContent o parse c k = (c', .ok r)) :
    Routing h1 h2 r1 r2 x y c' ∧ RouteContent o parse t1 t2 h1 h2 r1 r2 x y k r := by
  obtain ⟨i1, i2, i3, i4, i5, i6, i7⟩ := hI
  obtain ⟨route, -, rfl | rfl | rfl | rfl⟩ := mem_routeKinds k rs hk
  · unfold figureContent at h
    simp only at h
    rw [i2, i3, i4, hs.stations] at h
    rcases hf : figureRating o parse h1.columns r1 r2 route with e | f
    · rw [hf] at h
      cases h
    · rw [hf] at h
      cases f with
      | none =>
        have hc' := (congrArg Prod.fst h).symm
        simp only at hc'
        subst hc'
        exact ⟨⟨i1, i2, i3, i4, i5, i6, i7⟩, none, (Except.ok.inj (congrArg Prod.snd h)).symm, hf⟩
      | some f =>
        have hc' := (congrArg Prod.fst h).symm
        simp only at hc'
        subst hc'
        exact ⟨⟨i1, i2, i3, i4, i5, i6, i7⟩, some f, (Except.ok.inj (congrArg Prod.snd h)).symm, hf⟩
  · unfold figureContent at h
    simp only at h
    rcases hf : figureLongitudinal o parse c.session route "time".toList with ⟨s', e | f⟩
    · rw [hf] at h
      cases h
    · rw [hf] at h
      obtain ⟨rfl, hshow⟩ := route_step o parse h1 h2 t1 t2 x y x2 y2 hs ov hm h6 route c.session s' i1 i2 i5 i6 f hf
      have hc' := (congrArg Prod.fst h).symm
      simp only at hc'
      subst hc'
      exact ⟨⟨i1, i2, i3, i4, rfl, rfl, i7⟩, f, (Except.ok.inj (congrArg Prod.snd h)).symm, hshow⟩
  · unfold figureContent at h
    simp only at h
    have hc' := (congrArg Prod.fst h).symm
    simp only at hc'
    subst hc'
    refine ⟨⟨i1, i2, i3, i4, i5, i6, i7⟩, ?_⟩
    have hr := (Except.ok.inj (congrArg Prod.snd h)).symm
    rw [i2, i3, i4, hs.stations] at hr
    exact hr
  · unfold figureContent at h
    simp only at h
    obtain ⟨f, hf, hshow⟩ := C157_heatmap_partial o parse c.session route t1 t2 (by rw [i1, i2]; exact hs)
    rw [hf] at h
    have hc' := (congrArg Prod.fst h).symm
    simp only at hc'
    subst hc'
    rw [i1, i2] at hshow
    exact ⟨⟨i1, i2, i3, i4, i5, i6, i7⟩, f, (Except.ok.inj (congrArg Prod.snd h)).symm, hshow⟩

/-- After the figures of routes the times shown are those of the 1D model. -/
theorem routing_window (o : ArgSort K) (parse : Text → Option K) (image : FigureContent K → Text) (h1 h2 : Frame K) (r1 r2 : Rating K)
    (t1 t2 : List Int) (x y x2 y2 : Int) (hs : SameStations t1 t2 h1 h2) (ov : Overlap t1 t2 x y x2 y2)
    (hm : ∃ t ∈ t2, x ≤ t ∧ t ≤ y) (h6 : 6 * 86400 ≤ y - x) (route : List Text) (rs : List (List Text)) (c : Comparison K)
    (hI : Routing h1 h2 r1 r2 x y c) (dir : Store)
    (h : (saveKinds o parse image ((route :: rs).flatMap routeKinds) c dir).2.2 = .ok ()) :
    (saveKinds o parse image ((route :: rs).flatMap routeKinds) c dir).1.session.window = ⟨some x, some y⟩ := by
  have hsplit : (route :: rs).flatMap routeKinds = [.ratingCurve route, .longitudinal route "time".toList] ++
      ([.heatRating route, .heatTime route] ++ rs.flatMap routeKinds) := rfl
  have hmem : ∀ k ∈ ([.heatRating route, .heatTime route] ++ rs.flatMap routeKinds), k ∈ (route :: rs).flatMap routeKinds := by
    intro k hk
    rw [hsplit]
    exact List.mem_append_right _ hk
  have hmem' : ∀ k ∈ [FigureKind.ratingCurve route], k ∈ (route :: rs).flatMap routeKinds := by
    intro k hk
    rw [hsplit, List.mem_singleton.1 hk]
    exact List.mem_cons_self
  rw [hsplit] at h ⊢
  obtain ⟨ha, eb⟩ := saveKinds_append o parse image _ _ c dir h
  rw [eb] at h ⊢
  have hfirst : Routing h1 h2 r1 r2 x y (saveKinds o parse image [.ratingCurve route, .longitudinal route "time".toList] c dir).1 ∧
      (saveKinds o parse image [.ratingCurve route, .longitudinal route "time".toList] c dir).1.session.window =
        ⟨some x, some y⟩ := by
    have e : [FigureKind.ratingCurve route, .longitudinal route "time".toList] =
      [.ratingCurve route] ++ [.longitudinal route "time".toList] := rfl
    rw [e] at ha ⊢
    obtain ⟨ha1, eb1⟩ := saveKinds_append o parse image _ _ c dir ha
    rw [eb1] at ha ⊢
    have hI1 := (saveKinds_shows o parse image (Routing h1 h2 r1 r2 x y) (fun _ _ => True) _
      (fun k hk c hc c' r hh => ⟨(routing_step o parse h1 h2 r1 r2 t1 t2 x y x2 y2 hs ov hm h6 (route :: rs) k
        (hmem' k hk) c hc c' r hh).1, trivial⟩) c dir hI ha1).1
    generalize (saveKinds o parse image [.ratingCurve route] c dir).1 = c1 at ha hI1 ⊢
    generalize (saveKinds o parse image [.ratingCurve route] c dir).2.1 = d1 at ha ⊢
    unfold saveKinds saveKind figureContent at ha ⊢
    simp only at ha ⊢
    rcases hf : figureLongitudinal o parse c1.session route "time".toList with ⟨s', e | f⟩
    · rw [hf] at ha
      cases ha
    · obtain ⟨rfl, -⟩ := route_step o parse h1 h2 t1 t2 x y x2 y2 hs ov hm h6 route c1.session s' hI1.one hI1.two hI1.begins hI1.ends f hf
      exact ⟨⟨hI1.one, hI1.two, hI1.curve1, hI1.curve2, rfl, rfl, hI1.statistics⟩, rfl⟩
  refine (saveKinds_shows o parse image (fun c => Routing h1 h2 r1 r2 x y c ∧ c.session.window = ⟨some x, some y⟩) (fun _ _ => True) _
    (fun k hk c hc c' r hh => ?_) _ _ hfirst h).1.2
  have hstep := (routing_step o parse h1 h2 r1 r2 t1 t2 x y x2 y2 hs ov hm h6 (route :: rs) k (hmem k hk) c hc.1 c' r hh).1
  refine ⟨⟨hstep, ?_⟩, trivial⟩
  have key : ∀ k ∈ (route :: rs).flatMap routeKinds, figureContent o parse c k = (c', .ok r) →
      c'.session.window = c.session.window ∨ c'.session.window = ⟨some x, some y⟩ := by
    intro k hk hh
    obtain ⟨route', -, rfl | rfl | rfl | rfl⟩ := mem_routeKinds k _ hk
    · unfold figureContent at hh
      simp only at hh
      left
      split at hh
      · cases hh
      · exact (congrArg (fun p => p.1.session.window) hh).symm
      · exact (congrArg (fun p => p.1.session.window) hh).symm
    · unfold figureContent at hh
      simp only at hh
      rcases hf : figureLongitudinal o parse c.session route' "time".toList with ⟨s', e | f⟩
      · rw [hf] at hh
        cases hh
      · rw [hf] at hh
        obtain ⟨rfl, -⟩ := route_step o parse h1 h2 t1 t2 x y x2 y2 hs ov hm h6 route' c.session s' hc.1.one hc.1.two hc.1.begins
          hc.1.ends f hf
        right
        exact (congrArg (fun p => p.1.session.window) hh).symm
    · unfold figureContent at hh
      left
      exact (congrArg (fun p => p.1.session.window) hh).symm
    · unfold figureContent at hh
      simp only at hh
      left
      split at hh
      · cases hh
      · exact (congrArg (fun p => p.1.session.window) hh).symm
  rcases key k (hmem k hk) hh with e | e
  · rw [e]; exact hc.2
  · exact e

theorem station_file (n : Text) (k : FigureKind) (names : List Text) (hk : k ∈ names.map fun n => FigureKind.station n "time".toList)
    (h : figureKindFile k = figureKindFile (.station n "time".toList)) : k = .station n "time".toList := by
  obtain ⟨m, -, rfl⟩ := List.mem_map.1 hk
  have : m = n := C158_files_partial (.station m "time".toList) (.station n "time".toList) trivial trivial h
  rw [this]

/-- The figures of an evaluation show what they should. -/
theorem eval_shows (o : ArgSort K) (parse : Text → Option K) (image : FigureContent K → Text) (h1 h2 q1 q2 : Frame K)
    (r1 r2 : Rating K) (rs : List (List Text)) (t1 t2 : List Int) (x y x2 y2 : Int) (hs : SameStations t1 t2 h1 h2)
    (ov : Overlap t1 t2 x y x2 y2) (hlong : rs ≠ [] → (∃ t ∈ t2, x ≤ t ∧ t ≤ y) ∧ 6 * 86400 ≤ y - x)
    (hplain : ∀ route ∈ rs, route ≠ [] ∧ ∀ b ∈ route, '-' ∉ b ∧ '_' ∉ b) (dir : Store)
    (h : (evalFigures o parse image ⟨⟨h1, h2, ⟨none, none⟩, none⟩, q1, q2, r1, r2, some rs⟩ dir).2.2 = .ok ()) :
    (∀ route ∈ rs,
      (∃ f, (evalFigures o parse image ⟨⟨h1, h2, ⟨none, none⟩, none⟩, q1, q2, r1, r2, some rs⟩ dir).2.1
        (figureKindFile (.longitudinal route "time".toList)) = some (image (.long f)) ∧
        ShowsRoute o parse t1 t2 h1 h2 route x y f) ∧
      (∃ f, (evalFigures o parse image ⟨⟨h1, h2, ⟨none, none⟩, none⟩, q1, q2, r1, r2, some rs⟩ dir).2.1
        (figureKindFile (.heatTime route)) = some (image (.heatTime f)) ∧ ShowsDifferences o parse t1 t2 h1 h2 route f) ∧
      (∃ f, figureRating o parse h1.columns r1 r2 route = .ok f ∧
        (∀ g, f = some g → (evalFigures o parse image ⟨⟨h1, h2, ⟨none, none⟩, none⟩, q1, q2, r1, r2, some rs⟩ dir).2.1
          (figureKindFile (.ratingCurve route)) = some (image (.rating g))) ∧
        (f = none → (evalFigures o parse image ⟨⟨h1, h2, ⟨none, none⟩, none⟩, q1, q2, r1, r2, some rs⟩ dir).2.1
          (figureKindFile (.ratingCurve route)) = dir (figureKindFile (.ratingCurve route)))) ∧
      (evalFigures o parse image ⟨⟨h1, h2, ⟨none, none⟩, none⟩, q1, q2, r1, r2, some rs⟩ dir).2.1 (figureKindFile (.heatRating route)) =
        some (image (.heatRating (heatMapRating o parse h1.columns r1 r2 route)))) ∧
    ∀ n ∈ h1.columns, ∃ f, (evalFigures o parse image ⟨⟨h1, h2, ⟨none, none⟩, none⟩, q1, q2, r1, r2, some rs⟩ dir).2.1
      (figureKindFile (.station n "time".toList)) = some (image (.station f)) ∧
      ShowsStation parse t1 t2 h1 h2 (if rs = [] then x2 else x) (if rs = [] then y2 else y) n f := by
  have e : evalFigures o parse image ⟨⟨h1, h2, ⟨none, none⟩, none⟩, q1, q2, r1, r2, some rs⟩ dir =
      saveKinds o parse image (rs.flatMap routeKinds ++ h1.columns.map fun n => .station n "time".toList)
        ⟨⟨h1, h2, ⟨none, none⟩, none⟩, q1, q2, r1, r2, some rs⟩ dir := rfl
  rw [e] at h ⊢
  have hI : Routing h1 h2 r1 r2 x y ⟨⟨h1, h2, ⟨none, none⟩, none⟩, q1, q2, r1, r2, some rs⟩ := ⟨rfl, rfl, rfl, rfl, rfl, rfl, rfl⟩
  obtain ⟨ha, eb⟩ := saveKinds_append o parse image _ _ _ dir h
  rw [eb] at h ⊢
  have hroutes : Shown parse h1 h2 x2 y2 (if rs = [] then x2 else x) (if rs = [] then y2 else y)
        (saveKinds o parse image (rs.flatMap routeKinds) ⟨⟨h1, h2, ⟨none, none⟩, none⟩, q1, q2, r1, r2, some rs⟩ dir).1 ∧
      ∀ file, (∃ k ∈ rs.flatMap routeKinds, ∃ f, figureKindFile k = file ∧ RouteContent o parse t1 t2 h1 h2 r1 r2 x y k (some f) ∧
        (saveKinds o parse image (rs.flatMap routeKinds) ⟨⟨h1, h2, ⟨none, none⟩, none⟩, q1, q2, r1, r2, some rs⟩ dir).2.1 file =
          some (image f)) ∨
        ((saveKinds o parse image (rs.flatMap routeKinds) ⟨⟨h1, h2, ⟨none, none⟩, none⟩, q1, q2, r1, r2, some rs⟩ dir).2.1 file =
          dir file ∧ ∀ k ∈ rs.flatMap routeKinds, figureKindFile k = file →
            (∃ r, k = .ratingCurve r) ∧ RouteContent o parse t1 t2 h1 h2 r1 r2 x y k none) := by
    by_cases hne : rs = []
    · subst hne
      exact ⟨⟨rfl, rfl, rfl, rfl, fun st hst => (by cases hst)⟩, fun file => .inr ⟨rfl, fun k hk => (by cases hk)⟩⟩
    · obtain ⟨hm, h6⟩ := hlong hne
      obtain ⟨j1, j2⟩ := saveKinds_shows o parse image (Routing h1 h2 r1 r2 x y) (RouteContent o parse t1 t2 h1 h2 r1 r2 x y) _
        (fun k hk c hc c' r hh => routing_step o parse h1 h2 r1 r2 t1 t2 x y x2 y2 hs ov hm h6 rs k hk c hc c' r hh) _ dir hI ha
      refine ⟨?_, j2⟩
      obtain ⟨route, rest, rfl⟩ : ∃ route rest, rs = route :: rest := by
        cases rs with
        | nil => exact absurd rfl hne
        | cons a l => exact ⟨a, l, rfl⟩
      have hw := routing_window o parse image h1 h2 r1 r2 t1 t2 x y x2 y2 hs ov hm h6 route rest _ hI dir ha
      rw [if_neg hne, if_neg hne]
      exact ⟨j1.one, j1.two, by rw [hw]; rfl, by rw [hw]; rfl, fun st hst => by rw [j1.statistics] at hst; cases hst⟩
  obtain ⟨hS, hfiles⟩ := hroutes
  generalize saveKinds o parse image (rs.flatMap routeKinds) ⟨⟨h1, h2, ⟨none, none⟩, none⟩, q1, q2, r1, r2, some rs⟩ dir = p at *
  have hb : (if rs = [] then x2 else x) < (if rs = [] then y2 else y) ∧ (if rs = [] then x2 else x) < y ∧
      x < (if rs = [] then y2 else y) ∧ (if rs = [] then x2 else x) < y2 ∧ x2 < (if rs = [] then y2 else y) := by
    split
    · exact ⟨ov.long2, ov.after, ov.before, ov.long2, ov.long2⟩
    · exact ⟨ov.long1, ov.long1, ov.long1, ov.before, ov.after⟩
  obtain ⟨-, hst⟩ := saveKinds_shows o parse image
    (Shown parse h1 h2 x2 y2 (if rs = [] then x2 else x) (if rs = [] then y2 else y))
    (fun k f => ∀ n func, k = .station n func → ∃ g, f = some (.station g) ∧
      ShowsStation parse t1 t2 h1 h2 (if rs = [] then x2 else x) (if rs = [] then y2 else y) n g) _
    (fun k hk c hc c' r hh => by
      obtain ⟨n, hn, rfl⟩ := List.mem_map.1 hk
      unfold figureContent at hh
      simp only at hh
      rcases hf : figureStation parse c n "time".toList with ⟨c1, e | f⟩
      · rw [hf] at hh
        cases hh
      · rw [hf] at hh
        obtain ⟨g1, g2⟩ := station_step parse h1 h2 t1 t2 x y x2 y2 _ _ hs ov hb.1 hb.2.1 hb.2.2.1 hb.2.2.2.1 hb.2.2.2.2 n hn c c1 hc f hf
        have hc' := congrArg Prod.fst hh
        simp only at hc'
        subst hc'
        refine ⟨g1, fun m func hm => ?_⟩
        obtain ⟨rfl, -⟩ := FigureKind.station.inj hm
        exact ⟨f, (Except.ok.inj (congrArg Prod.snd hh)).symm, g2⟩) p.1 p.2.1 hS h
  have hroute : ∀ k ∈ rs.flatMap routeKinds, PlainRoute k := by
    intro k hk
    obtain ⟨route, hr, rfl | rfl | rfl | rfl⟩ := mem_routeKinds k rs hk <;> exact hplain route hr
  have hkeep : ∀ k ∈ rs.flatMap routeKinds,
      ∃ f, RouteContent o parse t1 t2 h1 h2 r1 r2 x y k f ∧
        (∀ g, f = some g → (saveKinds o parse image (h1.columns.map fun n => .station n "time".toList) p.1 p.2.1).2.1
          (figureKindFile k) = some (image g)) ∧
        (f = none → (saveKinds o parse image (h1.columns.map fun n => .station n "time".toList) p.1 p.2.1).2.1
          (figureKindFile k) = dir (figureKindFile k)) := by
    intro k hk
    have hsame : (saveKinds o parse image (h1.columns.map fun n => .station n "time".toList) p.1 p.2.1).2.1 (figureKindFile k) =
        p.2.1 (figureKindFile k) := by
      rcases hst (figureKindFile k) with ⟨k', hk', f, hf, -⟩ | ⟨e, -⟩
      · exfalso
        obtain ⟨n, -, rfl⟩ := List.mem_map.1 hk'
        have := C158_files_partial (.station n "time".toList) k trivial (hroute k hk) hf
        obtain ⟨route, -, rfl | rfl | rfl | rfl⟩ := mem_routeKinds k rs hk <;> exact this
      · exact e
    rw [hsame]
    rcases hfiles (figureKindFile k) with ⟨k', hk', f, hf, hc, e⟩ | ⟨ed, hr⟩
    · refine ⟨some f, ?_, (fun g hg => by rw [← Option.some.inj hg]; exact e), fun hg => (by cases hg)⟩
      have := C158_files_partial _ _ (hroute k' hk') (hroute k hk) hf
      obtain ⟨route, -, rfl | rfl | rfl | rfl⟩ := mem_routeKinds k rs hk
      all_goals
        obtain ⟨route', -, rfl | rfl | rfl | rfl⟩ := mem_routeKinds k' rs hk' <;> first
          | exact absurd this id
          | (have e' : route' = _ := this; subst e'; exact hc)
    · exact ⟨none, (hr k hk rfl).2, (fun g hg => (by cases hg)), fun _ => ed⟩
  refine ⟨fun route hroute' => ?_, fun n hn => ?_⟩
  · have hin : ∀ k ∈ routeKinds route, k ∈ rs.flatMap routeKinds := fun k hk => List.mem_flatMap.2 ⟨route, hroute', hk⟩
    obtain ⟨f0, ⟨g0, rfl, s0⟩, e0, n0⟩ := hkeep (.ratingCurve route) (hin _ List.mem_cons_self)
    obtain ⟨f1, ⟨g1, rfl, s1⟩, e1, -⟩ := hkeep (.longitudinal route "time".toList)
      (hin _ (List.mem_cons_of_mem _ List.mem_cons_self))
    obtain ⟨f2, ⟨g2, rfl, s2⟩, e2, -⟩ := hkeep (.heatTime route)
      (hin _ (List.mem_cons_of_mem _ (List.mem_cons_of_mem _ (List.mem_cons_of_mem _ List.mem_cons_self))))
    obtain ⟨f3, rfl, e3, -⟩ := hkeep (.heatRating route)
      (hin _ (List.mem_cons_of_mem _ (List.mem_cons_of_mem _ List.mem_cons_self)))
    exact ⟨⟨g1, e1 _ rfl, s1⟩, ⟨g2, e2 _ rfl, s2⟩, ⟨g0, s0, (fun g hg => e0 (.rating g) (by rw [hg]; rfl)), fun hg => n0 (by rw [hg]; rfl)⟩, e3 _ rfl⟩
  · have hmem : FigureKind.station n "time".toList ∈ h1.columns.map fun n => FigureKind.station n "time".toList :=
      List.mem_map.2 ⟨n, hn, rfl⟩
    rcases hst (figureKindFile (.station n "time".toList)) with ⟨k', hk', f, hf, hP, e⟩ | ⟨-, hr⟩
    · obtain rfl := station_file n k' _ hk' hf
      obtain ⟨g, hfg, hg⟩ := hP n _ rfl
      exact ⟨g, by rw [← Option.some.inj hfg]; exact e, hg⟩
    · obtain ⟨⟨r, hr⟩, -⟩ := hr _ hmem rfl
      cases hr

/-! ## When all figures can be made -/

theorem saveKinds_then (o : ArgSort K) (parse : Text → Option K) (image : FigureContent K → Text) (ks ks' : List FigureKind)
    (c : Comparison K) (dir : Store) (h : (saveKinds o parse image ks c dir).2.2 = .ok ()) :
    saveKinds o parse image (ks ++ ks') c dir =
      saveKinds o parse image ks' (saveKinds o parse image ks c dir).1 (saveKinds o parse image ks c dir).2.1 := by
  induction ks generalizing c dir with
  | nil => rfl
  | cons k ks ih =>
    rw [List.cons_append]
    rcases hk : saveKind o parse image c dir k with ⟨c', dir', e | u⟩
    · unfold saveKinds at h
      rw [hk] at h
      cases h
    · have e : ∀ l, saveKinds o parse image (k :: l) c dir = saveKinds o parse image l c' dir' := by
        intro l
        conv_lhs => unfold saveKinds
        rw [hk]
      rw [e] at h
      rw [e, e]
      exact ih c' dir' h

/-- Figures that can all be made in the states that occur. -/
theorem saveKinds_ok (o : ArgSort K) (parse : Text → Option K) (image : FigureContent K → Text) (I : Comparison K → Prop)
    (ks : List FigureKind) (hstep : ∀ k ∈ ks, ∀ c, I c → ∃ c' r, figureContent o parse c k = (c', .ok r) ∧ I c')
    (c : Comparison K) (dir : Store) (hI : I c) : (saveKinds o parse image ks c dir).2.2 = .ok () := by
  induction ks generalizing c dir with
  | nil => rfl
  | cons k ks ih =>
    obtain ⟨c', r, hc, hI'⟩ := hstep k List.mem_cons_self c hI
    have hk : ∃ dir', saveKind o parse image c dir k = (c', dir', .ok ()) := by
      unfold saveKind
      rw [hc]
      cases r with
      | none => exact ⟨_, rfl⟩
      | some f => exact ⟨_, rfl⟩
    obtain ⟨dir', hk⟩ := hk
    unfold saveKinds
    rw [hk]
    exact ih (fun k hk => hstep k (List.mem_cons_of_mem _ hk)) c' dir' hI'

theorem routing_ok (o : ArgSort K) (parse : Text → Option K) (h1 h2 : Frame K) (r1 r2 : Rating K) (t1 t2 : List Int)
    (x y x2 y2 : Int) (hs : SameStations t1 t2 h1 h2) (ov : Overlap t1 t2 x y x2 y2) (hm : ∃ t ∈ t2, x ≤ t ∧ t ≤ y)
    (h6 : 6 * 86400 ≤ y - x) (rs : List (List Text)) (hrate : ∀ route ∈ rs, ∃ f, figureRating o parse h1.columns r1 r2 route = .ok f)
    (k : FigureKind) (hk : k ∈ rs.flatMap routeKinds) (c : Comparison K) (hI : Routing h1 h2 r1 r2 x y c) :
    ∃ c' r, figureContent o parse c k = (c', .ok r) ∧ Routing h1 h2 r1 r2 x y c' := by
  have hex : ∃ c' r, figureContent o parse c k = (c', .ok r) := by
    obtain ⟨i1, i2, i3, i4, i5, i6, i7⟩ := hI
    obtain ⟨route, hroute, rfl | rfl | rfl | rfl⟩ := mem_routeKinds k rs hk
    · obtain ⟨f, hf⟩ := hrate route hroute
      unfold figureContent
      simp only
      rw [i2, i3, i4, hs.stations, hf]
      cases f with
      | none => exact ⟨_, _, rfl⟩
      | some f => exact ⟨_, _, rfl⟩
    · have hsort := hs.increasing1
      have hall : ∀ t ∈ t1, x ≤ t ∧ t ≤ y := fun t ht => within_period t1 x y hsort ov.first1 ov.last1 t ht
      have hfilter : (t1.filter fun t => decide (x ≤ t ∧ t ≤ y)) = t1 := List.filter_eq_self.2 fun t ht => decide_eq_true (hall t ht)
      obtain ⟨f0, ms, g1, -⟩ := C155_lines_partial o parse c.session route t1 t2 x y x2 y2 (by rw [i1, i2]; exact hs) ov.first1 ov.last1
        ov.first2 ov.last2 x y i5 i6 ov.long1 ov.long1 ov.long1 ov.before ov.after hm x y (by rw [hfilter]; exact ov.first1)
        (by rw [hfilter]; exact ov.last1) h6
      unfold figureContent
      simp only
      rcases hf : figureLongitudinal o parse c.session route "time".toList with ⟨s', e | f⟩
      · rw [hf] at g1
        cases g1
      · exact ⟨_, _, rfl⟩
    · exact ⟨_, _, rfl⟩
    · obtain ⟨f, hf, -⟩ := C157_heatmap_partial o parse c.session route t1 t2 (by rw [i1, i2]; exact hs)
      unfold figureContent
      simp only
      rw [hf]
      exact ⟨_, _, rfl⟩
  obtain ⟨c', r, h⟩ := hex
  exact ⟨c', r, h, (routing_step o parse h1 h2 r1 r2 t1 t2 x y x2 y2 hs ov hm h6 rs k hk c hI c' r h).1⟩

theorem station_ok (o : ArgSort K) (parse : Text → Option K) (h1 h2 : Frame K) (t1 t2 : List Int) (x y x2 y2 start stop : Int)
    (hs : SameStations t1 t2 h1 h2) (ov : Overlap t1 t2 x y x2 y2) (ho : start < stop) (hy' : start < y) (hx' : x < stop)
    (hy2' : start < y2) (hx2' : x2 < stop) (n : Text) (hn : n ∈ h1.columns) (c : Comparison K)
    (hI : Shown parse h1 h2 x2 y2 start stop c) :
    ∃ c' r, figureContent o parse c (.station n "time".toList) = (c', .ok r) ∧ Shown parse h1 h2 x2 y2 start stop c' := by
  have hex : ∃ c' f, figureStation parse c n "time".toList = (c', .ok f) := by
    obtain ⟨⟨f1, f2, win, st⟩, q1, q2, r1, r2, routes⟩ := c
    obtain ⟨hone, htwo, hb, he, hst⟩ := hI
    simp only at hone htwo hb he hst
    subst hone htwo
    have hw := stationCurves_window ⟨⟨f1, f2, win, st⟩, q1, q2, r1, r2, routes⟩ n t2 x2 y2 start stop hs.times2 hs.rows2 ov.first2 ov.last2
      hb he ho hy2' hx2'
    obtain ⟨f0, times, g1, -⟩ := C161_time_partial parse ⟨⟨f1, f2, win, none⟩, q1, q2, r1, r2, routes⟩ n "time".toList
      (by decide) t1 t2 x y x2 y2 hs hn ov.first1 ov.last1 ov.first2 ov.last2 start stop hb he ho hy' hx' hy2' hx2' rfl
    have e0 : stationCurves ⟨⟨f1, f2, win, none⟩, q1, q2, r1, r2, routes⟩ n "time".toList =
      stationCurves ⟨⟨f1, f2, win, st⟩, q1, q2, r1, r2, routes⟩ n "time".toList := rfl
    unfold figureStation at g1 ⊢
    rw [e0] at g1
    rcases hc : stationCurves ⟨⟨f1, f2, win, st⟩, q1, q2, r1, r2, routes⟩ n "time".toList with ⟨w, e | curves⟩
    · rw [hc] at g1
      cases g1
    · rw [hc] at g1 hw
      simp only at g1 hw ⊢
      subst hw
      obtain ⟨k1, -⟩ := getStatistics_same parse f1 f2 start stop st hst n
      rcases hg : getStatistics parse ⟨f1, f2, ⟨some start, some stop⟩, st⟩ n with ⟨s', e | r⟩
      · rw [hg] at k1
        rcases hg0 : getStatistics parse ⟨f1, f2, ⟨some start, some stop⟩, none⟩ n with ⟨s0, e | r0⟩
        · rw [hg0] at g1
          cases g1
        · rw [hg0] at k1
          cases k1
      · exact ⟨_, _, rfl⟩
  obtain ⟨c', f, h⟩ := hex
  refine ⟨c', some (.station f), ?_, (station_step parse h1 h2 t1 t2 x y x2 y2 start stop hs ov ho hy' hx' hy2' hx2' n hn c c' hI f h).1⟩
  unfold figureContent
  simp only
  rw [h]

/-- An evaluation for whose routes rating curves can be drawn ends without an error. -/
theorem eval_ok (o : ArgSort K) (parse : Text → Option K) (image : FigureContent K → Text) (h1 h2 q1 q2 : Frame K)
    (r1 r2 : Rating K) (rs : List (List Text)) (t1 t2 : List Int) (x y x2 y2 : Int) (hs : SameStations t1 t2 h1 h2)
    (ov : Overlap t1 t2 x y x2 y2) (hlong : rs ≠ [] → (∃ t ∈ t2, x ≤ t ∧ t ≤ y) ∧ 6 * 86400 ≤ y - x)
    (hrate : ∀ route ∈ rs, ∃ f, figureRating o parse h1.columns r1 r2 route = .ok f) (dir : Store) :
    (evalFigures o parse image ⟨⟨h1, h2, ⟨none, none⟩, none⟩, q1, q2, r1, r2, some rs⟩ dir).2.2 = .ok () := by
  have e : evalFigures o parse image ⟨⟨h1, h2, ⟨none, none⟩, none⟩, q1, q2, r1, r2, some rs⟩ dir =
      saveKinds o parse image (rs.flatMap routeKinds ++ h1.columns.map fun n => .station n "time".toList)
        ⟨⟨h1, h2, ⟨none, none⟩, none⟩, q1, q2, r1, r2, some rs⟩ dir := rfl
  rw [e]
  have hI : Routing h1 h2 r1 r2 x y ⟨⟨h1, h2, ⟨none, none⟩, none⟩, q1, q2, r1, r2, some rs⟩ := ⟨rfl, rfl, rfl, rfl, rfl, rfl, rfl⟩
  have hroutes : (saveKinds o parse image (rs.flatMap routeKinds) ⟨⟨h1, h2, ⟨none, none⟩, none⟩, q1, q2, r1, r2, some rs⟩ dir).2.2 = .ok () ∧
      Shown parse h1 h2 x2 y2 (if rs = [] then x2 else x) (if rs = [] then y2 else y)
        (saveKinds o parse image (rs.flatMap routeKinds) ⟨⟨h1, h2, ⟨none, none⟩, none⟩, q1, q2, r1, r2, some rs⟩ dir).1 := by
    by_cases hne : rs = []
    · subst hne
      exact ⟨rfl, ⟨rfl, rfl, rfl, rfl, fun st hst => (by cases hst)⟩⟩
    · obtain ⟨hm, h6⟩ := hlong hne
      have hok := saveKinds_ok o parse image (Routing h1 h2 r1 r2 x y) (rs.flatMap routeKinds)
        (fun k hk c hc => routing_ok o parse h1 h2 r1 r2 t1 t2 x y x2 y2 hs ov hm h6 rs hrate k hk c hc) _ dir hI
      refine ⟨hok, ?_⟩
      obtain ⟨j1, -⟩ := saveKinds_shows o parse image (Routing h1 h2 r1 r2 x y) (RouteContent o parse t1 t2 h1 h2 r1 r2 x y) _
        (fun k hk c hc c' r hh => routing_step o parse h1 h2 r1 r2 t1 t2 x y x2 y2 hs ov hm h6 rs k hk c hc c' r hh) _ dir hI hok
      obtain ⟨route, rest, rfl⟩ : ∃ route rest, rs = route :: rest := by
        cases rs with
        | nil => exact absurd rfl hne
        | cons a l => exact ⟨a, l, rfl⟩
      have hw := routing_window o parse image h1 h2 r1 r2 t1 t2 x y x2 y2 hs ov hm h6 route rest _ hI dir hok
      rw [if_neg hne, if_neg hne]
      exact ⟨j1.one, j1.two, by rw [hw]; rfl, by rw [hw]; rfl, fun st hst => by rw [j1.statistics] at hst; cases hst⟩
  obtain ⟨hok, hS⟩ := hroutes
  rw [saveKinds_then o parse image _ _ _ _ hok]
  have hb : (if rs = [] then x2 else x) < (if rs = [] then y2 else y) ∧ (if rs = [] then x2 else x) < y ∧
      x < (if rs = [] then y2 else y) ∧ (if rs = [] then x2 else x) < y2 ∧ x2 < (if rs = [] then y2 else y) := by
    split
    · exact ⟨ov.long2, ov.after, ov.before, ov.long2, ov.long2⟩
    · exact ⟨ov.long1, ov.long1, ov.long1, ov.before, ov.after⟩
  refine saveKinds_ok o parse image (Shown parse h1 h2 x2 y2 (if rs = [] then x2 else x) (if rs = [] then y2 else y)) _
    (fun k hk c hc => ?_) _ _ hS
  obtain ⟨n, hn, rfl⟩ := List.mem_map.1 hk
  exact station_ok o parse h1 h2 t1 t2 x y x2 y2 _ _ hs ov hb.1 hb.2.1 hb.2.2.1 hb.2.2.2.1 hb.2.2.2.2 n hn c hc

/-! ## The whole comparison -/

theorem sameRecords1 (clock : Clock) (ft : FloatText K) (his : His1d K) (t : Int) (h : Good1d clock ft his t) :
    SameRecords (levels1d t 0 his) (discharges1d t 0 his) where
  stations := rfl
  nodup := h.nodup
  records := h.discharges.1.trans h.levels.1.symm
  levels := fun row hr => (h.levels.2 row hr).1
  discharges := fun row hr => (h.discharges.2 row hr).1

theorem sameRecords2 (clock : Clock) (ft : FloatText K) (his : His2d K) (t : Int) (h : Good2d clock ft his t) (names : List Text)
    (hn : names.Nodup) : SameRecords (levels2d t his names) (discharges2d t his names) where
  stations := rfl
  nodup := hn
  records := by
    show (his.discharges.map _).length = (his.levels.map _).length
    rw [List.length_map, List.length_map]
    exact h.discharges.1.trans h.levels.1.symm
  levels := fun row hr => by
    obtain ⟨r, -, rfl⟩ := List.mem_map.1 hr
    exact List.length_map _
  discharges := fun row hr => by
    obtain ⟨r, -, rfl⟩ := List.mem_map.1 hr
    exact List.length_map _

theorem timesOf_increasing (t : Int) (l : List Int) (h : l.Pairwise (· < ·)) : (timesOf t 0 l).Pairwise (· < ·) := by
  unfold timesOf
  rw [List.pairwise_map]
  exact h.imp fun hh => by omega

theorem sameStations_results (clock : Clock) (ft : FloatText K) (his1 : His1d K) (his2 : His2d K) (t1 t2 : Int)
    (h1 : Good1d clock ft his1 t1) (h2 : Good2d clock ft his2 t2) (i1 : his1.seconds.Pairwise (· < ·))
    (i2 : his2.seconds.Pairwise (· < ·)) :
    SameStations (timesOf t1 0 his1.seconds) (timesOf t2 0 his2.seconds) (levels1d t1 0 his1) (levels2d t2 his2 his1.names) where
  times1 := rfl
  times2 := rfl
  increasing1 := timesOf_increasing t1 _ i1
  increasing2 := timesOf_increasing t2 _ i2
  rows1 := by rw [timesOf_length]; exact h1.levels.1
  rows2 := by
    rw [timesOf_length]
    show (his2.levels.map _).length = _
    rw [List.length_map]
    exact h2.levels.1
  stations := rfl
  nodup := h1.nodup
  widths1 := fun row hr => (h1.levels.2 row hr).1
  widths2 := fun row hr => by
    obtain ⟨r, -, rfl⟩ := List.mem_map.1 hr
    exact List.length_map _

/-- The comparison of two results with these rating curves. -/
def comparisonOf (his1 : His1d K) (his2 : His2d K) (t1 t2 : Int) (r1 r2 : Rating K) (rs : Option (List (List Text))) : Comparison K :=
  ⟨⟨levels1d t1 0 his1, levels2d t2 his2 his1.names, ⟨none, none⟩, none⟩, discharges1d t1 0 his1, discharges2d t2 his2 his1.names, r1, r2, rs⟩

/-- A first comparison. -/
theorem compareResults_fresh (y : CompareTools K) (ft : FloatText K) (isFile : Text → Bool) (p1 p2 routes : Text)
    (rs : Option (List (List Text))) (hrs : y.routes routes = .ok rs) (hp1 : isFile p1 = true) (hp2 : isFile p2 = true) (his1 : His1d K)
    (his2 : His2d K) (hr1 : y.read1 p1 = .ok his1) (hr2 : y.read2 p2 = .ok his2) (t1 t2 : Int) (h1 : Good1d y.clock ft his1 t1)
    (h2 : Good2d y.clock ft his2 t2) (m2 : HasTimeOfDay y.clock t2 0 his2.seconds) (s : Store)
    (hnew : ∀ f, ComparisonFile f → s f = none) :
    ∃ r1 r2, IsRating (levels1d t1 0 his1) (discharges1d t1 0 his1) r1 ∧
      IsRating (levels2d t2 his2 his1.names) (discharges2d t2 his2 his1.names) r2 ∧
      compareResults y ft isFile p1 p2 routes s =
        (evalFigures y.order ft.parse y.image (comparisonOf his1 his2 t1 t2 r1 r2 rs)
          (((writeAll s (writesOf y.clock ft t1 0 t2 his1 his2)).set "1D_H_digitized.csv".toList (ratingText ft r1)).set
            "2D_H_digitized.csv".toList (ratingText ft r2))).2 := by
  have hno : NoFiles s := by
    intro f hf
    apply hnew f
    left
    simp only [List.mem_cons, List.not_mem_nil, or_false] at hf
    rcases hf with rfl | rfl | rfl | rfl | rfl <;> decide
  have hinit : initCompare y.clock ft isFile y.read1 y.read2 (some p1) (some p2) s =
      readAllData y.clock ft 0 (.ok his1) (.ok his2) s := by
    unfold initCompare choosePaths
    simp only [hp1, hp2, if_true, openPath, hr1, hr2]
  have hfile : ∀ f, f ∉ [file1dH, file1dQ, fileMap, file2dQ, file2dH] → ComparisonFile f →
      writeAll s (writesOf y.clock ft t1 0 t2 his1 his2) f = none := by
    intro f hf hc
    rw [writeAll_other _ _ _ (by
      intro hm
      apply hf
      have : (writesOf y.clock ft t1 0 t2 his1 his2).map (·.1) = [file1dH, file1dQ, fileMap, file2dQ, file2dH] := rfl
      rw [this] at hm
      exact hm)]
    exact hnew f hc
  obtain ⟨r1, r2, e, i1, i2, hd⟩ := C115_first ft (levels1d t1 0 his1, discharges1d t1 0 his1)
    (levels2d t2 his2 his1.names, discharges2d t2 his2 his1.names) (writeAll s (writesOf y.clock ft t1 0 t2 his1 his2))
    (sameRecords1 y.clock ft his1 t1 h1) (sameRecords2 y.clock ft his2 t2 h2 his1.names h1.nodup)
    (hfile _ (by decide) (.inl (by decide))) (hfile _ (by decide) (.inl (by decide)))
  refine ⟨r1, r2, i1, i2, ?_⟩
  unfold compareResults
  rw [hrs]
  simp only
  rw [hinit, C111_writes y.clock ft his1 his2 t1 t2 0 h1 h2 m2 s hno]
  simp only
  unfold openComparison
  rcases hg : digitizeData ft (levels1d t1 0 his1, discharges1d t1 0 his1)
    (levels2d t2 his2 his1.names, discharges2d t2 his2 his1.names) (writeAll s (writesOf y.clock ft t1 0 t2 his1 his2)) with ⟨d, r⟩
  rw [hg] at e hd
  simp only at e hd
  subst e hd
  rfl

/-- A comparison in a directory with the files of an earlier one. -/
theorem compareResults_stored (y : CompareTools K) (ft : FloatText K) (isFile : Text → Bool) (p1 p2 routes : Text)
    (rs : Option (List (List Text))) (hrs : y.routes routes = .ok rs) (his1 : His1d K) (his2 : His2d K) (t1 t2 : Int)
    (h1 : Good1d y.clock ft his1 t1) (h2 : Good2d y.clock ft his2 t2) (m1 : HasTimeOfDay y.clock t1 0 his1.seconds)
    (m2 : HasTimeOfDay y.clock t2 0 his2.seconds) (s : Store)
    (hs : ∀ w ∈ writesOf y.clock ft t1 0 t2 his1 his2, s w.1 = some w.2) (r1 r2 : Rating K)
    (i1 : IsRating (levels1d t1 0 his1) (discharges1d t1 0 his1) r1)
    (i2 : IsRating (levels2d t2 his2 his1.names) (discharges2d t2 his2 his1.names) r2) (hp1 : ReadableRating ft r1)
    (hp2 : ReadableRating ft r2) (hs1 : s "1D_H_digitized.csv".toList = some (ratingText ft r1))
    (hs2 : s "2D_H_digitized.csv".toList = some (ratingText ft r2)) :
    compareResults y ft isFile p1 p2 routes s =
      (evalFigures y.order ft.parse y.image (comparisonOf his1 his2 t1 t2 r1 r2 rs) s).2 := by
  have hinit : initCompare y.clock ft isFile y.read1 y.read2 (some p1) (some p2) s =
      (s, .ok ((levels1d t1 0 his1, discharges1d t1 0 his1), (levels2d t2 his2 his1.names, discharges2d t2 his2 his1.names))) := by
    unfold initCompare choosePaths
    simp only
    exact readAllData_complete y.clock ft his1 his2 t1 t2 0 h1 h2 m1 m2 s hs 0 _ _
  unfold compareResults
  rw [hrs]
  simp only
  rw [hinit]
  simp only
  unfold openComparison
  rw [digitizeData_stored ft r1 r2 s _ _ hs1 hs2 (isRating_readable ft _ _ r1 i1 hp1) (isRating_readable ft _ _ r2 i2 hp2)]
  rfl

/-- What is written to a file does not depend on what was there. -/
theorem writeAll_same (ws : List (Text × Text)) (a b : Store) (f : Text) (h : f ∈ ws.map (·.1)) : writeAll a ws f = writeAll b ws f := by
  induction ws generalizing a b with
  | nil => cases h
  | cons w ws ih =>
    by_cases h' : f ∈ ws.map (·.1)
    · exact ih _ _ h'
    · show writeAll (a.set w.1 w.2) ws f = writeAll (b.set w.1 w.2) ws f
      rw [writeAll_other _ _ _ h', writeAll_other _ _ _ h']
      rcases List.mem_cons.1 h with e | e
      · rw [e, store_set_same, store_set_same]
      · exact absurd e h'

theorem writeAll_twice (s : Store) (ws : List (Text × Text)) : writeAll (writeAll s ws) ws = writeAll s ws := by
  funext f
  by_cases h : f ∈ ws.map (·.1)
  · exact writeAll_same ws _ _ f h
  · exact writeAll_other _ _ _ h

/-- Figures do not change the other files of a comparison. -/
theorem eval_keeps (o : ArgSort K) (parse : Text → Option K) (image : FigureContent K → Text) (c : Comparison K) (dir : Store) (f : Text)
    (hf : ∀ r, f ≠ "figures/".toList ++ r) : (evalFigures o parse image c dir).2.1 f = dir f := by
  obtain ⟨ws, r, hw, he⟩ := evalFigures_writes o parse image c
  rw [he dir]
  refine writeAll_other _ _ _ fun h => ?_
  obtain ⟨w, hwm, rfl⟩ := List.mem_map.1 h
  obtain ⟨t, ht⟩ := hw w hwm
  exact hf t ht

end Fm2prof

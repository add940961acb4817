import Verif.Spec.Network
import Verif.Proofs.Locations
import Verif.Proofs.Roughness

/-! Lemmas about reading networks and rule files. -/

set_option linter.unusedSectionVars false

namespace Fm2prof

open Spec

variable {K : Type} [Field K] [LinearOrder K] [IsStrictOrderedRing K] [FloorRing K]

theorem parseFloats_iff (ft : FloatText K) (ws : List Text) (vs : List K) :
    parseFloats ft ws = .ok vs ↔ List.Forall₂ (fun w v => ft.parse w = some v) ws vs := by
  induction ws generalizing vs with
  | nil =>
    rw [parseFloats]
    constructor
    · intro h; rw [← Except.ok.inj h]; exact .nil
    · intro h; cases h; rfl
  | cons w ws ih =>
    rw [parseFloats]
    constructor
    · intro h
      cases hw : ft.parse w with
      | none => rw [hw] at h; cases h
      | some v =>
        rw [hw] at h
        cases hr : parseFloats ft ws with
        | error e => rw [hr] at h; cases h
        | ok rest =>
          rw [hr] at h
          obtain rfl := Except.ok.inj h
          exact .cons hw ((ih rest).1 hr)
    · intro h
      cases h with
      | cons h1 h2 =>
        rw [h1, (ih _).2 h2]

theorem branchLine_x (ft : FloatText K) (l : Text) (v : BranchVars K) (xs : List K) (t : Text)
    (hk : keyOf l = "gridpointx".toList) (hv : valueOf l = some t) (hn : Numbers ft t xs) :
    branchLine ft l v = .ok { v with x := some xs } := by
  unfold keyOf at hk; unfold valueOf at hv; unfold Numbers at hn
  unfold branchLine
  simp only [hk, hv, (parseFloats_iff ft _ _).2 hn, if_true]

theorem branchLine_y (ft : FloatText K) (l : Text) (v : BranchVars K) (xs : List K) (t : Text)
    (hk : keyOf l = "gridpointy".toList) (hv : valueOf l = some t) (hn : Numbers ft t xs) :
    branchLine ft l v = .ok { v with y := some xs } := by
  unfold keyOf at hk; unfold valueOf at hv; unfold Numbers at hn
  have n1 : ¬ "gridpointy".toList = "gridpointx".toList := by decide +kernel
  unfold branchLine
  simp only [hk, hv, (parseFloats_iff ft _ _).2 hn, if_neg n1, if_true]

theorem branchLine_ids (ft : FloatText K) (l : Text) (v : BranchVars K) (t : Text)
    (hk : keyOf l = "gridpointids".toList) (hv : valueOf l = some t) :
    branchLine ft l v = .ok { v with cid := some (splitSep ';' t) } := by
  unfold keyOf at hk; unfold valueOf at hv
  have n1 : ¬ "gridpointids".toList = "gridpointx".toList := by decide +kernel
  have n2 : ¬ "gridpointids".toList = "gridpointy".toList := by decide +kernel
  unfold branchLine
  simp only [hk, hv, if_neg n1, if_neg n2, if_true]

theorem branchLine_offsets (ft : FloatText K) (l : Text) (v : BranchVars K) (xs : List K) (t : Text)
    (hk : keyOf l = "gridpointoffsets".toList) (hv : valueOf l = some t) (hn : Numbers ft t xs) :
    branchLine ft l v = .ok { v with coff := some xs, cdis := some (controlLengths xs) } := by
  unfold keyOf at hk; unfold valueOf at hv; unfold Numbers at hn
  have n1 : ¬ "gridpointoffsets".toList = "gridpointx".toList := by decide +kernel
  have n2 : ¬ "gridpointoffsets".toList = "gridpointy".toList := by decide +kernel
  have n3 : ¬ "gridpointoffsets".toList = "gridpointids".toList := by decide +kernel
  unfold branchLine
  simp only [hk, hv, (parseFloats_iff ft _ _).2 hn, if_neg n1, if_neg n2, if_neg n3, if_true]

theorem branchLine_other (ft : FloatText K) (l : Text) (v : BranchVars K) (h1 : keyOf l ≠ "gridpointx".toList)
    (h2 : keyOf l ≠ "gridpointy".toList) (h3 : keyOf l ≠ "gridpointids".toList)
    (h4 : keyOf l ≠ "gridpointoffsets".toList) : branchLine ft l v = .ok v := by
  unfold keyOf at h1 h2 h3 h4
  unfold branchLine
  simp only [if_neg h1, if_neg h2, if_neg h3, if_neg h4]

/-- Whether a key occurs in the lines. -/
def hasKey (body : List Text) (k : String) : Prop := ∃ l ∈ body, keyOf l = k.toList

/-- What the lines of a branch say, whether or not the keys occur. -/
structure BodyFor (ft : FloatText K) (body : List Text) (b : Branch K) : Prop where
  x : ∀ l ∈ body, keyOf l = "gridpointx".toList → ∃ t, valueOf l = some t ∧ Numbers ft t b.x
  y : ∀ l ∈ body, keyOf l = "gridpointy".toList → ∃ t, valueOf l = some t ∧ Numbers ft t b.y
  ids : ∀ l ∈ body, keyOf l = "gridpointids".toList → ∃ t, valueOf l = some t ∧ (splitSep ';' t).map strip = b.ids
  off : ∀ l ∈ body, keyOf l = "gridpointoffsets".toList → ∃ t, valueOf l = some t ∧ Numbers ft t b.offsets

theorem BodyFor.tail {ft : FloatText K} {l : Text} {body : List Text} {b : Branch K} (h : BodyFor ft (l :: body) b) :
    BodyFor ft body b :=
  ⟨fun m hm => h.x m (List.mem_cons_of_mem _ hm), fun m hm => h.y m (List.mem_cons_of_mem _ hm),
    fun m hm => h.ids m (List.mem_cons_of_mem _ hm), fun m hm => h.off m (List.mem_cons_of_mem _ hm)⟩

/-- The variables agree with what a branch says on the keys seen so far. -/
structure Agrees (b : Branch K) (kx ky ki ko : Prop) (v : BranchVars K) : Prop where
  x : kx → v.x = some b.x
  y : ky → v.y = some b.y
  ids : ki → ∃ c, v.cid = some c ∧ c.map strip = b.ids
  off : ko → v.coff = some b.offsets ∧ v.cdis = some (controlLengths b.offsets)

theorem branchLine_agrees (ft : FloatText K) (l : Text) (body : List Text) (b : Branch K) (v : BranchVars K)
    (h : BodyFor ft (l :: body) b) (kx ky ki ko : Prop) (hv : Agrees b kx ky ki ko v) :
    ∃ v', branchLine ft l v = .ok v' ∧
      Agrees b (kx ∨ keyOf l = "gridpointx".toList) (ky ∨ keyOf l = "gridpointy".toList)
        (ki ∨ keyOf l = "gridpointids".toList) (ko ∨ keyOf l = "gridpointoffsets".toList) v' := by
  have n1 : "gridpointx".toList ≠ "gridpointy".toList := by decide +kernel
  have n2 : "gridpointx".toList ≠ "gridpointids".toList := by decide +kernel
  have n3 : "gridpointx".toList ≠ "gridpointoffsets".toList := by decide +kernel
  have n4 : "gridpointy".toList ≠ "gridpointids".toList := by decide +kernel
  have n5 : "gridpointy".toList ≠ "gridpointoffsets".toList := by decide +kernel
  have n6 : "gridpointids".toList ≠ "gridpointoffsets".toList := by decide +kernel
  by_cases h1 : keyOf l = "gridpointx".toList
  · obtain ⟨t, ht, hn⟩ := h.x l (by simp) h1
    refine ⟨_, branchLine_x ft l v b.x t h1 ht hn, ⟨fun _ => rfl, fun k => ?_, fun k => ?_, fun k => ?_⟩⟩
    · exact hv.y (k.resolve_right fun e => n1 (h1.symm.trans e))
    · exact hv.ids (k.resolve_right fun e => n2 (h1.symm.trans e))
    · exact hv.off (k.resolve_right fun e => n3 (h1.symm.trans e))
  by_cases h2 : keyOf l = "gridpointy".toList
  · obtain ⟨t, ht, hn⟩ := h.y l (by simp) h2
    refine ⟨_, branchLine_y ft l v b.y t h2 ht hn, ⟨fun k => ?_, fun _ => rfl, fun k => ?_, fun k => ?_⟩⟩
    · exact hv.x (k.resolve_right h1)
    · exact hv.ids (k.resolve_right fun e => n4 (h2.symm.trans e))
    · exact hv.off (k.resolve_right fun e => n5 (h2.symm.trans e))
  by_cases h3 : keyOf l = "gridpointids".toList
  · obtain ⟨t, ht, hn⟩ := h.ids l (by simp) h3
    refine ⟨_, branchLine_ids ft l v t h3 ht, ⟨fun k => ?_, fun k => ?_, fun _ => ⟨_, rfl, hn⟩, fun k => ?_⟩⟩
    · exact hv.x (k.resolve_right h1)
    · exact hv.y (k.resolve_right h2)
    · exact hv.off (k.resolve_right fun e => n6 (h3.symm.trans e))
  by_cases h4 : keyOf l = "gridpointoffsets".toList
  · obtain ⟨t, ht, hn⟩ := h.off l (by simp) h4
    refine ⟨_, branchLine_offsets ft l v b.offsets t h4 ht hn, ⟨fun k => ?_, fun k => ?_, fun k => ?_, fun _ => ⟨rfl, rfl⟩⟩⟩
    · exact hv.x (k.resolve_right h1)
    · exact hv.y (k.resolve_right h2)
    · exact hv.ids (k.resolve_right h3)
  · exact ⟨v, branchLine_other ft l v h1 h2 h3 h4, ⟨fun k => hv.x (k.resolve_right h1),
      fun k => hv.y (k.resolve_right h2), fun k => hv.ids (k.resolve_right h3), fun k => hv.off (k.resolve_right h4)⟩⟩

theorem netLines_cons (ft : FloatText K) (rules : List (Text × BranchRule)) (l : Text) (ls : List Text) (s s' : NetState K)
    (h : netLine ft rules s l = .ok s') : netLines ft rules (l :: ls) s = netLines ft rules ls s' := by
  rw [netLines, h]

theorem netLines_cons_error (ft : FloatText K) (rules : List (Text × BranchRule)) (l : Text) (ls : List Text)
    (s : NetState K) (e : PyErr) (h : netLine ft rules s l = .error e) : netLines ft rules (l :: ls) s = .error e := by
  rw [netLines, h]

/-- Reading the lines of a branch ends in `finishBranch` with variables that agree with all keys seen. -/
theorem netLines_body (ft : FloatText K) (rules : List (Text × BranchRule)) (b : Branch K) (rest : List Text)
    (points : Points K) (body : List Text) (hb : BodyFor ft body b) (hne : body ≠ []) (v : BranchVars K)
    (kx ky ki ko : Prop) (hv : Agrees b kx ky ki ko v) :
    ∃ v', Agrees b (kx ∨ hasKey body "gridpointx") (ky ∨ hasKey body "gridpointy") (ki ∨ hasKey body "gridpointids")
        (ko ∨ hasKey body "gridpointoffsets") v' ∧
      netLines ft rules (body ++ rest) ⟨.inside b.name body.length, v, points⟩ =
        match finishBranch rules b.name v' points with
        | .error e => .error e
        | .ok s => netLines ft rules rest s := by
  induction body generalizing v kx ky ki ko with
  | nil => exact absurd rfl hne
  | cons l body ih =>
    obtain ⟨v1, e1, a1⟩ := branchLine_agrees ft l body b v hb kx ky ki ko hv
    by_cases hbody : body = []
    · subst hbody
      refine ⟨v1, ?_, ?_⟩
      · have hk : ∀ (k : String), hasKey [l] k ↔ keyOf l = k.toList := fun k => by simp [hasKey]
        simp only [hk]; exact a1
      · rw [List.singleton_append, netLines]
        simp only [netLine, e1, List.length_singleton, le_refl, if_true]
        cases finishBranch rules b.name v1 points <;> rfl
    · obtain ⟨v2, a2, e2⟩ := ih hb.tail hbody v1 _ _ _ _ a1
      refine ⟨v2, ?_, ?_⟩
      · have hk : ∀ (q : Prop) (k : String), ((q ∨ keyOf l = k.toList) ∨ hasKey body k) ↔ (q ∨ hasKey (l :: body) k) :=
          fun q k => by
            unfold hasKey
            simp only [List.mem_cons, exists_eq_or_imp]
            tauto
        simp only [hk] at a2; exact a2
      · have hlen : ¬ (l :: body).length ≤ 1 := by
          have := List.length_pos_of_ne_nil hbody
          simp; omega
        rw [List.cons_append, netLines_cons ft rules l _ _ ⟨.inside b.name body.length, v1, points⟩, e2]
        simp only [netLine, e1, if_neg hlen]
        simp

/-- Reading a block. -/
theorem netLines_block (ft : FloatText K) (rules : List (Text × BranchRule)) (b : Branch K) (block rest : List Text)
    (h : IsBlock ft block b) (v : BranchVars K) (points : Points K) :
    ∃ v' c, v'.x = some b.x ∧ v'.y = some b.y ∧ v'.cid = some c ∧ c.map strip = b.ids ∧ v'.coff = some b.offsets ∧
      v'.cdis = some (controlLengths b.offsets) ∧
      netLines ft rules (block ++ rest) ⟨.between, v, points⟩ =
        match finishBranch rules b.name v' points with
        | .error e => .error e
        | .ok s => netLines ft rules rest s := by
  cases h with
  | @block head idLine body _ t hh hi hn hb hx hy hids ho =>
    have hbody : BodyFor ft body b := ⟨hx.2, hy.2, hids.2, ho.2⟩
    have hne : body ≠ [] := fun e => by rw [e] at hb; simp at hb
    obtain ⟨v', a, e⟩ := netLines_body ft rules b rest points body hbody hne v False False False False
      ⟨fun k => k.elim, fun k => k.elim, fun k => k.elim, fun k => k.elim⟩
    obtain ⟨c, hc, hc'⟩ := a.ids (.inr hids.1)
    obtain ⟨o1, o2⟩ := a.off (.inr ho.1)
    refine ⟨v', c, a.x (.inr hx.1), a.y (.inr hy.1), hc, hc', o1, o2, ?_⟩
    rw [List.cons_append, List.cons_append, netLines_cons ft rules head _ _ ⟨.header, v, points⟩,
      netLines_cons ft rules idLine _ _ ⟨.inside b.name 10, v, points⟩, ← hb, e]
    · simp only [netLine, hi, hn]
    · simp only [netLine, hh, if_true]

/-- The end of a branch whose variables hold what the branch says. -/
theorem finishBranch_iff (rules : List (Text × BranchRule)) (b : Branch K) (v : BranchVars K) (c : List Text)
    (hx : v.x = some b.x) (hy : v.y = some b.y) (hc : v.cid = some c) (hc' : c.map strip = b.ids)
    (ho : v.coff = some b.offsets) (hd : v.cdis = some (controlLengths b.offsets)) (points : Points K) :
    (∀ p, IsResultOf rules b p → ∃ v', finishBranch rules b.name v points = .ok ⟨.between, v', points.append p⟩) ∧
      (∀ s, finishBranch rules b.name v points = .ok s →
        ∃ p v', IsResultOf rules b p ∧ s = ⟨.between, v', points.append p⟩) := by
  have hbp : ∀ q, branchPoints b.name v = .ok q ↔ IsPointsOf b q := by
    intro q
    unfold branchPoints IsPointsOf
    simp only [hx, hy, hc, ho, hd, hc']
    cases hmx : moveEnds b.offsets b.x with
    | error e => simp
    | ok x' =>
      cases hmy : moveEnds b.offsets b.y with
      | error e => simp
      | ok y' =>
        simp only [Except.ok.injEq]
        constructor
        · rintro rfl; exact ⟨rfl, rfl, rfl, rfl, rfl, rfl⟩
        · rintro ⟨e1, e2, e3, e4, e5, e6⟩
          cases q; simp_all
  constructor
  · rintro p ⟨q, hq, hr⟩
    unfold finishBranch applyRuleFor
    rw [(hbp q).2 hq]
    rcases hr with ⟨h1, rfl⟩ | ⟨r, h1, h2⟩
    · simp only [h1]; exact ⟨_, rfl⟩
    · simp only [h1, h2]; exact ⟨_, rfl⟩
  · intro s h
    unfold finishBranch at h
    split at h
    · cases h
    · rename_i q hq
      split at h
      · cases h
      · rename_i p hp
        refine ⟨p, _, ⟨q, (hbp q).1 hq, ?_⟩, (Except.ok.inj h).symm⟩
        unfold applyRuleFor at hp
        cases hr : rulesGet rules b.name with
        | none => rw [hr] at hp; exact .inl ⟨rfl, (Except.ok.inj hp).symm⟩
        | some r => rw [hr] at hp; exact .inr ⟨r, rfl, hp⟩

theorem append_concat (p q : Points K) (ps : List (Points K)) :
    (p.append q).append (concat ps) = p.append (concat (q :: ps)) := by
  simp [Points.append, concat]

/-- The whole reader. -/
def netRun (ft : FloatText K) (rules : List (Text × BranchRule)) (lines : List Text) (s : NetState K) :
    Except PyErr (Points K) :=
  match netLines ft rules lines s with
  | .error e => .error e
  | .ok s => netEnd rules s

theorem netRun_iff (ft : FloatText K) (rules : List (Text × BranchRule)) (lines : List Text) (bs : List (Branch K))
    (h : IsNetwork ft lines bs) (v : BranchVars K) (points p : Points K) :
    netRun ft rules lines ⟨.between, v, points⟩ = .ok p ↔
      ∃ ps, List.Forall₂ (IsResultOf rules) bs ps ∧ p = points.append (concat ps) := by
  induction h generalizing v points with
  | nil =>
    have e : netRun ft rules [] ⟨.between, v, points⟩ = .ok points := rfl
    rw [e]
    have a : points.append (concat []) = points := by simp [Points.append, concat]
    constructor
    · intro h; exact ⟨[], .nil, by rw [a, ← Except.ok.inj h]⟩
    · rintro ⟨ps, h, rfl⟩; cases h; rw [a]
  | @other line lines bs h _ ih =>
    rw [← ih v points]
    unfold netRun
    rw [netLines_cons ft rules line lines _ ⟨.between, v, points⟩]
    simp only [netLine, if_neg h]
  | @block lines block b bs h _ ih =>
    obtain ⟨v', c, hx, hy, hc, hc', ho, hd, e⟩ := netLines_block ft rules b block lines h v points
    obtain ⟨f1, f2⟩ := finishBranch_iff rules b v' c hx hy hc hc' ho hd points
    constructor
    · intro hr
      unfold netRun at hr
      rw [e] at hr
      cases hf : finishBranch rules b.name v' points with
      | error er => rw [hf] at hr; cases hr
      | ok s =>
        rw [hf] at hr
        obtain ⟨q, v2, hq, rfl⟩ := f2 s hf
        obtain ⟨ps, h1, h2⟩ := (ih v2 (points.append q)).1 hr
        exact ⟨q :: ps, .cons hq h1, by rw [h2, append_concat]⟩
    · rintro ⟨ps, hps, rfl⟩
      cases hps with
      | @cons _ q _ ps hq hps =>
        obtain ⟨v2, hf⟩ := f1 q hq
        have := (ih v2 (points.append q)).2 ⟨ps, hps, (append_concat _ _ _).symm⟩
        unfold netRun at this ⊢
        rw [e, hf]
        exact this

theorem moveEnds_ok (offs x x' : List K) (h : moveEnds offs x = .ok x') :
    offs.length = x.length ∧ x'.length = x.length ∧
      ∃ last a b, offs.getLast? = some last ∧ interp1 offs x 1 = some a ∧
        interp1 offs (x.set 0 a) (last - 1) = some b ∧ x' = (x.set 0 a).set (x.length - 1) b := by
  unfold moveEnds at h
  split at h
  · rename_i hl
    split at h
    · rename_i last a h1 h2
      split at h
      · rename_i b h3
        obtain rfl := Except.ok.inj h
        exact ⟨hl, by simp, last, a, b, h1, h2, h3, rfl⟩
      · cases h
    · cases h
  · cases h

theorem moveEnds_exists (offs x : List K) (h : offs.length = x.length) (hne : offs ≠ []) :
    ∃ x', moveEnds offs x = .ok x' := by
  obtain ⟨a, ha⟩ := interp1_isSome offs x h hne 1
  obtain ⟨b, hb⟩ := interp1_isSome offs (x.set 0 a) (by simp [h]) hne (offs.getLast hne - 1)
  refine ⟨(x.set 0 a).set (x.length - 1) b, ?_⟩
  unfold moveEnds
  rw [if_pos h, List.getLast?_eq_some_getLast hne, ha]
  simp only [hb]

end Fm2prof

import Verif.Proofs.Crash
import Verif.Proofs.Pipeline
import Verif.Spec.Stored

/-!
# Helper lemmas: stored data and flow masks
-/

set_option linter.unusedSectionVars false

namespace Fm2prof

open Spec

section Jobs

variable {S C : Type}

/-- What is stored for a location when nothing goes wrong. -/
def storedFiles (j : Job S C) (x : S) : List (Text × Text) :=
  if j.valid x && j.exportCssData then
    (j.name x ++ ".pickle".toList, j.pickle x) ::
      if j.faces x < 10 then [] else ((j.mask x).map fun t => (j.name x ++ "_flowmask.pickle".toList, t)).toList
  else []

theorem fileWrites_sound (w : WriteFaults) (f t : Text) (h : Sound w f) : fileWrites w f t = [(f, t)] := by
  unfold fileWrites
  rw [h.1, h.2]
  rfl

theorem write_sound (w : WriteFaults) (f t : Text) (h : Sound w f) : (ExportStep.write f t none).writes w = [(f, t)] :=
  fileWrites_sound w f t h

theorem raises_sound (w : WriteFaults) (f t : Text) (h : Sound w f) : (ExportStep.write f t none).raises w = false := by
  show (w.refuses f || (w.breaks f).isSome || _) = false
  rw [h.1, h.2]
  rfl

theorem pickleWrites_ok (j : Job S C) (x : S) (r : Option C) (h : outcome j x = .ok r) : pickleWrites j x = storedFiles j x := by
  unfold pickleWrites storedFiles
  by_cases hc : (j.valid x && j.exportCssData) = true
  · rw [if_pos hc, if_pos hc]
    rw [Bool.and_eq_true] at hc
    have hn : ¬ Unstorable j x := by
      intro hu
      unfold outcome at h
      have := (pickleFails_iff j x .osError).2 ⟨hu, rfl⟩
      unfold PickleFails at this
      rw [hc.1, this] at h
      cases h
    have h1 : Sound j.faults (j.name x ++ ".pickle".toList) := by
      by_contra hs
      exact hn ⟨hc.2, Or.inl hs⟩
    rw [blockWrites, write_sound _ _ _ h1, raises_sound _ _ _ h1, if_neg (by decide), List.singleton_append]
    congr 1
    by_cases hf : j.faces x < 10
    · rw [if_pos hf, if_pos hf]; rfl
    · rw [if_neg hf, if_neg hf]
      cases hm : j.mask x with
      | none => rfl
      | some t =>
        have h2 : Sound j.faults (j.name x ++ "_flowmask.pickle".toList) := by
          by_contra hs
          exact hn ⟨hc.2, Or.inr ⟨by omega, by rw [hm]; rfl, hs⟩⟩
        simp only
        rw [blockWrites, write_sound _ _ _ h2, raises_sound _ _ _ h2]
        rfl
  · rw [if_neg hc, if_neg hc]

theorem generateWrites_ok (j : Job S C) (xs : List S) (cs : List C) (h : outcomes j xs = .ok cs) :
    generateWrites j xs = xs.flatMap (storedFiles j) := by
  induction xs generalizing cs with
  | nil => rfl
  | cons x xs ih =>
    rw [outcomes] at h
    rw [generateWrites, List.flatMap_cons, attempt_eq]
    cases ho : outcome j x with
    | error e => rw [ho] at h; cases h
    | ok r =>
      rw [ho] at h
      simp only at h ⊢
      rw [pickleWrites_ok j x r ho]
      cases hos : outcomes j xs with
      | error e => rw [hos] at h; cases h
      | ok cs' => rw [ih cs' hos]

theorem orderedFiles_last : ∀ f ∈ orderedFiles, f.getLast? ≠ some 'e' := by decide

theorem pickle_last (n : Text) : (n ++ ".pickle".toList).getLast? = some 'e' := by
  rw [List.getLast?_append]
  rfl

/-- The stored files after a run that reports success. -/
theorem run_stored (j : Job S C) (overwrite : Bool) (s : Store) (h : (run j overwrite s).2 = .ok true) :
    ∃ m xs, j.load = .ok m ∧ Requested j.cssSelection m.stations xs ∧
      ∀ n : Text, (run j overwrite s).1 (n ++ ".pickle".toList) = writeAll s (xs.flatMap (storedFiles j)) (n ++ ".pickle".toList) := by
  have hw := run_writes j overwrite s
  unfold runWrites at hw
  unfold run at h
  cases hc : j.configured with
  | false => rw [hc] at h; cases h
  | true =>
    cases ho : outputExists s && !overwrite with
    | true => rw [hc, ho] at h; cases h
    | false =>
      rw [hc, ho] at h hw
      simp only [Bool.not_true, Bool.false_eq_true, if_false, Bool.or_self] at h hw
      unfold runInifile at h
      unfold inifileWrites at hw
      cases hi : initialise j with
      | error e => rw [hi] at h; cases e <;> cases h
      | ok m =>
        rw [hi] at h hw
        unfold generate at h
        simp only at h hw
        cases hr : requested j.cssSelection m.stations with
        | error e => rw [hr] at h; cases h
        | ok xs =>
          rw [hr] at h hw
          simp only at h hw
          have hout := attemptAll_outcome j xs s
          rw [attemptAll_outcome j xs fun _ => none] at hw
          cases ha : attemptAll j xs s with
          | mk s' r =>
            rw [ha] at h hout
            cases r with
            | error e => cases h
            | ok cs =>
              simp only at hout
              rw [← hout] at hw
              rw [generateWrites_ok j xs cs hout.symm] at hw
              refine ⟨m, xs, ((initialise_ok j m).1 hi).2.2.1, (requested_iff _ _ _).1 hr, fun n => ?_⟩
              rw [hw, writeAll_append, writeAll_other _ (finaliseWrites j cs)]
              intro hm
              exact orderedFiles_last _ ((finalise_files j cs).subset hm) (pickle_last n)

theorem writeAll_const (ws : List (Text × Text)) (s : Store) (f t : Text) (hf : f ∈ ws.map (·.1))
    (h : ∀ w ∈ ws, w.1 = f → w.2 = t) : writeAll s ws f = some t := by
  induction ws generalizing s with
  | nil => cases hf
  | cons w ws ih =>
    rw [writeAll]
    by_cases hm : f ∈ ws.map (·.1)
    · exact ih _ hm fun w' hw' => h w' (List.mem_cons_of_mem _ hw')
    · rw [writeAll_other _ _ _ hm]
      rcases List.mem_cons.1 hf with e | e
      · have := h w List.mem_cons_self e.symm
        unfold Store.set
        rw [if_pos e, this]
      · exact absurd e hm

theorem storedFiles_cases (j : Job S C) (x : S) (w : Text × Text) (h : w ∈ storedFiles j x) :
    j.valid x = true ∧ (w = (j.name x ++ ".pickle".toList, j.pickle x) ∨
      10 ≤ j.faces x ∧ ∃ t, j.mask x = some t ∧ w = (j.name x ++ "_flowmask.pickle".toList, t)) := by
  unfold storedFiles at h
  split at h
  · rename_i hc
    rw [Bool.and_eq_true] at hc
    refine ⟨hc.1, ?_⟩
    rcases List.mem_cons.1 h with h | h
    · exact Or.inl h
    · split at h
      · cases h
      · rename_i hf
        cases hm : j.mask x with
        | none => rw [hm] at h; cases h
        | some t =>
          rw [hm] at h
          exact Or.inr ⟨by omega, t, rfl, List.mem_singleton.1 h⟩
  · cases h

end Jobs

section Masks

variable {K : Type} [Field K] [LinearOrder K] [IsStrictOrderedRing K] [FloorRing K]

theorem sum_zipIdx_mask {α : Type} (l : List α) (k : Nat) (a : α → K) (m : Nat → α → List Bool) (t : Nat) (b : Nat → α → Bool)
    (h : ∀ i c, (m i c)[t]? = some (b i c)) :
    ((l.zipIdx k).map fun (c, i) => if b i c then a c else 0).sum =
      (((l.map a).zip ((l.zipIdx k).map fun (c, i) => m i c)).map fun p => if p.2[t]? = some true then p.1 else 0).sum := by
  induction l generalizing k with
  | nil => rfl
  | cons c l ih =>
    simp only [List.zipIdx_cons, List.map_cons, List.zip_cons_cons, List.sum_cons]
    rw [ih (k + 1), h k c]
    congr 1
    cases b k c <;> rfl

theorem maskedArea_marked (cfg : BuildConfig K) (raw : ControlVolume K) (t : Nat) (ht : t < (getTimeseries cfg.skipMaps raw).nMaps) :
    (maskedArea (getTimeseries cfg.skipMaps raw).cells fun i c => flowMask cfg (getTimeseries cfg.skipMaps raw) i c t) =
      markedArea (raw.cells.map (·.area)) (flowMasks cfg raw) t := by
  have ha : (getTimeseries cfg.skipMaps raw).cells.map (·.area) = raw.cells.map (·.area) := by
    unfold getTimeseries
    simp only [List.map_map]
    rfl
  unfold maskedArea markedArea flowMasks
  rw [← ha]
  refine sum_zipIdx_mask (getTimeseries cfg.skipMaps raw).cells 0 (fun c : Cell K => c.area)
    (fun i c => (List.range (getTimeseries cfg.skipMaps raw).nMaps).map (flowMask cfg (getTimeseries cfg.skipMaps raw) i c)) t
    (fun i c => flowMask cfg (getTimeseries cfg.skipMaps raw) i c t) fun i c => ?_
  rw [List.getElem?_map, List.getElem?_range ht]
  rfl

theorem maskSelect_size {α β : Type} (mask : List Bool) (a : List α) (b : List β) (ha : a.length = mask.length)
    (hb : b.length = mask.length) : (maskSelect mask a).length = (maskSelect mask b).length := by
  induction mask generalizing a b with
  | nil =>
    cases a with
    | nil => cases b with
      | nil => rfl
      | cons => cases hb
    | cons => cases ha
  | cons m mask ih =>
    cases a with
    | nil => cases ha
    | cons x a =>
      cases b with
      | nil => cases hb
      | cons y b =>
        have := ih a b (Nat.succ.inj ha) (Nat.succ.inj hb)
        cases m
        · exact this
        · exact congrArg (· + 1) this

theorem cells_area (sqrt : K → K) (m : Model2d K) (hm : Loaded2d m) (id : Text) (n : Nat) :
    (controlVolumeOf n (getSelection sqrt m.faces m.edges id)).cells.map (·.area) = (getSelection sqrt m.faces m.edges id).area := by
  have hl : ∀ {α : Type} (col : List α), col.length = m.faces.sclass.length →
      (maskSelect (m.faces.sclass.map fun c => decide (c = id)) col).length =
        (maskSelect (m.faces.sclass.map fun c => decide (c = id)) m.faces.area).length := by
    intro α col h
    exact maskSelect_size _ _ _ (by rw [List.length_map, h]) (by rw [List.length_map, hm.area])
  unfold controlVolumeOf getSelection
  simp only
  generalize maskSelect (m.faces.sclass.map fun c => decide (c = id)) m.faces.area = A at hl ⊢
  have h1 := hl _ hm.bedlevel
  have h2 := hl _ hm.waterdepth
  have h3 := hl _ hm.waterlevel
  have h4 := hl _ hm.velocityX
  have h5 := hl _ hm.velocityY
  rw [List.map_map]
  apply List.ext_getElem?
  intro k
  rw [List.getElem?_map]
  rcases Nat.lt_or_ge k A.length with hk | hk
  · rw [List.getElem?_eq_getElem (by
      simp only [List.length_zip, List.length_zipWith]
      omega), List.getElem?_eq_getElem hk]
    simp
  · rw [List.getElem?_eq_none (by
      simp only [List.length_zip, List.length_zipWith]
      omega), List.getElem?_eq_none hk]
    rfl

theorem reachesMask_of_built (cfg : BuildConfig K) (len : K) (centre n : Nat) (s : Selection Text K) (b : Built K)
    (h : buildGeometry cfg len centre (controlVolumeOf n s) = .ok b) : reachesMask cfg n = true := by
  obtain ⟨c, L, z, d0, -, hT, hL, -⟩ := buildGeometry_ok h
  have e : (getTimeseries cfg.skipMaps (controlVolumeOf n s)).nMaps = n - sliceStart n cfg.skipMaps := rfl
  rw [e] at hT hL
  unfold reachesMask
  rw [hL, decide_eq_true hT]
  rfl

theorem usedMaps_eq (n : Nat) (skip : Int) : usedMaps n skip = n - sliceStart n skip := by
  unfold usedMaps sliceStart
  split <;> omega

theorem marked_wet (cfg : BuildConfig K) (n : Nat) (s : Selection Text K) (k t : Nat) (row : List Bool)
    (hk : (flowMasks cfg (controlVolumeOf n s))[k]? = some row) (ht : row[t]? = some true) :
    ∃ depths d, s.waterdepth[k]? = some depths ∧ depths[n - usedMaps n cfg.skipMaps + t]? = some (some d) ∧ 0 < d := by
  unfold flowMasks at hk
  simp only [List.getElem?_map] at hk
  cases hc : (getTimeseries cfg.skipMaps (controlVolumeOf n s)).cells.zipIdx[k]? with
  | none => rw [hc] at hk; cases hk
  | some p =>
    rw [hc] at hk
    obtain rfl := Option.some.inj hk
    rw [List.getElem?_map] at ht
    cases hr : (List.range (getTimeseries cfg.skipMaps (controlVolumeOf n s)).nMaps)[t]? with
    | none => rw [hr] at ht; cases ht
    | some t' =>
      rw [hr] at ht
      have hlt : t < (getTimeseries cfg.skipMaps (controlVolumeOf n s)).nMaps := by
        have := (List.getElem?_eq_some_iff.1 hr).1
        rwa [List.length_range] at this
      rw [List.getElem?_range hlt] at hr
      obtain rfl := Option.some.inj hr
      have hmask : flowMask cfg (getTimeseries cfg.skipMaps (controlVolumeOf n s)) p.2 p.1 t = true := Option.some.inj ht
      obtain ⟨hwet, -⟩ : ogt (p.1.depth t) 0 = true ∧ True := by
        refine ⟨?_, trivial⟩
        unfold flowMask maxVelocityMethod meanVelocityMethod at hmask
        split at hmask
        · simp only [Bool.and_eq_true] at hmask
          first | exact hmask.1.1 | exact hmask.1
        · simp only [Bool.and_eq_true] at hmask
          first | exact hmask.1.1 | exact hmask.1
      rw [List.getElem?_zipIdx] at hc
      unfold getTimeseries controlVolumeOf at hc
      simp only [List.getElem?_map, Option.map_map] at hc
      cases hz : ((s.area.zip s.bedlevel).zip (s.waterdepth.zip (s.waterlevel.zip s.velocity)))[k]? with
      | none => rw [hz] at hc; cases hc
      | some q =>
        rw [hz] at hc
        obtain rfl := Option.some.inj hc
        obtain ⟨h1, h2⟩ := List.getElem?_zip_eq_some.1 hz
        obtain ⟨h3, -⟩ := List.getElem?_zip_eq_some.1 h2
        refine ⟨q.2.1, ?_⟩
        have hw : ogt (clean (mapSeries q.2.1 (sliceStart n cfg.skipMaps + t))) 0 = true := hwet
        have hs : n - usedMaps n cfg.skipMaps + t = sliceStart n cfg.skipMaps + t := by
          have hle : sliceStart n cfg.skipMaps ≤ n := by
            unfold sliceStart
            split <;> omega
          rw [usedMaps_eq]
          omega
        unfold mapSeries at hw
        rw [hs]
        cases hv : q.2.1[sliceStart n cfg.skipMaps + t]? with
        | none => rw [hv] at hw; cases hw
        | some v =>
          rw [hv] at hw
          cases v with
          | none => cases hw
          | some d =>
            refine ⟨d, h3, rfl, ?_⟩
            have hw : ogt (if d = -999 then none else some d) 0 = true := hw
            split at hw
            · cases hw
            · exact of_decide_eq_true hw

end Masks

end Fm2prof

import Verif.Spec.Direction
import Verif.Proofs.Conveyance
import Verif.Props.Refined

/-!
# Properties of runs on maps that differ in the direction of the flow

C201: only the size of the velocities matters.
-/

set_option linter.unusedSectionVars false

namespace Fm2prof.Props

open Fm2prof Spec ConveyanceProof

variable {K : Type} [Field K] [LinearOrder K] [IsStrictOrderedRing K] [FloorRing K]

private theorem speed_eq (sqrt : K → K) (u v : Option K) : speed sqrt u v = (sqSpeed u v).map sqrt := by
  cases u <;> cases v <;> rfl

private theorem zipWith_maskSelect {α β γ : Type} (f : α → β → γ) (mask : List Bool) (as : List α) (bs : List β) :
    List.zipWith f (maskSelect mask as) (maskSelect mask bs) = maskSelect mask (List.zipWith f as bs) := by
  unfold maskSelect
  induction mask generalizing as bs with
  | nil => rfl
  | cons b mask ih =>
    cases as with
    | nil => rfl
    | cons a as =>
      cases bs with
      | nil => rw [List.zip_nil_right, List.zipWith_nil_right, List.zip_nil_right]; exact List.zipWith_nil_right
      | cons c bs =>
        cases b with
        | false => exact ih as bs
        | true => exact congrArg (f a c :: ·) (ih as bs)

private theorem row_length {c c' : List (List (Option K))} (h : SameShape c c') (k : Nat) (r r' : List (Option K)) (hr : c[k]? = some r)
    (hr' : c'[k]? = some r') : r'.length = r.length := by
  have := congrArg (·[k]?) h
  simp only [List.getElem?_map, hr, hr', Option.map_some] at this
  exact Option.some.inj this

private theorem row_none {c c' : List (List (Option K))} (h : SameShape c c') (k : Nat) : c'[k]? = none ↔ c[k]? = none := by
  have := congrArg List.length h
  rw [List.length_map, List.length_map] at this
  rw [List.getElem?_eq_none_iff, List.getElem?_eq_none_iff, this]

/-- The speeds at the faces are the same. -/
private theorem speeds_eq (sqrt : K → K) (vx vy vx' vy' : List (List (Option K))) (h : SameSpeeds vx vy vx' vy') :
    List.zipWith (List.zipWith (speed sqrt)) vx' vy' = List.zipWith (List.zipWith (speed sqrt)) vx vy := by
  refine List.ext_getElem? fun k => ?_
  rw [List.getElem?_zipWith, List.getElem?_zipWith]
  cases hx : vx[k]? with
  | none => rw [(row_none h.x k).2 hx]
  | some rx =>
    cases hx' : vx'[k]? with
    | none => rw [(row_none h.x k).1 hx'] at hx; cases hx
    | some rx' =>
      cases hy : vy[k]? with
      | none => rw [(row_none h.y k).2 hy]
      | some ry =>
        cases hy' : vy'[k]? with
        | none => rw [(row_none h.y k).1 hy'] at hy; cases hy
        | some ry' =>
          refine congrArg some (List.ext_getElem? fun t => ?_)
          have l1 := row_length h.x k _ _ hx hx'
          have l2 := row_length h.y k _ _ hy hy'
          have hs := h.size k t
          rw [hx, hx', hy, hy'] at hs
          simp only [Option.bind_some] at hs
          rw [List.getElem?_zipWith, List.getElem?_zipWith]
          by_cases t1 : t < rx.length
          · by_cases t2 : t < ry.length
            · rw [List.getElem?_eq_getElem t1, List.getElem?_eq_getElem t2, List.getElem?_eq_getElem (l1 ▸ t1 : t < rx'.length),
                List.getElem?_eq_getElem (l2 ▸ t2 : t < ry'.length)] at hs ⊢
              simp only [Option.join_some] at hs
              simp only [speed_eq, hs]
            · rw [List.getElem?_eq_none (by omega : ry.length ≤ t), List.getElem?_eq_none (by omega : ry'.length ≤ t)]
              cases rx[t]? <;> cases rx'[t]? <;> rfl
          · rw [List.getElem?_eq_none (by omega : rx.length ≤ t), List.getElem?_eq_none (by omega : rx'.length ≤ t)]

/-- **C201.** Give the velocities in the map file other directions, at any faces and maps, and keep their sizes. A run does exactly the
same: it returns the same and leaves all files the same, those with the data of cross-sections included. -/
theorem C201_direction (x : Tools K) (cfg : RunConfig K) (i : Inputs K) (d : MapData K) (hd : i.map = .ok d)
    (vx vy : List (List (Option K))) (h : SameSpeeds d.faces.velocityX d.faces.velocityY vx vy) (o : Surroundings) (overwrite : Bool)
    (s : Store) :
    run (jobOf x cfg { i with map := .ok (MapData.withVelocities d vx vy) } o) overwrite s = run (jobOf x cfg i o) overwrite s := by
  have hload := load_still x.nn i d hd vx vy
  have hjob : jobOf x cfg { i with map := .ok (MapData.withVelocities d vx vy) } o = jobOf x cfg i o := by
    unfold jobOf
    rw [hload]
    cases hm : setModelData x.nn i with
    | error e => rfl
    | ok m =>
      obtain ⟨ex, ey⟩ := loaded_velocities x.nn i d hd m hm
      have hsel : ∀ name, getSelection x.sqrt { m.faces with velocityX := vx, velocityY := vy } m.edges name =
          getSelection x.sqrt m.faces m.edges name := by
        intro name
        unfold getSelection
        simp only [zipWith_maskSelect, speeds_eq x.sqrt _ _ _ _ (ex ▸ ey ▸ h : SameSpeeds m.faces.velocityX m.faces.velocityY vx vy)]
      have hb : ∀ l, buildCss x cfg { m with faces := { m.faces with velocityX := vx, velocityY := vy } } l = buildCss x cfg m l := by
        intro l
        unfold buildCss
        simp only [hsel]
        rfl
      simp only [Except.map, hsel, hb]
  rw [hjob]

/-- **C201, the other way round.** In particular the flow can go the other way everywhere. -/
theorem C201_reversed (x : Tools K) (cfg : RunConfig K) (i : Inputs K) (d : MapData K) (hd : i.map = .ok d) (o : Surroundings)
    (overwrite : Bool) (s : Store) :
    run (jobOf x cfg { i with map := .ok (MapData.withVelocities d
        (d.faces.velocityX.map fun r => r.map fun u => u.map (- ·)) (d.faces.velocityY.map fun r => r.map fun u => u.map (- ·))) } o)
      overwrite s = run (jobOf x cfg i o) overwrite s := by
  refine C201_direction x cfg i d hd _ _ ⟨?_, ?_, fun k t => ?_⟩ o overwrite s
  · unfold SameShape; rw [List.map_map]; exact List.map_congr_left fun r _ => List.length_map _
  · unfold SameShape; rw [List.map_map]; exact List.map_congr_left fun r _ => List.length_map _
  · have e : ∀ c : List (List (Option K)), ((c.map fun r => r.map fun u => u.map (- ·))[k]?.bind fun r => r[t]?.join) =
        (c[k]?.bind fun r => r[t]?.join).map (- ·) := by
      intro c
      rw [List.getElem?_map]
      cases c[k]? with
      | none => rfl
      | some r =>
        simp only [Option.map_some, Option.bind_some, List.getElem?_map]
        cases r[t]? with
        | none => rfl
        | some u => rfl
    rw [e, e]
    generalize (d.faces.velocityX[k]?.bind fun r => r[t]?.join) = u
    generalize (d.faces.velocityY[k]?.bind fun r => r[t]?.join) = v
    unfold sqSpeed
    cases u with
    | none => rfl
    | some a =>
      cases v with
      | none => rfl
      | some b => simp only [Option.map_some, Option.bind_some, neg_sq]

/-- The sample with the two components exchanged, which are not the same. -/
example : sampleInputs.map = .ok sampleMap ∧
    SameSpeeds sampleMap.faces.velocityX sampleMap.faces.velocityY sampleMap.faces.velocityY sampleMap.faces.velocityX ∧
    sampleMap.faces.velocityX ≠ sampleMap.faces.velocityY ∧
    (run (jobOf idleTools sampleRunConfig sampleInputs sampleSurroundings) false noFiles).2 = .ok true := by
  have hs : SameShape sampleMap.faces.velocityX sampleMap.faces.velocityY := by unfold SameShape; decide +kernel
  refine ⟨rfl, ⟨hs, hs.symm, fun k t => ?_⟩, by decide +kernel, ok_of₆ (by decide +kernel)⟩
  generalize (sampleMap.faces.velocityX[k]?.bind fun r => r[t]?.join) = u
  generalize (sampleMap.faces.velocityY[k]?.bind fun r => r[t]?.join) = v
  unfold sqSpeed
  cases u with
  | none => cases v <;> rfl
  | some a =>
    cases v with
    | none => rfl
    | some b => simp only [Option.map_some, Option.bind_some, add_comm]

end Fm2prof.Props

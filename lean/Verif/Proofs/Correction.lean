import Mathlib.Data.List.ReduceOption
import Verif.Spec.Correction

set_option linter.unusedSectionVars false

namespace Fm2prof

open Spec

variable {K : Type} [Field K] [LinearOrder K] [IsStrictOrderedRing K]

theorem physical_cap (v w : Option K) : Physical (omax v 0) (omin2 (omax w 0) (omax v 0)) := by
  cases v <;> cases w <;> simp [Physical, omax, omin2]

theorem physical_raise (v w : Option K) : Physical (omax2 (omax w 0) (omax v 0)) (omax v 0) := by
  cases v <;> cases w <;> simp [Physical, omax, omax2]

theorem optimizeSdStorage_physical (opt : Optimiser K) (method : Int) (total flow : List K) (c0 : K)
    (t0 f0 : Option K) (r : SdResult K) (h : optimizeSdStorage opt method total flow c0 t0 f0 = .ok r) :
    Physical r.totalVolume r.flowVolume := by
  unfold optimizeSdStorage at h
  split at h
  · unfold optimiseFlow at h
    split at h
    · cases h
    · split at h
      · cases h
      · cases h; exact physical_raise _ _
  · split at h
    · unfold optimiseBoth at h
      split at h
      · cases h
      · cases h; exact physical_cap _ _
    · unfold optimiseTotal at h
      split at h
      · cases h
      · split at h
        · cases h
        · cases h; exact physical_cap _ _

theorem addExtra_eq (v : List K) (zs : List K) (g : K → Option K) (extra : Option K) :
    addExtra v (zs.map g) extra =
      (v.zip zs).map fun (v, z) => (g z).bind fun p => extra.map fun x => v + p * x := by
  induction v generalizing zs with
  | nil => rfl
  | cons a v ih =>
    cases zs with
    | nil => rfl
    | cons z zs =>
      rw [List.map_cons, addExtra, List.zipWith_cons_cons, List.zip_cons_cons, List.map_cons]
      rw [← ih zs]; rfl

/-- What a run of the correction program amounts to. -/
theorem calculateCorrection_cases (opt : Optimiser K) (method : Int) (release : K → K → K → K) (height : K)
    (log : Nat → Option PyErr) (css : Css K) :
    (∃ e, calculateCorrection opt method release height log css = (css, some e)) ∨
    ∃ c0 t0 f0 sd css', sdInitial css.raw = .ok (c0, t0, f0) ∧
      optimizeSdStorage opt method css.raw.totalVolume1d css.raw.flowVolume1d c0 t0 f0 = .ok sd ∧
      calculateCorrection opt method release height log css = (css', none) ∧
      CorrectedWith css css' sd.crest sd.totalVolume sd.flowVolume
        (fun z => sd.crest.map fun c => release z c height) height := by
  unfold calculateCorrection correctionProgram
  simp only [exec]
  cases hi : sdInitial css.raw with
  | error e => left; exact ⟨e, by simp [stInitial, hi]⟩
  | ok r =>
    obtain ⟨c0, t0, f0⟩ := r
    simp only [stInitial, hi, stLog]
    cases log 0 with
    | some e => left; exact ⟨e, rfl⟩
    | none =>
    cases log 1 with
    | some e => left; exact ⟨e, rfl⟩
    | none =>
    cases log 2 with
    | some e => left; exact ⟨e, rfl⟩
    | none =>
    cases log 3 with
    | some e => left; exact ⟨e, rfl⟩
    | none =>
    cases log 4 with
    | some e => left; exact ⟨e, rfl⟩
    | none =>
    simp only [stOptimise]
    cases ho : optimizeSdStorage opt method css.raw.totalVolume1d css.raw.flowVolume1d c0 t0 f0 with
    | error e => left; exact ⟨e, rfl⟩
    | ok sd =>
    simp only
    cases log 5 with
    | some e => left; exact ⟨e, rfl⟩
    | none =>
    cases log 6 with
    | some e => left; exact ⟨e, rfl⟩
    | none =>
    cases log 7 with
    | some e => left; exact ⟨e, rfl⟩
    | none =>
    cases log 8 with
    | some e => left; exact ⟨e, rfl⟩
    | none =>
    cases log 9 with
    | some e => left; exact ⟨e, rfl⟩
    | none =>
    right
    refine ⟨c0, t0, f0, sd, _, rfl, ho, rfl, ?_⟩
    constructor <;> simp [addExtra_eq, stFraction, stWrite]

section Logistic

theorem release_eq (z c h : ℝ) :
    releaseFraction z c h = 1 / (1 + Real.exp (Real.log (1 / 100000) / h * (z - (c + 1 / 2 * h)))) := by
  unfold releaseFraction
  rw [Real.exp_one_rpow]

theorem log_delta_neg : Real.log (1 / 100000) < 0 := Real.log_neg (by norm_num) (by norm_num)

theorem release_pos (z c h : ℝ) : 0 < releaseFraction z c h := by
  rw [release_eq]; positivity

theorem release_lt_one (z c h : ℝ) : releaseFraction z c h < 1 := by
  rw [release_eq, div_lt_one (by positivity)]
  have := Real.exp_pos (Real.log (1 / 100000) / h * (z - (c + 1 / 2 * h)))
  linarith

end Logistic

theorem volumeError_eq (pred meas : List (Option K)) :
    volumeError pred meas = relativeSquaredError
      ((pred.zip meas).filterMap fun (p, m) => p.bind fun p => m.map fun m => (p, m)) := by
  unfold volumeError relativeSquaredError
  congr 1
  rw [List.map_filterMap]
  congr 1
  funext ⟨p, m⟩
  cases p with
  | none => rfl
  | some p =>
    cases m with
    | none => rfl
    | some m =>
      simp only [Option.bind_some, Option.map_some]
      congr 1
      rw [sq, sq, div_mul_div_comm]

theorem sum_eq_zero_iff_all (l : List K) (h : ∀ x ∈ l, 0 ≤ x) : l.sum = 0 ↔ ∀ x ∈ l, x = 0 := by
  induction l with
  | nil => simp
  | cons a l ih =>
    have ha := h a (by simp)
    have hl := fun x hx => h x (List.mem_cons_of_mem _ hx)
    have hs := List.sum_nonneg hl
    rw [List.sum_cons, List.forall_mem_cons, ← ih hl]
    constructor
    · intro he
      constructor <;> linarith
    · rintro ⟨h1, h2⟩
      rw [h1, h2, add_zero]

theorem volumeDifference_getElem? (v : List K) (w : List (Option K)) (i : Nat) (m : K) :
    (volumeDifference v w)[i]? = some (some m) ↔
      ∃ a b, v[i]? = some a ∧ w[i]? = some (some b) ∧ m = a - b := by
  unfold volumeDifference
  rw [List.getElem?_zipWith]
  cases v[i]? with
  | none => simp
  | some a =>
    cases w[i]? with
    | none => simp
    | some b =>
      cases b with
      | none => simp
      | some b => simp [eq_comm]

theorem volumeDifference_getLast? (v : List K) (w : List (Option K)) (hl : v.length = w.length) (a b : K)
    (ha : v.getLast? = some a) (hb : w.getLast? = some (some b)) :
    (volumeDifference v w).getLast? = some (some (a - b)) := by
  rw [List.getLast?_eq_getElem?] at ha hb ⊢
  have : (volumeDifference v w).length = v.length := by
    unfold volumeDifference
    rw [List.length_zipWith]; omega
  rw [this, volumeDifference_getElem?]
  exact ⟨a, b, ha, by rw [hl]; exact hb, rfl⟩

theorem nanmin_le (l : List (Option K)) (m : K) (h : nanmin l = some m) (x : K) (hx : some x ∈ l) : m ≤ x := by
  unfold nanmin at h
  rw [List.min?_eq_some_iff] at h
  exact h.2 x (List.reduceOption_mem_iff.2 hx)

end Fm2prof

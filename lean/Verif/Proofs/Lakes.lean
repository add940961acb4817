import Verif.Proofs.Stricter
import Verif.Spec.Lakes

/-!
# Lakes looked for in an earlier or a later map
-/

set_option linter.unusedSectionVars false

namespace Fm2prof.LakesProof

open Fm2prof Spec Props OneSettingProof ConveyanceProof StricterProof

variable {K : Type} [Field K] [LinearOrder K] [IsStrictOrderedRing K] [FloorRing K]

/-- A lake in the later map is one in the earlier map. -/
theorem lake_earlier (n : Nat) (c : Cell K) (a b : Nat) (hab : a ≤ b) (hb : b < n) (hr : NoFall n c.depth)
    (hw : Wet c.depth b → Wet c.depth a) (h : isLake b c = true) : isLake a c = true := by
  obtain ⟨x, z, h0, hz, h0x, hxz⟩ := hr 0 b (Nat.zero_le _) hb
  obtain ⟨y, z', hy, hz', -, hyz⟩ := hr a b hab hb
  obtain rfl : z = z' := Option.some.inj (hz.symm.trans hz')
  obtain ⟨x', y', h0', hy', -, hxy⟩ := hr 0 a (Nat.zero_le _) (lt_of_le_of_lt hab hb)
  obtain rfl : x = x' := Option.some.inj (h0.symm.trans h0')
  obtain rfl : y = y' := Option.some.inj (hy.symm.trans hy')
  unfold isLake at h ⊢
  rw [hz, h0, Bool.and_eq_true] at h
  rw [hy, h0, Bool.and_eq_true]
  have h1 : (0 : K) < z := of_decide_eq_true h.1
  have h2 : |z - x| ≤ 1 / 100 := of_decide_eq_true h.2
  obtain ⟨y'', hy'', hpos⟩ := hw ⟨z, hz, h1⟩
  obtain rfl : y = y'' := Option.some.inj (hy.symm.trans hy'')
  refine ⟨decide_eq_true hpos, ?_⟩
  show decide (|y - x| ≤ 1 / 100) = true
  rw [abs_of_nonneg (by linarith)] at h2
  rw [abs_of_nonneg (by linarith)]
  exact decide_eq_true (by linarith)

theorem resting_earlier (n : Nat) (c : Cell K) (a b : Nat) (hab : a ≤ b) (hb : b < n) (hr : NoFall n c.depth)
    (hw : Wet c.depth b → Wet c.depth a) (t : Nat) (h : resting b c t = true) : resting a c t = true := by
  induction t with
  | zero => exact lake_earlier n c a b hab hb hr hw h
  | succ t ih =>
    unfold resting at h ⊢
    rw [Bool.and_eq_true] at h ⊢
    exact ⟨h.1, ih h.2⟩

theorem wet_later (n : Nat) (c : Cell K) (a b : Nat) (hab : a ≤ b) (hb : b < n) (hr : NoFall n c.depth)
    (hw : Wet c.depth b → Wet c.depth a) (t : Nat) (h : wetNotLake a c t = true) : wetNotLake b c t = true := by
  unfold wetNotLake at h ⊢
  rw [Bool.and_eq_true] at h ⊢
  refine ⟨h.1, ?_⟩
  cases hq : resting b c t with
  | false => rfl
  | true =>
    rw [resting_earlier n c a b hab hb hr hw t hq] at h
    exact absurd h.2 (by decide)

theorem clean_nonneg (o : Option K) (x : K) (h : o = some x) (hx : 0 ≤ x) : clean o = some x := by
  rw [h]
  unfold clean
  simp only
  rw [if_neg (by intro e; rw [e] at hx; linarith)]

/-- What remains of rising depths after the first maps are skipped. -/
theorem rising_used (skip : Int) (raw : ControlVolume K) (c : Cell K) (h : NoFall raw.nMaps c.depth) :
    NoFall (getTimeseries skip raw).nMaps fun t => clean (c.depth (sliceStart raw.nMaps skip + t)) := by
  intro s t hst ht
  have ht : t < raw.nMaps - sliceStart raw.nMaps skip := ht
  obtain ⟨x, y, h1, h2, h3, h4⟩ := h (sliceStart raw.nMaps skip + s) (sliceStart raw.nMaps skip + t) (by omega) (by omega)
  exact ⟨x, y, clean_nonneg _ _ h1 h3, clean_nonneg _ _ h2 (le_trans h3 h4), h3, h4⟩

theorem wet_used (skip : Int) (raw : ControlVolume K) (c : Cell K) (h : NoFall raw.nMaps c.depth) (a b : Nat) (hab : a ≤ b)
    (hb : b < (getTimeseries skip raw).nMaps)
    (hw : Wet c.depth (sliceStart raw.nMaps skip + b) → Wet c.depth (sliceStart raw.nMaps skip + a)) :
    Wet (fun t => clean (c.depth (sliceStart raw.nMaps skip + t))) b → Wet (fun t => clean (c.depth (sliceStart raw.nMaps skip + t))) a := by
  have hb : b < raw.nMaps - sliceStart raw.nMaps skip := hb
  obtain ⟨x, y, h1, h2, h3, h4⟩ := h (sliceStart raw.nMaps skip + a) (sliceStart raw.nMaps skip + b) (by omega) (by omega)
  rintro ⟨z, hz, hpos⟩
  have hz : clean (c.depth (sliceStart raw.nMaps skip + b)) = some z := hz
  rw [clean_nonneg _ _ h2 (le_trans h3 h4)] at hz
  obtain rfl := Option.some.inj hz
  obtain ⟨x', hx', hp⟩ := hw ⟨y, h2, hpos⟩
  exact ⟨x', clean_nonneg _ _ hx' hp.le, hp⟩

theorem pyIndex_nat (n a : Nat) (L : Nat) (h : pyIndex n (a : Int) = .ok L) : L = a ∧ a < n := by
  unfold pyIndex at h
  rw [if_pos (Int.natCast_nonneg a), Int.toNat_natCast] at h
  split at h
  · rename_i hlt
    exact ⟨(Except.ok.inj h).symm, hlt⟩
  · cases h

/-- Lakes looked for in a later map: the wet areas and the total widths are not smaller. -/
theorem build_lakes (cfg : BuildConfig K) (a b : Nat) (hab : a ≤ b) (len : K) (hlen : 0 ≤ len) (centre : Nat) (raw : ControlVolume K)
    (harea : ∀ c ∈ raw.cells, 0 ≤ c.area) (hr : ∀ c ∈ raw.cells, NoFall raw.nMaps c.depth)
    (hw : ∀ c ∈ raw.cells, Wet c.depth (sliceStart raw.nMaps cfg.skipMaps + b) → Wet c.depth (sliceStart raw.nMaps cfg.skipMaps + a))
    (u u' : Built K) (h : buildGeometry { cfg with lakeTimesteps := (a : Int) } len centre raw = .ok u)
    (h' : buildGeometry { cfg with lakeTimesteps := (b : Int) } len centre raw = .ok u') :
    u'.z = u.z ∧ u'.flowArea.drop 10 = u.flowArea.drop 10 ∧ u'.flowWidth.drop 10 = u.flowWidth.drop 10 ∧
      List.Forall₂ (· ≤ ·) u.wetArea u'.wetArea ∧ List.Forall₂ (· ≤ ·) u.totalWidth u'.totalWidth ∧
      List.Forall₂ (· ≤ ·) u.flowArea u'.flowArea ∧ List.Forall₂ (· ≤ ·) u.flowWidth u'.flowWidth := by
  obtain ⟨c, L, z, d0, h1, h2, h3, h4, h5, rfl⟩ := buildGeometry_ok h
  obtain ⟨c', L', z', d0', k1, k2, k3, k4, k5, rfl⟩ := buildGeometry_ok h'
  obtain ⟨rfl, -⟩ := pyIndex_nat _ _ _ h3
  obtain ⟨rfl, hbn⟩ := pyIndex_nat _ _ _ k3
  have hbn : L' < (getTimeseries cfg.skipMaps raw).nMaps := hbn
  have k1 : (getTimeseries cfg.skipMaps raw).cells[centre]? = some c' := k1
  have h1 : (getTimeseries cfg.skipMaps raw).cells[centre]? = some c := h1
  obtain rfl : c = c' := Option.some.inj (h1.symm.trans k1)
  obtain rfl : d0 = d0' := Option.some.inj (h5.symm.trans k5)
  have hz : z = z' := by
    have : z.map some = z'.map some := h4.symm.trans k4
    exact List.map_injective_iff.2 (Option.some_injective K) this
  subst hz
  have hmono : ∀ c ∈ (getTimeseries cfg.skipMaps raw).cells, ∀ t, wetNotLake L c t = true → wetNotLake L' c t = true := by
    intro c hc t ht
    obtain ⟨r, hr', rfl⟩ := List.mem_map.1 hc
    exact wet_later _ _ L L' hab hbn (rising_used cfg.skipMaps raw r (hr r hr'))
      (wet_used cfg.skipMaps raw r (hr r hr') L L' hab hbn (hw r hr')) t ht
  have ha : ∀ c ∈ (getTimeseries cfg.skipMaps raw).cells, 0 ≤ c.area := by
    intro c hc
    obtain ⟨r, hr', rfl⟩ := List.mem_map.1 hc
    exact harea r hr'
  have hwa : List.Forall₂ (· ≤ ·) (series2d cfg (getTimeseries cfg.skipMaps raw) L (c.depth 0)).wetArea
      (series2d cfg (getTimeseries cfg.skipMaps raw) L' (c.depth 0)).wetArea := by
    unfold series2d
    rw [List.forall₂_map_left_iff, List.forall₂_map_right_iff]
    exact List.forall₂_same.2 fun t _ => maskedArea_mono _ _ _ ha fun c hc i hm => hmono c hc t hm
  have hfa : (series2d cfg (getTimeseries cfg.skipMaps raw) L' (c.depth 0)).flowArea =
      (series2d cfg (getTimeseries cfg.skipMaps raw) L (c.depth 0)).flowArea := rfl
  have hbelow : ∀ ds : List K, List.Forall₂ (· ≤ ·) (ds.map (areaBelow L (getTimeseries cfg.skipMaps raw).cells))
      (ds.map (areaBelow L' (getTimeseries cfg.skipMaps raw).cells)) := by
    intro ds
    refine map_mono_same _ _ (fun dz => ?_) ds
    unfold areaBelow
    refine maskedArea_mono _ _ _ ha fun c hc i hm => ?_
    rw [Bool.and_eq_true] at hm ⊢
    exact ⟨hm.1, hmono c hc 0 hm.2⟩
  have hsel := select_rel (checkMonotonicity (centreLevels (getTimeseries cfg.skipMaps raw).nMaps c)) _ _ hwa
  show _ ∧ _ ∧ _ ∧ _ ∧ _ ∧ _ ∧ _
  have hf1 : (series2d { cfg with lakeTimesteps := (L : Int) } (getTimeseries cfg.skipMaps raw) L (c.depth 0)) =
    series2d cfg (getTimeseries cfg.skipMaps raw) L (c.depth 0) := rfl
  have hf2 : (series2d { cfg with lakeTimesteps := (L' : Int) } (getTimeseries cfg.skipMaps raw) L' (c.depth 0)) =
    series2d cfg (getTimeseries cfg.skipMaps raw) L' (c.depth 0) := rfl
  rw [hf1, hf2, hfa]
  simp only
  generalize maskSelect (checkMonotonicity (centreLevels (getTimeseries cfg.skipMaps raw).nMaps c))
    (series2d cfg (getTimeseries cfg.skipMaps raw) L (c.depth 0)).flowArea = fa at *
  have hten : (linspace10 d0).reverse.length = 10 := by
    unfold linspace10
    rw [List.length_reverse, List.length_map, List.length_range]
  have hflow : List.Forall₂ (· ≤ ·)
      (((linspace10 d0).reverse.map (areaBelow L (getTimeseries cfg.skipMaps raw).cells)).map (flowAreaBelow cfg.extrapolateStorage (fa.headD 0)))
      (((linspace10 d0).reverse.map (areaBelow L' (getTimeseries cfg.skipMaps raw).cells)).map
        (flowAreaBelow cfg.extrapolateStorage (fa.headD 0))) := by
    refine map_mono _ (fun x y hxy => ?_) _ _ (hbelow _)
    unfold flowAreaBelow
    split
    · exact min_le_min_right _ hxy
    · exact hxy
  have hdiv : ∀ xs ys : List K, List.Forall₂ (· ≤ ·) xs ys → List.Forall₂ (· ≤ ·) (xs.map (· / len)) (ys.map (· / len)) := fun xs ys hxy =>
    map_mono (· / len) (fun x y hxy => div_le_div_of_nonneg_right hxy hlen) _ _ hxy
  have hdrop : ∀ (xs ys zs : List K), xs.length = 10 → ys.length = 10 → (xs ++ zs).drop 10 = (ys ++ zs).drop 10 := by
    intro xs ys zs hx hy
    rw [← hx, List.drop_left, hx, ← hy, List.drop_left]
  unfold assemble
  simp only
  refine ⟨trivial, ?_, ?_, ?_, ?_, ?_, ?_⟩
  · exact hdrop _ _ _ (by rw [List.length_map, List.length_map, hten]) (by rw [List.length_map, List.length_map, hten])
  · exact hdrop _ _ _ (by rw [List.length_map, List.length_map, List.length_map, hten])
      (by rw [List.length_map, List.length_map, List.length_map, hten])
  · exact append_rel _ _ _ _ (hbelow _) hsel
  · exact append_rel _ _ _ _ (hdiv _ _ (hbelow _)) (hdiv _ _ hsel)
  · exact append_rel _ _ _ _ hflow (List.forall₂_refl _)
  · exact append_rel _ _ _ _ (hdiv _ _ hflow) (List.forall₂_refl _)

end Fm2prof.LakesProof

import Verif.Proofs.Scaling

/-! Helper lemmas about the order of faces and edges. -/

set_option linter.unusedSectionVars false

namespace Fm2prof

open Spec

variable {K : Type} [Field K] [LinearOrder K] [IsStrictOrderedRing K]

theorem insertionSort_perm {α : Type} [LinearOrder α] {l l' : List α} (h : l.Perm l') :
    l.insertionSort (· ≤ ·) = l'.insertionSort (· ≤ ·) :=
  (((List.perm_insertionSort (· ≤ ·) l).trans h).trans (List.perm_insertionSort (· ≤ ·) l').symm).eq_of_pairwise
    (fun _ _ _ _ h1 h2 => le_antisymm h1 h2) (List.pairwise_insertionSort _ _) (List.pairwise_insertionSort _ _)

theorem reduceOption_perm {α : Type} {l l' : List (Option α)} (h : l.Perm l') : l.reduceOption.Perm l'.reduceOption :=
  h.filterMap _

theorem nanmean_perm {l l' : List (Option K)} (h : l.Perm l') : nanmean l = nanmean l' := by
  have hp := reduceOption_perm h
  unfold nanmean
  revert hp
  generalize l.reduceOption = a
  generalize l'.reduceOption = b
  intro hp
  cases a with
  | nil => rw [List.nil_perm.1 hp]
  | cons x xs =>
    cases b with
    | nil => exact absurd hp.length_eq (by simp)
    | cons y ys =>
      simp only
      rw [hp.sum_eq, hp.length_eq]

theorem sortValues_perm {l l' : List (Option K)} (h : l.Perm l') : sortValues l = sortValues l' := by
  unfold sortValues
  rw [insertionSort_perm (reduceOption_perm h), h.length_eq, (reduceOption_perm h).length_eq]

theorem top3_perm {l l' : List (Option K)} (h : l.Perm l') : top3 l = top3 l' := by
  unfold top3
  rw [sortValues_perm h]

theorem npUnique_perm {σ : Type} [LinearOrder σ] {l l' : List σ} (h : l.Perm l') : npUnique l = npUnique l' :=
  insertionSort_perm h.dedup

theorem maskedArea_const (cells : List (Cell K)) (m : Cell K → Bool) :
    maskedArea cells (fun _ c => m c) = (cells.map fun c => if m c then c.area else 0).sum := by
  unfold maskedArea
  congr 1
  have : (fun p : Cell K × Nat => if m p.1 then p.1.area else 0)
      = (fun c : Cell K => if m c then c.area else 0) ∘ Prod.fst := rfl
  show cells.zipIdx.map (fun p : Cell K × Nat => if m p.1 then p.1.area else 0) = _
  rw [this, ← List.map_map, List.zipIdx_map_fst]

theorem maskedVolume_const (cells : List (Cell K)) (m : Cell K → Bool) (dep : Cell K → Option K) :
    maskedVolume cells (fun _ c => m c) dep
      = (cells.map fun c => if m c then ((dep c).map (c.area * ·)).getD 0 else 0).sum := by
  unfold maskedVolume
  congr 1
  have : (fun p : Cell K × Nat => if m p.1 then ((dep p.1).map (p.1.area * ·)).getD 0 else 0)
      = (fun c : Cell K => if m c then ((dep c).map (c.area * ·)).getD 0 else 0) ∘ Prod.fst := rfl
  show cells.zipIdx.map (fun p : Cell K × Nat => if m p.1 then ((dep p.1).map (p.1.area * ·)).getD 0 else 0) = _
  rw [this, ← List.map_map, List.zipIdx_map_fst]

theorem maskedArea_perm {cells cells' : List (Cell K)} (h : cells.Perm cells') (m : Cell K → Bool) :
    maskedArea cells (fun _ c => m c) = maskedArea cells' fun _ c => m c := by
  rw [maskedArea_const, maskedArea_const]
  exact (h.map _).sum_eq

theorem maskedVolume_perm {cells cells' : List (Cell K)} (h : cells.Perm cells') (m : Cell K → Bool) (dep : Cell K → Option K) :
    maskedVolume cells (fun _ c => m c) dep = maskedVolume cells' (fun _ c => m c) dep := by
  rw [maskedVolume_const, maskedVolume_const]
  exact (h.map _).sum_eq

/-- The flow mask of the default method. -/
def flowMask1 (cfg : BuildConfig K) (top : Option K) (c : Cell K) (t : Nat) : Bool :=
  ogt (c.depth t) 0 &&
    ((match top.map (· * cfg.relativeVelocityThreshold) with
      | some m => ogt (c.velocity t) m
      | none => false) || ogt (c.velocity t) cfg.absoluteVelocityThreshold)

theorem flowMask_default (cfg : BuildConfig K) (hm : cfg.conveyanceDetectionMethod ≠ 0) (cv : ControlVolume K) (i : Nat)
    (c : Cell K) (t : Nat) :
    flowMask cfg cv i c t = flowMask1 cfg (top3 (cv.cells.map fun c => c.velocity t)) c t := by
  unfold flowMask maxVelocityMethod flowMask1
  rw [if_neg hm]
  cases top3 (cv.cells.map fun c => c.velocity t) <;> rfl

/-- The four series depend on sums over the cells and on the largest velocities. -/
theorem series2d_eq_of (cfg : BuildConfig K) (hm : cfg.conveyanceDetectionMethod ≠ 0) (cv cv' : ControlVolume K)
    (hn : cv.nMaps = cv'.nMaps)
    (ht : ∀ t < cv.nMaps, top3 (cv.cells.map fun c => c.velocity t) = top3 (cv'.cells.map fun c => c.velocity t))
    (ha : ∀ (t : Nat) (m : Cell K → Bool), (∀ c, m c = true → ogt (c.depth t) 0 = true) →
      maskedArea cv.cells (fun _ c => m c) = maskedArea cv'.cells fun _ c => m c)
    (hv : ∀ (t : Nat) (m : Cell K → Bool) dep, (∀ c, m c = true → ogt (c.depth t) 0 = true) →
      maskedVolume cv.cells (fun _ c => m c) dep = maskedVolume cv'.cells (fun _ c => m c) dep)
    (L : Nat) (e : Option K) : series2d cfg cv L e = series2d cfg cv' L e := by
  have hw : ∀ t (c : Cell K), wetNotLake L c t = true → ogt (c.depth t) 0 = true := by
    intro t c h
    unfold wetNotLake at h
    exact (Bool.and_eq_true_iff.1 h).1
  have hf : ∀ top t (c : Cell K), flowMask1 cfg top c t = true → ogt (c.depth t) 0 = true := by
    intro top t c h
    unfold flowMask1 at h
    exact (Bool.and_eq_true_iff.1 h).1
  unfold series2d
  simp only [flowMask_default cfg hm, ← hn]
  congr 1
  · exact List.map_congr_left fun t _ => ha t _ (hw t)
  · refine List.map_congr_left fun t h => ?_
    rw [ht t (List.mem_range.1 h)]
    exact ha t _ (hf _ t)
  · exact List.map_congr_left fun t _ => hv t _ _ (hw t)
  · refine List.map_congr_left fun t h => ?_
    rw [ht t (List.mem_range.1 h)]
    exact hv t _ _ (hf _ t)

/-- When the series agree, so do the profiles. -/
theorem buildGeometry_eq_of (cfg : BuildConfig K) (hm : cfg.conveyanceDetectionMethod ≠ 0) (len : K) (centre centre' : Nat)
    (raw raw' : ControlVolume K) (hn : raw.nMaps = raw'.nMaps)
    (hc : (getTimeseries cfg.skipMaps raw).cells[centre]? = (getTimeseries cfg.skipMaps raw').cells[centre']?)
    (ht : ∀ t < (getTimeseries cfg.skipMaps raw).nMaps, top3 ((getTimeseries cfg.skipMaps raw).cells.map fun c => c.velocity t)
      = top3 ((getTimeseries cfg.skipMaps raw').cells.map fun c => c.velocity t))
    (ha : ∀ (t : Nat) (m : Cell K → Bool), (∀ c, m c = true → ogt (c.depth t) 0 = true) →
      maskedArea (getTimeseries cfg.skipMaps raw).cells (fun _ c => m c)
        = maskedArea (getTimeseries cfg.skipMaps raw').cells fun _ c => m c)
    (hv : ∀ (t : Nat) (m : Cell K → Bool) dep, (∀ c, m c = true → ogt (c.depth t) 0 = true) →
      maskedVolume (getTimeseries cfg.skipMaps raw).cells (fun _ c => m c) dep
        = maskedVolume (getTimeseries cfg.skipMaps raw').cells (fun _ c => m c) dep) :
    buildGeometry cfg len centre raw = buildGeometry cfg len centre' raw' := by
  have hnm : (getTimeseries cfg.skipMaps raw).nMaps = (getTimeseries cfg.skipMaps raw').nMaps := by
    unfold getTimeseries
    simp only [hn]
  unfold buildGeometry
  revert hc ht ha hv hnm
  generalize getTimeseries cfg.skipMaps raw = cv
  generalize getTimeseries cfg.skipMaps raw' = cv'
  intro hc ht ha hv hnm
  simp only [hc, ← hnm]
  have hs := series2d_eq_of cfg hm cv cv' hnm ht ha hv
  have hb : ∀ L dz, areaBelow L cv.cells dz = areaBelow L cv'.cells dz := by
    intro L dz
    unfold areaBelow
    refine ha 0 _ fun c h => ?_
    have := (Bool.and_eq_true_iff.1 h).2
    unfold wetNotLake at this
    exact (Bool.and_eq_true_iff.1 this).1
  have has : ∀ ex len L d0 z wa fa tv fv zr, assemble ex len cv.cells L d0 z wa fa tv fv zr
      = assemble ex len cv'.cells L d0 z wa fa tv fv zr := by
    intro ex len L d0 z wa fa tv fv zr
    unfold assemble
    have : areaBelow L cv.cells = areaBelow L cv'.cells := funext (hb L)
    rw [this]
  simp only [hs, has]

theorem buildGeometry_perm (cfg : BuildConfig K) (hm : cfg.conveyanceDetectionMethod ≠ 0) (len : K) (centre centre' : Nat)
    (raw raw' : ControlVolume K) (hn : raw.nMaps = raw'.nMaps) (hp : raw.cells.Perm raw'.cells)
    (hc : raw.cells[centre]? = raw'.cells[centre']?) :
    buildGeometry cfg len centre raw = buildGeometry cfg len centre' raw' := by
  have hp' : (getTimeseries cfg.skipMaps raw).cells.Perm (getTimeseries cfg.skipMaps raw').cells := by
    unfold getTimeseries
    rw [hn]
    exact hp.map _
  refine buildGeometry_eq_of cfg hm len centre centre' raw raw' hn ?_ (fun t _ => top3_perm (hp'.map _))
    (fun t m _ => maskedArea_perm hp' m) (fun t m dep _ => maskedVolume_perm hp' m dep)
  unfold getTimeseries
  simp only [List.getElem?_map, hc, hn]

/-- The number of the nearest face matters by its data only. -/
theorem buildGeometry_centre (cfg : BuildConfig K) (len : K) (centre centre' : Nat) (n : Nat) (cells : List (Cell K))
    (hc : cells[centre]? = cells[centre']?) : buildGeometry cfg len centre ⟨n, cells⟩ = buildGeometry cfg len centre' ⟨n, cells⟩ := by
  have h : (getTimeseries cfg.skipMaps ⟨n, cells⟩).cells[centre]? = (getTimeseries cfg.skipMaps ⟨n, cells⟩).cells[centre']? := by
    unfold getTimeseries
    simp only [List.getElem?_map, hc]
  unfold buildGeometry
  simp only [h]

/-- The correction, the checks and the reduction take the profile only. -/
theorem geometry_eq_of (opt : Optimiser K) (cfg : PipelineConfig K) (bump : K → K) (release : K → K → K → K)
    (log : Nat → Option PyErr) (len : K) (centre centre' : Nat) (cv cv' : ControlVolume K)
    (h : buildGeometry cfg.build len centre cv = buildGeometry cfg.build len centre' cv') :
    buildCrossSectionGeometry opt cfg bump release log len centre cv
      = buildCrossSectionGeometry opt cfg bump release log len centre' cv' := by
  unfold buildCrossSectionGeometry
  rw [h]

/-! ## A cell that is always dry -/

theorem maskedArea_dry (cells : List (Cell K)) (d : Cell K) (t : Nat) (m : Cell K → Bool)
    (hd : ogt (d.depth t) 0 = false) (hm : ∀ c, m c = true → ogt (c.depth t) 0 = true) :
    maskedArea (cells ++ [d]) (fun _ c => m c) = maskedArea cells fun _ c => m c := by
  have : m d = false := by
    by_contra h
    rw [hm d (by simpa using h)] at hd
    cases hd
  rw [maskedArea_const, maskedArea_const]
  simp [this]

theorem maskedVolume_dry (cells : List (Cell K)) (d : Cell K) (t : Nat) (m : Cell K → Bool) (dep : Cell K → Option K)
    (hd : ogt (d.depth t) 0 = false) (hm : ∀ c, m c = true → ogt (c.depth t) 0 = true) :
    maskedVolume (cells ++ [d]) (fun _ c => m c) dep = maskedVolume cells (fun _ c => m c) dep := by
  have : m d = false := by
    by_contra h
    rw [hm d (by simpa using h)] at hd
    cases hd
  rw [maskedVolume_const, maskedVolume_const]
  simp [this]

theorem sortValues_small (l : List (Option K)) (v : K) (h : ∀ w, some w ∈ l → v ≤ w) :
    sortValues (l ++ [some v]) = some v :: sortValues l := by
  have hp : (l ++ [some v]).Perm (some v :: l) := List.perm_append_singleton _ _
  rw [sortValues_perm hp]
  unfold sortValues
  have h1 : (some v :: l).reduceOption = v :: l.reduceOption := rfl
  have h2 : (v :: l.reduceOption).insertionSort (· ≤ ·) = v :: l.reduceOption.insertionSort (· ≤ ·) := by
    refine (((List.perm_insertionSort (· ≤ ·) _).trans
      ((List.perm_insertionSort (· ≤ ·) l.reduceOption).symm.cons v))).eq_of_pairwise
      (fun _ _ _ _ h1 h2 => le_antisymm h1 h2) (List.pairwise_insertionSort _ _) ?_
    refine List.pairwise_cons.2 ⟨fun w hw => ?_, List.pairwise_insertionSort _ _⟩
    rw [List.mem_insertionSort] at hw
    exact h w (List.reduceOption_mem_iff.1 hw)
  have hle : l.reduceOption.length ≤ l.length := List.reduceOption_length_le l
  rw [h1, h2]
  simp only [List.length_cons, Nat.add_sub_add_right, List.map_cons, List.cons_append]

theorem top3_small (l : List (Option K)) (v : K) (h : ∀ w, some w ∈ l → v ≤ w) (h3 : 3 ≤ l.length) :
    top3 (l ++ [some v]) = top3 l := by
  have hl : (sortValues l).length = l.length := by
    unfold sortValues
    have hle : l.reduceOption.length ≤ l.length := List.reduceOption_length_le l
    simp
    omega
  unfold top3
  simp only [sortValues_small l v h, List.length_cons, hl]
  have : l.length + 1 - 3 = (l.length - 3) + 1 := by omega
  rw [this, List.drop_succ_cons]

theorem clean_zero : clean (some (0 : K)) = some 0 := by
  unfold clean
  simp only
  rw [if_neg]
  norm_num

theorem buildGeometry_dry (cfg : BuildConfig K) (hm : cfg.conveyanceDetectionMethod ≠ 0) (len : K) (centre : Nat)
    (raw : ControlVolume K) (d : Cell K) (hcentre : centre < raw.cells.length) (hd : AlwaysDry d)
    (hv : ∀ t < raw.nMaps, d.velocity t = some 0) (h3 : 3 ≤ raw.cells.length) (hpos : ∀ c ∈ raw.cells, ∀ t w, c.velocity t = some w → 0 ≤ w) :
    buildGeometry cfg len centre { raw with cells := raw.cells ++ [d] } = buildGeometry cfg len centre raw := by
  have hcells : ∃ s : Nat, (getTimeseries cfg.skipMaps raw).nMaps = raw.nMaps - s ∧ (getTimeseries cfg.skipMaps raw).cells
        = raw.cells.map (fun c => { c with depth := fun t => clean (c.depth (s + t)), level := fun t => clean (c.level (s + t))
                                           velocity := fun t => clean (c.velocity (s + t)) }) ∧
      (getTimeseries cfg.skipMaps { raw with cells := raw.cells ++ [d] }).cells
        = (raw.cells ++ [d]).map (fun c => { c with depth := fun t => clean (c.depth (s + t)), level := fun t => clean (c.level (s + t))
                                                    velocity := fun t => clean (c.velocity (s + t)) }) :=
    ⟨sliceStart raw.nMaps cfg.skipMaps, rfl, rfl, rfl⟩
  obtain ⟨s, h0, h1, h2⟩ := hcells
  rw [List.map_append, List.map_cons, List.map_nil] at h2
  have hdry : ∀ t, ogt (d.depth t) 0 = false := by
    intro t
    rcases hd t with h | h <;> rw [h] <;> simp [ogt]
  have hdry' : ∀ t, ogt (clean (d.depth t)) 0 = false := by
    intro t
    rcases hd t with h | h
    · rw [h, clean_zero]; simp [ogt]
    · rw [h]; rfl
  refine buildGeometry_eq_of cfg hm len centre centre _ _ rfl ?_ ?_ ?_ ?_
  · rw [h1, h2, List.getElem?_append_left (by simpa using hcentre)]
  · intro t ht
    have ht' : t < (getTimeseries cfg.skipMaps raw).nMaps := ht
    rw [h0] at ht'
    rw [h1, h2, List.map_append, List.map_cons, List.map_nil]
    have hz : clean (d.velocity (s + t)) = some (0 : K) := by
      rw [hv _ (by omega), clean_zero]
    simp only [List.map_map, hz]
    refine top3_small _ 0 ?_ (by simpa using h3)
    intro w hw
    obtain ⟨c, hc, he⟩ := List.mem_map.1 hw
    refine hpos c hc (s + t) w ?_
    have he : clean (c.velocity (s + t)) = some w := he
    cases hw' : c.velocity (s + t) with
    | none => rw [hw'] at he; cases he
    | some v =>
      rw [hw'] at he
      unfold clean at he
      simp only at he
      split at he
      · cases he
      · exact he
  · intro t m hmm
    rw [h1, h2]
    exact maskedArea_dry _ _ t m (hdry' _) hmm
  · intro t m dep hmm
    rw [h1, h2]
    exact maskedVolume_dry _ _ t m dep (hdry' _) hmm

/-! ## Faces and edges of the model -/

theorem maskSelect_filter {α β : Type} (p : α → Bool) (f : α → β) (rows : List α) :
    maskSelect (rows.map p) (rows.map f) = (rows.filter p).map f := by
  induction rows with
  | nil => rfl
  | cons a rows ih =>
    rw [List.map_cons, List.map_cons]
    cases h : p a with
    | true => rw [maskSelect_cons_true, ih, List.filter_cons_of_pos h, List.map_cons]
    | false => rw [maskSelect_cons_false, ih, List.filter_cons_of_neg (by simp [h])]

theorem zipWith_same {α β γ δ : Type} (g : β → γ → δ) (f : α → β) (h : α → γ) (l : List α) :
    List.zipWith g (l.map f) (l.map h) = l.map fun a => g (f a) (h a) := by
  induction l with
  | nil => rfl
  | cons a l ih => simp [ih]

theorem zip_same {α β γ : Type} (f : α → β) (h : α → γ) (l : List α) :
    (l.map f).zip (l.map h) = l.map fun a => (f a, h a) := zipWith_same Prod.mk f h l

/-- The columns determine the rows. -/
theorem faceColumns_inj {rows₂ rows : List (FaceRow K)} (heq : faceColumns rows₂ = faceColumns rows) : rows₂ = rows := by
  have hlen : rows₂.length = rows.length := by
    have := congrArg (fun f => f.x.length) heq
    simpa [faceColumns] using this
  refine List.ext_getElem hlen fun i h1 h2 => ?_
  have hg : ∀ {β : Type} (g : FaceRow K → β), rows₂.map g = rows.map g → g rows₂[i] = g rows[i] := by
    intro β g hgg
    have := congrArg (fun l : List β => l[i]?) hgg
    simpa [List.getElem?_map, List.getElem?_eq_getElem h1, List.getElem?_eq_getElem h2] using this
  have e1 := hg (·.x) (congrArg FaceData.x heq)
  have e2 := hg (·.y) (congrArg FaceData.y heq)
  have e3 := hg (·.area) (congrArg FaceData.area heq)
  have e4 := hg (·.bedlevel) (congrArg FaceData.bedlevel heq)
  have e5 := hg (·.region) (congrArg FaceData.region heq)
  have e6 := hg (·.islake) (congrArg FaceData.islake heq)
  have e7 := hg (·.sect) (congrArg FaceData.sect heq)
  have e8 := hg (·.sclass) (congrArg FaceData.sclass heq)
  have e9 := hg (·.waterdepth) (congrArg FaceData.waterdepth heq)
  have e10 := hg (·.waterlevel) (congrArg FaceData.waterlevel heq)
  have e11 := hg (·.velocityX) (congrArg FaceData.velocityX heq)
  have e12 := hg (·.velocityY) (congrArg FaceData.velocityY heq)
  revert e1 e2 e3 e4 e5 e6 e7 e8 e9 e10 e11 e12
  generalize rows₂[i] = a
  generalize rows[i] = b
  intro e1 e2 e3 e4 e5 e6 e7 e8 e9 e10 e11 e12
  cases a
  cases b
  simp only at e1 e2 e3 e4 e5 e6 e7 e8 e9 e10 e11 e12
  simp only [e1, e2, e3, e4, e5, e6, e7, e8, e9, e10, e11, e12]

/-- The cell of a face. -/
def rowCell (sqrt : K → K) (r : FaceRow K) : Cell K :=
  ⟨r.area, r.bedlevel, mapSeries r.waterdepth, mapSeries (List.zipWith dryToNan r.waterdepth r.waterlevel),
    mapSeries (List.zipWith (speed sqrt) r.velocityX r.velocityY)⟩

theorem controlVolumeOf_rows (sqrt : K → K) (n : Nat) (rows : List (FaceRow K)) (e : EdgeData Text K) (name : Text) :
    controlVolumeOf n (getSelection sqrt (faceColumns rows) e name)
      = ⟨n, (rows.filter fun r => decide (r.sclass = name)).map (rowCell sqrt)⟩ := by
  unfold controlVolumeOf getSelection faceColumns
  simp only [List.map_map]
  congr 1
  have hp : (fun c : Text => decide (c = name)) ∘ (fun r : FaceRow K => r.sclass) = fun r => decide (r.sclass = name) := rfl
  simp only [hp, maskSelect_filter, zipWith_same, zip_same, List.map_map]
  rfl

theorem sectionFacesOf_rows (sqrt : K → K) (nb : Bool) (rows : List (FaceRow K)) (e : EdgeData Text K) (name : Text) :
    sectionFacesOf nb (getSelection sqrt (faceColumns rows) e name)
      = (rows.filter fun r => decide (r.sclass = name)).map fun r => ⟨r.area, some r.bedlevel, sectionLabelOf nb r.sect⟩ := by
  unfold sectionFacesOf getSelection faceColumns
  simp only [List.map_map]
  have hp : (fun c : Text => decide (c = name)) ∘ (fun r : FaceRow K => r.sclass) = fun r => decide (r.sclass = name) := rfl
  simp only [hp, maskSelect_filter, zip_same, List.map_map]
  rfl

theorem linksOf_rows (sqrt : K → K) (f : FaceData Text K) (rows : List (EdgeRow K)) (ef : Option (List (Int × Int)))
    (name : Text) :
    linksOf (getSelection sqrt f (edgeColumns rows ef) name)
      = (rows.filter fun r => decide (r.sclass = name)).map fun r => ⟨r.sect, (0, 0), mapSeries r.chezy⟩ := by
  unfold linksOf getSelection edgeColumns
  simp only [List.map_map]
  have hp : (fun c : Text => decide (c = name)) ∘ (fun r : EdgeRow K => r.sclass) = fun r => decide (r.sclass = name) := rfl
  simp only [hp, maskSelect_filter, zip_same, List.map_map]
  rfl

theorem positions_rows (sqrt : K → K) (rows : List (FaceRow K)) (e : EdgeData Text K) (name : Text) :
    (getSelection sqrt (faceColumns rows) e name).x.zip (getSelection sqrt (faceColumns rows) e name).y
      = (rows.filter fun r => decide (r.sclass = name)).map fun r => (r.x, r.y) := by
  unfold getSelection faceColumns
  simp only [List.map_map]
  have hp : (fun c : Text => decide (c = name)) ∘ (fun r : FaceRow K => r.sclass) = fun r => decide (r.sclass = name) := rfl
  simp only [hp, maskSelect_filter, zip_same]

/-- Whichever face is picked, it is the nearest one. -/
theorem pick_rows (nn : NearestPicker K) (l : Loc K) (rows : List (FaceRow K)) (r : FaceRow K) (hr : r ∈ rows)
    (hrc : r.sclass = l.id)
    (hru : ∀ q ∈ rows, q.sclass = l.id → q ≠ r →
      (r.x - l.x) ^ 2 + (r.y - l.y) ^ 2 < (q.x - l.x) ^ 2 + (q.y - l.y) ^ 2) :
    (rows.filter fun q => decide (q.sclass = l.id))[nn.pick
      ((rows.filter fun q => decide (q.sclass = l.id)).map fun q => (q.x, q.y)) (l.x, l.y)]? = some r := by
  set s := rows.filter fun q => decide (q.sclass = l.id) with hs
  have hrin : r ∈ s := List.mem_filter.2 ⟨hr, by simpa using hrc⟩
  have hne : s.map (fun q => (q.x, q.y)) ≠ [] := by
    intro e
    rw [List.map_eq_nil_iff] at e
    rw [e] at hrin
    cases hrin
  have hlt := nn.pick_lt _ (l.x, l.y) hne
  rw [List.length_map] at hlt
  obtain ⟨q, hq⟩ : ∃ q, s[nn.pick (s.map fun q => (q.x, q.y)) (l.x, l.y)]? = some q := ⟨_, List.getElem?_eq_getElem hlt⟩
  rw [hq]
  by_contra hne'
  have hqr : q ≠ r := fun e => hne' (by rw [e])
  obtain ⟨hq1, hq2⟩ := List.mem_filter.1 (List.mem_of_getElem? hq)
  have hless := hru q hq1 (by simpa using hq2) hqr
  have hle := nn.pick_nearest (s.map fun q => (q.x, q.y)) (l.x, l.y) (q.x, q.y) (r.x, r.y)
    (by rw [List.getElem?_map, hq]; rfl) (List.mem_map.2 ⟨r, hrin, rfl⟩)
  unfold sqDist at hle
  simp only at hle
  nlinarith [hle, hless]

theorem sectionArea_perm {fs fs' : List (SectionFace K)} (h : fs.Perm fs') (n : Int) : sectionArea fs n = sectionArea fs' n := by
  unfold sectionArea
  exact ((h.filter _).map _).sum_eq

variable [FloorRing K]

theorem computeSectionWidths_perm {fs fs' : List (SectionFace K)} (h : fs.Perm fs') (len : K) (fw raw : List K) :
    computeSectionWidths len fs fw raw = computeSectionWidths len fs' fw raw := by
  unfold computeSectionWidths initialSectionWidths
  simp only [sectionArea_perm h]

theorem floodplainBase_perm {fs fs' : List (SectionFace K)} (h : fs.Perm fs') (crest : Option K) (tol : K) :
    floodplainBase crest tol fs = floodplainBase crest tol fs' := by
  have hp := h.filter fun f : SectionFace K => f.label.is 2
  unfold floodplainBase
  revert hp
  generalize fs.filter (fun f => f.label.is 2) = a
  generalize fs'.filter (fun f => f.label.is 2) = b
  intro hp
  cases a with
  | nil => rw [List.nil_perm.1 hp]
  | cons x xs =>
    cases b with
    | nil => exact absurd hp.length_eq (by simp)
    | cons y ys =>
      simp only
      rw [nanmean_perm (hp.map (·.bed))]

theorem buildTablesFor_perm {σ : Type} [LinearOrder σ] {links links' : List (Link σ K)} (h : links.Perm links') (method : Int) (skip n : Nat)
    (level : List K) (names : List σ) :
    buildTablesFor method none skip n level links names = buildTablesFor method none skip n level links' names := by
  induction names with
  | nil => rfl
  | cons s ss ih =>
    have hs : sectionFriction method none skip n (links.filter fun l => l.sect = s)
        = sectionFriction method none skip n (links'.filter fun l => l.sect = s) := by
      unfold sectionFriction frictionSimple
      have : ∀ t, nanmean ((links.filter fun l => l.sect = s).map fun l => zeroToNan (l.chezy t))
          = nanmean ((links'.filter fun l => l.sect = s).map fun l => zeroToNan (l.chezy t)) :=
        fun t => nanmean_perm ((h.filter _).map _)
      simp only [this]
    unfold buildTablesFor
    rw [hs, ih]

theorem buildCss_perm_core (x : Tools K) (cfg : RunConfig K) (hm : cfg.pipeline.build.conveyanceDetectionMethod ≠ 0)
    (m m' : Model2d K) (l : Loc K) (h : Renumbered m m') (hone : OneNearest m l) :
    (buildCss x cfg m' l).map (fun f => (f.out, f.css)) = (buildCss x cfg m l).map (fun f => (f.out, f.css)) := by
  obtain ⟨rows, rows', hp, hf, hf'⟩ := h.faces
  obtain ⟨er, er', ef, ef', hpe, he, he'⟩ := h.edges
  obtain ⟨rows₂, hf₂, r, hr, hrc, hru⟩ := hone
  have hinj : rows₂ = rows := faceColumns_inj (hf₂.symm.trans hf)
  subst hinj
  set sel := rows₂.filter fun q => decide (q.sclass = l.id) with hsel
  set sel' := rows'.filter fun q => decide (q.sclass = l.id) with hsel'
  have hps : sel.Perm sel' := hp.filter _
  have hru' : ∀ q ∈ rows', q.sclass = l.id → q ≠ r →
      (r.x - l.x) ^ 2 + (r.y - l.y) ^ 2 < (q.x - l.x) ^ 2 + (q.y - l.y) ^ 2 := fun q hq => hru q (hp.mem_iff.2 hq)
  have hgeo : buildGeometry cfg.pipeline.build l.length
        (centreOf x.nn (getSelection x.sqrt m'.faces m'.edges l.id) l) (controlVolumeOf m'.nMaps (getSelection x.sqrt m'.faces m'.edges l.id))
      = buildGeometry cfg.pipeline.build l.length
        (centreOf x.nn (getSelection x.sqrt m.faces m.edges l.id) l) (controlVolumeOf m.nMaps (getSelection x.sqrt m.faces m.edges l.id)) := by
    unfold centreOf
    rw [hf, hf', positions_rows, positions_rows, controlVolumeOf_rows, controlVolumeOf_rows, ← hsel, ← hsel', h.nMaps]
    refine buildGeometry_perm cfg.pipeline.build hm l.length _ _ _ _ rfl (hps.symm.map _) ?_
    show (sel'.map (rowCell x.sqrt))[_]? = (sel.map (rowCell x.sqrt))[_]?
    rw [List.getElem?_map, List.getElem?_map, pick_rows x.nn l rows' r (hp.mem_iff.1 hr) hrc hru', pick_rows x.nn l rows₂ r hr hrc hru]
  have hgeo' := geometry_eq_of (x.opt l.id) cfg.pipeline x.bump x.release (x.log l.id) l.length _ _ _ _ hgeo
  have hrough : ∀ css, assignRoughness cfg m' (getSelection x.sqrt m'.faces m'.edges l.id) l.length css
      = assignRoughness cfg m (getSelection x.sqrt m.faces m.edges l.id) l.length css := by
    intro css
    have hl : (linksOf (getSelection x.sqrt m'.faces m'.edges l.id)).Perm (linksOf (getSelection x.sqrt m.faces m.edges l.id)) := by
      rw [he, he', linksOf_rows, linksOf_rows]
      exact ((hpe.symm.filter _).map _)
    have hs : (sectionFacesOf m'.numbered (getSelection x.sqrt m'.faces m'.edges l.id)).Perm
        (sectionFacesOf m.numbered (getSelection x.sqrt m.faces m.edges l.id)) := by
      rw [hf, hf', sectionFacesOf_rows, sectionFacesOf_rows, h.numbered]
      exact ((hp.symm.filter _).map _)
    unfold assignRoughness buildRoughnessTables
    rw [npUnique_perm (hl.map (·.sect)), h.nMaps]
    simp only [buildTablesFor_perm hl, computeSectionWidths_perm hs, floodplainBase_perm hs]
  unfold buildCss
  simp only [hgeo', hrough]
  cases buildCrossSectionGeometry (x.opt l.id) cfg.pipeline x.bump x.release (x.log l.id) l.length
      (centreOf x.nn (getSelection x.sqrt m.faces m.edges l.id) l)
      (controlVolumeOf m.nMaps (getSelection x.sqrt m.faces m.edges l.id)) with
  | error e => rfl
  | ok css =>
    simp only
    cases assignRoughness cfg m (getSelection x.sqrt m.faces m.edges l.id) l.length css with
    | error e => rfl
    | ok r =>
      obtain ⟨tables, widths, base⟩ := r
      simp only
      cases css.crestLevel <;> cases css.extraFlowArea <;> cases css.extraTotalArea <;> cases css.extraTotalVolume <;> rfl

theorem except_map_map {α β γ : Type} (f : α → β) (g : β → γ) (a : Except PyErr α) : (a.map f).map g = a.map fun y => g (f y) := by
  cases a <;> rfl

theorem buildCss_perm (x : Tools K) (cfg : RunConfig K) (hm : cfg.pipeline.build.conveyanceDetectionMethod ≠ 0)
    (m m' : Model2d K) (l : Loc K) (h : Renumbered m m') (hone : OneNearest m l) :
    (buildCss x cfg m' l).map (·.out) = (buildCss x cfg m l).map (·.out) := by
  have := congrArg (Except.map Prod.fst) (buildCss_perm_core x cfg hm m m' l h hone)
  rwa [except_map_map, except_map_map] at this

/-- One more face that is always dry and has no velocity. -/
theorem buildCss_dry (x : Tools K) (cfg : RunConfig K) (hm : cfg.pipeline.build.conveyanceDetectionMethod ≠ 0)
    (hsq : x.sqrt 0 = 0) (hsn : ∀ y, 0 ≤ x.sqrt y) (m : Model2d K) (l : Loc K) (rows : List (FaceRow K)) (dry : FaceRow K)
    (hf : m.faces = faceColumns rows) (h3 : 3 ≤ (rows.filter fun r => decide (r.sclass = l.id)).length)
    (hd : ∀ v ∈ dry.waterdepth, v = some 0)
    (hvx : dry.velocityX = List.replicate m.nMaps (some 0)) (hvy : dry.velocityY = List.replicate m.nMaps (some 0))
    (r : FaceRow K) (hr : r ∈ rows) (hrc : r.sclass = l.id)
    (hru : ∀ q ∈ rows ++ [dry], q.sclass = l.id → q ≠ r →
      (r.x - l.x) ^ 2 + (r.y - l.y) ^ 2 < (q.x - l.x) ^ 2 + (q.y - l.y) ^ 2) :
    buildGeometry cfg.pipeline.build l.length
        (centreOf x.nn (getSelection x.sqrt (faceColumns (rows ++ [dry])) m.edges l.id) l)
        (controlVolumeOf m.nMaps (getSelection x.sqrt (faceColumns (rows ++ [dry])) m.edges l.id))
      = buildGeometry cfg.pipeline.build l.length
        (centreOf x.nn (getSelection x.sqrt m.faces m.edges l.id) l)
        (controlVolumeOf m.nMaps (getSelection x.sqrt m.faces m.edges l.id)) := by
  have hpick := pick_rows x.nn l rows r hr hrc fun q hq => hru q (List.mem_append_left _ hq)
  have hpick' := pick_rows x.nn l (rows ++ [dry]) r (List.mem_append_left _ hr) hrc hru
  unfold centreOf
  rw [hf, positions_rows, positions_rows, controlVolumeOf_rows, controlVolumeOf_rows]
  by_cases hcls : dry.sclass = l.id
  · have hfil : (rows ++ [dry]).filter (fun r => decide (r.sclass = l.id))
        = rows.filter (fun r => decide (r.sclass = l.id)) ++ [dry] := by
      rw [List.filter_append]
      congr 1
      simp [hcls]
    rw [hfil] at hpick'
    rw [hfil]
    revert hpick hpick' h3
    generalize hs : rows.filter (fun r => decide (r.sclass = l.id)) = sel
    intro h3 hpick hpick'
    set i := x.nn.pick (sel.map fun q => (q.x, q.y)) (l.x, l.y) with hi
    set i' := x.nn.pick ((sel ++ [dry]).map fun q => (q.x, q.y)) (l.x, l.y) with hi'
    have hilt : i < sel.length := (List.getElem?_eq_some_iff.1 hpick).1
    have hstep : buildGeometry cfg.pipeline.build l.length i ⟨m.nMaps, (sel ++ [dry]).map (rowCell x.sqrt)⟩
        = buildGeometry cfg.pipeline.build l.length i ⟨m.nMaps, sel.map (rowCell x.sqrt)⟩ := by
      rw [List.map_append]
      refine buildGeometry_dry cfg.pipeline.build hm l.length i ⟨m.nMaps, sel.map (rowCell x.sqrt)⟩ (rowCell x.sqrt dry)
        (by simpa using hilt) ?_ ?_ (by simpa using h3) ?_
      · intro t
        show dry.waterdepth[t]?.join = some 0 ∨ dry.waterdepth[t]?.join = none
        cases ht : dry.waterdepth[t]? with
        | none => exact Or.inr rfl
        | some v => rw [hd v (List.mem_of_getElem? ht)]; exact Or.inl rfl
      · intro t ht
        show (List.zipWith (speed x.sqrt) dry.velocityX dry.velocityY)[t]?.join = some 0
        rw [hvx, hvy, List.zipWith_replicate, List.getElem?_replicate]
        have ht : t < m.nMaps := ht
        rw [if_pos (by omega)]
        simp [speed, hsq]
      · intro c hc t w hw
        obtain ⟨q, _, rfl⟩ := List.mem_map.1 hc
        have hw : (List.zipWith (speed x.sqrt) q.velocityX q.velocityY)[t]?.join = some w := hw
        cases hz : (List.zipWith (speed x.sqrt) q.velocityX q.velocityY)[t]? with
        | none => rw [hz] at hw; cases hw
        | some v =>
          rw [hz] at hw
          obtain rfl : v = some w := hw
          rw [List.getElem?_zipWith] at hz
          cases ha : q.velocityX[t]? with
          | none => rw [ha] at hz; cases hz
          | some a =>
            cases hb : q.velocityY[t]? with
            | none => rw [ha, hb] at hz; cases hz
            | some b =>
              rw [ha, hb] at hz
              have hz : speed x.sqrt a b = some w := Option.some.inj hz
              cases a with
              | none => cases hz
              | some a =>
                cases b with
                | none => cases hz
                | some b =>
                  have := Option.some.inj hz
                  rw [← this]
                  exact hsn _
    rw [← hstep]
    refine buildGeometry_perm cfg.pipeline.build hm l.length _ _ _ _ rfl (List.Perm.refl _) ?_
    rw [List.getElem?_map, List.getElem?_map, hpick', List.getElem?_append_left hilt, hpick]
  · have hfil : (rows ++ [dry]).filter (fun r => decide (r.sclass = l.id)) = rows.filter (fun r => decide (r.sclass = l.id)) := by
      rw [List.filter_append]
      simp [hcls]
    rw [hfil]

theorem computeSectionWidths_ok (len : K) (fs fs' : List (SectionFace K)) (fw raw : List K) :
    (∃ w, computeSectionWidths len fs fw raw = .ok w ∧ ∃ w', computeSectionWidths len fs' fw raw = .ok w') ∨
    ∃ e, computeSectionWidths len fs fw raw = .error e ∧ computeSectionWidths len fs' fw raw = .error e := by
  unfold computeSectionWidths coverFlowWidth coverBottom
  cases fw.getLast? with
  | none => exact Or.inr ⟨_, rfl, rfl⟩
  | some f =>
    have h2 : ∀ w : SectionWidths K, ∃ w', (if 0 < f - (w.main + w.floodplain1 + w.floodplain2) then
        (.ok { w with main := w.main + (f - (w.main + w.floodplain1 + w.floodplain2)) } : Except PyErr (SectionWidths K))
        else .ok w) = .ok w' := by
      intro w
      split <;> exact ⟨_, rfl⟩
    obtain ⟨w1, h1⟩ := h2 (initialSectionWidths len fs)
    obtain ⟨w1', h1'⟩ := h2 (initialSectionWidths len fs')
    cases raw.head? with
    | none => right; simp only [h1, h1']; exact ⟨_, rfl, rfl⟩
    | some g =>
      left
      have : ∀ w : SectionWidths K, ∃ w', (if floorCm (w.main - g) - 1 / 10 < 0 then
          (.ok { w with main := w.main - (floorCm (w.main - g) - 1 / 10)
                        floodplain1 := w.floodplain1 + (floorCm (w.main - g) - 1 / 10) } : Except PyErr (SectionWidths K))
          else .ok w) = .ok w' := by
        intro w
        split <;> exact ⟨_, rfl⟩
      obtain ⟨w2, h2⟩ := this w1
      obtain ⟨w2', h2'⟩ := this w1'
      refine ⟨w2, ?_, w2', ?_⟩
      · simp only [h1, h2]
      · simp only [h1', h2']

/-! ## Other axes -/

theorem zipWith_zipWith_same {α β γ δ ε : Type} (g : γ → δ → ε) (f : α → β → γ) (h : α → β → δ) (as : List α) (bs : List β) :
    List.zipWith g (List.zipWith f as bs) (List.zipWith h as bs) = List.zipWith (fun a b => g (f a b) (h a b)) as bs := by
  induction as generalizing bs with
  | nil => rfl
  | cons a as ih =>
    cases bs with
    | nil => rfl
    | cons b bs => simp [ih]

theorem speed_turn (sqrt : K → K) (c s : K) (h : c ^ 2 + s ^ 2 = 1) (a b : Option K) :
    speed sqrt (mix c (-s) a b) (mix s c a b) = speed sqrt a b := by
  cases a with
  | none => rfl
  | some a =>
    cases b with
    | none => rfl
    | some b =>
      show some (sqrt _) = some (sqrt _)
      congr 2
      linear_combination (a ^ 2 + b ^ 2) * h

theorem rowCell_turn (sqrt : K → K) (c s p q : K) (h : c ^ 2 + s ^ 2 = 1) (r : FaceRow K) :
    rowCell sqrt (FaceRow.turn c s p q r) = rowCell sqrt r := by
  unfold rowCell FaceRow.turn
  simp only
  rw [zipWith_zipWith_same]
  simp only [speed_turn sqrt c s h]

theorem buildCss_turn_core (x : Tools K) (cfg : RunConfig K)
    (c s p q : K) (hcs : c ^ 2 + s ^ 2 = 1) (m m' : Model2d K) (l : Loc K) (rows : List (FaceRow K))
    (er : List (EdgeRow K)) (ef ef' : Option (List (Int × Int))) (move : EdgeRow K → K × K)
    (hf : m.faces = faceColumns rows) (hf' : m'.faces = faceColumns (rows.map (FaceRow.turn c s p q)))
    (he : m.edges = edgeColumns er ef)
    (he' : m'.edges = edgeColumns (er.map fun e => { e with x := (move e).1, y := (move e).2 }) ef')
    (hn : m'.nMaps = m.nMaps) (hnb : m'.numbered = m.numbered)
    (r : FaceRow K) (hr : r ∈ rows) (hrc : r.sclass = l.id)
    (hru : ∀ q ∈ rows, q.sclass = l.id → q ≠ r →
      (r.x - l.x) ^ 2 + (r.y - l.y) ^ 2 < (q.x - l.x) ^ 2 + (q.y - l.y) ^ 2) :
    (buildCss x cfg m' (Loc.turn c s p q l)).map (fun f => (f.out, f.css))
      = (buildCss x cfg m l).map (fun f => (f.out, f.css)) := by
  have hdist : ∀ a : FaceRow K, ((FaceRow.turn c s p q a).x - (Loc.turn c s p q l).x) ^ 2
      + ((FaceRow.turn c s p q a).y - (Loc.turn c s p q l).y) ^ 2 = (a.x - l.x) ^ 2 + (a.y - l.y) ^ 2 := by
    intro a
    unfold FaceRow.turn Loc.turn
    simp only
    linear_combination ((a.x - l.x) ^ 2 + (a.y - l.y) ^ 2) * hcs
  have hpick := pick_rows x.nn l rows r hr hrc hru
  have hpick' := pick_rows x.nn (Loc.turn c s p q l) (rows.map (FaceRow.turn c s p q)) (FaceRow.turn c s p q r)
    (List.mem_map_of_mem hr) hrc (by
      intro a ha hac hne
      obtain ⟨b, hb, rfl⟩ := List.mem_map.1 ha
      rw [hdist, hdist]
      exact hru b hb hac fun e => hne (by rw [e]))
  have hfil : (rows.map (FaceRow.turn c s p q)).filter (fun r => decide (r.sclass = l.id))
      = (rows.filter fun r => decide (r.sclass = l.id)).map (FaceRow.turn c s p q) := by
    rw [List.filter_map]
    rfl
  have hid : (Loc.turn c s p q l).id = l.id := rfl
  have hlen : (Loc.turn c s p q l).length = l.length := rfl
  have hgeo : buildGeometry cfg.pipeline.build l.length
        (centreOf x.nn (getSelection x.sqrt m'.faces m'.edges l.id) (Loc.turn c s p q l))
        (controlVolumeOf m'.nMaps (getSelection x.sqrt m'.faces m'.edges l.id))
      = buildGeometry cfg.pipeline.build l.length
        (centreOf x.nn (getSelection x.sqrt m.faces m.edges l.id) l)
        (controlVolumeOf m.nMaps (getSelection x.sqrt m.faces m.edges l.id)) := by
    have hcell : ((rows.map (FaceRow.turn c s p q)).filter fun r => decide (r.sclass = l.id)).map (rowCell x.sqrt)
        = (rows.filter fun r => decide (r.sclass = l.id)).map (rowCell x.sqrt) := by
      rw [hfil, List.map_map]
      exact List.map_congr_left fun a _ => rowCell_turn x.sqrt c s p q hcs a
    unfold centreOf
    rw [hf, hf', positions_rows, positions_rows, controlVolumeOf_rows, controlVolumeOf_rows, hn]
    rw [hcell]
    refine buildGeometry_centre _ _ _ _ _ _ ?_
    rw [← hcell]
    conv_rhs => rw [hcell]
    show (((rows.map (FaceRow.turn c s p q)).filter fun r => decide (r.sclass = l.id)).map (rowCell x.sqrt))[_]?
      = ((rows.filter fun r => decide (r.sclass = l.id)).map (rowCell x.sqrt))[_]?
    rw [hid] at hpick'
    rw [List.getElem?_map, List.getElem?_map, hpick, hpick']
    simp only [Option.map_some, rowCell_turn x.sqrt c s p q hcs]
  have hgeo' := geometry_eq_of (x.opt l.id) cfg.pipeline x.bump x.release (x.log l.id) l.length _ _ _ _ hgeo
  have hrough : ∀ css, assignRoughness cfg m' (getSelection x.sqrt m'.faces m'.edges l.id) l.length css
      = assignRoughness cfg m (getSelection x.sqrt m.faces m.edges l.id) l.length css := by
    intro css
    have hl : linksOf (getSelection x.sqrt m'.faces m'.edges l.id) = linksOf (getSelection x.sqrt m.faces m.edges l.id) := by
      rw [he, he', linksOf_rows, linksOf_rows, List.filter_map, List.map_map]
      rfl
    have hs : sectionFacesOf m'.numbered (getSelection x.sqrt m'.faces m'.edges l.id)
        = sectionFacesOf m.numbered (getSelection x.sqrt m.faces m.edges l.id) := by
      rw [hf, hf', sectionFacesOf_rows, sectionFacesOf_rows, hnb, hfil, List.map_map]
      rfl
    unfold assignRoughness
    rw [hl, hs, hn]
  unfold buildCss
  simp only [hid, hlen, hgeo', hrough]
  cases buildCrossSectionGeometry (x.opt l.id) cfg.pipeline x.bump x.release (x.log l.id) l.length
      (centreOf x.nn (getSelection x.sqrt m.faces m.edges l.id) l)
      (controlVolumeOf m.nMaps (getSelection x.sqrt m.faces m.edges l.id)) with
  | error e => rfl
  | ok css =>
    simp only
    cases assignRoughness cfg m (getSelection x.sqrt m.faces m.edges l.id) l.length css with
    | error e => rfl
    | ok r =>
      obtain ⟨tables, widths, base⟩ := r
      simp only
      cases css.crestLevel <;> cases css.extraFlowArea <;> cases css.extraTotalArea <;> cases css.extraTotalVolume <;> rfl

theorem buildCss_turn (x : Tools K) (cfg : RunConfig K)
    (c s p q : K) (hcs : c ^ 2 + s ^ 2 = 1) (m m' : Model2d K) (l : Loc K) (rows : List (FaceRow K))
    (er : List (EdgeRow K)) (ef ef' : Option (List (Int × Int))) (move : EdgeRow K → K × K)
    (hf : m.faces = faceColumns rows) (hf' : m'.faces = faceColumns (rows.map (FaceRow.turn c s p q)))
    (he : m.edges = edgeColumns er ef)
    (he' : m'.edges = edgeColumns (er.map fun e => { e with x := (move e).1, y := (move e).2 }) ef')
    (hn : m'.nMaps = m.nMaps) (hnb : m'.numbered = m.numbered)
    (r : FaceRow K) (hr : r ∈ rows) (hrc : r.sclass = l.id)
    (hru : ∀ q ∈ rows, q.sclass = l.id → q ≠ r →
      (r.x - l.x) ^ 2 + (r.y - l.y) ^ 2 < (q.x - l.x) ^ 2 + (q.y - l.y) ^ 2) :
    (buildCss x cfg m' (Loc.turn c s p q l)).map (·.out) = (buildCss x cfg m l).map (·.out) := by
  have := congrArg (Except.map Prod.fst)
    (buildCss_turn_core x cfg c s p q hcs m m' l rows er ef ef' move hf hf' he he' hn hnb r hr hrc hru)
  rwa [except_map_map, except_map_map] at this

end Fm2prof

import Verif.Model.Pipeline

/-!
# Changes of the input that should not matter

The same river with all levels counted from another reference level, with areas and lengths in another unit, or with the faces
in another order.
-/

namespace Fm2prof.Spec

open Fm2prof

variable {K : Type} [Field K] [LinearOrder K] [IsStrictOrderedRing K]

/-! ## Another reference level -/

/-- A cell with all levels `d` higher. -/
def Cell.raise (d : K) (c : Cell K) : Cell K :=
  { c with bed := c.bed + d, level := fun t => (c.level t).map (· + d) }

/-- A control volume with all levels `d` higher. -/
def ControlVolume.raise (d : K) (cv : ControlVolume K) : ControlVolume K :=
  { cv with cells := cv.cells.map (Cell.raise d) }

/-- No level of a control volume is the number that stands for a missing value, before or after raising by `d`. -/
def NoNodata (d : K) (cv : ControlVolume K) : Prop :=
  ∀ c ∈ cv.cells, ∀ t, c.level t ≠ some (-999) ∧ c.level t ≠ some (-999 - d)

/-- Profile and curves with all levels `d` higher: widths, areas and volumes are the same. -/
def Built.raise (d : K) (b : Built K) : Built K :=
  { b with z := b.z.map (· + d), zRoughness := b.zRoughness.map (Option.map (· + d)) }

/-- A cross-section with all levels `d` higher. The crest level counts as a level once there has been a correction. -/
def Css.raise (d : K) (c : Css K) : Css K :=
  { c with
    raw := Built.raise d c.raw
    z := c.z.map (· + d)
    crestLevel := if c.isCorrected then c.crestLevel.map (· + d) else c.crestLevel }

/-- `opt'` finds for raised levels what `opt` finds, with the crest level raised. -/
structure RaisedOptimiser (d : K) (opt opt' : Optimiser K) : Prop where
  crestAndVolume : ∀ v c t, opt'.crestAndVolume v (c + d, t) =
    (opt.crestAndVolume v (c, t)).map fun r => (r.1.map (· + d), r.2)
  volume : ∀ v c t, opt'.volume v (c.map (· + d)) t = opt.volume v c t
  both : ∀ c t f, opt'.both (c + d, t, f) = (opt.both (c, t, f)).map fun r => (r.1.map (· + d), r.2)

/-- A 2D model with all levels `d` higher. -/
def Model2d.raise (d : K) (m : Model2d K) : Model2d K :=
  { m with faces := { m.faces with
      bedlevel := m.faces.bedlevel.map (· + d)
      waterlevel := m.faces.waterlevel.map (List.map (Option.map (· + d))) } }

/-- No water level of a 2D model is the number that stands for a missing value, before or after raising by `d`. -/
def NoNodataIn (d : K) (m : Model2d K) : Prop :=
  ∀ r ∈ m.faces.waterlevel, ∀ v ∈ r, v ≠ some (-999) ∧ v ≠ some (-999 - d)

/-- A roughness table with all levels `d` higher. -/
def FrictionTable.raise (d : K) (t : FrictionTable K) : FrictionTable K := { t with level := t.level.map (· + d) }

/-- The exported quantities with all levels `d` higher; the crest level only if it has been found by the correction. -/
def ExportCss.raise (corrected : Bool) (d : K) (c : ExportCss K) : ExportCss K :=
  { c with
    z := c.z.map (· + d)
    crestLevel := if corrected then c.crestLevel + d else c.crestLevel
    floodplainBase := c.floodplainBase.map (· + d)
    tables := c.tables.map fun t => (t.1, FrictionTable.raise d t.2)
    volumes := { c.volumes with z := c.volumes.z.map (Option.map (· + d)) } }

/-! ## Another unit of length along the river -/

/-- A control volume with all areas `k` times as large. -/
def ControlVolume.scale (k : K) (cv : ControlVolume K) : ControlVolume K :=
  { cv with cells := cv.cells.map fun c => { c with area := k * c.area } }

/-- Profile and curves with areas and volumes `k` times as large: levels and widths are the same. -/
def Built.scale (k : K) (b : Built K) : Built K :=
  { b with
    wetArea := b.wetArea.map (k * ·)
    flowArea := b.flowArea.map (k * ·)
    totalVolume2d := b.totalVolume2d.map (Option.map (k * ·))
    flowVolume2d := b.flowVolume2d.map (Option.map (k * ·))
    totalVolume1d := b.totalVolume1d.map (k * ·)
    flowVolume1d := b.flowVolume1d.map (k * ·) }

/-- A cross-section `k` times as long, with the same profile. -/
def Css.scale (k : K) (c : Css K) : Css K :=
  { c with
    length := k * c.length
    raw := Built.scale k c.raw
    totalVolumeCorrected := c.totalVolumeCorrected.map (List.map (Option.map (k * ·)))
    flowVolumeCorrected := c.flowVolumeCorrected.map (List.map (Option.map (k * ·)))
    extraTotalVolume := c.extraTotalVolume.map (k * ·)
    extraFlowVolume := c.extraFlowVolume.map (Option.map (k * ·)) }

/-- `opt'` finds for volumes that are `k` times as large what `opt` finds, with the volumes multiplied by `k`. -/
structure ScaledOptimiser (k : K) (opt opt' : Optimiser K) : Prop where
  crestAndVolume : ∀ v c t, opt'.crestAndVolume (v.map (k * ·)) (c, t.map (k * ·)) =
    (opt.crestAndVolume v (c, t)).map fun r => (r.1, r.2.map (k * ·))
  volume : ∀ v c t, opt'.volume (v.map (k * ·)) c (t.map (k * ·)) = (opt.volume v c t).map (Option.map (k * ·))
  both : ∀ c t f, opt'.both (c, t.map (k * ·), f.map (k * ·)) =
    (opt.both (c, t, f)).map fun r => (r.1, r.2.1.map (k * ·), r.2.2.map (k * ·))

/-- A 2D model with all areas `k` times as large. -/
def Model2d.scale (k : K) (m : Model2d K) : Model2d K :=
  { m with faces := { m.faces with area := m.faces.area.map (k * ·) } }

/-- The exported quantities with areas and volumes of the control volume `k` times as large: the profile, the extra areas of the
profile, the section widths and the roughness are the same. -/
def ExportCss.scale (k : K) (c : ExportCss K) : ExportCss K :=
  { c with
    extraTotalVolume := k * c.extraTotalVolume
    volumes := { c.volumes with
      tv2d := c.volumes.tv2d.map (Option.map (k * ·))
      fv2d := c.volumes.fv2d.map (Option.map (k * ·))
      wa2d := c.volumes.wa2d.map (Option.map (k * ·))
      fa2d := c.volumes.fa2d.map (Option.map (k * ·))
      tvsd1d := c.volumes.tvsd1d.map (Option.map (k * ·))
      tv1d := c.volumes.tv1d.map (Option.map (k * ·))
      fvsd1d := c.volumes.fvsd1d.map (Option.map (k * ·))
      fv1d := c.volumes.fv1d.map (Option.map (k * ·)) } }

/-! ## Another order of the faces and edges -/

/-- All data of one face. -/
structure FaceRow (K : Type) where
  x : K
  y : K
  area : K
  bedlevel : K
  region : Text
  islake : Bool
  sect : Text
  sclass : Text
  waterdepth : List (Option K)
  waterlevel : List (Option K)
  velocityX : List (Option K)
  velocityY : List (Option K)

/-- All data of one edge, apart from the numbers of its faces. -/
structure EdgeRow (K : Type) where
  x : K
  y : K
  sect : Text
  sclass : Text
  chezy : List (Option K)

/-- The faces `rows` in this order. -/
def faceColumns (rows : List (FaceRow K)) : FaceData Text K :=
  { x := rows.map (·.x), y := rows.map (·.y), area := rows.map (·.area), bedlevel := rows.map (·.bedlevel)
    region := rows.map (·.region), islake := rows.map (·.islake), sect := rows.map (·.sect), sclass := rows.map (·.sclass)
    waterdepth := rows.map (·.waterdepth), waterlevel := rows.map (·.waterlevel)
    velocityX := rows.map (·.velocityX), velocityY := rows.map (·.velocityY) }

/-- The edges `rows` in this order; `edgeFaces` are the numbers of their faces. -/
def edgeColumns (rows : List (EdgeRow K)) (edgeFaces : Option (List (Int × Int))) : EdgeData Text K :=
  { x := rows.map (·.x), y := rows.map (·.y), sect := rows.map (·.sect), sclass := rows.map (·.sclass)
    edgeFaces := edgeFaces, chezy := rows.map (·.chezy) }

/-- The two models differ in the order of their faces and edges only. -/
structure Renumbered (m m' : Model2d K) : Prop where
  faces : ∃ rows rows', rows.Perm rows' ∧ m.faces = faceColumns rows ∧ m'.faces = faceColumns rows'
  edges : ∃ rows rows' f f', rows.Perm rows' ∧ m.edges = edgeColumns rows f ∧ m'.edges = edgeColumns rows' f'
  nMaps : m'.nMaps = m.nMaps
  numbered : m'.numbered = m.numbered

/-- Of the faces of a cross-section one is nearer to its location than all others. -/
def OneNearest (m : Model2d K) (l : Loc K) : Prop :=
  ∃ rows, m.faces = faceColumns rows ∧ ∃ r ∈ rows, r.sclass = l.id ∧
    ∀ q ∈ rows, q.sclass = l.id → q ≠ r →
      (r.x - l.x) ^ 2 + (r.y - l.y) ^ 2 < (q.x - l.x) ^ 2 + (q.y - l.y) ^ 2

/-- A cell that is dry at all maps. -/
def AlwaysDry (c : Cell K) : Prop := ∀ t, c.depth t = some 0 ∨ c.depth t = none

/-! ## Other axes -/

/-- `a * x + b * y`, missing when `x` or `y` is. -/
def mix (a b : K) (x y : Option K) : Option K :=
  match x, y with
  | some u, some v => some (a * u + b * v)
  | _, _ => none

/-- A face seen from axes that are turned over the angle with cosine `c` and sine `s` and moved by `(p, q)`: both its position
and the components of its velocity change. -/
def FaceRow.turn (c s p q : K) (r : FaceRow K) : FaceRow K :=
  { r with
    x := c * r.x - s * r.y + p
    y := s * r.x + c * r.y + q
    velocityX := List.zipWith (mix c (-s)) r.velocityX r.velocityY
    velocityY := List.zipWith (mix s c) r.velocityX r.velocityY }

/-- A location seen from these axes. -/
def Loc.turn (c s p q : K) (l : Loc K) : Loc K := { l with x := c * l.x - s * l.y + p, y := s * l.x + c * l.y + q }

end Fm2prof.Spec

import Verif.Lemmas.IndexTable
import Verif.Model.CatalogueData
import Verif.Spec.Catalogue

/-! # The numbers of the catalogues, computed with intervals

Definitions and the checks by computation only, so that they depend on nothing but the data. -/

namespace RT

/-- curvature of a radius of a data sheet -/
def curvQ : Option ℚ → ℚ
  | none => 0
  | some r => 1 / r

/-- The wavelength of reference; when the indices are given nothing depends on the wavelength, and 0.5876 does as well as any other. -/
def CatData.ref : CatData → ℚ
  | .singlet _ _ _ _ _ _ _ _ w => w
  | .doublet _ _ _ _ _ _ _ _ _ (.given _ _) => 0.5876
  | .doublet _ _ _ _ _ _ _ _ _ (.glasses _ _ w) => w

/-- Back focal length of the data sheet. -/
def CatData.back : CatData → ℚ
  | .singlet _ fb .. => fb
  | .doublet _ fb .. => fb

/-- Thickness at the edge of the data sheet. -/
def CatData.edge : CatData → ℚ
  | .singlet _ _ _ _ _ te .. => te
  | .doublet _ _ _ _ _ _ _ te .. => te

/-- Diameter. -/
def CatData.diameter : CatData → ℚ
  | .singlet _ _ _ _ _ _ d .. => d
  | .doublet _ _ _ _ _ _ _ _ d _ => d

/-- First and last radius. -/
def CatData.outer : CatData → Option ℚ × Option ℚ
  | .singlet _ _ R1 R2 .. => (R1, R2)
  | .doublet _ _ R1 _ R3 .. => (R1, R3)

/-- Thickness. -/
def CatData.thickness : CatData → ℚ
  | .singlet _ _ _ _ tc .. => tc
  | .doublet _ _ _ _ _ tc1 tc2 .. => tc1 + tc2

/-- power and back height of a singlet -/
def singletFx (c1 c2 t k : Fx) : Fx × Fx :=
  let p1 := (k.sub (.ofQ 1)).mul c1
  let y := (Fx.ofQ 1).sub ((t.mul k.inv).mul p1)
  (p1.sub (y.mul ((k.sub (.ofQ 1)).mul c2)), y)

/-- power and back height of a doublet -/
def doubletFx (c1 c2 c3 t1 t2 k1 k2 : Fx) : Fx × Fx :=
  let p1 := (k1.sub (.ofQ 1)).mul c1
  let y := (Fx.ofQ 1).sub ((t1.mul k1.inv).mul p1)
  let w := p1.add (y.mul ((k2.sub k1).mul c2))
  let y' := y.sub ((t2.mul k2.inv).mul w)
  (w.sub (y'.mul ((k2.sub (.ofQ 1)).mul c3)), y')

/-- bounds of an index, compared with what is under its square root -/
def Fx.bounds (f : Fx) (i : Iv) : Bool :=
  decide (0 < f.lo) && decide (((f.lo * f.lo : Int) : ℚ) ≤ i.lo * (Fx.unit * Fx.unit : Nat)) &&
    decide (0 ≤ f.hi) && decide (i.hi * (Fx.unit * Fx.unit : Nat) ≤ ((f.hi * f.hi : Int) : ℚ))

/-- the check of the bounds of a glass -/
def rowOk (cells : List (ℚ × ℚ)) (row : String × List Fx) : Bool :=
  match classNamed row.1 with
  | .ok g => (List.zip cells row.2).all fun p =>
      decide (1 / 100 ≤ p.1.1) && decide (p.1.2 ≤ 10) && g.formula.ivOk p.1.1 p.1.2 && p.2.bounds (g.formula.squareIv p.1.1 p.1.2)
  | .error _ => false

/-- the bounds of the index of a glass -/
def indexRow (name : String) : List Fx :=
  match indexRows.find? (fun r => r.1 == name) with
  | some r => r.2
  | none => []

/-- power and back height of a lens over each interval -/
def CatData.fxs : CatData → List (Fx × Fx)
  | .singlet _ _ R1 R2 tc _ _ mat _ => (indexRow mat).map (singletFx (.ofQ (curvQ R1)) (.ofQ (curvQ R2)) (.ofQ tc))
  | .doublet _ _ R1 R2 R3 tc1 tc2 _ _ (.given n1 n2) =>
    if (Fx.ofQ n1).away && (Fx.ofQ n2).away then
      List.replicate indexCells.length
        (doubletFx (.ofQ (curvQ R1)) (.ofQ (curvQ R2)) (.ofQ (curvQ R3)) (.ofQ tc1) (.ofQ tc2) (.ofQ n1) (.ofQ n2))
    else []
  | .doublet _ _ R1 R2 R3 tc1 tc2 _ _ (.glasses mat1 mat2 _) =>
    List.zipWith (doubletFx (.ofQ (curvQ R1)) (.ofQ (curvQ R2)) (.ofQ (curvQ R3)) (.ofQ tc1) (.ofQ tc2)) (indexRow mat1) (indexRow mat2)

/-- a radius not smaller than the half diameter -/
def radiusWide (h : ℚ) : Option ℚ → Bool
  | none => true
  | some r => decide (r ≠ 0) && decide (h ≤ |r|)

/-- the inner radius of a doublet -/
def CatData.innerOk : CatData → Bool
  | .singlet .. => true
  | .doublet _ _ _ R2 .. => R2 != some 0

/-- the checks on the numbers of a data sheet -/
def CatLens.staticOk (l : CatLens) : Bool :=
  decide (0 < l.data.diameter) && decide (l.data.thickness ≠ 0) && decide (l.design ≠ 0) && decide (l.data.back ≠ 0) && decide (l.data.edge ≠ 0) &&
    radiusWide (l.data.diameter / 2) l.data.outer.1 && radiusWide (l.data.diameter / 2) l.data.outer.2 && l.data.innerOk

/-- whether all the numbers of an interval are more than `tol` away from what is expected (relatively), or none -/
def offIv (tol : ℚ) (i : Iv) (e : ℚ) : Option Bool :=
  let q := (i.sub (.pt e)).mul (.pt (1 / e))
  if tol < q.lo ∨ q.hi < -tol then some true else if -tol ≤ q.lo ∧ q.hi ≤ tol then some false else none

/-- the depth of a surface at the edge -/
def sagIv (h r : ℚ) : Iv :=
  if 0 < r then (Iv.pt r).sub (Iv.pt (r ^ 2 - h ^ 2)).sqrt else (Iv.pt r).add (Iv.pt (r ^ 2 - h ^ 2)).sqrt

/-- the warning of the edge -/
def edgeIv (h len te : ℚ) : Option ℚ × Option ℚ → Option Bool
  | (some r, some r') =>
    if 0 ≤ r ^ 2 - h ^ 2 ∧ 0 ≤ r' ^ 2 - h ^ 2 then offIv (5 / 100) (((Iv.pt len).add (sagIv h r')).sub (sagIv h r)) te else none
  | _ => some false

/-- whether all the numbers of an interval are more than `tol` away from what is expected (relatively), or none -/
def offFx (tol : ℚ) (i : Fx) (e : ℚ) : Option Bool :=
  let b := Fx.ofQ (e + tol * |e|)
  let a := Fx.ofQ (e - tol * |e|)
  if b.hi < i.lo ∨ i.hi < a.lo then some true else if a.hi ≤ i.lo ∧ i.hi ≤ b.lo then some false else none

/-- whether a lens has the warnings of the focal length, of the back focal length and of the edge over an interval, when they are the same
everywhere -/
def CatLens.warnFx (l : CatLens) (p : Fx × Fx) : Option (Bool × Bool × Bool) :=
  if !p.1.away then none else
  match offFx (1 / 100) p.1.inv l.design, offFx (1 / 100) (p.2.mul p.1.inv) l.data.back,
    edgeIv (l.data.diameter / 2) l.data.thickness l.data.edge l.data.outer with
  | some b1, some b2, some b3 => some (b1, b2, b3)
  | _, _, _ => none

/-- in the visible -/
def visible (c : ℚ × ℚ) : Bool := decide (2 / 5 ≤ c.1) && decide (c.2 ≤ 4 / 5)

/-! ## The checks of the numbers -/

/-- a power of more than 1e-5, of the sign of the design -/
def CatLens.powerOk (l : CatLens) (p : Fx × Fx) : Bool :=
  if 0 < l.design then decide ((10000000 : Int) < p.1.lo) else decide (p.1.hi < (-10000000 : Int))

/-- the checks of a lens at its wavelength of reference and in the visible -/
def CatLens.refOk (l : CatLens) (row : CatRow) (q : (ℚ × ℚ) × Fx × Fx) : Bool :=
  l.warnFx q.2 == some (row.focal, row.back, row.edge) && (!row.far || offFx (1 / 10) q.2.1.inv l.design == some true)

/-- the checks of a lens in the visible -/
def CatLens.visibleOk (l : CatLens) (q : (ℚ × ℚ) × Fx × Fx) : Bool :=
  !visible q.1 || (q.2.1.away && offFx (1 / 10) q.2.1.inv l.design == some false)

/-- all the checks of a lens -/
def CatLens.check (p : CatLens × CatRow) : Bool :=
  p.1.name == p.2.name && p.1.staticOk && decide (29 / 100 ≤ p.1.data.ref) && decide (p.1.data.ref ≤ 64 / 10) &&
    (fun fxs : List (Fx × Fx) => fxs.length == indexCells.length && fxs.all p.1.powerOk &&
      ((List.zip indexCells fxs).any fun q => decide (q.1.1 ≤ p.1.data.ref) && decide (p.1.data.ref ≤ q.1.2) && p.1.refOk p.2 q) &&
      (p.2.focal || (List.zip indexCells fxs).all p.1.visibleOk)) p.1.data.fxs

end RT

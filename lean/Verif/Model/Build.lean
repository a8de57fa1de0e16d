import Verif.Model.Group
import Verif.Spec.Part

/-! # Running the program described by a `Part` -/

namespace RT
open PyNum Ext
variable {K : Type} [Field K] [LinearOrder K]

/-- the arguments of `Matrix(...)`: `matrix.py:118-132` -/
def genericMat (s : Sys K) (fv bv diam : Option K) : Mat (Ext K) :=
  { (Mat.one : Mat (Ext K)) with
    A := fin s.a, B := fin s.b, C := fin s.c, D := fin s.d, L := fin s.len, frontVertex := fv.map fin,
    backVertex := bv.map fin, frontIndex := fin s.nf, backIndex := fin s.nb, apertureDiameter := optInf diam }

mutual
/-- The object built by a program: calls to the constructors modelled in `Model/Matrix.lean` and
`Model/Group.lean`. -/
def Part.build : Part K → Except PyErr (Elem (Ext K))
  | .space d n diam => (mkSpace (fin d) (fin n) (optInf diam)).map .leaf
  | .lens f diam => (mkLens (fin f) (optInf diam)).map .leaf
  | .mirror R diam => (mkCurvedMirror (fin R) (optInf diam)).map .leaf
  | .interface n1 n2 R diam => (mkDielectric (fin n1) (fin n2) (optInf R) (optInf diam)).map .leaf
  | .thickLens n R1 R2 t diam => (mkThickLens (fin n) (optInf R1) (optInf R2) (fin t) (optInf diam)).map .leaf
  | .slab n t diam => (mkSlab (fin n) (fin t) (optInf diam)).map .leaf
  | .aperture diam na label => (mkAperture (optInf diam) (optInf na) label).map .leaf
  | .matrix s fv bv diam =>
    (Mat.init (genericMat s fv bv diam)).map .leaf
  | .group label ps =>
    match Part.buildList ps with
    | .error x => .error x
    | .ok es => (Group.new es label).map Group.toElem
/-- the elements of a list, built in order -/
def Part.buildList : List (Part K) → Except PyErr (List (Elem (Ext K)))
  | [] => .ok []
  | p :: ps =>
    match p.build with
    | .error x => .error x
    | .ok e =>
      match Part.buildList ps with
      | .error x => .error x
      | .ok es => .ok (e :: es)
end

end RT

import Verif.Spec.Part

/-! # Where the vertices of a system are, and how far from the middle of their elements -/

namespace RT
variable {K : Type} [Field K]

mutual
/-- Length and vertices (measured from the entrance of the element) of the single elements of a system, in order. -/
def Part.vtxs : Part K → List (Vtx K)
  | .space d _ _ => [(d, none, none)]
  | .lens _ _ => [(0, some 0, some 0)]
  | .mirror _ _ => [(0, some 0, some 0)]
  | .interface _ _ _ _ => [(0, some 0, some 0)]
  | .thickLens _ _ _ t _ => [(t, some 0, some t)]
  | .slab _ t _ => [(t, some 0, some t)]
  | .aperture _ _ _ => [(0, none, none)]
  | .matrix s fv bv _ => [(s.len, fv, bv)]
  | .group _ ps => Part.vtxsList ps
/-- of successive systems -/
def Part.vtxsList : List (Part K) → List (Vtx K)
  | [] => []
  | p :: ps => p.vtxs ++ Part.vtxsList ps
end

/-- The first front vertex: how much farther it is from the end of its element than from its beginning. -/
def frontShift : List (Vtx K) → K
  | [] => 0
  | (l, some v, _) :: _ => l - v - v
  | (_, none, _) :: vs => frontShift vs

/-- The last back vertex: how much farther it is from the end of its element than from its beginning. -/
def backShift : List (Vtx K) → K
  | [] => 0
  | (l, _, some v) :: vs => if vs.any (fun w => w.2.2.isSome) then backShift vs else l - v - v
  | (_, _, none) :: vs => backShift vs

end RT

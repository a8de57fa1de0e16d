import Verif.Props.UnitsAccepted
import Verif.Props.RoundedAxicon
import Verif.Props.Symmetry

/-! # C138 in floats: units that are powers of two -/

set_option linter.unusedSectionVars false

namespace RT
open PyNum
variable {F : Type} [PyNum F]

/-- `up` is a change of the unit of lengths, and `dn` of inverse lengths, that the operations of the numbers do not notice -/
structure UnitFree (F : Type) [PyNum F] (up dn : F → F) : Prop where
  dn_up : ∀ a, dn (up a) = a
  up_dn : ∀ a, up (dn a) = a
  mul_up : ∀ a b, a * up b = up (a * b)
  up_mul : ∀ a b, up a * b = up (a * b)
  mul_dn : ∀ a b, a * dn b = dn (a * b)
  dn_mul : ∀ a b, dn a * b = dn (a * b)
  add_up : ∀ a b, up a + up b = up (a + b)
  add_dn : ∀ a b, dn a + dn b = dn (a + b)
  sub_up : ∀ a b, up a - up b = up (a - b)
  sub_dn : ∀ a b, dn a - dn b = dn (a - b)
  abs_up : ∀ a, PyNum.abs (up a) = up (PyNum.abs a)
  lt_up : ∀ a b, (up a <. up b) = (a <. b)
  le_up : ∀ a b, (up a ≤. up b) = (a ≤. b)
  eq_up : ∀ a, (up a ==. (0 : F)) = (a ==. 0)
  eq_dn : ∀ a, (dn a ==. (0 : F)) = (a ==. 0)
  zero_up : up 0 = 0
  zero_dn : dn 0 = 0
  inf_up : up inf = inf
  up_div : ∀ a b, rawDiv (up a) b = up (rawDiv a b)
  div_up : ∀ a b, rawDiv a (up b) = dn (rawDiv a b)

/-- the class, with lengths in another unit -/
def Kind.up (up : F → F) : Kind F → Kind F
  | .lens f h => .lens (up f) h
  | .dielectric n1 n2 R => .dielectric n1 n2 (up R)
  | .thickLens n R1 R2 => .thickLens n (up R1) (up R2)
  | .slab n R1 R2 => .slab n (up R1) (up R2)
  | k => k

/-- an element, with lengths in another unit -/
def Mat.up (up dn : F → F) (m : Mat F) : Mat F :=
  { m with B := up m.B, C := dn m.C, L := up m.L, frontVertex := m.frontVertex.map up, backVertex := m.backVertex.map up,
           apertureDiameter := up m.apertureDiameter, kind := m.kind.up up }

mutual
/-- the same with groups -/
def Elem.up (up dn : F → F) : Elem F → Elem F
  | .leaf m => .leaf (m.up up dn)
  | .group m c es => .group (m.up up dn) c (Elem.upList up dn es)
/-- the same for successive elements -/
def Elem.upList (up dn : F → F) : List (Elem F) → List (Elem F)
  | [] => []
  | e :: es => e.up up dn :: Elem.upList up dn es
end

/-- a group, with lengths in another unit -/
def Group.up (up dn : F → F) (g : Group F) : Group F := { g with mat := g.mat.up up dn, elems := g.elems.map (Elem.up up dn) }

/-- a ray, with lengths in another unit -/
def Ray.up (up : F → F) (r : Ray F) : Ray F := { r with y := up r.y, z := up r.z, apertureDiameter := up r.apertureDiameter }

/-- a step of a trace, with lengths in another unit -/
def Item.up (up dn : F → F) : Item F → Item F
  | .dup => .dup
  | .leaf m => .leaf (m.up up dn)

variable {up dn : F → F}

theorem upList_eq (es : List (Elem F)) : Elem.upList up dn es = es.map (Elem.up up dn) := by
  induction es with
  | nil => rfl
  | cons e es ih => simp [Elem.upList, ih]

namespace UnitFree
variable (o : UnitFree F up dn)
include o

theorem pos (a : F) : ((0 : F) <. up a) = (0 <. a) := by
  have h := o.lt_up 0 a
  rwa [o.zero_up] at h

theorem nonpos (a : F) : (up a ≤. (0 : F)) = (a ≤. 0) := by
  have h := o.le_up a 0
  rwa [o.zero_up] at h

theorem pyDiv_up (a b : F) : pyDiv a (up b) = (pyDiv a b).map dn := by
  unfold pyDiv; rw [o.eq_up, o.div_up]; split <;> rfl

theorem up_pyDiv (a b : F) : pyDiv (up a) b = (pyDiv a b).map up := by
  unfold pyDiv; rw [o.up_div]; split <;> rfl

theorem up_pyDiv_up (a b : F) : pyDiv (up a) (up b) = pyDiv a b := by
  unfold pyDiv; rw [o.eq_up, o.div_up, o.up_div, o.dn_up]

theorem up_mul_dn (a b : F) : up a * dn b = a * b := by rw [o.up_mul, o.mul_dn, o.up_dn]
theorem dn_mul_up (a b : F) : dn a * up b = a * b := by rw [o.dn_mul, o.mul_up, o.dn_up]

theorem one : (Mat.one : Mat F).up up dn = Mat.one := by
  simp [Mat.up, Mat.one, o.zero_up, o.zero_dn, o.inf_up, Kind.up]

theorem determinant (m : Mat F) : (m.up up dn).determinant = m.determinant := by
  simp only [Mat.determinant, Mat.up, o.eq_dn, o.up_mul_dn]

theorem init (m : Mat F) : Mat.init (m.up up dn) = (Mat.init m).map (Mat.up up dn) := by
  unfold Mat.init
  rw [o.determinant]
  simp only [show (m.up up dn).apertureDiameter = up m.apertureDiameter from rfl, show (m.up up dn).apertureNA = m.apertureNA from rfl,
    show (m.up up dn).frontIndex = m.frontIndex from rfl, show (m.up up dn).backIndex = m.backIndex from rfl, o.nonpos]
  by_cases h1 : (m.apertureDiameter ≤. 0) = true
  · simp [h1, bind, Except.bind, throw, throwThe, MonadExceptOf.throw, Except.map]
  · by_cases h2 : (m.apertureNA ≤. 0) = true
    · simp [h1, h2, bind, Except.bind, throw, throwThe, MonadExceptOf.throw, Except.map, pure, Except.pure]
    · cases h3 : pyDiv m.frontIndex m.backIndex with
      | error x => simp [h1, h2, bind, Except.bind, Except.map, pure, Except.pure]
      | ok q =>
        by_cases h4 : areAbsolutelyNotEqual m.determinant q eps = true
        · simp [h1, h2, h4, bind, Except.bind, throw, throwThe, MonadExceptOf.throw, Except.map, pure, Except.pure]
        · simp [h1, h2, h4, bind, Except.bind, Except.map, pure, Except.pure, Mat.up]

theorem isIdentity (m : Mat F) : (m.up up dn).isIdentity = m.isIdentity := by
  simp only [Mat.isIdentity, Mat.up, o.eq_up, o.eq_dn]

theorem mulRaw (m r : Mat F) : (m.up up dn).mulRaw (r.up up dn) = (m.mulRaw r).up up dn := by
  have h1 := o.isIdentity m
  have h2 := o.isIdentity r
  have v1 : (m.up up dn).mulFrontVertex (r.up up dn) = (m.mulFrontVertex r).map up := by
    unfold Mat.mulFrontVertex
    cases h : r.frontVertex <;> cases h' : m.frontVertex <;> simp [Mat.up, h, h', o.add_up]
  have v2 : (m.up up dn).mulBackVertex (r.up up dn) = (m.mulBackVertex r).map up := by
    unfold Mat.mulBackVertex
    cases h' : m.backVertex <;> simp [Mat.up, h', o.add_up]
  unfold Mat.mulRaw
  rw [v1, v2]
  unfold Mat.mulFrontIndex Mat.mulBackIndex
  rw [h1, h2]
  simp [Mat.up, Mat.one, o.up_mul_dn, o.dn_mul_up, o.mul_up, o.up_mul, o.mul_dn, o.dn_mul, o.add_up, o.add_dn, o.inf_up, Kind.up]

theorem mulMatrix (m r : Mat F) : (m.up up dn).mulMatrix (r.up up dn) = (m.mulMatrix r).map (Mat.up up dn) := by
  unfold Mat.mulMatrix; rw [o.mulRaw, o.init]

/-! ## Constructors -/

theorem mkSpace (d n D : F) : mkSpace (up d) n (up D) = (mkSpace d n D).map (Mat.up up dn) := by
  unfold RT.mkSpace
  rw [← o.init]
  simp [Mat.up, Mat.one, o.zero_dn, Kind.up]

theorem mkLens (f D : F) : mkLens (up f) (up D) = (mkLens f D).map (Mat.up up dn) := by
  unfold RT.mkLens
  rw [o.pyDiv_up]
  cases pyDiv (-1) f with
  | error x => rfl
  | ok c =>
    show Mat.init _ = Except.map _ (Mat.init _)
    rw [← o.init]
    simp [Mat.up, Mat.one, o.zero_up, Kind.up]

theorem mkCurvedMirror (R D : F) : mkCurvedMirror (up R) (up D) = (mkCurvedMirror R D).map (Mat.up up dn) := by
  unfold RT.mkCurvedMirror
  rw [o.pyDiv_up]
  cases pyDiv 2 R with
  | error x => rfl
  | ok c =>
    show Mat.init _ = Except.map _ (Mat.init _)
    rw [← o.init]
    simp [Mat.up, Mat.one, o.zero_up, Kind.up]

theorem mkDielectric (n1 n2 R D : F) : mkDielectric n1 n2 (up R) (up D) = (mkDielectric n1 n2 R D).map (Mat.up up dn) := by
  unfold RT.mkDielectric dielectricC
  rw [o.mul_up, o.pyDiv_up]
  cases pyDiv (-(n2 - n1)) (n2 * R) with
  | error x => rfl
  | ok c =>
    cases pyDiv n1 n2 with
    | error x => rfl
    | ok d =>
      show Mat.init _ = Except.map _ (Mat.init _)
      rw [← o.init]
      simp [Mat.up, Mat.one, o.zero_up, Kind.up]

theorem thickA (n R t : F) : thickA n (up R) (up t) = thickA n R t := by
  unfold RT.thickA; rw [o.up_mul, o.mul_up, o.up_pyDiv_up]

theorem thickD (n R t : F) : thickD n (up R) (up t) = thickD n R t := by
  unfold RT.thickD; rw [o.up_mul, o.mul_up, o.up_pyDiv_up]

theorem thickC (n R1 R2 t : F) : thickC n (up R1) (up R2) (up t) = (thickC n R1 R2 t).map dn := by
  unfold RT.thickC
  rw [o.up_mul, o.mul_up, o.mul_up, o.up_mul, o.up_pyDiv_up, o.pyDiv_up, o.pyDiv_up, o.pyDiv_up]
  cases pyDiv 1 R1 with
  | error x => rfl
  | ok a =>
    cases pyDiv 1 R2 with
    | error x => rfl
    | ok b =>
      cases pyDiv (t * (n - 1)) (n * R1 * R2) with
      | error x => rfl
      | ok c => simp [bind, Except.bind, Except.map, pure, Except.pure, o.sub_dn, o.add_dn, o.mul_dn]

theorem mkThickOf (k : Kind F) (n R1 R2 t D : F) : mkThickOf (k.up up) n (up R1) (up R2) (up t) (up D) = (mkThickOf k n R1 R2 t D).map (Mat.up up dn) := by
  unfold RT.mkThickOf thickB
  rw [o.thickA, o.thickC, o.thickD, o.up_pyDiv]
  cases RT.thickA n R1 t with
  | error x => rfl
  | ok a =>
    cases pyDiv t n with
    | error x => rfl
    | ok b =>
      cases RT.thickC n R1 R2 t with
      | error x => rfl
      | ok c =>
        cases RT.thickD n R2 t with
        | error x => rfl
        | ok d =>
          show Mat.init _ = Except.map _ (Mat.init _)
          rw [← o.init]
          simp [Mat.up, Mat.one, o.zero_up]

theorem mkThickLens (n R1 R2 t D : F) : mkThickLens n (up R1) (up R2) (up t) (up D) = (mkThickLens n R1 R2 t D).map (Mat.up up dn) :=
  o.mkThickOf (.thickLens n R1 R2) n R1 R2 t D

theorem mkSlab (n t D : F) : mkSlab n (up t) (up D) = (mkSlab n t D).map (Mat.up up dn) := by
  have h := o.mkThickOf (.slab n inf inf) n inf inf t D
  simp only [Kind.up, o.inf_up] at h
  exact h

theorem mkAperture (D na : F) (label : String) : mkAperture (up D) na label = (mkAperture D na label).map (Mat.up up dn) := by
  unfold RT.mkAperture
  rw [← o.init]
  simp [Mat.up, Mat.one, o.zero_up, o.zero_dn, Kind.up]

/-! ## Groups -/

theorem mat (e : Elem F) : (e.up up dn).mat = e.mat.up up dn := by cases e <;> simp [Elem.up, Elem.mat]

theorem transferMatrix (m : Mat F) (x : F) : (m.up up dn).transferMatrix (up x) = (m.transferMatrix x).map (Mat.up up dn) := by
  have hL : (m.up up dn).L = up m.L := rfl
  have hf : (m.up up dn).frontIndex = m.frontIndex := rfl
  have hD : (m.up up dn).apertureDiameter = up m.apertureDiameter := rfl
  have hk : (m.up up dn).kind = m.kind.up up := rfl
  have cut : ∀ n R : F, (do let s ← RT.mkSpace (up x) n (up m.apertureDiameter); let i ← RT.mkDielectric 1 n (up R) (up m.apertureDiameter); s.mulMatrix i) =
      Except.map (Mat.up up dn) (do let s ← RT.mkSpace x n m.apertureDiameter; let i ← RT.mkDielectric 1 n R m.apertureDiameter; s.mulMatrix i) := by
    intro n R
    rw [o.mkSpace, o.mkDielectric]
    cases RT.mkSpace x n m.apertureDiameter with
    | error x => rfl
    | ok s =>
      cases RT.mkDielectric 1 n R m.apertureDiameter with
      | error x => rfl
      | ok i => exact o.mulMatrix s i
  unfold Mat.transferMatrix
  rw [hL, hf, hD, hk, o.lt_up, o.le_up, o.eq_up]
  cases m.kind with
  | space =>
    simp only [Kind.up]
    split
    · have := o.mkSpace x m.frontIndex inf
      rwa [o.inf_up] at this
    · rfl
  | thickLens n R1 R2 =>
    simp only [Kind.up]
    split
    · rfl
    · exact cut n R1
  | slab n R1 R2 =>
    simp only [Kind.up]
    split
    · rfl
    · have := cut n inf
      rwa [o.inf_up] at this
  | _ =>
    simp only [Kind.up]
    split
    · rfl
    · split <;> rfl

mutual
theorem transfer : ∀ (e : Elem F) (x : F), (e.up up dn).transferMatrix (up x) = (e.transferMatrix x).map (Mat.up up dn)
  | .leaf m, x => by simpa only [Elem.up, Elem.transferMatrix] using o.transferMatrix m x
  | .group m c es, x => by
    have h := transferList es x Mat.one
    rw [o.one] at h
    simpa only [Elem.up, Elem.transferMatrix] using h
theorem transferList : ∀ (es : List (Elem F)) (x : F) (acc : Mat F),
    transferMatrixList (Elem.upList up dn es) (up x) (acc.up up dn) = (transferMatrixList es x acc).map (Mat.up up dn)
  | [], x, acc => by simp only [Elem.upList, transferMatrixList, Except.map]
  | e :: es, x, acc => by
    have hL : (e.up up dn).mat.L = up e.mat.L := by rw [o.mat]; rfl
    simp only [Elem.upList, transferMatrixList]
    rw [hL, o.le_up, o.mat, o.mulMatrix, o.sub_up, transfer e x]
    split
    · cases e.mat.mulMatrix acc with
      | error y => rfl
      | ok t => exact transferList es _ t
    · cases e.transferMatrix x with
      | error y => rfl
      | ok p => exact o.mulMatrix p acc
end

end UnitFree

namespace UnitFree
variable (o : UnitFree F up dn)
include o

theorem push (g : Group F) (e : Elem F) : (g.up up dn).push (e.up up dn) = ((g.push e).1.up up dn, (g.push e).2) := by
  have h := o.transferList (g.elems ++ [e]) inf Mat.one
  rw [o.one, o.inf_up, upList_eq, List.map_append] at h
  unfold Group.push
  simp only [Group.up, List.map_cons, List.map_nil] at h ⊢
  rw [h]
  cases transferMatrixList (g.elems ++ [e]) inf Mat.one with
  | error x => simp [Except.map]
  | ok t => simp [Except.map, Mat.refresh, Mat.up]

theorem isSpace (e : Elem F) : (e.up up dn).isSpace = e.isSpace := by
  unfold Elem.isSpace
  rw [o.mat]
  show (match e.mat.kind.up up with | .space => true | _ => false) = _
  cases e.mat.kind <;> rfl

theorem setIndices (e : Elem F) (n : F) : (e.up up dn).setIndices n = (e.setIndices n).up up dn := by
  cases e <;> simp [Elem.setIndices, Elem.up, Mat.up]

theorem append (g : Group F) (e : Elem F) : (g.up up dn).append (e.up up dn) = ((g.append e).1.up up dn, (g.append e).2) := by
  unfold Group.append
  have hl : (g.up up dn).elems.getLast? = g.elems.getLast?.map (Elem.up up dn) := by simp [Group.up]
  rw [hl]
  cases g.elems.getLast? with
  | none => exact o.push g e
  | some l =>
    simp only [Option.map_some]
    have b1 : (l.up up dn).mat.backIndex = l.mat.backIndex := by rw [o.mat]; rfl
    have b2 : (e.up up dn).mat.frontIndex = e.mat.frontIndex := by rw [o.mat]; rfl
    rw [b1, b2, o.isSpace, o.setIndices]
    split
    · split
      · exact o.push g _
      · rfl
    · exact o.push g e

theorem appendAll : ∀ (es : List (Elem F)) (g : Group F),
    (g.up up dn).appendAll (es.map (Elem.up up dn)) = ((g.appendAll es).1.up up dn, (g.appendAll es).2)
  | [], g => rfl
  | e :: es, g => by
    simp only [List.map_cons, Group.appendAll]
    rw [o.append]
    rcases g.append e with ⟨g1, x | ⟨⟩⟩
    · rfl
    · exact appendAll es g1

theorem new (es : List (Elem F)) (label : String) : Group.new (es.map (Elem.up up dn)) label = (Group.new es label).map (Group.up up dn) := by
  have h0 : (Group.empty label : Group F).up up dn = Group.empty label := by
    have h := o.one
    simp only [Mat.up, Mat.one, Mat.mk.injEq] at h
    simp only [Group.up, Group.empty, Mat.up, Mat.one, Kind.up, List.map_nil, Option.map_none]
    simp [o.zero_up, o.zero_dn, o.inf_up]
  have h := o.appendAll es (Group.empty label)
  rw [h0] at h
  unfold Group.new
  rw [h]
  rcases (Group.empty label : Group F).appendAll es with ⟨g1, x | ⟨⟩⟩ <;> rfl

/-! ## Programs -/

section
variable {K : Type} [Field K] {s : K} {num : K → F} {opt : Option K → F} (hn : ∀ x, num (s * x) = up (num x)) (hd : ∀ x, num (x / s) = dn (num x))
  (ho : ∀ x, opt (x.map (s * ·)) = up (opt x))
include hn hd ho

theorem map_leaf {x y : Except PyErr (Mat F)} (h : x = y.map (Mat.up up dn)) : x.map Elem.leaf = (y.map Elem.leaf).map (Elem.up up dn) := by
  subst h
  cases y <;> simp [Except.map, Elem.up]

mutual
theorem build : ∀ p : Part K, (p.inUnit s).buildWith num opt = (p.buildWith num opt).map (Elem.up up dn)
  | .space d n diam => by
    simp only [Part.inUnit, Part.buildWith, hn, ho]
    exact o.map_leaf hn hd ho (o.mkSpace _ _ _)
  | .lens f diam => by
    simp only [Part.inUnit, Part.buildWith, hn, ho]
    exact o.map_leaf hn hd ho (o.mkLens _ _)
  | .mirror R diam => by
    simp only [Part.inUnit, Part.buildWith, hn, ho]
    exact o.map_leaf hn hd ho (o.mkCurvedMirror _ _)
  | .interface n1 n2 R diam => by
    simp only [Part.inUnit, Part.buildWith, hn, ho]
    exact o.map_leaf hn hd ho (o.mkDielectric _ _ _ _)
  | .thickLens n R1 R2 t diam => by
    simp only [Part.inUnit, Part.buildWith, hn, ho]
    exact o.map_leaf hn hd ho (o.mkThickLens _ _ _ _ _)
  | .slab n t diam => by
    simp only [Part.inUnit, Part.buildWith, hn, ho]
    exact o.map_leaf hn hd ho (o.mkSlab _ _ _)
  | .aperture diam na label => by
    simp only [Part.inUnit, Part.buildWith, hn, ho]
    exact o.map_leaf hn hd ho (o.mkAperture _ _ _)
  | .matrix m fv bv diam => by
    simp only [Part.inUnit, Part.buildWith]
    refine o.map_leaf hn hd ho ?_
    rw [← o.init]
    congr 1
    cases fv <;> cases bv <;> simp [genericMatWith, Mat.up, Mat.one, hn, hd, ho, Kind.up]
  | .group label ps => by
    simp only [Part.inUnit, Part.buildWith]
    rw [buildList ps]
    cases Part.buildListWith num opt ps with
    | error x => rfl
    | ok es =>
      simp only [Except.map]
      rw [o.new]
      cases Group.new es label with
      | error x => rfl
      | ok g => simp [Except.map, Group.toElem, Group.up, Elem.up, upList_eq]
theorem buildList : ∀ ps : List (Part K), Part.buildListWith num opt (Part.inUnitList s ps) = (Part.buildListWith num opt ps).map (List.map (Elem.up up dn))
  | [] => by simp [Part.inUnitList, Part.buildListWith, Except.map]
  | p :: ps => by
    simp only [Part.inUnitList, Part.buildListWith]
    rw [build p, buildList ps]
    cases p.buildWith num opt with
    | error x => rfl
    | ok e =>
      cases Part.buildListWith num opt ps with
      | error x => rfl
      | ok es => rfl
end
end
end UnitFree

/-! ## Traces -/

mutual
theorem items_up : ∀ e : Elem F, (e.up up dn).items = e.items.map (Item.up up dn)
  | .leaf m => by simp [Elem.up, Elem.items, Item.up]
  | .group m c es => by simp [Elem.up, Elem.items, Item.up, itemsList_up es]
theorem itemsList_up : ∀ es : List (Elem F), itemsList (Elem.upList up dn es) = (itemsList es).map (Item.up up dn)
  | [] => by simp [Elem.upList, itemsList]
  | e :: es => by simp [Elem.upList, itemsList, items_up e, itemsList_up es]
end

namespace UnitFree
variable (o : UnitFree F up dn)
include o

theorem half (d : F) : half (up d) = up (half d) := o.up_div d 2

theorem stops (m : Mat F) (r : Ray F) : (m.up up dn).stops (r.up up) = m.stops r := by
  simp only [Mat.stops, Mat.up, Ray.up, o.half, o.abs_up, o.lt_up]

theorem entry (is : List (Item F)) (r : Ray F) : entryStops (is.map (Item.up up dn)) (r.up up) = entryStops is r := by
  induction is with
  | nil => rfl
  | cons i is ih =>
    cases i with
    | dup => simpa [entryStops, Item.up] using ih
    | leaf m => simp only [List.map_cons, Item.up, entryStops, Mat.stopsEntry, Mat.up, Ray.up, o.half, o.abs_up, o.lt_up, o.pos]

theorem settle (is : List (Item F)) (r : Ray F) : settle (is.map (Item.up up dn)) (r.up up) = (settle is r).up up := by
  unfold RT.settle
  rw [o.entry]
  rfl

theorem mulRayBase (m : Mat F) (r : Ray F) : (m.up up dn).mulRayBase (r.up up) = (m.mulRayBase r).up up := by
  unfold Mat.mulRayBase
  rw [o.stops]
  by_cases hb : r.isBlocked = true
  · simp [Ray.up, hb]
  · simp [Ray.up, Mat.up, hb, o.mul_up, o.up_mul, o.dn_mul, o.up_dn, o.add_up]

theorem runTrace : ∀ (is : List (Item F)) (r : Ray F), runTrace (is.map (Item.up up dn)) (r.up up) = (runTrace is r).map (Ray.up up)
  | [], r => rfl
  | .dup :: is, r => by simp only [RT.runTrace, List.map_cons, Item.up, runTrace is r]
  | .leaf m :: is, r => by
    have e : (if (r.up up).isBlocked then r.up up else RT.settle (is.map (Item.up up dn)) ((m.up up dn).mulRayBase (r.up up))) =
        (if r.isBlocked then r else RT.settle is (m.mulRayBase r)).up up := by
      rw [o.mulRayBase, o.settle]
      show (if r.isBlocked then _ else _) = _
      split <;> rfl
    have hL : ((0 : F) <. (m.up up dn).L) = (0 <. m.L) := o.pos m.L
    simp only [List.map_cons, Item.up, RT.runTrace, e, hL, runTrace is, List.map_append]
    congr 1
    split <;> rfl

theorem linear {is : List (Item F)} (h : LinearItems is) : LinearItems (is.map (Item.up up dn)) := by
  intro m hm
  obtain ⟨i, hi, he⟩ := List.mem_map.1 hm
  cases i with
  | dup => cases he
  | leaf m0 =>
    cases he
    have h0 := h m0 hi
    unfold Mat.Linear at h0 ⊢
    simp only [Mat.up]
    cases hk : m0.kind <;> simp_all [Kind.up]

theorem trace {e : Elem F} (hl : LinearItems e.items) (hn : e.NoCache) (hn' : (e.up up dn).NoCache) {a b : Nat} {h k : Heap F} (ha : a < h.length)
    (hb : b < k.length) (hm : k.get b = (h.get a).up up) :
    ((e.up up dn).traceH b k).2.1.deref ((e.up up dn).traceH b k).1 = ((e.traceH a h).2.1.deref (e.traceH a h).1).map (Ray.up up) := by
  obtain ⟨q1, q2⟩ := e.traceH_eq hn a h
  obtain ⟨q3, q4⟩ := (e.up up dn).traceH_eq hn' b k
  rw [q1, q2, q3, q4, (runH_spec e.items hl ha).1, (runH_spec _ (items_up (up := up) (dn := dn) e ▸ o.linear hl) hb).1, hm, items_up, o.settle, o.runTrace]

end UnitFree

/-! ## Floats -/

section
variable {K : Type} [Field K] [LinearOrder K] [IsStrictOrderedRing K]

/-- `c` times a number -/
def Ext.times (c : K) : Ext K → Ext K
  | .fin x => .fin (c * x)
  | e => e

theorem Ext.times_fin (c x : K) : Ext.times c (.fin x) = .fin (c * x) := rfl
theorem Ext.times_pinf (c : K) : Ext.times c (.pinf : Ext K) = .pinf := rfl
theorem Ext.times_ninf (c : K) : Ext.times c (.ninf : Ext K) = .ninf := rfl
theorem Ext.times_nan (c : K) : Ext.times c (.nan : Ext K) = .nan := rfl

theorem Ext.infOf_times {c : K} (hc : 0 < c) (x : K) : Ext.infOf (c * x) = Ext.infOf x := by
  unfold Ext.infOf
  have h : c * x < 0 ↔ x < 0 := by
    constructor
    · intro h; by_contra hx; exact absurd (mul_nonneg hc.le (not_lt.1 hx)) (not_le.2 h)
    · exact fun h => mul_neg_of_pos_of_neg hc h
  simp only [mul_pos_iff_of_pos_left hc, h]

theorem Ext.times_infOf (c x : K) : Ext.times c (Ext.infOf x) = Ext.infOf x := by
  unfold Ext.infOf; split_ifs <;> rfl

theorem Ext.times_inv {c : K} (hc : c ≠ 0) (a : Ext K) : Ext.times c⁻¹ (Ext.times c a) = a := by
  cases a <;> simp [Ext.times, hc]

theorem Ext.mul_times {c : K} (hc : 0 < c) (a b : Ext K) : Ext.mul a (Ext.times c b) = Ext.times c (Ext.mul a b) := by
  cases a <;> cases b <;> simp [Ext.mul, Ext.times_fin, Ext.times_pinf, Ext.times_ninf, Ext.times_nan, Ext.times_infOf, ← mul_neg, Ext.infOf_times hc]
  ring

theorem Ext.times_mul {c : K} (hc : 0 < c) (a b : Ext K) : Ext.mul (Ext.times c a) b = Ext.times c (Ext.mul a b) := by
  cases a <;> cases b <;> simp [Ext.mul, Ext.times_fin, Ext.times_pinf, Ext.times_ninf, Ext.times_nan, Ext.times_infOf, ← mul_neg, Ext.infOf_times hc]
  ring

theorem Ext.times_add (c : K) (a b : Ext K) : Ext.add (Ext.times c a) (Ext.times c b) = Ext.times c (Ext.add a b) := by
  cases a <;> cases b <;> simp [Ext.add, Ext.times]
  ring

theorem Ext.times_neg (c : K) (a : Ext K) : Ext.neg (Ext.times c a) = Ext.times c (Ext.neg a) := by
  cases a <;> simp [Ext.neg, Ext.times]

theorem Ext.times_abs {c : K} (hc : 0 < c) (a : Ext K) : Ext.abs (Ext.times c a) = Ext.times c (Ext.abs a) := by
  cases a <;> simp [Ext.abs, Ext.times, abs_mul, abs_of_pos hc]

theorem Ext.times_lt {c : K} (hc : 0 < c) (a b : Ext K) : Ext.lt (Ext.times c a) (Ext.times c b) = Ext.lt a b := by
  cases a <;> cases b <;> simp [Ext.lt, Ext.times, mul_lt_mul_iff_right₀ hc]

theorem Ext.times_eq {c : K} (hc : 0 < c) (a b : Ext K) : Ext.eq (Ext.times c a) (Ext.times c b) = Ext.eq a b := by
  cases a <;> cases b <;> simp [Ext.eq, Ext.times, hc.ne']

theorem Ext.times_div {c : K} (hc : 0 < c) (a b : Ext K) : Ext.div (Ext.times c a) b = Ext.times c (Ext.div a b) := by
  cases a <;> cases b <;> simp [Ext.div, Ext.times_fin, Ext.times_pinf, Ext.times_ninf, Ext.times_nan, Ext.times_infOf]
  ring

theorem Ext.div_times {c : K} (hc : 0 < c) (a b : Ext K) : Ext.div a (Ext.times c b) = Ext.times c⁻¹ (Ext.div a b) := by
  cases a <;> cases b <;> simp [Ext.div, Ext.times_fin, Ext.times_pinf, Ext.times_ninf, Ext.times_nan, Ext.times_infOf, ← mul_neg, Ext.infOf_times hc]
  field_simp

theorem rndE_times {rnd : K → K} {c : K} (h : ∀ x, rnd (c * x) = c * rnd x) (a : Ext K) : Fl.rndE rnd (Ext.times c a) = Ext.times c (Fl.rndE rnd a) := by
  cases a <;> simp [Fl.rndE, Ext.times, h]

/-- `c` times a float, without rounding -/
def Fl.times {rnd : K → K} (c : K) (x : Fl K rnd) : Fl K rnd := ⟨Ext.times c x.val⟩

/-- Units that the rounding does not notice, such as powers of two, are not noticed by the operations. -/
theorem unitFree_fl {rnd : K → K} {u : K} (hr : Rounding rnd u) {c : K} (hc : 0 < c) (h : ∀ x, rnd (c * x) = c * rnd x) :
    UnitFree (Fl K rnd) (Fl.times c) (Fl.times c⁻¹) := by
  have hi : ∀ x, rnd (c⁻¹ * x) = c⁻¹ * rnd x := by
    intro x
    have := h (c⁻¹ * x)
    rw [mul_inv_cancel_left₀ hc.ne'] at this
    rw [this, inv_mul_cancel_left₀ hc.ne']
  have hc' := inv_pos.2 hc
  have z : ∀ d : K, Fl.times d (0 : Fl K rnd) = 0 := by
    intro d; rw [Fl.zero_num hr]; exact congrArg Fl.mk (by rw [show (Fl.num 0 : Fl K rnd).val = .fin 0 from rfl, Ext.times_fin, mul_zero])
  have e0 : ∀ {d : K}, 0 < d → ∀ a : Fl K rnd, (Fl.times d a ==. (0 : Fl K rnd)) = (a ==. 0) := by
    intro d hd a
    have := Ext.times_eq hd a.val (0 : Fl K rnd).val
    have e : Ext.times d (0 : Fl K rnd).val = (0 : Fl K rnd).val := congrArg Fl.val (z d)
    rw [e] at this
    exact this
  have ad : ∀ {d : K}, (∀ x, rnd (d * x) = d * rnd x) → ∀ a b : Fl K rnd, Fl.times d a + Fl.times d b = Fl.times d (a + b) := by
    intro d hd a b
    refine congrArg Fl.mk ?_
    change Fl.rndE rnd (Ext.add (Ext.times d a.val) (Ext.times d b.val)) = Ext.times d (Fl.rndE rnd (Ext.add a.val b.val))
    rw [Ext.times_add, rndE_times hd]
  have sb : ∀ {d : K}, (∀ x, rnd (d * x) = d * rnd x) → ∀ a b : Fl K rnd, Fl.times d a - Fl.times d b = Fl.times d (a - b) := by
    intro d hd a b
    refine congrArg Fl.mk ?_
    change Fl.rndE rnd (Ext.add (Ext.times d a.val) (Ext.neg (Ext.times d b.val))) = Ext.times d (Fl.rndE rnd (Ext.add a.val (Ext.neg b.val)))
    rw [Ext.times_neg, Ext.times_add, rndE_times hd]
  have m1 : ∀ {d : K}, 0 < d → (∀ x, rnd (d * x) = d * rnd x) → ∀ a b : Fl K rnd, a * Fl.times d b = Fl.times d (a * b) := by
    intro d h0 hd a b
    refine congrArg Fl.mk ?_
    change Fl.rndE rnd (Ext.mul a.val (Ext.times d b.val)) = Ext.times d (Fl.rndE rnd (Ext.mul a.val b.val))
    rw [Ext.mul_times h0, rndE_times hd]
  have m2 : ∀ {d : K}, 0 < d → (∀ x, rnd (d * x) = d * rnd x) → ∀ a b : Fl K rnd, Fl.times d a * b = Fl.times d (a * b) := by
    intro d h0 hd a b
    refine congrArg Fl.mk ?_
    change Fl.rndE rnd (Ext.mul (Ext.times d a.val) b.val) = Ext.times d (Fl.rndE rnd (Ext.mul a.val b.val))
    rw [Ext.times_mul h0, rndE_times hd]
  exact {
    dn_up := fun a => congrArg Fl.mk (Ext.times_inv hc.ne' a.val)
    up_dn := fun a => congrArg Fl.mk (by
      have := Ext.times_inv (inv_ne_zero hc.ne') a.val
      rwa [inv_inv] at this)
    mul_up := m1 hc h
    up_mul := m2 hc h
    mul_dn := m1 hc' hi
    dn_mul := m2 hc' hi
    add_up := ad h
    add_dn := ad hi
    sub_up := sb h
    sub_dn := sb hi
    abs_up := fun a => congrArg Fl.mk (Ext.times_abs hc a.val)
    lt_up := fun a b => Ext.times_lt hc a.val b.val
    le_up := fun a b => by
      change (Ext.lt (Ext.times c a.val) (Ext.times c b.val) || Ext.eq (Ext.times c a.val) (Ext.times c b.val)) = (Ext.lt a.val b.val || Ext.eq a.val b.val)
      rw [Ext.times_lt hc, Ext.times_eq hc]
    eq_up := e0 hc
    eq_dn := e0 hc'
    zero_up := z c
    zero_dn := z c⁻¹
    inf_up := rfl
    up_div := fun a b => by
      refine congrArg Fl.mk ?_
      change Fl.rndE rnd (Ext.div (Ext.times c a.val) b.val) = Ext.times c (Fl.rndE rnd (Ext.div a.val b.val))
      rw [Ext.times_div hc, rndE_times h]
    div_up := fun a b => by
      refine congrArg Fl.mk ?_
      change Fl.rndE rnd (Ext.div a.val (Ext.times c b.val)) = Ext.times c⁻¹ (Fl.rndE rnd (Ext.div a.val b.val))
      rw [Ext.div_times hc, rndE_times hi] }

/-- **C138 in floats, constructors**: in a unit that the rounding does not notice, a program makes the same system to the last bit, with lengths in the new unit,
or ends with the same exception. -/
theorem C138_rounded_made {rnd : K → K} {u : K} (hr : Rounding rnd u) {c : K} (hc : 0 < c) (h : ∀ x, rnd (c * x) = c * rnd x) (p : Part K) :
    (p.inUnit c).buildR rnd = (p.buildR rnd).map (Elem.up (Fl.times c) (Fl.times c⁻¹)) := by
  refine (unitFree_fl hr hc h).build (s := c) (num := Fl.num) (opt := Fl.optNum) (fun x => rfl) (fun x => ?_) (fun x => ?_) p
  · exact congrArg (fun y => (⟨.fin y⟩ : Fl K rnd)) (by rw [div_eq_mul_inv, mul_comm])
  · cases x <;> rfl

/-- **C138 in floats, rays**: and its traces are the same, ray by ray and to the last bit, with heights and positions in the new unit, the same angles, and rays stopped
at the same places. -/
theorem C138_rounded {rnd : K → K} {u : K} (hr : Rounding rnd u) {c : K} (hc : 0 < c) (h : ∀ x, rnd (c * x) = c * rnd x) {p : Part K} {e e' : Elem (Fl K rnd)}
    (hp : p.buildR rnd = .ok e) (hp' : (p.inUnit c).buildR rnd = .ok e') {a b : Nat} {g k : Heap (Fl K rnd)} (ha : a < g.length) (hb : b < k.length)
    (hm : k.get b = { g.get a with y := Fl.times c (g.get a).y, z := Fl.times c (g.get a).z, apertureDiameter := Fl.times c (g.get a).apertureDiameter }) :
    (e'.traceH b k).2.1.deref (e'.traceH b k).1 = ((e.traceH a g).2.1.deref (e.traceH a g).1).map
      (fun r => { r with y := Fl.times c r.y, z := Fl.times c r.z, apertureDiameter := Fl.times c r.apertureDiameter }) := by
  have h1 := C138_rounded_made hr hc h p
  rw [hp, hp'] at h1
  simp only [Except.map, Except.ok.injEq] at h1
  have n' := buildWith_noCache _ _ hp'
  subst h1
  exact (unitFree_fl hr hc h).trace (buildR_stages hr hp).1.linear (buildWith_noCache _ _ hp) n' ha hb hm

end

theorem double_twice (x : ℚ) : double (2 * x) = 2 * double x := by
  have := double_half (2 * x)
  rw [mul_div_cancel_left₀ _ two_ne_zero] at this
  rw [this]; ring

theorem double_times_zpow (k : ℤ) : ∀ x : ℚ, double (2 ^ k * x) = 2 ^ k * double x := by
  induction k using Int.induction_on with
  | zero => intro x; simp
  | succ i ih =>
    intro x
    rw [zpow_add_one₀ two_ne_zero, mul_assoc, ih, double_twice]; ring
  | pred i ih =>
    intro x
    rw [zpow_sub_one₀ two_ne_zero, mul_assoc, ih, show (2 : ℚ)⁻¹ * x = x / 2 by ring, double_half]; ring

/-- **C138 in Python floats** without overflow and underflow, in every unit that is a power of two times the first. -/
theorem C138_double (j : ℤ) {p : Part ℚ} {e : Elem Double} (hp : p.buildR double = .ok e) :
    ∃ e', (p.inUnit (2 ^ j)).buildR double = .ok e' ∧ ∀ {a b : Nat} {g k : Heap Double}, a < g.length → b < k.length →
      k.get b = { g.get a with y := Fl.times (2 ^ j) (g.get a).y, z := Fl.times (2 ^ j) (g.get a).z, apertureDiameter := Fl.times (2 ^ j) (g.get a).apertureDiameter } →
      (e'.traceH b k).2.1.deref (e'.traceH b k).1 = ((e.traceH a g).2.1.deref (e.traceH a g).1).map
        (fun r => { r with y := Fl.times (2 ^ j) r.y, z := Fl.times (2 ^ j) r.z, apertureDiameter := Fl.times (2 ^ j) r.apertureDiameter }) := by
  have hc : (0 : ℚ) < 2 ^ j := zpow_pos two_pos j
  have h1 := C138_rounded_made double_rounding hc (double_times_zpow j) p
  rw [hp] at h1
  exact ⟨_, h1, fun ha hb hm => C138_rounded double_rounding hc (double_times_zpow j) hp h1 ha hb hm⟩

/-- a hole of radius 1 at the distance 3 -/
def hole : Part ℚ := .group "" [.space 3 1 none, .aperture (some 2) none ""]

/-- **C138 in Python floats, violated** in the decimal units that people use: a ray that passes a hole when lengths are in metres is stopped by it when they are in
millimetres, all parameters being floats. At the hole its height is `1 + 2⁻⁵³`, which is rounded to 1 in one unit, and not to 1000 in the other. -/
theorem C138_decimal_violated :
    (match hole.build64, (hole.inUnit 1000).build64 with
      | .ok e, .ok e' =>
        let h : Heap B64 := [Ray.new (B64.num 0) (B64.num (6004799503160662 / 2 ^ 54)) (B64.num 0)]
        decide (((e.traceH 0 h).2.1.deref (e.traceH 0 h).1).map (fun r => (r.y, r.isBlocked)) =
            [(B64.num 0, false), (B64.num 0, false), (B64.num 1, false), (B64.num 1, false)]) &&
          decide (((e'.traceH 0 h).2.1.deref (e'.traceH 0 h).1).map (fun r => (r.y, r.isBlocked)) =
            [(B64.num 0, false), (B64.num 0, false), (B64.num (1000 + 1 / 2 ^ 43), false), (B64.num (1000 + 1 / 2 ^ 43), true)])
      | _, _ => false) = true := by
  decide +kernel

/-- The hypotheses of `C138_double` hold for this system in a unit 1024 times smaller, and a ray at height 1 in one unit is at height 1024 in the other. -/
theorem C138_double_example :
    (match bench.buildR double, (bench.inUnit (2 ^ (10 : ℤ))).buildR double with | .ok _, .ok _ => true | _, _ => false) = true ∧
    (Fl.times (2 ^ (10 : ℤ)) (Fl.num 1) : Double) = Fl.num 1024 := by
  decide +kernel

end RT

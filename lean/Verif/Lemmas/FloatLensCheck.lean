import Verif.Lemmas.FloatLensMake
import Verif.Lemmas.IndexApart

/-! # The numbers of the catalogues, for floats -/

set_option linter.unusedSectionVars false

namespace RT
open PyNum Ext

/-- bounds of two numbers that differ by at least 1/1000 -/
def Fx.apart (a b : Fx) : Bool := decide (a.hi + 1000000000 ≤ b.lo) || decide (b.hi + 1000000000 ≤ a.lo)

theorem Fx.apart_has {a b : Fx} (h : a.apart b = true) {x y : ℝ} (hx : a.has x) (hy : b.has y) : 1 / 1000 ≤ |x - y| := by
  have hu : (Fx.unit : ℝ) = 1000000000000 := by norm_num [Fx.unit]
  obtain ⟨a1, a2⟩ := hx
  obtain ⟨b1, b2⟩ := hy
  rw [hu] at a1 a2 b1 b2
  simp only [apart, Bool.or_eq_true, decide_eq_true_eq] at h
  rcases h with h | h
  · have h' : (a.hi : ℝ) + 1000000000 ≤ (b.lo : ℝ) := by exact_mod_cast h
    rw [abs_sub_comm]
    exact le_trans (by linarith) (le_abs_self _)
  · have h' : (b.hi : ℝ) + 1000000000 ≤ (a.lo : ℝ) := by exact_mod_cast h
    exact le_trans (by linarith) (le_abs_self _)

/-- bounds of an index from 1.25 to 2.5 -/
def Fx.glassy (f : Fx) : Bool := decide (1250000000000 ≤ f.lo) && decide (f.hi ≤ 2500000000000)

theorem Fx.glassy_has {f : Fx} (h : f.glassy = true) {x : ℝ} (hx : f.has x) : 5 / 4 ≤ x ∧ x ≤ 5 / 2 := by
  have hu : (Fx.unit : ℝ) = 1000000000000 := by norm_num [Fx.unit]
  obtain ⟨a1, a2⟩ := hx
  rw [hu] at a1 a2
  simp only [glassy, Bool.and_eq_true, decide_eq_true_eq] at h
  have h1 : (1250000000000 : ℝ) ≤ (f.lo : ℝ) := by exact_mod_cast h.1
  have h2 : (f.hi : ℝ) ≤ (2500000000000 : ℝ) := by exact_mod_cast h.2
  constructor <;> linarith

theorem apartRows_ok : (apartRows.all fun r => rowOk apartCells r.1 && rowOk apartCells r.2 && decide (r.1.2.length = apartCells.length) &&
    decide (r.2.2.length = apartCells.length) && (List.zipWith Fx.apart r.1.2 r.2.2).all id) = true := by decide +kernel

/-- the part of a row from 0.3 to 2.66 microns -/
def middle {α : Type} (l : List α) : List α := (l.drop 3).take 20

theorem middle_get {α : Type} {l : List α} {j : ℕ} (hj : j < 20) : (middle l)[j]? = l[j + 3]? := by
  unfold middle
  rw [List.getElem?_take, if_pos hj, List.getElem?_drop, Nat.add_comm]

/-- the check of a glass -/
def nameOk (name : String) : Bool := name != "Air" && decide ((indexRow name).length = indexCells.length) && (middle (indexRow name)).all Fx.glassy

/-- the check of a pair of glasses -/
def pairOk (a b : String) : Bool :=
  (apartRows.any fun r => r.1.1 == a && r.2.1 == b) || (List.zipWith Fx.apart (middle (indexRow a)) (middle (indexRow b))).all id

def CatData.indicesOk : CatData → Bool
  | .singlet _ _ _ _ _ _ _ mat _ => nameOk mat
  | .doublet _ _ _ _ _ _ _ _ _ (.given n1 n2) =>
    decide (5 / 4 ≤ n1) && decide (n1 ≤ 5 / 2) && decide (5 / 4 ≤ n2) && decide (n2 ≤ 5 / 2) && decide (1 / 1000 ≤ |n1 - n2|)
  | .doublet _ _ _ _ _ _ _ _ _ (.glasses mat1 mat2 _) => nameOk mat1 && nameOk mat2 && pairOk mat1 mat2

/-- the majorants of a lens -/
def CatData.quads : CatData → List Quad
  | .singlet _ _ R1 R2 tc .. => singletQuads (curvQ R1) (curvQ R2) tc
  | .doublet _ _ R1 R2 R3 tc1 tc2 .. => doubletQuads (curvQ R1) (curvQ R2) (curvQ R3) tc1 tc2

/-- the last one, for its power -/
def CatData.quadC (d : CatData) : ℚ := match d.quads.head? with
  | some q => q.c
  | none => 0

/-- a power large enough for what it is made of -/
def powerRoom (c : ℚ) (p : Fx × Fx) : Bool :=
  (decide (20000000 ≤ p.1.lo) && decide (1000000000000 * c ≤ 4000 * (p.1.lo : ℚ))) ||
    (decide (p.1.hi ≤ -20000000) && decide (1000000000000 * c ≤ -4000 * (p.1.hi : ℚ)))

def CatData.thick : CatData → Bool
  | .singlet _ _ _ _ tc .. => decide (0 < tc)
  | .doublet _ _ _ _ _ tc1 tc2 .. => decide (0 < tc1) && decide (0 < tc2)

def CatData.radii : CatData → List (Option ℚ)
  | .singlet _ _ R1 R2 .. => [R1, R2]
  | .doublet _ _ R1 R2 R3 .. => [R1, R2, R3]

/-- a radius larger than the half diameter -/
def radiusRoom (h : ℚ) : Option ℚ → Bool
  | none => true
  | some r => decide (h ≤ 97 / 100 * |r|)

def CatLens.floatOk (l : CatLens) : Bool :=
  l.data.indicesOk && l.data.thick && (l.data.radii.all (· != some 0)) && radiusRoom (l.data.diameter / 2) l.data.outer.1 &&
    radiusRoom (l.data.diameter / 2) l.data.outer.2 && (l.data.quads.all fun q => decide (q.a * q.d + q.b * q.c ≤ 100)) &&
    decide (l.data.quadC ≤ 8) && decide (31 / 100 ≤ l.data.ref) && decide (l.data.ref ≤ 24 / 10) && ((middle l.data.fxs).all (powerRoom l.data.quadC))

theorem floatOk_all : catalogue.all CatLens.floatOk = true := by decide +kernel

end RT

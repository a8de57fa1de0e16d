import Verif.Lemmas.FlipMirrored
import Verif.Props.RoundedMatrix

/-! # Flipping in Python floats is writing the program the other way round

A user flips a system with `flipOrientation` instead of typing its elements in reverse order, each turned round. In exact arithmetic both give the same
optics. In floats the order of the products changes, so that nothing says a priori that both give the same numbers. -/

set_option linter.unusedSectionVars false

namespace RT
open PyNum Ext Fl
variable {K : Type} [Field K] [LinearOrder K] [IsStrictOrderedRing K] {rnd : K → K} {u : K}

/-- the matrix seen from the other side -/
def Stage.turn (s : Stage K) : Stage K := { s with a := s.d, d := s.a }

/-- with its majorant -/
def RStage.turn (s : RStage K) : RStage K := ⟨s.exact.turn, s.maj.turn, s.ops⟩

theorem andThen_turn (s t : RStage K) : (s.andThen t).turn = t.turn.andThen s.turn := by
  unfold RStage.andThen RStage.turn
  congr 1
  · unfold Stage.andThen Stage.turn; congr 1 <;> dsimp only <;> ring
  · unfold Stage.andThen Stage.turn; congr 1 <;> dsimp only <;> ring
  · dsimp only; omega

theorem andThen_assoc (s t r : RStage K) : (s.andThen t).andThen r = s.andThen (t.andThen r) := by
  unfold RStage.andThen
  congr 1
  · unfold Stage.andThen; congr 1 <;> dsimp only <;> ring
  · unfold Stage.andThen; congr 1 <;> dsimp only <;> ring
  · dsimp only; omega

theorem andThen_one (s : RStage K) : s.andThen .one = RStage.one.andThen s := by
  unfold RStage.andThen RStage.one
  congr 1
  · unfold Stage.andThen; congr 1 <;> dsimp only <;> ring
  · unfold Stage.andThen; congr 1 <;> dsimp only <;> ring
  · dsimp only; omega

theorem foldl_andThen (l : List (RStage K)) (s t : RStage K) : l.foldl RStage.andThen (s.andThen t) = s.andThen (l.foldl RStage.andThen t) := by
  induction l generalizing t with
  | nil => rfl
  | cons x xs ih => rw [List.foldl_cons, List.foldl_cons, andThen_assoc, ih]

theorem foldl_turn (l : List (RStage K)) :
    (l.reverse.map RStage.turn).foldl RStage.andThen .one = (l.foldl RStage.andThen .one).turn := by
  induction l with
  | nil => rfl
  | cons x xs ih =>
    rw [List.reverse_cons, List.map_append, List.foldl_append, ih, List.foldl_cons, ← andThen_one, foldl_andThen, andThen_turn]
    rfl

theorem curvature_neg (R : Option K) : curvature (R.map (-·)) = -curvature R := by
  cases R with
  | none => simp [curvature]
  | some r => simp [curvature, inv_neg]

theorem thick_turn {n k1 k2 t : K} (hn : n ≠ 0) (diam : Option K) :
    ((Sys.thick n (-k2) (-k1) t).stage diam none) = ((Sys.thick n k1 k2 t).stage diam none).turn ∧
      thickMaj n (-k2) (-k1) t diam = (thickMaj n k1 k2 t diam).turn := by
  constructor
  · unfold Sys.stage Stage.turn Sys.thick Sys.interface Sys.space Sys.andThen
    congr 1 <;> dsimp only <;> field_simp <;> ring
  · unfold thickMaj Stage.turn
    congr 1
    · dsimp only; rw [abs_sub_comm 1 n, neg_div, abs_neg]
    · dsimp only; rw [abs_neg, abs_neg, neg_mul_neg, mul_comm k2 k1, add_comm |k2|]
    · dsimp only; rw [abs_sub_comm 1 n, neg_div, abs_neg]

mutual
/-- The matrix of the mirrored program, its majorant and its roundings are those of the system seen from the other side. -/
theorem mirrored_rmat : ∀ {p : Part K}, p.InAir → p.Flippable false → p.mirrored.rmat = p.rmat.turn
  | .space d n diam, _, _ => by simp [Part.mirrored, Part.rmat, Part.rstages, Stage.withOps, Sys.space, Sys.stage, RStage.turn, Stage.turn, Stage.abs]
  | .lens f diam, _, _ => by simp [Part.mirrored, Part.rmat, Part.rstages, Stage.withOps, Sys.lens, Sys.stage, RStage.turn, Stage.turn, Stage.abs]
  | .mirror R diam, _, hf => by simp [Part.Flippable] at hf
  | .interface _ _ _ _, ha, _ => by simp [Part.InAir] at ha
  | .thickLens n R1 R2 t diam, ha, _ => by
    unfold Part.InAir at ha
    obtain ⟨h1, h2⟩ := thick_turn (k1 := curvature R1) (k2 := curvature R2) (t := t) ha.1 diam
    simp only [Part.mirrored, Part.rmat, Part.rstages, List.headD_cons, curvature_neg, RStage.turn, h1, h2]
  | .slab n t diam, ha, _ => by
    unfold Part.InAir at ha
    obtain ⟨h1, h2⟩ := thick_turn (k1 := 0) (k2 := 0) (t := t) ha.1 diam
    rw [neg_zero] at h1 h2
    simp only [Part.mirrored, Part.rmat, Part.rstages, List.headD_cons, RStage.turn]
    rw [← h1, ← h2]
  | .aperture diam na label, _, _ => by
    simp [Part.mirrored, Part.rmat, Part.rstages, Stage.withOps, Sys.one, Sys.stage, RStage.turn, Stage.turn, Stage.abs]
  | .matrix s fv bv diam, ha, hf => by
    unfold Part.Flippable at hf
    have had := hf.2.2 rfl
    simp [Part.mirrored, Part.rmat, Part.rstages, Stage.withOps, Sys.stage, RStage.turn, Stage.turn, Stage.abs, had]
  | .group label ps, ha, hf => by
    unfold Part.InAir at ha
    unfold Part.Flippable at hf
    unfold Part.mirrored
    simp only [Part.rmat]
    rw [rmatList_foldl, rmatList_foldl, mirroredList_rmat ha hf, foldl_turn]
theorem mirroredList_rmat : ∀ {ps : List (Part K)}, Part.InAirList ps → Part.FlippableList false ps →
    (Part.mirroredList ps).map Part.rmat = (ps.map Part.rmat).reverse.map RStage.turn
  | [], _, _ => by simp [Part.mirroredList]
  | p :: ps, ha, hf => by
    unfold Part.InAirList at ha
    unfold Part.FlippableList at hf
    simp [Part.mirroredList, mirroredList_rmat ha.2 hf.2, mirrored_rmat ha.1 hf.1]
end

/-- **C122**: in air, the flipped system is the one of the program written the other way round: same numbers to the last bit in all matrices, lengths, indices
and openings, at every level of nesting. In Python floats, any number of elements. -/
theorem C122_mirrored {p : Part ℚ} {e e2 : Elem (Fl ℚ double)} (ha : p.InAir) (hb : p.buildR double = .ok e) (hb2 : p.mirrored.buildR double = .ok e2) :
    ∃ f, e.flip = (f, .ok ()) ∧ f.strip = e2.strip :=
  mirrored_flip double_rounding double_neg ha hb hb2

/-- **C122**, for any rounding that rounds opposite numbers to opposite numbers -/
theorem C122_rounded (hr : Rounding rnd u) (hodd : ∀ x, rnd (-x) = -rnd x) {p : Part K} {e e2 : Elem (Fl K rnd)} (ha : p.InAir)
    (hb : p.buildR rnd = .ok e) (hb2 : p.mirrored.buildR rnd = .ok e2) : ∃ f, e.flip = (f, .ok ()) ∧ f.strip = e2.strip :=
  mirrored_flip hr hodd ha hb hb2

/-- **C122**: so a system in air is flipped without error when, for each matrix made on the way, the error on the determinant is below the tolerance of the
constructor. -/
theorem C122_accepted (hr : Rounding rnd u) (hodd : ∀ x, rnd (-x) = -rnd x) {p : Part K} {e : Elem (Fl K rnd)} (ha : p.InAir)
    (hb : p.buildR rnd = .ok e) (hroom : ∀ s ∈ p.mirrored.made, s.Room u) : ∃ f, e.flip = (f, .ok ()) := by
  obtain ⟨e2, hb2⟩ := C96_accepted hr (mirrored_inAir ha) hroom
  obtain ⟨f, h, -⟩ := mirrored_flip hr hodd ha hb hb2
  exact ⟨f, h⟩

/-- **C122**: and its matrix is the one of the exact system seen from the other side, that is, with `A` and `D` exchanged, up to the errors of rounding of the
system itself: turning it round in floats costs no accuracy. -/
theorem C122_matrix (hr : Rounding rnd u) (hodd : ∀ x, rnd (-x) = -rnd x) {p : Part K} {e : Elem (Fl K rnd)} {e' : Elem (Ext K)} (ha : p.InAir)
    (hf : p.Flippable false) (hb : p.buildR rnd = .ok e) (hb' : p.build = .ok e') (hroom : ∀ s ∈ p.mirrored.made, s.Room u) :
    ∃ f, e.flip = (f, .ok ()) ∧
      CloseTo (relErr u p.rmat.ops * p.rmat.maj.d) f.mat.A e'.mat.D ∧ CloseTo (relErr u p.rmat.ops * p.rmat.maj.b) f.mat.B e'.mat.B ∧
      CloseTo (relErr u p.rmat.ops * p.rmat.maj.c) f.mat.C e'.mat.C ∧ CloseTo (relErr u p.rmat.ops * p.rmat.maj.a) f.mat.D e'.mat.A ∧
      CloseTo (relErr u p.rmat.ops * p.rmat.maj.len) f.mat.L e'.mat.L := by
  obtain ⟨e2, hb2⟩ := C96_accepted hr (mirrored_inAir ha) hroom
  obtain ⟨f, h, hs⟩ := mirrored_flip hr hodd ha hb hb2
  refine ⟨f, h, ?_⟩
  have h1 := buildR_mat hr hb2
  have h2 := build_exactMat hb'
  rw [mirrored_rmat ha hf] at h1
  have hm := congrArg Elem.mat hs
  rw [strip_mat, strip_mat] at hm
  have key : ∀ {x : Fl K rnd} {y : Ext K} {a A : K}, Fl.Near u p.rmat.ops x a A → y = fin a → CloseTo (relErr u p.rmat.ops * A) x y := by
    rintro x y a A ⟨x', hx, -, hx'⟩ hy
    exact ⟨x', a, hx, hy, hx'⟩
  have gA : f.mat.A = e2.mat.A := congrArg (fun m => m.A) hm
  have gB : f.mat.B = e2.mat.B := congrArg (fun m => m.B) hm
  have gC : f.mat.C = e2.mat.C := congrArg (fun m => m.C) hm
  have gD : f.mat.D = e2.mat.D := congrArg (fun m => m.D) hm
  have gL : f.mat.L = e2.mat.L := congrArg (fun m => m.L) hm
  rw [gA, gB, gC, gD, gL]
  exact ⟨key h1.A h2.D, key h1.B h2.B, key h1.C h2.C, key h1.D h2.A, key h1.L h2.L⟩

/-- **C122** in Python floats: all systems in air of up to 1000 roundings with moderate coefficients can be flipped -/
theorem C122_double {p : Part ℚ} {e : Elem (Fl ℚ double)} (ha : p.InAir) (hb : p.buildR double = .ok e)
    (hm : ∀ s ∈ p.mirrored.made, s.ops ≤ 1000 ∧ s.maj.a * s.maj.d + s.maj.b * s.maj.c ≤ 10 ^ 7) : ∃ f, e.flip = (f, .ok ()) := by
  obtain ⟨e2, hb2⟩ := C96_double (mirrored_inAir ha) hm
  obtain ⟨f, h, -⟩ := mirrored_flip double_rounding double_neg ha hb hb2
  exact ⟨f, h⟩

/-- a train of lenses without symmetry, with a nested group -/
def oneWay : Part ℚ := .group "train" [.space 10 1 none, .lens 50 (some 25), .group "inner" [.thickLens (3/2) (some 60) none 5 none, .space 30 1 none],
  .slab (3/2) 4 none, .matrix ⟨1, 3, 0, 1, 3, 1, 1⟩ none none none, .aperture (some 10) none "iris", .lens (-70) none]

/-- does a program build in Python floats? -/
def builds (p : Part ℚ) : Bool := match p.buildR double with | .ok _ => true | .error _ => false

/-- The hypotheses of `C122_matrix` and `C122_double` are met by this train. -/
theorem C122_example : oneWay.InAir ∧ oneWay.Flippable false ∧ builds oneWay = true ∧ builds oneWay.mirrored = true ∧
    (match oneWay.build with | .ok _ => true | .error _ => false) = true ∧
    (∀ s ∈ oneWay.mirrored.made, s.ops ≤ 1000 ∧ s.maj.a * s.maj.d + s.maj.b * s.maj.c ≤ 10 ^ 7) ∧ oneWay.rmat.exact.a ≠ oneWay.rmat.exact.d := by
  refine ⟨?_, ?_, by decide +kernel, by decide +kernel, by decide +kernel, ?_, by decide +kernel⟩
  · simp [oneWay, Part.InAir, Part.InAirList, OpenDiam, Sys.det]
  · simp [oneWay, Part.Flippable, Part.FlippableList]
  · have : (oneWay.mirrored.made.all fun s => decide (s.ops ≤ 1000 ∧ s.maj.a * s.maj.d + s.maj.b * s.maj.c ≤ 10 ^ 7)) = true := by decide +kernel
    simpa [List.all_eq_true] using this

/-- the matrix of a flipped system and the one of the mirrored program: equal? and the front vertices of both -/
def bothWays (p : Part ℚ) : Option (Bool × Bool) :=
  match p.buildR double, p.mirrored.buildR double with
  | .ok e, .ok e2 => some (decide (e.flip.1.mat.A = e2.mat.A ∧ e.flip.1.mat.B = e2.mat.B ∧ e.flip.1.mat.C = e2.mat.C ∧ e.flip.1.mat.D = e2.mat.D),
      decide (e.flip.1.mat.frontVertex = e2.mat.frontVertex))
  | _, _ => none

/-- The vertices are not part of it: those of a flipped thick lens are exchanged but still counted from the side that was the front, so that they are not
those of the thick lens written the other way round. -/
theorem C122_violated : bothWays (.thickLens (3/2) (some 60) (some (-70)) 5 none) = some (true, false) ∧ (bothWays oneWay).map Prod.fst = some true := by
  constructor <;> decide +kernel

end RT

import Verif.Lemmas.RoundedAccept
import Verif.Lemmas.Double
import Verif.Model.Imaging

/-! # C97: positions found by a trace and handed back to `transferMatrix(upTo)`, in floats -/

set_option linter.unusedSectionVars false

namespace RT
open PyNum Ext Fl

section generic
variable {F : Type} [PyNum F]

/-- a single element that can be cut anywhere, or has no length -/
def Mat.Cuttable (m : Mat F) : Prop :=
  match m.kind with
  | .space => True
  | .thickLens .. => True
  | .slab .. => True
  | _ => (m.L ==. 0) = true

mutual
/-- each element of the tree can be cut -/
def Elem.Cuttable : Elem F → Prop
  | .leaf m => m.Cuttable
  | .group _ _ es => CuttableList es
/-- each element of the list -/
def CuttableList : List (Elem F) → Prop
  | [] => True
  | e :: es => e.Cuttable ∧ CuttableList es
end

theorem pyDiv_not_type {a b : F} : pyDiv a b ≠ .error .typeError := by
  unfold pyDiv; split_ifs <;> simp

theorem init_not_type (m : Mat F) : Mat.init m ≠ .error .typeError := by
  unfold Mat.init
  simp only [bind, Except.bind, throw, throwThe, MonadExceptOf.throw, pure, Except.pure]
  have := pyDiv_not_type (a := m.frontIndex) (b := m.backIndex)
  repeat' split
  all_goals simp_all

theorem mulMatrix_not_type (m r : Mat F) : m.mulMatrix r ≠ .error .typeError := init_not_type _

theorem bind_not_type {α β : Type} {x : Except PyErr α} {f : α → Except PyErr β} (hx : x ≠ .error .typeError)
    (hf : ∀ a, f a ≠ .error .typeError) : (x >>= f) ≠ .error .typeError := by
  cases x with
  | error e => exact fun h => hx (by simpa [bind, Except.bind] using h)
  | ok a => exact hf a

theorem mkDielectric_not_type (n1 n2 R d : F) : mkDielectric n1 n2 R d ≠ .error .typeError := by
  unfold mkDielectric dielectricC
  exact bind_not_type pyDiv_not_type fun _ => bind_not_type pyDiv_not_type fun _ => init_not_type _

theorem Mat.Cuttable.not_type {m : Mat F} (h : m.Cuttable) (upTo : F) : m.transferMatrix upTo ≠ .error .typeError := by
  unfold Mat.Cuttable at h
  unfold Mat.transferMatrix
  split at h
  · next hk => simp only [hk]; split_ifs <;> first | exact init_not_type _ | simp [pure, Except.pure]
  · next hk =>
    simp only [hk]
    split_ifs
    · simp [pure, Except.pure]
    · exact bind_not_type (init_not_type _) fun _ => bind_not_type (mkDielectric_not_type _ _ _ _) fun _ => mulMatrix_not_type _ _
  · next hk =>
    simp only [hk]
    split_ifs
    · simp [pure, Except.pure]
    · exact bind_not_type (init_not_type _) fun _ => bind_not_type (mkDielectric_not_type _ _ _ _) fun _ => mulMatrix_not_type _ _
  · next h1 h2 h3 =>
    split
    · next hk => exact absurd hk h1
    · next hk => exact absurd hk (h2 _ _ _)
    · next hk => exact absurd hk (h3 _ _ _)
    · simp [h, pure, Except.pure]

mutual
theorem Elem.Cuttable.not_type : ∀ {e : Elem F}, e.Cuttable → ∀ upTo : F, e.transferMatrix upTo ≠ .error .typeError
  | .leaf m, h, upTo => by unfold Elem.transferMatrix; exact Mat.Cuttable.not_type h upTo
  | .group m c es, h, upTo => by unfold Elem.transferMatrix; exact cuttableList_not_type h upTo Mat.one
theorem cuttableList_not_type : ∀ {es : List (Elem F)}, CuttableList es → ∀ (distance : F) (acc : Mat F),
    transferMatrixList es distance acc ≠ .error .typeError
  | [], _, _, _ => by simp [transferMatrixList]
  | e :: es, h, distance, acc => by
    unfold CuttableList at h
    unfold transferMatrixList
    split_ifs
    · have := mulMatrix_not_type e.mat acc
      split
      · next x hx => rw [hx] at this; simpa using this
      · exact cuttableList_not_type h.2 _ _
    · have := h.1.not_type distance
      split
      · next x hx => rw [hx] at this; simpa using this
      · exact mulMatrix_not_type _ _
end

theorem cuttable_forget {e e' : Elem F} (h : e'.forget = e.forget) (hc : e.Cuttable) : e'.Cuttable := by
  have key : ∀ (e : Elem F), e.forget.Cuttable ↔ e.Cuttable := by
    intro e
    unfold Elem.forget
    split_ifs
    · cases e <;> simp [Elem.setIndices, Elem.Cuttable, Mat.Cuttable]
    · rfl
  rw [← key, h, key]; exact hc

theorem cuttableList_forget {es fs : List (Elem F)} (h : es.map Elem.forget = fs.map Elem.forget) (hc : CuttableList fs) :
    CuttableList es := by
  induction fs generalizing es with
  | nil => simp only [List.map_nil, List.map_eq_nil_iff] at h; subst h; trivial
  | cons f fs ih =>
    cases es with
    | nil => simp at h
    | cons e es =>
      simp only [List.map_cons, List.cons.injEq] at h
      unfold CuttableList at hc ⊢
      exact ⟨cuttable_forget h.1 hc.1, ih h.2 hc.2⟩

end generic

variable {K : Type} [Field K] [LinearOrder K] [IsStrictOrderedRing K]
variable {rnd : K → K} {u : K}

mutual
/-- Generic matrices have no length. -/
def Part.NoBox : Part K → Prop
  | .matrix s _ _ _ => s.len = 0
  | .group _ ps => Part.NoBoxList ps
  | _ => True
/-- in every part -/
def Part.NoBoxList : List (Part K) → Prop
  | [] => True
  | p :: ps => p.NoBox ∧ Part.NoBoxList ps
end

mutual
theorem buildR_cuttable (hr : Rounding rnd u) : ∀ {p : Part K} {e : Elem (Fl K rnd)}, p.NoBox → p.buildR rnd = .ok e → e.Cuttable
  | .space d n diam, e, _, hb => by
    unfold Part.buildR Part.buildWith at hb; obtain ⟨m, h, rfl⟩ := Except.map_ok hb
    unfold mkSpace at h; obtain ⟨rfl, -⟩ := init_okF h; simp [Elem.Cuttable, Mat.Cuttable]
  | .lens f diam, e, _, hb => by
    unfold Part.buildR Part.buildWith mkLens at hb; obtain ⟨m, h, rfl⟩ := Except.map_ok hb
    obtain ⟨c, -, h⟩ := bind_ok h
    obtain ⟨rfl, -⟩ := init_okF h
    simp [Elem.Cuttable, Mat.Cuttable, zero_num hr, eq_num]
  | .mirror R diam, e, _, hb => by
    unfold Part.buildR Part.buildWith mkCurvedMirror at hb; obtain ⟨m, h, rfl⟩ := Except.map_ok hb
    obtain ⟨c, -, h⟩ := bind_ok h
    obtain ⟨rfl, -⟩ := init_okF h
    simp [Elem.Cuttable, Mat.Cuttable, zero_num hr, eq_num]
  | .interface n1 n2 R diam, e, _, hb => by
    unfold Part.buildR Part.buildWith mkDielectric at hb; obtain ⟨m, h, rfl⟩ := Except.map_ok hb
    obtain ⟨c, -, h⟩ := bind_ok h
    obtain ⟨d, -, h⟩ := bind_ok h
    obtain ⟨rfl, -⟩ := init_okF h
    simp [Elem.Cuttable, Mat.Cuttable, zero_num hr, eq_num]
  | .thickLens n R1 R2 t diam, e, _, hb => by
    unfold Part.buildR Part.buildWith mkThickLens mkThickOf at hb; obtain ⟨m, h, rfl⟩ := Except.map_ok hb
    obtain ⟨a, -, h⟩ := bind_ok h
    obtain ⟨b, -, h⟩ := bind_ok h
    obtain ⟨c, -, h⟩ := bind_ok h
    obtain ⟨d, -, h⟩ := bind_ok h
    obtain ⟨rfl, -⟩ := init_okF h
    simp [Elem.Cuttable, Mat.Cuttable]
  | .slab n t diam, e, _, hb => by
    unfold Part.buildR Part.buildWith mkSlab mkThickOf at hb; obtain ⟨m, h, rfl⟩ := Except.map_ok hb
    obtain ⟨a, -, h⟩ := bind_ok h
    obtain ⟨b, -, h⟩ := bind_ok h
    obtain ⟨c, -, h⟩ := bind_ok h
    obtain ⟨d, -, h⟩ := bind_ok h
    obtain ⟨rfl, -⟩ := init_okF h
    simp [Elem.Cuttable, Mat.Cuttable]
  | .aperture diam na label, e, _, hb => by
    unfold Part.buildR Part.buildWith mkAperture at hb; obtain ⟨m, h, rfl⟩ := Except.map_ok hb
    obtain ⟨rfl, -⟩ := init_okF h
    simp [Elem.Cuttable, Mat.Cuttable, Mat.one, zero_num hr, eq_num]
  | .matrix s fv bv diam, e, hn, hb => by
    unfold Part.NoBox at hn
    unfold Part.buildR Part.buildWith at hb; obtain ⟨m, h, rfl⟩ := Except.map_ok hb
    obtain ⟨rfl, -⟩ := init_okF h
    simp [Elem.Cuttable, Mat.Cuttable, Mat.one, genericMatWith, hn, zero_num hr, eq_num]
  | .group label ps, e, hn, hb => by
    unfold Part.NoBox at hn
    unfold Part.buildR Part.buildWith at hb
    split at hb
    · simp at hb
    · next es hes =>
      obtain ⟨g, hnew, rfl⟩ := Except.map_ok hb
      exact cuttableList_forget (Group.new_elems hnew) (buildListR_cuttable hr hn hes)
theorem buildListR_cuttable (hr : Rounding rnd u) : ∀ {ps : List (Part K)} {es : List (Elem (Fl K rnd))}, Part.NoBoxList ps →
    Part.buildListWith num optNum ps = .ok es → CuttableList es
  | [], es, _, hb => by simp only [Part.buildListWith, Except.ok.injEq] at hb; subst hb; trivial
  | p :: ps, es, hn, hb => by
    unfold Part.NoBoxList at hn
    unfold Part.buildListWith at hb
    split at hb
    · simp at hb
    · next e he =>
      split at hb
      · simp at hb
      · next es' hes =>
        simp only [Except.ok.injEq] at hb; subst hb
        exact ⟨buildR_cuttable hr hn.1 he, buildListR_cuttable hr hn.2 hes⟩
end

/-- Without generic matrices that have a length, the matrix up to any position is found whatever the rounding errors on this position: no
`TypeError`. -/
theorem C97_cut (hr : Rounding rnd u) {p : Part K} (hn : p.NoBox) {e : Elem (Fl K rnd)} (hb : p.buildR rnd = .ok e) (z : Fl K rnd) :
    e.transferMatrix z ≠ .error .typeError := (buildR_cuttable hr hn hb).not_type z

/-- the tracing of a path without history, and the chief ray of height `y` -/
def chiefOf (p : Part ℚ) (y : Double) : Except PyErr (Option (Ray Double)) :=
  match p.buildR double with
  | .error x => .error x
  | .ok (.leaf _) => .error .valueError
  | .ok (.group m c es) => ((Group.chiefRay ⟨m, c, es⟩ y).runH ⟨m, c, es⟩ []).1

/-- and the entrance pupil -/
def pupilOf (p : Part ℚ) : Except PyErr (Option (Double × Double)) :=
  match p.buildR double with
  | .error x => .error x
  | .ok (.leaf _) => .error .valueError
  | .ok (.group m c es) => ((Group.entrancePupil ⟨m, c, es⟩).runH ⟨m, c, es⟩ []).1

/-- `[Space(0.4), Matrix(B=0.1, physicalLength=0.1), Aperture(1), Space(10)]`: the stop just after an element given by its matrix -/
def boxBefore : Part ℚ :=
  .group "" [.space (double (4 / 10)) 1 none, .matrix ⟨1, double (1 / 10), 0, 1, double (1 / 10), 1, 1⟩ none none none,
    .aperture (some 1) none "", .space 10 1 none]

/-- `[Space(0.1), Space(0.2), Aperture(1), Matrix(B=10, physicalLength=10)]`: the stop just before one -/
def boxAfter : Part ℚ :=
  .group "" [.space (double (1 / 10)) 1 none, .space (double (2 / 10)) 1 none, .aperture (some 1) none "",
    .matrix ⟨1, 10, 0, 1, 10, 1, 1⟩ none none none]

def isTypeError {α : Type} : Except PyErr α → Bool
  | .error .typeError => true
  | _ => false

theorem isTypeError_eq {α : Type} {x : Except PyErr α} (h : isTypeError x = true) : x = .error .typeError := by
  unfold isTypeError at h; split at h
  · rfl
  · cases h

/-- Violated: when the stop is next to an element given by its matrix and a length, the chief ray and the entrance pupil raise `TypeError`,
depending on the last digit of the lengths: in floats, 0.4 + 0.1 - 0.4 < 0.1 and 0.1 + 0.2 - 0.1 > 0.2. -/
theorem C97_violated : chiefOf boxBefore 1 = .error .typeError ∧ pupilOf boxBefore = .error .typeError ∧
    chiefOf boxAfter 1 = .error .typeError ∧ pupilOf boxAfter = .error .typeError :=
  ⟨isTypeError_eq (by decide +kernel), isTypeError_eq (by decide +kernel), isTypeError_eq (by decide +kernel),
    isTypeError_eq (by decide +kernel)⟩

/-- the same paths with lengths that are represented exactly: 0.5 and 0.25 -/
theorem C97_example : (match chiefOf (.group "" [.space (1 / 2) 1 none, .matrix ⟨1, 1 / 4, 0, 1, 1 / 4, 1, 1⟩ none none none,
    .aperture (some 1) none "", .space 10 1 none]) 1 with | .ok (some _) => true | _ => false) = true := by decide +kernel

end RT

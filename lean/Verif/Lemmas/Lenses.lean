import Verif.Model.Lenses
import Verif.Lemmas.Matched
import Verif.Lemmas.FlipVertex

/-! # Stacks of glasses -/

set_option linter.unusedSectionVars false

namespace RT
open PyNum Ext
variable {K : Type} [Field K] [LinearOrder K] [IsStrictOrderedRing K]

/-- A glass of a stack: radius of its front surface, thickness, index. -/
structure Glass1 (K : Type) where
  R : Ext K
  t : K
  n : K

/-- The elements of a stack of glasses that light enters from index `n` and leaves, into air, through a surface of radius `R`. -/
def stackElems (diam : Ext K) : K → List (Glass1 K) → Ext K → List (Elem (Ext K))
  | n, [], R => [.leaf (interfaceMat n 1 R diam)]
  | n, g :: gs, R => .leaf (interfaceMat n g.n g.R diam) :: .leaf (spaceMat (fin g.t) (fin g.n) pinf) :: stackElems diam g.n gs R

/-- The same as a chain of systems. -/
def stackSys : K → List (Glass1 K) → Ext K → List (Sys K)
  | n, [], R => [Sys.interface n 1 (curv R)]
  | n, g :: gs, R => Sys.interface n g.n (curv g.R) :: Sys.space g.t g.n :: stackSys g.n gs R

theorem leafOk {m : Mat (Ext K)} {s : Sys K} (h : Den m s) (hs : s.Lawful) : (Elem.leaf m).Ok := by
  constructor
  · simp only [Elem.mat]; rw [h.sys]; exact h
  · simp only [Elem.mat]; rw [h.sys]; exact hs

theorem stack_ok {diam : Ext K} : ∀ {gs : List (Glass1 K)} {n : K} {R : Ext K}, n ≠ 0 → (∀ g ∈ gs, g.n ≠ 0) →
    OkList (stackElems diam n gs R) ∧ (stackElems diam n gs R).IsChain Adjacent ∧ sysList (stackElems diam n gs R) = stackSys n gs R ∧
      ∀ e ∈ (stackElems diam n gs R).head?, e.mat.frontIndex = fin n
  | [], n, R, hn, _ => by
    refine ⟨?_, by simp [stackElems], ?_, ?_⟩
    · intro e he
      simp only [stackElems, List.mem_singleton] at he
      subst he
      exact leafOk (interfaceMat_den _ _ _ _) (Sys.interface_lawful _ hn one_ne_zero)
    · simp only [stackElems, sysList, stackSys, List.map_cons, List.map_nil, Elem.mat]
      rw [(interfaceMat_den n 1 R diam).sys]
    · intro e he
      simp only [stackElems, List.head?_cons, Option.mem_def, Option.some.injEq] at he
      subst he; rfl
  | g :: gs, n, R, hn, hg => by
    have hgn := hg g (by simp)
    obtain ⟨h1, h2, h3, h4⟩ := stack_ok (diam := diam) (gs := gs) (n := g.n) (R := R) hgn (fun x hx => hg x (by simp [hx]))
    refine ⟨?_, ?_, ?_, ?_⟩
    · intro e he
      simp only [stackElems, List.mem_cons] at he
      rcases he with rfl | rfl | he
      · exact leafOk (interfaceMat_den _ _ _ _) (Sys.interface_lawful _ hn hgn)
      · exact leafOk (spaceMat_den _ _ _) (Sys.space_lawful _ hgn)
      · exact h1 e he
    · simp only [stackElems]
      rw [List.isChain_cons_cons]
      refine ⟨rfl, ?_⟩
      rw [List.isChain_cons]
      refine ⟨?_, h2⟩
      intro y hy
      unfold Adjacent
      rw [h4 y hy]; rfl
    · simp only [stackElems, sysList, stackSys, List.map_cons, Elem.mat] at h3 ⊢
      rw [(interfaceMat_den n g.n g.R diam).sys, (spaceMat_den g.t g.n pinf).sys, h3]
    · intro e he
      simp only [stackElems, List.head?_cons, Option.mem_def, Option.some.injEq] at he
      subst he; rfl

/-- lengths and vertices of the stack -/
def stackVtx : List (Glass1 K) → List (Vtx K)
  | [] => [(0, some 0, some 0)]
  | g :: gs => (0, some 0, some 0) :: (g.t, none, none) :: stackVtx gs

theorem stack_vtx {diam : Ext K} : ∀ {gs : List (Glass1 K)} {n : K} {R : Ext K},
    List.Forall₂ (fun e v => DenV e.mat v) (stackElems diam n gs R) (stackVtx gs)
  | [], n, R => .cons ⟨by simp [interfaceMat, Elem.mat], by simp [interfaceMat, Elem.mat], by simp [interfaceMat, Elem.mat]⟩ .nil
  | g :: gs, n, R => .cons ⟨by simp [interfaceMat, Elem.mat], by simp [interfaceMat, Elem.mat], by simp [interfaceMat, Elem.mat]⟩
      (.cons ⟨by simp [spaceMat, Elem.mat], by simp [spaceMat, Mat.one, Elem.mat], by simp [spaceMat, Mat.one, Elem.mat]⟩ stack_vtx)

theorem stackVtx_sum (gs : List (Glass1 K)) : ((stackVtx gs).map (·.1)).sum = (gs.map Glass1.t).sum := by
  induction gs with
  | nil => simp [stackVtx]
  | cons g gs ih => simp [stackVtx, ih]

theorem stackVtx_first (gs : List (Glass1 K)) : firstVertex 0 (stackVtx gs) = some 0 := by
  cases gs <;> simp [stackVtx, firstVertex]

theorem stackVtx_last (gs : List (Glass1 K)) (z : K) : lastVertex z (stackVtx gs) = some (z + (gs.map Glass1.t).sum) := by
  induction gs generalizing z with
  | nil => simp [stackVtx, lastVertex]
  | cons g gs ih => simp [stackVtx, lastVertex, ih, add_assoc]

theorem stackElems_last (diam : Ext K) : ∀ (gs : List (Glass1 K)) (n : K) (R : Ext K),
    ∃ k, (stackElems diam n gs R).getLast? = some (.leaf (interfaceMat k 1 R diam))
  | [], n, R => ⟨n, rfl⟩
  | g :: gs, n, R => by
    obtain ⟨k, hk⟩ := stackElems_last diam gs g.n R
    refine ⟨k, ?_⟩
    rw [← hk]
    cases gs <;> simp [stackElems]

/-- what `append` leaves of the header besides the matrix -/
theorem new_kept {es : List (Elem (Ext K))} {label : String} {g : Group (Ext K)} (h : Group.new es label = .ok g) :
    g.cache = none ∧ g.mat.isFlipped = false ∧ g.mat.apertureDiameter = pinf ∧ g.mat.apertureNA = pinf ∧ g.mat.kind = .group ∧
      g.mat.label = label := by
  have key : ∀ (es : List (Elem (Ext K))) (g g' : Group (Ext K)), g.appendAll es = (g', .ok ()) →
      g'.cache = g.cache ∧ g'.mat.isFlipped = g.mat.isFlipped ∧ g'.mat.apertureDiameter = g.mat.apertureDiameter ∧
        g'.mat.apertureNA = g.mat.apertureNA ∧ g'.mat.kind = g.mat.kind ∧ g'.mat.label = g.mat.label := by
    intro es
    induction es with
    | nil => intro g g' hh; simp only [Group.appendAll, Prod.mk.injEq, and_true] at hh; subst hh; simp
    | cons e es ih =>
      intro g g' hh
      obtain ⟨g1, h4, h5⟩ := Group.appendAll_cons_ok hh
      have h6 := ih g1 g' h5
      have hp : ∀ e, (g.push e).1.cache = g.cache ∧ (g.push e).1.mat.isFlipped = g.mat.isFlipped ∧
          (g.push e).1.mat.apertureDiameter = g.mat.apertureDiameter ∧ (g.push e).1.mat.apertureNA = g.mat.apertureNA ∧
          (g.push e).1.mat.kind = g.mat.kind ∧ (g.push e).1.mat.label = g.mat.label := by
        intro e; unfold Group.push; dsimp only; split <;> simp [Mat.refresh]
      rcases g.append_cases e with ⟨h', -⟩ | ⟨e', h', -, -⟩
      · rw [h4] at h'; simp at h'
      · rw [h4] at h'
        have h8 := hp e'
        rw [← h'] at h8
        obtain ⟨a1, a2, a3, a4, a5, a6⟩ := h6
        obtain ⟨b1, b2, b3, b4, b5, b6⟩ := h8
        exact ⟨a1.trans b1, a2.trans b2, a3.trans b3, a4.trans b4, a5.trans b5, a6.trans b6⟩
  have := key _ _ _ (Group.new_eq h)
  simpa [Group.empty, Mat.one] using this

theorem stack_tail : ∀ (gs : List (Glass1 K)) (n : K) (R : Ext K), n ≠ 0 → (∀ s ∈ stackSys n gs R, s.IsId) → n = 1
  | [], n, R, hn, h => by
    have := h (Sys.interface n 1 (curv R)) (by simp [stackSys])
    simpa [Sys.IsId, Sys.interface] using this.2.2.2
  | g :: gs, n, R, hn, h => by
    have := h (Sys.interface n g.n (curv g.R)) (by simp [stackSys])
    have h1 := this.2.2.2
    simp only [Sys.interface] at h1
    have hg : g.n ≠ 0 := by intro h0; rw [h0] at h1; simp at h1
    have h2 := stack_tail gs g.n R hg (fun s hs => h s (by simp [stackSys, hs]))
    rw [h2] at h1; simpa using h1

/-- A stack of glasses in air makes a group: elements, entries, length, indices, vertices and flags. -/
theorem stack_new {diam : Ext K} {gs : List (Glass1 K)} {R : Ext K} (hg : ∀ g ∈ gs, g.n ≠ 0) (label : String) :
    ∃ g, Group.new (stackElems diam 1 gs R) label = .ok g ∧ g.elems = stackElems diam 1 gs R ∧
      Den g.mat { Sys.chain (Sys.one 1) (stackSys 1 gs R) with nf := 1, nb := 1 } ∧
      (Sys.chain (Sys.one 1) (stackSys 1 gs R)).len = (gs.map Glass1.t).sum ∧
      (∀ r, g.mat.sys.out r = (stackSys 1 gs R).foldl (fun r s => s.out r) r) ∧
      g.mat.frontVertex = some (fin 0) ∧ g.mat.backVertex = some (fin (gs.map Glass1.t).sum) ∧
      g.cache = none ∧ g.mat.isFlipped = false ∧ g.mat.apertureNA = pinf ∧ g.mat.kind = .group ∧ g.mat.label = label := by
  obtain ⟨h1, h2, h3, h4⟩ := stack_ok (diam := diam) (gs := gs) (R := R) one_ne_zero hg
  obtain ⟨g, h5, h6⟩ := new_exact h1 h2 label
  have hf := Group.new_fresh h5
  have hk := new_kept h5
  refine ⟨g, h5, h6, ?_⟩
  obtain ⟨m, c, es⟩ := g
  dsimp only at h6 hk ⊢
  subst h6
  have hh := hf.header h1 h2
  obtain ⟨t, ht, hm⟩ := hf
  have hv := (DenV.of_list stack_vtx ht).of_refresh (m := m)
  dsimp only at hm
  rw [← hm] at hv
  obtain ⟨s1, s2, s3, s4, s5⟩ := hh.same
  rw [h3] at s1 s2 s3 s4 s5
  have hd := hh.den
  have hi : m.sys.nf = 1 ∧ m.sys.nb = 1 := by
    by_cases hall : ∀ s ∈ sysList (stackElems diam 1 gs R), s.IsId
    · exact hh.allId hall
    · push Not at hall
      obtain ⟨s, hs, hs'⟩ := hall
      obtain ⟨k, hk'⟩ := stackElems_last diam gs 1 R
      have hlast := hh.last ⟨s, hs, hs'⟩ _ hk'
      have hne : (stackElems diam 1 gs R).head? ≠ none := by cases gs <;> simp [stackElems]
      obtain ⟨a, ha⟩ := Option.ne_none_iff_exists'.1 hne
      have hfirst := hh.first ⟨s, hs, hs'⟩ a ha
      refine ⟨?_, ?_⟩
      · have := h4 a ha
        rw [(h1 a (List.mem_of_mem_head? ha)).den.nf] at this
        rw [hfirst]; simpa using this
      · rw [hlast]
        simp only [Elem.mat, (interfaceMat_den k 1 R diam).sys, Sys.interface]
  have hlen : m.sys.len = (gs.map Glass1.t).sum := by
    have := hv.L
    rw [hd.L, stackVtx_sum] at this
    simpa using this
  refine ⟨⟨?_, ?_, ?_, ?_, ?_, ?_, ?_⟩, ?_, ?_, ?_, ?_, hk.1, hk.2.1, hk.2.2.2.1, hk.2.2.2.2.1, hk.2.2.2.2.2⟩
  · rw [hd.A, s1]
  · rw [hd.B, s2]
  · rw [hd.C, s3]
  · rw [hd.D, s4]
  · rw [hd.L, s5]
  · rw [hd.nf, hi.1]
  · rw [hd.nb, hi.2]
  · rw [← s5, hlen]
  · intro r; rw [hh.out, h3]
  · have := hv.fv; rw [stackVtx_first] at this; simpa using this
  · have := hv.bv; rw [stackVtx_last] at this; simpa using this

theorem stack_hasFinite (d : K) : ∀ (gs : List (Glass1 K)) (n : K) (R : Ext K), hasFiniteApertureList (stackElems (fin d) n gs R) = true
  | [], n, R => by
    simp [stackElems, hasFiniteApertureList, Elem.hasFiniteApertureDiameter, Mat.hasFiniteApertureDiameter, interfaceMat]
  | g :: gs, n, R => by
    simp [stackElems, hasFiniteApertureList, Elem.hasFiniteApertureDiameter, Mat.hasFiniteApertureDiameter, interfaceMat]

theorem stack_largest (d : K) : ∀ (gs : List (Glass1 K)) (n : K) (R : Ext K) (x : K), (x < d ∨ x = d) →
    largestDiameterList (stackElems (fin d) n gs R) (fin x) = fin d
  | [], n, R, x, hx => by
    rcases hx with hx | rfl
    · simp [stackElems, largestDiameterList, Elem.largestDiameter, Mat.largestDiameter, interfaceMat, hx]
    · simp [stackElems, largestDiameterList, Elem.largestDiameter, Mat.largestDiameter, interfaceMat]
  | g :: gs, n, R, x, hx => by
    have ih := stack_largest d gs g.n R d (Or.inr rfl)
    rcases hx with hx | rfl
    · simp [stackElems, largestDiameterList, Elem.largestDiameter, Mat.largestDiameter, interfaceMat, spaceMat, hx, ih]
    · simp [stackElems, largestDiameterList, Elem.largestDiameter, Mat.largestDiameter, interfaceMat, spaceMat, ih]

/-- The largest diameter of a stack is the diameter given. -/
theorem stack_largestDiameter {d : K} (hd : 0 < d) {gs : List (Glass1 K)} {R : Ext K} {m : Mat (Ext K)} {c} :
    (Elem.group m c (stackElems (fin d) 1 gs R)).largestDiameter = fin d := by
  simp only [Elem.largestDiameter, stack_hasFinite, if_true]
  rw [zero_eq]; exact stack_largest d gs 1 R 0 (Or.inl hd)

end RT

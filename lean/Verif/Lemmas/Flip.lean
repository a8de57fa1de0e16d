import Verif.Lemmas.Build
import Verif.Lemmas.RayDen

/-! # Flipping elements and groups -/

set_option linter.unusedSectionVars false

namespace RT
open PyNum Ext
variable {K : Type} [Field K] [LinearOrder K] [IsStrictOrderedRing K]

/-- `flipOrientation` of this class leaves the matrix alone (except for the sign of `C` of a mirror) -/
def Kind.plain {F : Type} : Kind F → Bool
  | .dielectric _ _ _ => false
  | .thickLens _ _ _ => false
  | .slab _ _ _ => false
  | _ => true

/-- `t` runs the light of `s` backwards -/
def Rev (s t : Sys K) : Prop := ∀ y θ, t.out (s.outY y θ, -s.outθ y θ) = (y, -θ)

theorem Sys.isId_of_out {s : Sys K} (h : ∀ r, s.out r = r) : s.IsId := by
  have h1 := h (1, 0)
  have h2 := h (0, 1)
  simp only [Sys.out, Sys.outY, Sys.outθ, mul_one, mul_zero, add_zero, zero_add, Prod.mk.injEq] at h1 h2
  exact ⟨h1.1, h2.1, h1.2, h2.2⟩

theorem Rev.isId {s t : Sys K} (h : Rev s t) : t.IsId ↔ s.IsId := by
  constructor
  · intro ht
    refine Sys.isId_of_out fun r => ?_
    have := h r.1 r.2
    rw [ht.out] at this
    simp only [Prod.mk.injEq, neg_inj] at this
    exact Prod.ext this.1 this.2
  · intro hs
    refine Sys.isId_of_out fun r => ?_
    have h1 := h r.1 (-r.2)
    have h2 := hs.out (r.1, -r.2)
    simp only [Sys.out, Prod.mk.injEq] at h2
    rw [h2.1, h2.2, neg_neg] at h1
    exact h1

/-- A single element that can be flipped. -/
structure Mat.FlipOk (m : Mat (Ext K)) : Prop where
  good : m.Good
  plain : m.kind.plain = true → m.sys.nf = m.sys.nb
  mirror : m.kind = .curvedMirror → m.sys.b = 0
  kind : m.kind ≠ .group ∧ m.kind ≠ .objective
  linear : m.Linear

/-- A single element whose flipped version runs light backwards. -/
structure Mat.RevOk (m : Mat (Ext K)) : Prop where
  mirror : m.kind ≠ .curvedMirror
  plain : m.kind.plain = true → m.sys.a = m.sys.d

theorem Ext.neg_neg' (x : Ext K) : -(-x) = x := by cases x <;> simp

/-- the result of flipping a single element -/
structure LeafFlip (m m' : Mat (Ext K)) : Prop where
  flip : m.flip = (m', .ok ())
  back : m'.flip = (m, .ok ())
  ok : m'.FlipOk
  nf : m'.sys.nf = m.sys.nb
  nb : m'.sys.nb = m.sys.nf
  len : m'.sys.len = m.sys.len
  space : m'.kind = .space ↔ m.kind = .space
  rev : m.RevOk → m'.RevOk ∧ Rev m.sys m'.sys

theorem flip_plain {m : Mat (Ext K)} (h : m.FlipOk) (hp : m.kind.plain = true) (hm : m.kind ≠ .curvedMirror) :
    LeafFlip m m.flipBase := by
  have hd := h.good.den
  have hn := h.plain hp
  have hflip : ∀ m' : Mat (Ext K), m'.kind = m.kind → m'.flip = (m'.flipBase, .ok ()) := by
    intro m' hk
    unfold Mat.flip
    rw [hk]
    split <;> simp_all [Kind.plain]
  have hsys : m.flipBase.sys = m.sys := by
    simp only [Mat.sys, Mat.flipBase]
    have : m.frontIndex.val = m.backIndex.val := hn
    rw [this]
  refine ⟨hflip m rfl, ?_, ⟨?_, ?_, ?_, ?_, h.linear⟩, ?_, ?_, ?_, Iff.rfl, ?_⟩
  · rw [hflip m.flipBase rfl]
    simp [Mat.flipBase]
  · refine ⟨?_, ?_, ?_, ?_, ?_, ?_⟩
    · rw [hsys]
      exact ⟨hd.A, hd.B, hd.C, hd.D, hd.L, by simp only [Mat.flipBase]; rw [hd.nb, hn],
        by simp only [Mat.flipBase]; rw [hd.nf, hn]⟩
    · rw [hsys]; exact h.good.lawful
    · intro hk; rw [hsys]; exact h.good.space hk
    · intro n R1 R2 hk
      have hk' : m.kind = .thickLens n R1 R2 := hk
      simp [hk', Kind.plain] at hp
    · intro n R1 R2 hk
      have hk' : m.kind = .slab n R1 R2 := hk
      simp [hk', Kind.plain] at hp
    · intro n R1 R2 hk
      have hk' : m.kind = .dielectric n R1 R2 := hk
      simp [hk', Kind.plain] at hp
  · intro _; rw [hsys]; exact hn
  · intro hk; exact absurd hk hm
  · exact h.kind
  · rw [hsys]; exact hn
  · rw [hsys]; exact hn.symm
  · rw [hsys]
  · intro hr
    refine ⟨⟨hr.mirror, fun _ => by rw [hsys]; exact hr.plain hp⟩, ?_⟩
    rw [hsys]
    have hdet : m.sys.det = 1 := by
      rw [h.good.lawful.2.2, hn, div_self h.good.lawful.2.1]
    have had := hr.plain hp
    intro y θ
    unfold Sys.det at hdet
    simp only [Sys.out, Sys.outY, Sys.outθ, Prod.mk.injEq]
    rw [had] at hdet ⊢
    constructor
    · linear_combination y * hdet
    · linear_combination -θ * hdet

theorem flip_mirror {m : Mat (Ext K)} (h : m.FlipOk) (hm : m.kind = .curvedMirror) :
    LeafFlip m { m.flipBase with C := -m.C } := by
  have hd := h.good.den
  have hn := h.plain (by simp [hm, Kind.plain])
  have hb := h.mirror hm
  have hC : (-m.C).val = -m.sys.c := by rw [hd.C]; rfl
  have hsys : ({ m.flipBase with C := -m.C } : Mat (Ext K)).sys = { m.sys with c := -m.sys.c } := by
    have : m.frontIndex.val = m.backIndex.val := hn
    simp only [Mat.sys, Mat.flipBase, Sys.mk.injEq, true_and]
    exact ⟨hC, this.symm, this⟩
  refine ⟨?_, ?_, ⟨?_, ?_, ?_, ?_, h.linear⟩, ?_, ?_, ?_, ?_, ?_⟩
  · unfold Mat.flip; rw [hm]
  · unfold Mat.flip
    simp only [Mat.flipBase, hm, Ext.neg_neg', Bool.not_not]
    rw [← hm]
  · refine ⟨?_, ?_, ?_, ?_, ?_, ?_⟩
    · rw [hsys]
      exact ⟨hd.A, hd.B, by simp only; rw [hd.C]; rfl, hd.D, hd.L, by simp only [Mat.flipBase]; rw [hd.nb, hn],
        by simp only [Mat.flipBase]; rw [hd.nf, hn]⟩
    · rw [hsys]
      obtain ⟨l1, l2, l3⟩ := h.good.lawful
      refine ⟨l1, l2, ?_⟩
      unfold Sys.det at l3 ⊢
      rw [hb] at l3
      simp only [hb]
      simpa using l3
    · intro hk; simp [Mat.flipBase, hm] at hk
    · intro _ _ _ hk; simp [Mat.flipBase, hm] at hk
    · intro _ _ _ hk; simp [Mat.flipBase, hm] at hk
    · intro _ _ _ hk; simp [Mat.flipBase, hm] at hk
  · intro _; rw [hsys]; exact hn
  · intro _; rw [hsys]; exact hb
  · exact h.kind
  · rw [hsys]; exact hn
  · rw [hsys]; exact hn.symm
  · rw [hsys]
  · exact Iff.rfl
  · intro hr; exact absurd hm hr.mirror

theorem Mat.ext_fields {F : Type} {m m' : Mat F} (h1 : m.A = m'.A) (h2 : m.B = m'.B) (h3 : m.C = m'.C) (h4 : m.D = m'.D)
    (h : { m with A := m'.A, B := m'.B, C := m'.C, D := m'.D } = m') : m = m' := by
  rw [← h]; cases m; simp_all

theorem flip_dielectric {m : Mat (Ext K)} (h : m.FlipOk) {n1 n2 R : Ext K} (hk : m.kind = .dielectric n1 n2 R) :
    ∃ m', LeafFlip m m' := by
  obtain ⟨hR, rfl, rfl, hs⟩ := h.good.dielectric n1 n2 R hk
  obtain ⟨l1, l2, l3⟩ := h.good.lawful
  have hd := h.good.den
  obtain ⟨hR', hR''⟩ := hR.neg
  have hA : m.A = fin 1 := by rw [hd.A]; exact congrArg fin (congrArg Sys.a hs)
  have hB : m.B = fin 0 := by rw [hd.B]; exact congrArg fin (congrArg Sys.b hs)
  have hC : m.C = fin (-((m.sys.nb - m.sys.nf) * curv R / m.sys.nb)) := by
    rw [hd.C]; exact congrArg fin (congrArg Sys.c hs)
  have hD : m.D = fin (m.sys.nf / m.sys.nb) := by rw [hd.D]; exact congrArg fin (congrArg Sys.d hs)
  have hL : m.L = fin 0 := by rw [hd.L]; exact congrArg fin (congrArg Sys.len hs)
  set k1 := m.sys.nf with hk1
  set k2 := m.sys.nb with hk2
  have hf := hd.nf
  have hb := hd.nb
  rw [← hk1] at hf
  rw [← hk2] at hb
  let m' : Mat (Ext K) := { m.flipBase with
    kind := .dielectric (fin k2) (fin k1) (-R), C := fin (-((k1 - k2) * curv (-R) / k1)), D := fin (k2 / k1) }
  have hden : Den m' (Sys.interface k2 k1 (curv (-R))) :=
    ⟨hA, hB, rfl, rfl, hL, hb, hf⟩
  have hsys := hden.sys
  refine ⟨m', ?_, ?_, ⟨⟨?_, ?_, ?_, ?_, ?_, ?_⟩, ?_, ?_, ?_, fun _ _ hq => nomatch hq⟩, ?_, ?_, ?_, ?_, ?_⟩
  · unfold Mat.flip
    rw [hk]
    simp only [dielectricC_eq _ l1 hR', pyDiv_fin _ _ l1]
    rfl
  · have e1 : m'.kind = .dielectric (fin k2) (fin k1) (-R) := rfl
    unfold Mat.flip
    rw [e1]
    simp only [Ext.neg_neg', dielectricC_eq _ l2 hR, pyDiv_fin _ _ l2]
    rw [← hC, ← hD, ← hk]
    simp [m', Mat.flipBase]
  · rw [hsys]; exact hden
  · rw [hsys]; exact Sys.interface_lawful _ l2 l1
  · intro hq; cases hq
  · intro _ _ _ hq; cases hq
  · intro _ _ _ hq; cases hq
  · intro _ _ _ hq
    have hq' : (Kind.dielectric (fin k2) (fin k1) (-R)) = _ := hq
    simp only [Kind.dielectric.injEq] at hq'
    obtain ⟨rfl, rfl, rfl⟩ := hq'
    rw [hsys]
    exact ⟨hR', rfl, rfl, rfl⟩
  · intro hq; cases hq
  · intro hq; cases hq
  · exact ⟨(fun hq => nomatch hq), (fun hq => nomatch hq)⟩
  · rw [hsys]; rfl
  · rw [hsys]; rfl
  · rw [hsys]; have := congrArg Sys.len hs; exact this.symm
  · rw [hk]; exact ⟨(fun hq => nomatch hq), (fun hq => nomatch hq)⟩
  · intro _
    refine ⟨⟨(fun hq => nomatch hq), (fun hq => nomatch hq)⟩, ?_⟩
    rw [hsys, hs]
    intro y θ
    simp only [Sys.out, Sys.outY, Sys.outθ, Sys.interface, Prod.mk.injEq, hR'']
    constructor
    · ring
    · field_simp; ring

theorem Sys.thick_rev {n k1 k2 t : K} (hn : n ≠ 0) : Rev (Sys.thick n k1 k2 t) (Sys.thick n (-k2) (-k1) t) := by
  rw [Sys.thick_eq _ _ _ hn, Sys.thick_eq _ _ _ hn]
  intro y θ
  simp only [Sys.out, Sys.outY, Sys.outθ, Prod.mk.injEq]
  constructor
  · field_simp; ring
  · field_simp; ring

/-- thick lenses and slabs -/
theorem flip_thick {m : Mat (Ext K)} (h : m.FlipOk) {n : K} {R1 R2 : Ext K} (hn : n ≠ 0) (hR1 : RadiusOk R1)
    (hR2 : RadiusOk R2) (hs : m.sys = Sys.thick n (curv R1) (curv R2) m.sys.len) {kind kind' : Kind (Ext K)}
    (hk : m.kind = kind)
    (hflip : ∀ m : Mat (Ext K), m.kind = kind → m.flip = Mat.flip.flipThick kind' m.flipBase (fin n) (-R2) (-R1))
    (hflip' : ∀ m : Mat (Ext K), m.kind = kind' → m.flip = Mat.flip.flipThick kind m.flipBase (fin n) R1 R2)
    (hg : ∀ m' : Mat (Ext K), m'.kind = kind' → Den m' m'.sys → m'.sys.Lawful →
      m'.sys = Sys.thick n (curv (-R2)) (curv (-R1)) m'.sys.len → m'.apertureDiameter = m.apertureDiameter →
      m'.Good)
    (hk' : kind'.plain = false) (hpl : kind.plain = false) :
    ∃ m', LeafFlip m m' := by
  have hd := h.good.den
  obtain ⟨hN1, hN1'⟩ := hR1.neg
  obtain ⟨hN2, hN2'⟩ := hR2.neg
  set t := m.sys.len with ht
  have hs' := hs
  rw [Sys.thick_eq _ _ _ hn] at hs'
  have hA : m.A = fin (t * (1 - n) * (curv R1 / n) + 1) := by rw [hd.A]; exact congrArg fin (congrArg Sys.a hs')
  have hB : m.B = fin (t / n) := by rw [hd.B]; exact congrArg fin (congrArg Sys.b hs')
  have hC : m.C = fin (-(n - 1) * (curv R1 - curv R2 + t * (n - 1) * (curv R1 * curv R2 / n))) := by
    rw [hd.C]; exact congrArg fin (congrArg Sys.c hs')
  have hD : m.D = fin (t * (n - 1) * (curv R2 / n) + 1) := by rw [hd.D]; exact congrArg fin (congrArg Sys.d hs')
  have hL : m.L = fin t := by rw [hd.L]
  have hf : m.frontIndex = fin 1 := by rw [hd.nf]; exact congrArg fin (congrArg Sys.nf hs')
  have hb : m.backIndex = fin 1 := by rw [hd.nb]; exact congrArg fin (congrArg Sys.nb hs')
  let m' : Mat (Ext K) := { m.flipBase with
    kind := kind', A := fin (t * (1 - n) * (curv (-R2) / n) + 1), B := fin (t / n)
    C := fin (-(n - 1) * (curv (-R2) - curv (-R1) + t * (n - 1) * (curv (-R2) * curv (-R1) / n)))
    D := fin (t * (n - 1) * (curv (-R1) / n) + 1) }
  have hden : Den m' (Sys.thick n (curv (-R2)) (curv (-R1)) t) := by
    rw [Sys.thick_eq _ _ _ hn]
    exact ⟨rfl, rfl, rfl, rfl, hL, hb, hf⟩
  have hsys := hden.sys
  have hlen : (Sys.thick n (curv (-R2)) (curv (-R1)) t).len = t := by rw [Sys.thick_eq _ _ _ hn]
  have hnp : ∀ {k : Kind (Ext K)}, k.plain = true → m'.kind ≠ k := by
    intro k hp hq
    have hq' : kind' = k := hq
    rw [← hq', hk'] at hp; simp at hp
  refine ⟨m', ?_, ?_, ⟨?_, ?_, ?_, ?_, fun _ _ => hnp rfl⟩, ?_, ?_, ?_, ?_, ?_⟩
  · rw [hflip m hk]
    have hL' : m.flipBase.L = fin t := hL
    unfold Mat.flip.flipThick
    simp only [hL', thickA_eq t hn hN2, thickB_eq t hn, thickC_eq t hn hN2 hN1, thickD_eq t hn hN1]
    rw [← hL']
  · rw [hflip' m' rfl]
    have hL' : m'.flipBase.L = fin t := hL
    unfold Mat.flip.flipThick
    simp only [hL', thickA_eq t hn hR1, thickB_eq t hn, thickC_eq t hn hR1 hR2, thickD_eq t hn hR2]
    rw [← hA, ← hB, ← hC, ← hD, ← hk, ← hL]
    simp [m', Mat.flipBase]
  · refine hg m' rfl (by rw [hsys]; exact hden) (by rw [hsys]; exact Sys.thick_lawful _ _ _ hn) ?_ rfl
    rw [hsys, hlen]
  · intro hp
    have : kind'.plain = true := hp
    rw [hk'] at this; simp at this
  · intro hq; exact absurd hq (hnp rfl)
  · exact ⟨hnp rfl, hnp rfl⟩
  · rw [hsys, Sys.thick_eq _ _ _ hn]
    have := congrArg Sys.nb hs'; exact this.symm
  · rw [hsys, Sys.thick_eq _ _ _ hn]
    have := congrArg Sys.nf hs'; exact this.symm
  · rw [hsys, hlen]
  · constructor
    · intro hq; exact absurd hq (hnp rfl)
    · intro hq
      rw [hk] at hq
      rw [hq] at hpl; simp [Kind.plain] at hpl
  · intro _
    refine ⟨⟨hnp rfl, fun hp => ?_⟩, ?_⟩
    · have : kind'.plain = true := hp
      rw [hk'] at this; simp at this
    · rw [hsys, hs, hN1', hN2']
      exact Sys.thick_rev hn

/-- Every consistent single element can be flipped, and flipping again gives it back exactly. -/
theorem Mat.FlipOk.flip {m : Mat (Ext K)} (h : m.FlipOk) : ∃ m', LeafFlip m m' := by
  by_cases hp : m.kind.plain = true
  · by_cases hm : m.kind = .curvedMirror
    · exact ⟨_, flip_mirror h hm⟩
    · exact ⟨_, flip_plain h hp hm⟩
  · cases hk : m.kind with
    | dielectric n1 n2 R => exact flip_dielectric h hk
    | thickLens n R1 R2 =>
      obtain ⟨k, rfl, hn, hR1, hR2, hdm, hs⟩ := h.good.thick _ _ _ hk
      have hfl : ∀ m : Mat (Ext K), m.kind = .thickLens (fin k) R1 R2 →
          m.flip = Mat.flip.flipThick (.thickLens (fin k) (-R2) (-R1)) m.flipBase (fin k) (-R2) (-R1) := by
        intro m hk; unfold Mat.flip; rw [hk]
      have hfl' : ∀ m : Mat (Ext K), m.kind = .thickLens (fin k) (-R2) (-R1) →
          m.flip = Mat.flip.flipThick (.thickLens (fin k) R1 R2) m.flipBase (fin k) R1 R2 := by
        intro m hk; unfold Mat.flip; rw [hk]; simp only [Ext.neg_neg']
      refine flip_thick h hn hR1 hR2 hs hk hfl hfl' ?_ rfl rfl
      intro m' hk' hd' hl' hs' hdm'
      refine ⟨hd', hl', ?_, ?_, ?_, ?_⟩
      · intro hq; rw [hk'] at hq; cases hq
      · intro _ _ _ hq
        rw [hk'] at hq
        simp only [Kind.thickLens.injEq] at hq
        obtain ⟨rfl, rfl, rfl⟩ := hq
        exact ⟨k, rfl, hn, hR2.neg.1, hR1.neg.1, by rw [hdm']; exact hdm, hs'⟩
      · intro _ _ _ hq; rw [hk'] at hq; cases hq
      · intro _ _ _ hq; rw [hk'] at hq; cases hq
    | slab n R1 R2 =>
      obtain ⟨k, rfl, hn, hR1, hR2, hc1, hc2, hdm, hs⟩ := h.good.slab _ _ _ hk
      have hfl : ∀ m : Mat (Ext K), m.kind = .slab (fin k) R1 R2 →
          m.flip = Mat.flip.flipThick (.slab (fin k) (-R2) (-R1)) m.flipBase (fin k) (-R2) (-R1) := by
        intro m hk; unfold Mat.flip; rw [hk]
      have hfl' : ∀ m : Mat (Ext K), m.kind = .slab (fin k) (-R2) (-R1) →
          m.flip = Mat.flip.flipThick (.slab (fin k) R1 R2) m.flipBase (fin k) R1 R2 := by
        intro m hk; unfold Mat.flip; rw [hk]; simp only [Ext.neg_neg']
      refine flip_thick h hn hR1 hR2 hs hk hfl hfl' ?_ rfl rfl
      intro m' hk' hd' hl' hs' hdm'
      refine ⟨hd', hl', ?_, ?_, ?_, ?_⟩
      · intro hq; rw [hk'] at hq; cases hq
      · intro _ _ _ hq; rw [hk'] at hq; cases hq
      · intro _ _ _ hq
        rw [hk'] at hq
        simp only [Kind.slab.injEq] at hq
        obtain ⟨rfl, rfl, rfl⟩ := hq
        refine ⟨k, rfl, hn, hR2.neg.1, hR1.neg.1, ?_, ?_, by rw [hdm']; exact hdm, hs'⟩
        · rw [hR2.neg.2, hc2, neg_zero]
        · rw [hR1.neg.2, hc1, neg_zero]
      · intro _ _ _ hq; rw [hk'] at hq; cases hq
    | _ => simp [hk, Kind.plain] at hp

end RT

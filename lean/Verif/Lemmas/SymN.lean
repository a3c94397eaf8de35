import Verif.Lemmas.ConstN
/-! # Antidiffusive velocities in 2-D and 3-D: dependence on the sign of the field, linearity with the infinite gauge -/
set_option linter.unusedSectionVars false
namespace Mpdata
variable {K : Type} [Field K] [LinearOrder K] [IsStrictOrderedRing K]

section neg
variable {o : OptsT} (ha : isset o oAbs = true) (higa : isset o oIga = false) (hfot : isset o oFot = false)
include ha higa hfot

theorem vabs_neg (x : K) : vabs o (-x) = vabs o x := by simp [vabs, ha]

theorem antidiff2_neg (si : SptlIntrp) (te : TmprlExtrp) (tiny : K) (psi old ga gb nda ndb ndtt G : Ar2 K) (i j : Int) :
    antidiff2 o si te tiny (fun i j => -psi i j) (fun i j => -old i j) ga gb nda ndb ndtt G i j
      = antidiff2 o si te tiny psi old ga gb nda ndb ndtt G i j := by
  simp only [antidiff2, div2nd2, div3rd2, div3rdUpwind2, div3rdSpatial2, div3rdSpatialHelper2, div3rdTemporal2, ndxPsi2, ndyPsi2, ndxxPsi2, ndxyPsi2,
    ndtxPsi2, ndtPsi2, fdivCentre2, fdivCornerXY2, nfdiv2, nfdivFdiv2, ndxFdiv2, nfdivDt2, sum8_2, psiBarX2, psiBarY2, psiBarXY2, ndxxGC02, ndttGC02, tot2, fot2,
    dfl2, higa, hfot, vabs_neg ha higa hfot, Bool.false_eq_true, if_false]

theorem antidiff3_neg (si : SptlIntrp) (te : TmprlExtrp) (tiny : K) (psi old ga gb gc nda ndb ndc ndtt G : Ar3 K) (i j k : Int) :
    antidiff3 o si te tiny (fun i j k => -psi i j k) (fun i j k => -old i j k) ga gb gc nda ndb ndc ndtt G i j k
      = antidiff3 o si te tiny psi old ga gb gc nda ndb ndc ndtt G i j k := by
  simp only [antidiff3, div2nd3, div3rd3, div3rdUpwind3, div3rdSpatial3, div3rdSpatialHelper3, div3rdTemporal3, ndxPsi3, ndyPsi3, ndzPsi3, ndxxPsi3, ndxyPsi3, ndxzPsi3,
    ndyzPsi3, ndtxPsi3, ndtPsi3, fdivCentre3, fdivCornerXY3, fdivCornerXZ3, nfdiv3, nfdivFdiv3, ndxFdiv3, nfdivDt3, sum10_3, sum12_3, psiBarX3, psiBarY3, psiBarZ3,
    psiBarXY3, psiBarXZ3, psiBarXYZ3, ndxxGC03, ndttGC03, tot3, dfl3, higa, vabs_neg ha higa hfot, Bool.false_eq_true, if_false]
end neg

section lin
variable {o : OptsT} (ha : isset o oAbs = false) (higa : isset o oIga = true)

/-- `f` is linear -/
def Lin2 (f : Ar2 K → K) : Prop := ∀ (a b : K) (x y : Ar2 K), f (fun i j => a * x i j + b * y i j) = a * f x + b * f y
def Lin3 (f : Ar3 K → K) : Prop := ∀ (a b : K) (x y : Ar3 K), f (fun i j k => a * x i j k + b * y i j k) = a * f x + b * f y

include ha higa

theorem fdivCentre2_lin (ga gb G : Ar2 K) (i j : Int) : Lin2 (fun psi => fdivCentre2 o psi ga gb G i j) := by
  intro a b x y
  simp only [fdivCentre2, psiBarX2, psiBarY2, vabs, ha, Bool.false_eq_true, if_false]; ring
theorem fdivCornerXY2_lin (ga gb G : Ar2 K) (i j : Int) : Lin2 (fun psi => fdivCornerXY2 o psi ga gb G i j) := by
  intro a b x y
  simp only [fdivCornerXY2, psiBarX2, psiBarY2, vabs, ha, Bool.false_eq_true, if_false]; ring
theorem nfdiv2_lin (tiny : K) (ga gb G : Ar2 K) (i j : Int) : Lin2 (fun psi => nfdiv2 o tiny psi ga gb G i j) := by
  intro a b x y
  simp only [nfdiv2, psiBarXY2, vabs, ha, higa, Bool.false_eq_true, if_false, if_true]; ring
theorem nfdivFdiv2_lin (tiny : K) (ga gb G : Ar2 K) (i j : Int) : Lin2 (fun psi => nfdivFdiv2 o tiny psi ga gb G i j) := by
  intro a b x y
  simp only [nfdivFdiv2, higa, if_true, fdivCentre2_lin ha higa ga gb G _ _ a b x y, fdivCornerXY2_lin ha higa ga gb G _ _ a b x y]; ring
theorem ndxFdiv2_lin (tiny : K) (ga gb G : Ar2 K) (i j : Int) : Lin2 (fun psi => ndxFdiv2 o tiny psi ga gb G i j) := by
  intro a b x y
  simp only [ndxFdiv2, higa, if_true, fdivCentre2_lin ha higa ga gb G _ _ a b x y]; ring
theorem nfdivDt2_lin (tiny : K) (ga gb G : Ar2 K) (i j : Int) (a b : K) (x y x' y' : Ar2 K) :
    nfdivDt2 o tiny (fun i j => a * x i j + b * y i j) (fun i j => a * x' i j + b * y' i j) ga gb G i j
      = a * nfdivDt2 o tiny x x' ga gb G i j + b * nfdivDt2 o tiny y y' ga gb G i j := by
  simp only [nfdivDt2, psiBarXY2, vabs, ha, higa, Bool.false_eq_true, if_false, if_true]; ring

theorem psi2_lin (tiny : K) (i j : Int) : Lin2 (fun psi => ndxPsi2 o tiny psi i j) ∧ Lin2 (fun psi => ndyPsi2 o tiny psi i j) ∧ Lin2 (fun psi => ndxxPsi2 o tiny psi i j)
    ∧ Lin2 (fun psi => ndxyPsi2 o tiny psi i j) ∧ Lin2 (fun psi : Ar2 K => ndxxxPsi2 psi i j) ∧ Lin2 (fun psi : Ar2 K => ndxxyPsi2 psi i j)
    ∧ Lin2 (fun psi : Ar2 K => ndxyyPsi2 psi i j) ∧ Lin2 (fun psi : Ar2 K => psiBarX2 o psi i j) := by
  refine ⟨?_, ?_, ?_, ?_, ?_, ?_, ?_, ?_⟩ <;> intro a b x y <;>
    simp only [ndxPsi2, ndyPsi2, ndxxPsi2, ndxyPsi2, ndxxxPsi2, ndxxyPsi2, ndxyyPsi2, psiBarX2, vabs, ha, higa, Bool.false_eq_true, if_false, if_true] <;> ring

theorem ndt2_lin (tiny : K) (i j : Int) (a b : K) (x y x' y' : Ar2 K) :
    ndtxPsi2 o tiny (fun i j => a * x i j + b * y i j) (fun i j => a * x' i j + b * y' i j) i j = a * ndtxPsi2 o tiny x x' i j + b * ndtxPsi2 o tiny y y' i j ∧
    ndtPsi2 o tiny (fun i j => a * x i j + b * y i j) (fun i j => a * x' i j + b * y' i j) i j = a * ndtPsi2 o tiny x x' i j + b * ndtPsi2 o tiny y y' i j := by
  constructor <;> simp only [ndtxPsi2, ndtPsi2, higa, if_true] <;> ring

theorem antidiff2_lin (si : SptlIntrp) (te : TmprlExtrp) (tiny : K) (ga gb nda ndb ndtt G : Ar2 K) (i j : Int) (a b : K) (x y x' y' : Ar2 K) :
    antidiff2 o si te tiny (fun i j => a * x i j + b * y i j) (fun i j => a * x' i j + b * y' i j) ga gb nda ndb ndtt G i j
      = a * antidiff2 o si te tiny x x' ga gb nda ndb ndtt G i j + b * antidiff2 o si te tiny y y' ga gb nda ndb ndtt G i j := by
  obtain ⟨h1, h2, h3, h4, h5, h6, h7, h8⟩ := psi2_lin ha higa tiny i j
  have e1 := h1 a b x y; have e2 := h2 a b x y; have e3 := h3 a b x y; have e4 := h4 a b x y
  have e5 := h5 a b x y; have e6 := h6 a b x y; have e7 := h7 a b x y; have e8 := h8 a b x y
  obtain ⟨t1, t2⟩ := ndt2_lin ha higa tiny i j a b x y x' y'
  have n1 := nfdiv2_lin ha higa tiny ga gb G i j a b x y
  have n2 := nfdiv2_lin ha higa tiny nda ndb G i j a b x y
  have n3 := nfdivFdiv2_lin ha higa tiny ga gb G i j a b x y
  have n4 := ndxFdiv2_lin ha higa tiny ga gb G i j a b x y
  have n5 := nfdivDt2_lin ha higa tiny ga gb G i j a b x y x' y'
  simp only [antidiff2, div2nd2, div3rd2, div3rdUpwind2, div3rdSpatial2, div3rdSpatialHelper2, div3rdTemporal2, ndxxGC02, ndttGC02, tot2, fot2, dfl2, higa, if_true]
  simp only [e1, e2, e3, e4, e5, e6, e7, e8, t1, t2, n1, n2, n3, n4, n5]
  cases si <;> cases te <;> simp only <;> split_ifs <;> ring

theorem fdivCentre3_lin (ga gb gc G : Ar3 K) (i j k : Int) : Lin3 (fun psi => fdivCentre3 o psi ga gb gc G i j k) := by
  intro a b x y
  simp only [fdivCentre3, psiBarX3, psiBarY3, psiBarZ3, vabs, ha, Bool.false_eq_true, if_false]; ring
theorem fdivCornerXY3_lin (ga gb gc G : Ar3 K) (i j k : Int) : Lin3 (fun psi => fdivCornerXY3 o psi ga gb gc G i j k) := by
  intro a b x y
  simp only [fdivCornerXY3, psiBarX3, psiBarY3, psiBarXYZ3, vabs, ha, Bool.false_eq_true, if_false]; ring
theorem fdivCornerXZ3_lin (ga gb gc G : Ar3 K) (i j k : Int) : Lin3 (fun psi => fdivCornerXZ3 o psi ga gb gc G i j k) := by
  intro a b x y
  simp only [fdivCornerXZ3, psiBarX3, psiBarZ3, psiBarXYZ3, vabs, ha, Bool.false_eq_true, if_false]; ring
theorem nfdiv3_lin (tiny : K) (ga gb gc G : Ar3 K) (i j k : Int) : Lin3 (fun psi => nfdiv3 o tiny psi ga gb gc G i j k) := by
  intro a b x y
  simp only [nfdiv3, psiBarXY3, psiBarXZ3, vabs, ha, higa, Bool.false_eq_true, if_false, if_true]; ring
theorem nfdivFdiv3_lin (tiny : K) (ga gb gc G : Ar3 K) (i j k : Int) : Lin3 (fun psi => nfdivFdiv3 o tiny psi ga gb gc G i j k) := by
  intro a b x y
  simp only [nfdivFdiv3, higa, if_true, fdivCentre3_lin ha higa ga gb gc G _ _ _ a b x y, fdivCornerXY3_lin ha higa ga gb gc G _ _ _ a b x y,
    fdivCornerXZ3_lin ha higa ga gb gc G _ _ _ a b x y]; ring
theorem ndxFdiv3_lin (tiny : K) (ga gb gc G : Ar3 K) (i j k : Int) : Lin3 (fun psi => ndxFdiv3 o tiny psi ga gb gc G i j k) := by
  intro a b x y
  simp only [ndxFdiv3, higa, if_true, fdivCentre3_lin ha higa ga gb gc G _ _ _ a b x y]; ring
theorem nfdivDt3_lin (tiny : K) (ga gb gc G : Ar3 K) (i j k : Int) (a b : K) (x y x' y' : Ar3 K) :
    nfdivDt3 o tiny (fun i j k => a * x i j k + b * y i j k) (fun i j k => a * x' i j k + b * y' i j k) ga gb gc G i j k
      = a * nfdivDt3 o tiny x x' ga gb gc G i j k + b * nfdivDt3 o tiny y y' ga gb gc G i j k := by
  simp only [nfdivDt3, psiBarXY3, psiBarXZ3, vabs, ha, higa, Bool.false_eq_true, if_false, if_true]; ring

theorem psi3_lin (tiny : K) (i j k : Int) : Lin3 (fun psi => ndxPsi3 o tiny psi i j k) ∧ Lin3 (fun psi => ndyPsi3 o tiny psi i j k) ∧ Lin3 (fun psi => ndzPsi3 o tiny psi i j k)
    ∧ Lin3 (fun psi => ndxxPsi3 o tiny psi i j k) ∧ Lin3 (fun psi => ndxyPsi3 o tiny psi i j k) ∧ Lin3 (fun psi => ndxzPsi3 o tiny psi i j k)
    ∧ Lin3 (fun psi => ndyzPsi3 o tiny psi i j k) ∧ Lin3 (fun psi : Ar3 K => psiBarX3 o psi i j k) := by
  refine ⟨?_, ?_, ?_, ?_, ?_, ?_, ?_, ?_⟩ <;> intro a b x y <;>
    simp only [ndxPsi3, ndyPsi3, ndzPsi3, ndxxPsi3, ndxyPsi3, ndxzPsi3, ndyzPsi3, psiBarX3, vabs, ha, higa, Bool.false_eq_true, if_false, if_true] <;> ring

theorem ndt3_lin (tiny : K) (i j k : Int) (a b : K) (x y x' y' : Ar3 K) :
    ndtxPsi3 o tiny (fun i j k => a * x i j k + b * y i j k) (fun i j k => a * x' i j k + b * y' i j k) i j k = a * ndtxPsi3 o tiny x x' i j k + b * ndtxPsi3 o tiny y y' i j k ∧
    ndtPsi3 o tiny (fun i j k => a * x i j k + b * y i j k) (fun i j k => a * x' i j k + b * y' i j k) i j k = a * ndtPsi3 o tiny x x' i j k + b * ndtPsi3 o tiny y y' i j k := by
  constructor <;> simp only [ndtxPsi3, ndtPsi3, higa, if_true] <;> ring

theorem antidiff3_lin (si : SptlIntrp) (te : TmprlExtrp) (tiny : K) (ga gb gc nda ndb ndc ndtt G : Ar3 K) (i j k : Int) (a b : K) (x y x' y' : Ar3 K) :
    antidiff3 o si te tiny (fun i j k => a * x i j k + b * y i j k) (fun i j k => a * x' i j k + b * y' i j k) ga gb gc nda ndb ndc ndtt G i j k
      = a * antidiff3 o si te tiny x x' ga gb gc nda ndb ndc ndtt G i j k + b * antidiff3 o si te tiny y y' ga gb gc nda ndb ndc ndtt G i j k := by
  obtain ⟨h1, h2, h3, h4, h5, h6, h7, h8⟩ := psi3_lin ha higa tiny i j k
  have e1 := h1 a b x y; have e2 := h2 a b x y; have e3 := h3 a b x y; have e4 := h4 a b x y
  have e5 := h5 a b x y; have e6 := h6 a b x y; have e7 := h7 a b x y; have e8 := h8 a b x y
  obtain ⟨t1, t2⟩ := ndt3_lin ha higa tiny i j k a b x y x' y'
  have n1 := nfdiv3_lin ha higa tiny ga gb gc G i j k a b x y
  have n2 := nfdiv3_lin ha higa tiny nda ndb ndc G i j k a b x y
  have n3 := nfdivFdiv3_lin ha higa tiny ga gb gc G i j k a b x y
  have n4 := ndxFdiv3_lin ha higa tiny ga gb gc G i j k a b x y
  have n5 := nfdivDt3_lin ha higa tiny ga gb gc G i j k a b x y x' y'
  simp only [antidiff3, div2nd3, div3rd3, div3rdUpwind3, div3rdSpatial3, div3rdSpatialHelper3, div3rdTemporal3, ndxxGC03, ndttGC03, tot3, dfl3, higa, if_true]
  simp only [e1, e2, e3, e4, e5, e6, e7, e8, t1, t2, n1, n2, n3, n4, n5]
  cases si <;> cases te <;> simp only <;> split_ifs <;> ring
end lin
end Mpdata

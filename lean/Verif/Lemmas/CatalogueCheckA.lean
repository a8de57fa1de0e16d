import Verif.Lemmas.CatalogueCheck

/-! # The checks by computation of `Verif.Lemmas.CatalogueCheck` (1 of 3) -/

namespace RT

theorem check1 : catalogue1.length = catalogueTable1.length ∧ (List.zip catalogue1 catalogueTable1).all CatLens.check = true := by decide +kernel
theorem check2 : catalogue2.length = catalogueTable2.length ∧ (List.zip catalogue2 catalogueTable2).all CatLens.check = true := by decide +kernel

end RT

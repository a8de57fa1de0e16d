import Verif.Lemmas.CatalogueCheck

/-! # The checks by computation of `Verif.Lemmas.CatalogueCheck` (2 of 3) -/

namespace RT

theorem check3 : catalogue3.length = catalogueTable3.length ∧ (List.zip catalogue3 catalogueTable3).all CatLens.check = true := by decide +kernel
theorem check4 : catalogue4.length = catalogueTable4.length ∧ (List.zip catalogue4 catalogueTable4).all CatLens.check = true := by decide +kernel

end RT

import Verif.Lemmas.CatalogueCheck

/-! # The checks by computation of `Verif.Lemmas.CatalogueCheck` (3 of 3) -/

namespace RT

theorem check5 : catalogue5.length = catalogueTable5.length ∧ (List.zip catalogue5 catalogueTable5).all CatLens.check = true := by decide +kernel
theorem check6 : catalogue6.length = catalogueTable6.length ∧ (List.zip catalogue6 catalogueTable6).all CatLens.check = true := by decide +kernel
theorem indexRows_ok : indexRows.all (rowOk indexCells) = true := by decide +kernel

end RT

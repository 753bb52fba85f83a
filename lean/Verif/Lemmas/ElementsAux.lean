import Verif.Model.Elements
import Verif.Spec.Elements
import Verif.Lemmas.Dict

/-! # Helper lemmas for `Props/Elements.lean` -/



namespace MaterSDK
theorem numberSpecieTable_eq :
    numberSpecieTable = periodicTable.zipIdx.map (fun p => (p.2, p.1)) := by decide +kernel

theorem specieNumberTable_eq : specieNumberTable = periodicTable.zipIdx := by decide +kernel

theorem periodicTable_nodup : periodicTable.Nodup := by decide +kernel

end MaterSDK

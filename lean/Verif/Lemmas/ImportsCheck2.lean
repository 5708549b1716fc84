import Verif.Lemmas.ImportsTable

namespace Verif.Model.Imports

set_option maxRecDepth 1000000

theorem check_package_false_1 : check ⟨.package, false⟩ .pythoncardx_crypto = true := by decide +kernel
theorem check_package_false_2 : check ⟨.package, false⟩ .pythoncard_security = true := by decide +kernel
theorem check_package_false_3 : (check ⟨.package, false⟩ .pythoncardx_framework_math && check ⟨.package, false⟩ .pythoncardx_external) = true := by decide +kernel
theorem check_package_false_4 : (check ⟨.package, false⟩ .pythoncardx_framework_tlv && check ⟨.package, false⟩ .pythoncard_framework) = true := by decide +kernel
theorem check_package_false_5 : (M.all.filter fun m => m ≠ .pythoncardx_crypto ∧ m ≠ .pythoncard_security ∧ m ≠ .pythoncardx_framework_math ∧
  m ≠ .pythoncardx_external ∧ m ≠ .pythoncardx_framework_tlv ∧ m ≠ .pythoncard_framework).all (check ⟨.package, false⟩) = true := by decide +kernel

theorem check_package_false : M.all.all (check ⟨.package, false⟩) = true := by
  have h3 := check_package_false_3
  have h4 := check_package_false_4
  rw [Bool.and_eq_true] at h3 h4
  exact check_split check_package_false_1 check_package_false_2 h3.1 h3.2 h4.1 h4.2 check_package_false_5

end Verif.Model.Imports

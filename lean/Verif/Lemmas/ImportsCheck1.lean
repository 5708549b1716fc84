import Verif.Lemmas.ImportsTable

namespace Verif.Model.Imports

set_option maxRecDepth 1000000

theorem check_package_true_1 : check ⟨.package, true⟩ .pythoncardx_crypto = true := by decide +kernel
theorem check_package_true_2 : check ⟨.package, true⟩ .pythoncard_security = true := by decide +kernel
theorem check_package_true_3 : (check ⟨.package, true⟩ .pythoncardx_framework_math && check ⟨.package, true⟩ .pythoncardx_external) = true := by decide +kernel
theorem check_package_true_4 : (check ⟨.package, true⟩ .pythoncardx_framework_tlv && check ⟨.package, true⟩ .pythoncard_framework) = true := by decide +kernel
theorem check_package_true_5 : (M.all.filter fun m => m ≠ .pythoncardx_crypto ∧ m ≠ .pythoncard_security ∧ m ≠ .pythoncardx_framework_math ∧
  m ≠ .pythoncardx_external ∧ m ≠ .pythoncardx_framework_tlv ∧ m ≠ .pythoncard_framework).all (check ⟨.package, true⟩) = true := by decide +kernel

theorem check_package_true : M.all.all (check ⟨.package, true⟩) = true := by
  have h3 := check_package_true_3
  have h4 := check_package_true_4
  rw [Bool.and_eq_true] at h3 h4
  exact check_split check_package_true_1 check_package_true_2 h3.1 h3.2 h4.1 h4.2 check_package_true_5

end Verif.Model.Imports

-- imported only so that not all of these computations run at the same time
import Verif.Lemmas.ImportsCheck2

namespace Verif.Model.Imports

set_option maxRecDepth 1000000

theorem check_single_false_1 : check ⟨.single, false⟩ .pythoncardx_crypto = true := by decide +kernel
theorem check_single_false_2 : check ⟨.single, false⟩ .pythoncard_security = true := by decide +kernel
theorem check_single_false_3 : (check ⟨.single, false⟩ .pythoncardx_framework_math && check ⟨.single, false⟩ .pythoncardx_external) = true := by decide +kernel
theorem check_single_false_4 : (check ⟨.single, false⟩ .pythoncardx_framework_tlv && check ⟨.single, false⟩ .pythoncard_framework) = true := by decide +kernel
theorem check_single_false_5 : (M.all.filter fun m => m ≠ .pythoncardx_crypto ∧ m ≠ .pythoncard_security ∧ m ≠ .pythoncardx_framework_math ∧
  m ≠ .pythoncardx_external ∧ m ≠ .pythoncardx_framework_tlv ∧ m ≠ .pythoncard_framework).all (check ⟨.single, false⟩) = true := by decide +kernel

theorem check_single_false : M.all.all (check ⟨.single, false⟩) = true := by
  have h3 := check_single_false_3
  have h4 := check_single_false_4
  rw [Bool.and_eq_true] at h3 h4
  exact check_split check_single_false_1 check_single_false_2 h3.1 h3.2 h4.1 h4.2 check_single_false_5

end Verif.Model.Imports

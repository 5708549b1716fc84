-- imported only so that not all of these computations run at the same time
import Verif.Lemmas.ImportsCheck4

namespace Verif.Model.Imports

set_option maxRecDepth 1000000

theorem check_absent_false_1 : check ⟨.absent, false⟩ .pythoncardx_crypto = true := by decide +kernel
theorem check_absent_false_2 : check ⟨.absent, false⟩ .pythoncard_security = true := by decide +kernel
theorem check_absent_false_3 : (check ⟨.absent, false⟩ .pythoncardx_framework_math && check ⟨.absent, false⟩ .pythoncardx_external) = true := by decide +kernel
theorem check_absent_false_4 : (check ⟨.absent, false⟩ .pythoncardx_framework_tlv && check ⟨.absent, false⟩ .pythoncard_framework) = true := by decide +kernel
theorem check_absent_false_5 : (M.all.filter fun m => m ≠ .pythoncardx_crypto ∧ m ≠ .pythoncard_security ∧ m ≠ .pythoncardx_framework_math ∧
  m ≠ .pythoncardx_external ∧ m ≠ .pythoncardx_framework_tlv ∧ m ≠ .pythoncard_framework).all (check ⟨.absent, false⟩) = true := by decide +kernel

theorem check_absent_false : M.all.all (check ⟨.absent, false⟩) = true := by
  have h3 := check_absent_false_3
  have h4 := check_absent_false_4
  rw [Bool.and_eq_true] at h3 h4
  exact check_split check_absent_false_1 check_absent_false_2 h3.1 h3.2 h4.1 h4.2 check_absent_false_5

end Verif.Model.Imports

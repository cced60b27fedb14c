import Verif.Model.Basic

/-!
# Overflow checks (specification)
-/

namespace Svd.Spec

/-- Two builds of the same program, one that checks arithmetic for overflow and one that does not: either
the checked one stopped because of an overflow, or they end in the same way. -/
def SameUnlessOverflow {α : Type} (checked unchecked : M α) : Prop :=
  checked = .error (.panic .overflow) ∨ unchecked = checked

end Svd.Spec

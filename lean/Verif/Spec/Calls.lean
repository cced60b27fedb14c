/-! # Calling functions one after the other -/

namespace Svd.Spec

/-- The calls in order, starting from `b`. -/
def applyAll {β : Type} (calls : List (β → β)) (b : β) : β := calls.foldl (fun b f => f b) b

end Svd.Spec

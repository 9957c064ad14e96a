import Verif.Basic

/-! # Calls that end -/

namespace Verif.Spec

/-- The call ended with `Ok` or `Err`: no panic, no endless loop. -/
def Ends {α : Type} (r : Res α) : Prop := (∃ a, r = .ok a) ∨ (∃ k, r = .error (.err k))

/-- The call ended with `Err`. -/
def Refused {α : Type} (r : Res α) : Prop := ∃ k, r = .error (.err k)

end Verif.Spec

import Verif.Basic

/-! What a caller sees of a call. Does not mention the model. -/

namespace Verif.Spec

/-- What a call reports, without the object it leaves behind. -/
def outcome {α : Type} (r : Res α) : Res Unit := r.map fun _ => ()

end Verif.Spec

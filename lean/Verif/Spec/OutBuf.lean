import Verif.Basic

/-! What a caller may expect of the buffer `dst` of `encrypt` and `decrypt`. `r` is what `dst` holds after the call and the result of the call. -/

namespace Verif.Spec

/-- A method that should deliver `f`: on success the buffer holds exactly the output and the result is its length; on a failure the result is the error, and
nothing is said of the buffer. -/
def Delivers (r : Bytes × Res Nat) (f : Res Bytes) : Prop :=
  (∀ o, f = .ok o → r = (o, .ok o.length)) ∧ ∀ e, f = .error e → r.2 = .error e

/-- The same, and a failure leaves the buffer `dst` as it was. -/
def DeliversOrKeeps (dst : Bytes) (r : Bytes × Res Nat) (f : Res Bytes) : Prop :=
  (∀ o, f = .ok o → r = (o, .ok o.length)) ∧ ∀ e, f = .error e → r = (dst, .error e)

end Verif.Spec

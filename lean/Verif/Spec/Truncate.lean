import Verif.Basic

/-! C128, C129: a ciphertext that lost its end, or has something at its end that does not belong to it. -/

namespace Verif.Spec

/-- Whatever is encrypted, a ciphertext of which only the first `k` bytes arrive is refused. -/
def TruncationRefused (enc dec : Bytes → Res Bytes) : Prop :=
  ∀ m ct k, enc m = .ok ct → k < ct.length → ∃ e, dec (ct.take k) = .error (.err e)

/-- A ciphertext that decrypts is refused when anything is appended to it. -/
def ExtensionRefused (dec : Bytes → Res Bytes) : Prop :=
  ∀ ct m x, dec ct = .ok m → x ≠ [] → ∃ e, dec (ct ++ x) = .error (.err e)

end Verif.Spec

import Verif.Basic

/-! Specification for C125: the initialization vector with which the second part of a message is processed. -/

namespace Verif.Spec

/-- The last `n` bytes. -/
def lastBytes (n : Nat) (l : Bytes) : Bytes := l.drop (l.length - n)

end Verif.Spec

import Verif.Basic

/-! C130: streams and single calls on the same received bytes. -/

namespace Verif.Spec

/-- A stream takes its input in pieces (the flag says whether ready output is drawn off after a piece); all of them together. -/
def received (ops : List (Bytes × Bool)) : Bytes := (ops.map Prod.fst).flatten

/-- Whatever the stream accepts the single call accepts, with the same message. -/
def StreamThenCall (stream : List (Bytes × Bool) → Res Bytes) (call : Bytes → Res Bytes) : Prop :=
  ∀ ops m, stream ops = .ok m → call (received ops) = .ok m

/-- Whatever the single call accepts the stream accepts, with the same message. -/
def CallThenStream (stream : List (Bytes × Bool) → Res Bytes) (call : Bytes → Res Bytes) : Prop :=
  ∀ ops m, call (received ops) = .ok m → stream ops = .ok m

end Verif.Spec

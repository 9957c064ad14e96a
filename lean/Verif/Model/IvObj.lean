import Verif.Model.CBC
import Verif.Model.CFB
import Verif.Model.OFB
import Verif.Model.InitialVec

/-! Model of the IVs inside CBC, CFB and OFB objects: `new`, `update_iv` and `set_iv` with the object left behind by an error.
The functions on the IV alone are in Model/CBC, Model/CFB, Model/OFB and Model/InitialVec. -/

namespace Verif.Model

/-- Any implementation of the trait `InitialVec`, src/cipher_mode/initial_vec.rs:4-6: from its state and the buffer passed in, the result (`none` for
`Ok(())`, otherwise the kind of the error), the buffer and the state it leaves behind. -/
structure IvSource (ρ : Type) where
  draw : ρ → Bytes → Option ErrKind × Bytes × ρ

/-- The loop of `DefaultInitialVec::initial_vec`, src/cipher_mode/initial_vec.rs:31-43: `n` words to go; an error of the random source ends the call
and leaves the words drawn so far in the buffer, without `truncate`. -/
def defaultLoop {ρ : Type} (gen : ρ → Option (BitVec 32) × ρ) (bs : Nat) : Nat → ρ → Bytes → Option ErrKind × Bytes × ρ
  | 0, r, iv => (none, iv.take bs, r)
  | n + 1, r, iv =>
    match gen r with
    | (some w, r) => defaultLoop gen bs n r (iv ++ be32 w)
    | (none, r) => (some .randError, iv, r)

/-- `DefaultInitialVec::initial_vec`, src/cipher_mode/initial_vec.rs:27-44: the buffer is cleared first. `bs` is the block size recorded by `new` (16-22);
`gen` is the random source, which may fail at any time and go on afterwards. -/
def defaultIv {ρ : Type} (gen : ρ → Option (BitVec 32) × ρ) (bs : Nat) : IvSource ρ :=
  { draw := fun r _ => defaultLoop gen bs ((bs + 3) / 4) r [] }

/-- The fields `cur_iv` and `iv` of a mode object, src/cipher_mode/cbc.rs:15-22, cfb.rs:8-16, ofb.rs:8-14. -/
structure IvObj (ρ : Type) where
  curIv : Bytes
  src : ρ
deriving DecidableEq, Repr

/-- The three modes with an IV. Not code: the types `CBC`, `CFB` and `OFB` of src/cipher_mode/cbc.rs:15, cfb.rs:8, ofb.rs:8. -/
inductive IvMode where
  | cbc | cfb | ofb
deriving DecidableEq, Repr

/-- The check of the buffer in `new`, src/cipher_mode/cbc.rs:33-38, cfb.rs:46-51, ofb.rs:24-29; what `CFB::new` checks before is in `CFB.new`. A failing
`new` consumes the source. -/
def IvObj.new {ρ : Type} (c : BlockCipher) (v : IvSource ρ) (r : ρ) (buf : Bytes) : Res (IvObj ρ) :=
  match v.draw r buf with
  | (some k, _, _) => .error (.err k)
  | (none, iv, r) => if c.blockSize.isSome ∧ iv.length ≠ c.bs then .error (.err .innerErr) else .ok ⟨iv, r⟩

/-- `update_iv`, src/cipher_mode/cbc.rs:51-64, cfb.rs:66-79, ofb.rs:42-52: the result and the object afterwards. The source writes into `cur_iv`, which
keeps what it left there also if the call fails. -/
def IvObj.update {ρ : Type} (m : IvMode) (c : BlockCipher) (v : IvSource ρ) (o : IvObj ρ) : Res Bytes × IvObj ρ :=
  match v.draw o.src o.curIv with
  | (some k, iv, r) => (.error (.err k), ⟨iv, r⟩)
  | (none, iv, r) =>
    (match m with
      | .cbc => CBC.checkIv c (.ok iv)
      | .cfb => CFB.updateIv c (.ok iv)
      | .ofb => OFB.updateIv c (.ok iv), ⟨iv, r⟩)

/-- `set_iv`, src/cipher_mode/cbc.rs:70-81, cfb.rs:85-96, ofb.rs:58-68. -/
def IvObj.set {ρ : Type} (m : IvMode) (c : BlockCipher) (o : IvObj ρ) (iv : Bytes) : Res Unit × IvObj ρ :=
  match (match m with | .cbc => CBC.setIv c iv | .cfb => CFB.setIv c iv | .ofb => OFB.setIv c iv) with
  | .ok iv => (.ok (), { o with curIv := iv })
  | .error e => (.error e, o)

/-- The calls that concern the IV. Not code: names for src/cipher_mode/cbc.rs:51 and 70. -/
inductive IvCall where
  | update
  | set (iv : Bytes)

/-- One call: the IV now in use if it succeeded. A caller of src/cipher_mode/cbc.rs:51-81, cfb.rs:66-96, ofb.rs:42-68. -/
def IvObj.call {ρ : Type} (m : IvMode) (c : BlockCipher) (v : IvSource ρ) (o : IvObj ρ) : IvCall → Res Bytes × IvObj ρ
  | .update => o.update m c v
  | .set iv => let r := o.set m c iv; (r.1.map fun _ => iv, r.2)

/-- A sequence of calls, whatever they return: the results and the object afterwards. A caller of src/cipher_mode/cbc.rs:51-81, cfb.rs:66-96,
ofb.rs:42-68. -/
def IvObj.calls {ρ : Type} (m : IvMode) (c : BlockCipher) (v : IvSource ρ) : IvObj ρ → List IvCall → List (Res Bytes) × IvObj ρ
  | o, [] => ([], o)
  | o, k :: ks =>
    let r := o.call m c v k
    let rs := IvObj.calls m c v r.2 ks
    (r.1 :: rs.1, rs.2)

end Verif.Model

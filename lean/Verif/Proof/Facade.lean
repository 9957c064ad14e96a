import Verif.Model.Facade
import Verif.Spec.Hash
import Verif.Spec.Facade
import Verif.Proof.SHA3

/-! Helper lemmas: an object that forwards every call -/

namespace Verif.Model.Facade

/-- The result of a computation on the inner object, seen on the outer one. -/
def lift {S T : Type} (f : S → T) (r : Res (S × List Bytes)) : Res (T × List Bytes) := r.map fun p => (f p.1, p.2)

/-- If `f` embeds the objects of `d` into those of `D` and `D` forwards all calls, histories are forwarded. -/
theorem run_forward {S T : Type} (d : Digest S) (D : Digest T) (f : S → T)
    (hw : ∀ s x, D.write (f s) x = (d.write s x).map f) (hc : ∀ s, D.checksum (f s) = (d.checksum s).map fun p => (f p.1, p.2))
    (hr : ∀ s, D.reset (f s) = (d.reset s).map f) (ops : List DOp) (s : S) :
    runDigest D (f s) ops = lift f (runDigest d s ops) := by
  induction ops generalizing s with
  | nil => rfl
  | cons op rest ih =>
    cases op with
    | write x =>
      simp only [runDigest, hw]
      cases h : d.write s x with
      | error e => rfl
      | ok s1 => exact ih s1
    | checksum =>
      simp only [runDigest, hc]
      cases h : d.checksum s with
      | error e => rfl
      | ok p =>
        obtain ⟨s1, y⟩ := p
        simp only [Except.map, bind, Except.bind, ih s1, lift]
        cases runDigest d s1 rest with
        | error e => rfl
        | ok q => rfl
    | reset =>
      simp only [runDigest, hr]
      cases h : d.reset s with
      | error e => rfl
      | ok s1 => exact ih s1

theorem run_sha1 (ops : List DOp) (s) : runDigest sha (.sha1 s) ops = lift SHA.sha1 (runDigest SHA1.digest s ops) :=
  run_forward _ _ _ (fun s x => by simp only [sha]; cases SHA1.digest.write s x <;> rfl) (fun s => by simp only [sha]; cases SHA1.digest.checksum s <;> rfl)
    (fun s => by simp only [sha]; cases SHA1.digest.reset s <;> rfl) ops s
theorem run_sha256 (ops : List DOp) (s) : runDigest sha (.sha256 s) ops = lift SHA.sha256 (runDigest SHA2.sha256 s ops) :=
  run_forward _ _ _ (fun s x => by simp only [sha]; cases SHA2.sha256.write s x <;> rfl) (fun s => by simp only [sha]; cases SHA2.sha256.checksum s <;> rfl)
    (fun s => by simp only [sha]; cases SHA2.sha256.reset s <;> rfl) ops s
theorem run_sha224 (ops : List DOp) (s) : runDigest sha (.sha224 s) ops = lift SHA.sha224 (runDigest SHA2.sha224 s ops) :=
  run_forward _ _ _ (fun s x => by simp only [sha]; cases SHA2.sha224.write s x <;> rfl) (fun s => by simp only [sha]; cases SHA2.sha224.checksum s <;> rfl)
    (fun s => by simp only [sha]; cases SHA2.sha224.reset s <;> rfl) ops s
theorem run_sha384 (ops : List DOp) (s) : runDigest sha (.sha384 s) ops = lift SHA.sha384 (runDigest SHA2.sha384 s ops) :=
  run_forward _ _ _ (fun s x => by simp only [sha]; cases SHA2.sha384.write s x <;> rfl) (fun s => by simp only [sha]; cases SHA2.sha384.checksum s <;> rfl)
    (fun s => by simp only [sha]; cases SHA2.sha384.reset s <;> rfl) ops s
theorem run_sha512 (ops : List DOp) (s) : runDigest sha (.sha512 s) ops = lift SHA.sha512 (runDigest SHA2.sha512 s ops) :=
  run_forward _ _ _ (fun s x => by simp only [sha]; cases SHA2.sha512.write s x <;> rfl) (fun s => by simp only [sha]; cases SHA2.sha512.checksum s <;> rfl)
    (fun s => by simp only [sha]; cases SHA2.sha512.reset s <;> rfl) ops s
theorem run_sha512t224 (ops : List DOp) (s) : runDigest sha (.sha512t224 s) ops = lift SHA.sha512t224 (runDigest SHA2.sha512t224 s ops) :=
  run_forward _ _ _ (fun s x => by simp only [sha]; cases SHA2.sha512t224.write s x <;> rfl)
    (fun s => by simp only [sha]; cases SHA2.sha512t224.checksum s <;> rfl) (fun s => by simp only [sha]; cases SHA2.sha512t224.reset s <;> rfl) ops s
theorem run_sha512t256 (ops : List DOp) (s) : runDigest sha (.sha512t256 s) ops = lift SHA.sha512t256 (runDigest SHA2.sha512t256 s ops) :=
  run_forward _ _ _ (fun s x => by simp only [sha]; cases SHA2.sha512t256.write s x <;> rfl)
    (fun s => by simp only [sha]; cases SHA2.sha512t256.checksum s <;> rfl) (fun s => by simp only [sha]; cases SHA2.sha512t256.reset s <;> rfl) ops s
theorem run_sha512t (ops : List DOp) (s) : runDigest sha (.sha512t s) ops = lift SHA.sha512t (runDigest SHA2.digestT s ops) :=
  run_forward _ _ _ (fun s x => by simp only [sha]; cases SHA2.digestT.write s x <;> rfl) (fun s => by simp only [sha]; cases SHA2.digestT.checksum s <;> rfl)
    (fun s => by simp only [sha]; cases SHA2.digestT.reset s <;> rfl) ops s

theorem run3_forward (f : SHA3.State → SHA3T) (hw : ∀ s x, sha3.write (f s) x = (SHA3.write s x).map f)
    (hb : ∀ s b, writeBit (f s) b = (SHA3.writeBit s b).map f) (hc : ∀ s, sha3.checksum (f s) = (SHA3.checksum s).map fun p => (f p.1, p.2))
    (hr : ∀ s, sha3.reset (f s) = (SHA3.reset s).map f) (ops : List SOp) (s : SHA3.State) : run3 (f s) ops = lift f (runSHA3 s ops) := by
  induction ops generalizing s with
  | nil => rfl
  | cons op rest ih =>
    cases op with
    | write x =>
      simp only [run3, runSHA3, hw]
      cases h : SHA3.write s x with
      | error e => rfl
      | ok s1 => exact ih s1
    | writeBit x =>
      simp only [run3, runSHA3, hb]
      cases h : SHA3.writeBit s x with
      | error e => rfl
      | ok s1 => exact ih s1
    | checksum =>
      simp only [run3, runSHA3, hc]
      cases h : SHA3.checksum s with
      | error e => rfl
      | ok p =>
        obtain ⟨s1, y⟩ := p
        simp only [Except.map, bind, Except.bind, ih s1, lift]
        cases runSHA3 s1 rest with
        | error e => rfl
        | ok q => rfl
    | reset =>
      simp only [run3, runSHA3, hr]
      cases h : SHA3.reset s with
      | error e => rfl
      | ok s1 => exact ih s1

theorem run3_sha224 (ops : List SOp) (s) : run3 (.sha224 s) ops = lift SHA3T.sha224 (runSHA3 s ops) :=
  run3_forward _ (fun s x => by simp only [sha3, SHA3.digest]; cases SHA3.write s x <;> rfl) (fun s x => by simp only [writeBit]; cases SHA3.writeBit s x <;> rfl)
    (fun s => by simp only [sha3, SHA3.digest]; cases SHA3.checksum s <;> rfl) (fun s => by simp only [sha3, SHA3.digest]; cases SHA3.reset s <;> rfl) ops s
theorem run3_sha256 (ops : List SOp) (s) : run3 (.sha256 s) ops = lift SHA3T.sha256 (runSHA3 s ops) :=
  run3_forward _ (fun s x => by simp only [sha3, SHA3.digest]; cases SHA3.write s x <;> rfl) (fun s x => by simp only [writeBit]; cases SHA3.writeBit s x <;> rfl)
    (fun s => by simp only [sha3, SHA3.digest]; cases SHA3.checksum s <;> rfl) (fun s => by simp only [sha3, SHA3.digest]; cases SHA3.reset s <;> rfl) ops s
theorem run3_sha384 (ops : List SOp) (s) : run3 (.sha384 s) ops = lift SHA3T.sha384 (runSHA3 s ops) :=
  run3_forward _ (fun s x => by simp only [sha3, SHA3.digest]; cases SHA3.write s x <;> rfl) (fun s x => by simp only [writeBit]; cases SHA3.writeBit s x <;> rfl)
    (fun s => by simp only [sha3, SHA3.digest]; cases SHA3.checksum s <;> rfl) (fun s => by simp only [sha3, SHA3.digest]; cases SHA3.reset s <;> rfl) ops s
theorem run3_sha512 (ops : List SOp) (s) : run3 (.sha512 s) ops = lift SHA3T.sha512 (runSHA3 s ops) :=
  run3_forward _ (fun s x => by simp only [sha3, SHA3.digest]; cases SHA3.write s x <;> rfl) (fun s x => by simp only [writeBit]; cases SHA3.writeBit s x <;> rfl)
    (fun s => by simp only [sha3, SHA3.digest]; cases SHA3.checksum s <;> rfl) (fun s => by simp only [sha3, SHA3.digest]; cases SHA3.reset s <;> rfl) ops s

end Verif.Model.Facade

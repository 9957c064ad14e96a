import Verif.Model.RSA

/-! The blinding step of RSA decryption by itself. -/

namespace Verif.Model.RSA

/-- The blinding step of `decrypt`, rsa.rs:262-286: the number which is handed to the private exponentiation in place of the ciphertext `c`, the inverse of
the blinding factor, and the new state of the random source. -/
def blinded {σ : Type} (g : Rng σ) (fuel : Nat) (pk : PublicKey) (c : Nat) (s : σ) : Res (Nat × Nat × σ) := do
  let (r, ir, s) ← blindLoop g pk.n fuel s
  .ok (powMod r pk.e pk.n * c % pk.n, ir, s)

/-- A source which returns the number `r` when a number below `n` is asked for; everything else does not matter here. It stands for one draw at
rsa.rs:268. -/
def oneDraw (r : Nat) : Rng Unit := { word := fun s => (0#32, s), below := fun _ s => (r, s), prime := fun _ s => (none, s) }

end Verif.Model.RSA

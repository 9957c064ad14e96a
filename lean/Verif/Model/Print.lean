import Verif.Model.DSA
import Verif.Model.Elliptic

/-!
# The texts of keys: `Display` and `Debug` in src/rsa/rsa.rs, src/dsa/dsa.rs and src/elliptic/key_pair.rs

A text is a list of characters. `hx` stands for rmath's `{:#x}` of a number (an external crate), which is a parameter here. In all six types `Debug`
prints the same text as `Display`.
-/

namespace Verif.Model.Print

variable (hx : Nat → List Char) (hb : Elliptic.Big → List Char)

/-- `"` around a text, as `\"{}\"` in a format string. src/rsa/rsa.rs:565. -/
def quoted (t : List Char) : List Char := '"' :: (t ++ ['"'])

/-- `PublicKey` of RSA, rsa.rs:563-573: `{n="..", e:".."}`. -/
def rsaPublic (k : RSA.PublicKey) : List Char :=
  "{n=".toList ++ (quoted (hx k.n) ++ (", e:".toList ++ (quoted (hx k.e) ++ "}".toList)))

/-- `PrivateKey` of RSA, rsa.rs:575-587: `{d: "..", <public key>}`. -/
def rsaPrivate (k : RSA.PrivateKey) : List Char :=
  "{d: ".toList ++ (quoted (hx k.d) ++ (", ".toList ++ (rsaPublic hx k.pk ++ "}".toList)))

/-- `DomainParameters` of DSA, dsa.rs:397-409: `{p: "..", q: "..", g: ".."}`. -/
def dsaDomain (k : DSA.Domain) : List Char :=
  "{p: ".toList ++ (quoted (hx k.p) ++ (", q: ".toList ++ (quoted (hx k.q) ++ (", g: ".toList ++ (quoted (hx k.g) ++ "}".toList)))))

/-- `PublicKey` of DSA, dsa.rs:427-441: `{y: "..", dp: <domain>}`. -/
def dsaPublic (k : DSA.PublicKey) : List Char :=
  "{y: ".toList ++ (quoted (hx k.y) ++ (", dp: ".toList ++ (dsaDomain hx k.dp ++ "}".toList)))

/-- `PrivateKey` of DSA, dsa.rs:459-471: `{x: "..", <public key>}`. -/
def dsaPrivate (k : DSA.PrivateKey) : List Char :=
  "{x: ".toList ++ (quoted (hx k.x) ++ (", ".toList ++ (dsaPublic hx k.pk ++ "}".toList)))

/-- `PublicKey` of ECDSA, key_pair.rs:93-106: `{qx: "..", qy: ".."}`. -/
def ecPublic (k : Elliptic.PublicKey) : List Char :=
  "{qx: ".toList ++ (quoted (hb k.qx) ++ (", qy: ".toList ++ (quoted (hb k.qy) ++ "}".toList)))

/-- `PrivateKey` of ECDSA, key_pair.rs:108-121: `{d: "..", <public key>}`. -/
def ecPrivate (k : Elliptic.PrivateKey) : List Char :=
  "{d: ".toList ++ (quoted (hb k.d) ++ (", ".toList ++ (ecPublic hb k.pk ++ "}".toList)))

end Verif.Model.Print

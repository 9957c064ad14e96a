import Verif.Spec.ZUC

/-!
# What a known piece of key stream says about 128-EIA3 tags

`tagFrom ks m` computes the tag of `m` from the first bytes `ks` of a key stream. It takes no key.
-/

namespace Verif.Spec.ZUC

/-- Word number `n` of a key stream given as bytes. -/
def wordFrom (ks : Bytes) (n : Nat) : BitVec 32 :=
  ofBe32 (ks.getD (4 * n) 0#8) (ks.getD (4 * n + 1) 0#8) (ks.getD (4 * n + 2) 0#8) (ks.getD (4 * n + 3) 0#8)

/-- The 32 bits of the key stream from bit `i` on. -/
def zFrom (ks : Bytes) (i : Nat) : BitVec 32 :=
  (wordFrom ks (i / 32) ++ wordFrom ks (i / 32 + 1)).extractLsb' (32 - i % 32) 32

/-- The tag of `m`: the sum of the `z_i` over the set bits of `m`, and the two masks. -/
def tagFrom (ks m : Bytes) : Bytes :=
  be32 ((List.range (8 * m.length)).foldl (fun t i => if msgBit m i then t ^^^ zFrom ks i else t) 0#32 ^^^ zFrom ks (8 * m.length) ^^^
    zFrom ks (32 * ((8 * m.length + 31) / 32 + 1)))

end Verif.Spec.ZUC

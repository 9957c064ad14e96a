import Verif.Spec.PKCS1

/-! EMSA-PSS verification (RFC 8017 section 9.1.2) with the two numbers of bits it depends on left open. -/

namespace Verif.Spec.PKCS1

/-- The checks of section 9.1.2, steps 3 to 14, on an encoded message `em` of `emLen` bytes: the `need` highest bits of `em` must be zero (step 6), and
the `clear` highest bits of the unmasked data block are not looked at (step 9). In the standard both numbers are `8 * emLen - emBits`. -/
def EmsaPssVerify (H : Bytes → Bytes) (hLen emLen need clear sLen : Nat) (em m : Bytes) : Prop :=
  ∃ maskedDB h salt : Bytes, em = maskedDB ++ h ++ [0xbc#8] ∧ maskedDB.length = emLen - hLen - 1 ∧ h.length = hLen ∧ salt.length = sLen ∧
    clearTop need em = em ∧
    clearTop clear (xorBytes maskedDB (mgf1 H hLen h (emLen - hLen - 1))) = List.replicate (emLen - sLen - hLen - 2) 0x00#8 ++ [0x01#8] ++ salt ∧
    h = H (List.replicate 8 0x00#8 ++ H m ++ salt)

end Verif.Spec.PKCS1

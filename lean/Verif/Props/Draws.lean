import Verif.Proof.Tape
import Verif.Props.ECDSA
import Verif.Props.Elliptic

/-! Property C93: how evenly the secrets of ECDSA are drawn -/

namespace Verif.Props
open Verif.Model Verif.Model.RSA Verif.Tape
open Verif.Model.Elliptic (CurveParams p224 p256 p384 p521)
open Verif.Spec.Elliptic Verif.Model.Elliptic

/-! ## The secret of `auto_generate_key` and of nonces: a number of `b` bytes modulo `n - 1` -/

/-- C93: of the `2^(32 k)` sequences of `k` words a source may yield (`k` is the number of words taken for a secret of the curve), exactly this many give
the secret `d`. So all secrets in `1..n-1` have the same number of sequences up to the factor of one draw in `256^b / (n - 1)`. -/
theorem C93_field_element (c : CurveParams) (n b k : ℕ) (hc : c.n = n) (hn : 2 ≤ n) (hb : b = c.bitSize / 8 + 8) (hk : k = (b + 3) / 4) (d : ℕ)
    (h1 : 1 ≤ d) (h2 : d < n) :
    (Finset.univ.filter fun ws : Fin k → BitVec 32 => (ECDSA.randFieldElement tape c (List.ofFn ws)).1 = d).card =
      256 ^ (4 * k - b) * (256 ^ b / (n - 1) + if d - 1 < 256 ^ b % (n - 1) then 1 else 0) := by
  have hbk : b ≤ 4 * k := by omega
  have e : ∀ ws : Fin k → BitVec 32, (ECDSA.randFieldElement tape c (List.ofFn ws)).1 = d ↔ num ws / 256 ^ (4 * k - b) % (n - 1) = d - 1 := by
    intro ws
    unfold ECDSA.randFieldElement
    dsimp only
    rw [Nat.shiftRight_eq_div_pow, Nat.shiftRight_eq_div_pow, show 2 ^ 3 = 8 from rfl, show 2 ^ 2 = 4 from rfl, ← hb, ← hk,
      show drawWords tape k (List.ofFn ws) = ((List.ofFn ws).flatMap be32, []) by
        have := drawWords_tape (List.ofFn ws)
        rwa [List.length_ofFn] at this]
    dsimp only
    rw [ECDSA.randField_eq hn hc, beNat_take, length_words, List.length_ofFn, Nat.cast_inj]
    show num ws / _ % _ + 1 = d ↔ _
    omega
  simp only [e]
  rw [card_num k (fun N => N / 256 ^ (4 * k - b) % (n - 1) = d - 1), show 256 ^ (4 * k) = 256 ^ b * 256 ^ (4 * k - b) by
    rw [← pow_add]; congr 1; omega]
  rw [count_div (fun N => N % (n - 1) = d - 1) _ (by positivity), count_mod _ _ (by omega)]

/-- FIPS 186-4, B.4.1 asks for a number 64 bits longer than the order before it is reduced; this is the margin between the draw and the order. -/
def margin (c : CurveParams) : ℕ := 8 * (c.bitSize / 8 + 8) - bitsLen c.n.toNat

/-- C93: three of the named curves have the margin of FIPS 186-4. -/
theorem C93_margin : margin p224 = 64 ∧ margin p256 = 64 ∧ margin p384 = 64 := by
  have h1 : bitsLen p224.n.toNat = 224 := size_eq _ 223 (by decide +kernel) (by decide +kernel)
  have h2 : bitsLen p256.n.toNat = 256 := size_eq _ 255 (by decide +kernel) (by decide +kernel)
  have h3 : bitsLen p384.n.toNat = 384 := size_eq _ 383 (by decide +kernel) (by decide +kernel)
  unfold margin
  rw [h1, h2, h3]
  decide

/-- C93 fails for P-521, whose field size is given as 512 bits (C55): the margin is 55 bits. -/
theorem C93_margin_p521_refuted : margin p521 = 55 := by
  have h1 : bitsLen p521.n.toNat = 521 := size_eq _ 520 (by decide +kernel) (by decide +kernel)
  unfold margin
  rw [h1]
  decide

/-! ## The secret of `generate_key`: rejection -/

open Classical in
/-- C93: the first round of `generate_key` is exactly even: of the sequences of words it may draw, every secret in `0..n-1` is returned for the same number,
`2^(32 k)` divided by the power of two next above the order. (A round that fails is followed by another one.) -/
theorem C93_generate_key (c : CurveParams) (p : ℕ) [Fact p.Prime] (hc : c.p = p) (hv : ValidCurve p c.b) (G : Point p c.b)
    (hG : Encodes p c.b c.gx c.gy G) (n bits k : ℕ) (hn : c.n = n) (hb : bits = bitsLen n) (hb9 : 9 ≤ bits) (hk : k = ((bits + 7) / 8 + 3) / 4)
    (d : ℕ) (hd : d < n) :
    (Finset.univ.filter fun ws : Fin k → BitVec 32 =>
      ∃ sk s', Elliptic.generateKey tape c 1 (List.ofFn ws) = .ok (sk, s') ∧ sk.d = some (d : ℤ)).card = 2 ^ (32 * k - bits) := by
  have hbn : n < 2 ^ bits := by rw [hb]; exact Nat.lt_size_self n
  have e : ∀ ws : Fin k → BitVec 32, (∃ sk s', Elliptic.generateKey tape c 1 (List.ofFn ws) = .ok (sk, s') ∧ sk.d = some (d : ℤ)) ↔
      num ws / 256 ^ (4 * k - (bits + 7) / 8) % 2 ^ bits = flip (256 ^ ((bits + 7) / 8 - 2)) d := by
    intro ws
    have hdraw : drawWords tape (((bits + 7) / 8 + 3) / 4) (List.ofFn ws) = ((List.ofFn ws).flatMap be32, []) := by
      have := drawWords_tape (List.ofFn ws)
      rw [List.length_ofFn] at this
      rw [← hk]
      exact this
    obtain ⟨key, e1, e2⟩ := keyBytes_num tape bits hb9 _ _ _ hdraw (by rw [length_words, List.length_ofFn]; omega)
    rw [beNat_take, length_words, List.length_ofFn] at e2
    have hK : 0 < 256 ^ ((bits + 7) / 8 - 2) := by positivity
    have e3 : beNat key = d ↔ num ws / 256 ^ (4 * k - (bits + 7) / 8) % 2 ^ bits = flip (256 ^ ((bits + 7) / 8 - 2)) d := by
      rw [e2]
      constructor
      · intro h; rw [← h, flip_flip hK]; rfl
      · intro h; rw [show beNat ((List.ofFn ws).flatMap be32) = num ws from rfl, h, flip_flip hK]
    rw [← e3]
    have hbits : bitsLen c.n.toNat = bits := by rw [hn, hb, Int.toNat_natCast]
    obtain ⟨x, y, e4, -, -⟩ := scalarInner_ok hv hG key
    rw [← hc] at e4
    constructor
    · rintro ⟨sk, s', h1, h2⟩
      rw [Elliptic.generateKey, hbits, e1] at h1
      simp only [bind, Except.bind] at h1
      split at h1
      · rw [e4] at h1
        simp only [Except.ok.injEq, Prod.mk.injEq] at h1
        rw [← h1.1] at h2
        simpa using h2
      · cases h1
    · intro h
      refine ⟨_, _, generateKey_first tape c 0 _ (by rw [hbits]; exact e1) (by rw [h, hn]; exact_mod_cast hd) e4, ?_⟩
      rw [h]
  simp only [e]
  have hp : 2 ^ bits = 2 ^ (bits - 8 * ((bits + 7) / 8 - 1)) * (256 * 256 ^ ((bits + 7) / 8 - 2)) := by
    rw [show (256 : ℕ) * 256 ^ ((bits + 7) / 8 - 2) = 256 ^ ((bits + 7) / 8 - 1) by rw [← pow_succ']; congr 1; omega,
      show (256 : ℕ) = 2 ^ 8 by norm_num, ← pow_mul, ← pow_add]
    congr 1; omega
  have hf : flip (256 ^ ((bits + 7) / 8 - 2)) d < 2 ^ bits := by
    rw [hp]
    exact flip_lt (by positivity) (by rw [← hp]; omega)
  rw [card_num k (fun N => N / 256 ^ (4 * k - (bits + 7) / 8) % 2 ^ bits = flip (256 ^ ((bits + 7) / 8 - 2)) d),
    show 256 ^ (4 * k) = 256 ^ ((bits + 7) / 8) * 256 ^ (4 * k - (bits + 7) / 8) by rw [← pow_add]; congr 1; omega,
    count_div (fun N => N % 2 ^ bits = flip (256 ^ ((bits + 7) / 8 - 2)) d) _ (by positivity), count_mod _ _ hf,
    show 256 ^ ((bits + 7) / 8) = 2 ^ bits * 2 ^ (8 * ((bits + 7) / 8) - bits) by
      rw [show (256 : ℕ) = 2 ^ 8 by norm_num, ← pow_mul, ← pow_add]; congr 1; omega]
  rw [Nat.mul_mod_right, Nat.mul_div_cancel_left _ (by positivity), if_neg (by omega)]
  simp only [Nat.add_zero]
  rw [show (256 : ℕ) = 2 ^ 8 by norm_num, ← pow_mul, ← pow_add]
  congr 1; omega

/-- The hypotheses are met: the secret 1 of P-256 from 10 words, and the secret 0 of `generate_key` from 8 words (one sequence, see `C54_zero_refuted`). -/
example : (Finset.univ.filter fun ws : Fin 10 → BitVec 32 => (ECDSA.randFieldElement tape p256 (List.ofFn ws)).1 = (1 : ℕ)).card =
    256 ^ (4 * 10 - 40) * (256 ^ 40 / (p256.n.toNat - 1) + 1) := by
  rw [C93_field_element p256 p256.n.toNat 40 10 (by decide) (by decide) (by decide) (by decide) 1 (le_refl _) (by decide), if_pos (by decide +kernel)]

open Classical in
example : (Finset.univ.filter fun ws : Fin 8 → BitVec 32 =>
    ∃ sk s', Elliptic.generateKey tape p256 1 (List.ofFn ws) = .ok (sk, s') ∧ sk.d = some ((0 : ℕ) : ℤ)).card = 1 := by
  have hb : bitsLen p256.n.toNat = 256 := size_eq _ 255 (by decide +kernel) (by decide +kernel)
  have hpf : Fact (Nat.Prime 115792089210356248762697446949407573530086143415290314195533631308867097853951) := ⟨CurvePrimes.prime_p256⟩
  obtain ⟨G, -, hG⟩ := (C52_on_curve p256 _ rfl valid_p256 p256.gx p256.gy).1 (by decide +kernel)
  exact C93_generate_key p256 _ rfl valid_p256 G hG p256.n.toNat 256 8 (by decide) hb.symm (by decide) (by decide) 0 (by decide)

end Verif.Props

import Verif.Spec.Elliptic
import Verif.Proof.CurvePrimes
import Mathlib.FieldTheory.Finite.Basic
import Mathlib.GroupTheory.Perm.Cycle.Type
import Mathlib.Tactic.LinearCombination
import Mathlib.Tactic.Linarith

/-! The number of points of a curve, from the order of one point. -/

namespace Verif.CurveOrder
open Verif.Spec.Elliptic WeierstrassCurve

section
variable {p : ℕ} [hp : Fact p.Prime] {b : ℤ}

theorem eq_of_point {x y : ZMod p} (h : (curve (b : ZMod p)).Nonsingular x y) : y ^ 2 = x ^ 3 - 3 * x + b := by
  have := (Affine.equation_iff _ _).1 h.1
  simp only [curve] at this
  linear_combination this

/-- At most two points with the same first coordinate: the sign of the second tells them apart. -/
def code : Point p b → Option (ZMod p × Bool)
  | .zero => none
  | .some x y _ => some (x, decide (y.val ≤ (p - 1) / 2))

theorem code_inj (h2 : 2 < p) : Function.Injective (code : Point p b → _) := by
  intro P Q h
  cases P with
  | zero =>
    cases Q with
    | zero => rfl
    | some x y h' => exact absurd h (by simp [code])
  | some x y h' =>
    cases Q with
    | zero => exact absurd h (by simp [code])
    | some x' y' h'' =>
      simp only [code, Option.some.injEq, Prod.mk.injEq] at h
      obtain ⟨rfl, hy⟩ := h
      have e : (y - y') * (y + y') = 0 := by linear_combination eq_of_point h' - eq_of_point h''
      have hy' : y = y' := by
        rcases mul_eq_zero.1 e with e | e
        · linear_combination e
        · by_contra hne
          have hy0 : y' ≠ 0 := by
            rintro rfl
            exact hne (by linear_combination e)
          have e' : y = -y' := by linear_combination e
          have hodd : p % 2 = 1 := hp.out.eq_two_or_odd.resolve_left (by omega)
          have : NeZero y' := ⟨hy0⟩
          rw [e', ZMod.val_neg_of_ne_zero, decide_eq_decide] at hy
          have h1 := ZMod.val_lt y'
          have h3 : y'.val ≠ 0 := by rwa [Ne, ZMod.val_eq_zero]
          omega
      subst hy'
      rfl

theorem finite_point (h2 : 2 < p) : Finite (Point p b) := Finite.of_injective code (code_inj h2)

theorem card_le (h2 : 2 < p) : Nat.card (Point p b) ≤ 2 * p + 1 := by
  have h := Nat.card_le_card_of_injective (code : Point p b → _) (code_inj h2)
  rw [Nat.card_eq_fintype_card (α := Option (ZMod p × Bool)), Fintype.card_option, Fintype.card_prod, ZMod.card, Fintype.card_bool] at h
  omega

/-- If one point has a prime order more than a third of the greatest possible number of points, and there is no point of order two, then there are no
other points than its multiples. -/
theorem card_eq {n : ℕ} (h2 : 2 < p) (hb : 2 * p + 1 < 3 * n) (hr : ∀ x : ZMod p, x ^ 3 - 3 * x + b ≠ 0) {G : Point p b} (hG : addOrderOf G = n) :
    Nat.card (Point p b) = n := by
  have := finite_point (b := b) h2
  obtain ⟨k, hk⟩ : n ∣ Nat.card (Point p b) := hG ▸ addOrderOf_dvd_natCard G
  have hle := card_le (b := b) h2
  have hpos : 0 < Nat.card (Point p b) := Nat.card_pos
  have hk3 : k < 3 := by
    by_contra h
    have : n * 3 ≤ n * k := Nat.mul_le_mul_left _ (by omega)
    omega
  have hk0 : k ≠ 0 := by rintro rfl; omega
  have hk2 : k ≠ 2 := by
    rintro rfl
    have : Fact (Nat.Prime 2) := ⟨Nat.prime_two⟩
    obtain ⟨P, hP⟩ := exists_prime_addOrderOf_dvd_card' (G := Point p b) 2 ⟨n, by omega⟩
    have hP0 : P ≠ 0 := by
      rintro rfl
      rw [addOrderOf_zero] at hP
      omega
    have hPP : P = -P := by
      have := addOrderOf_nsmul_eq_zero P
      rw [hP, two_nsmul] at this
      exact eq_neg_of_add_eq_zero_left this
    cases P with
    | zero => exact hP0 rfl
    | some x y h =>
      rw [Affine.Point.neg_some] at hPP
      simp only [Affine.Point.some.injEq, true_and] at hPP
      have hy : y = 0 := by
        simp only [Affine.negY, curve] at hPP
        have h20 : (2 : ZMod p) ≠ 0 := by
          intro h
          have := (ZMod.natCast_eq_zero_iff 2 p).1 (by exact_mod_cast h)
          have := Nat.le_of_dvd (by norm_num) this
          omega
        have : 2 * y = 0 := by linear_combination hPP
        exact (mul_eq_zero.1 this).resolve_left h20
      have := eq_of_point h
      rw [hy] at this
      exact hr x (by linear_combination -this)
  have : k = 1 := by omega
  rw [hk, this, Nat.mul_one]

theorem nsmul_zero_of_card {n : ℕ} (h : Nat.card (Point p b) = n) (P : Point p b) : n • P = 0 := by
  rw [← h]
  exact card_nsmul_eq_zero'

/-! ### No root -/

/-- A polynomial of degree at most two, lowest coefficient first. -/
abbrev Quad := ℕ × ℕ × ℕ

/-- The product modulo `x³ - 3x - c`. -/
def mulq (p c : ℕ) (u v : Quad) : Quad :=
  ((u.1 * v.1 + c * (u.2.1 * v.2.2 + u.2.2 * v.2.1)) % p,
    (u.1 * v.2.1 + u.2.1 * v.1 + 3 * (u.2.1 * v.2.2 + u.2.2 * v.2.1) + c * (u.2.2 * v.2.2)) % p,
    (u.1 * v.2.2 + u.2.1 * v.2.1 + u.2.2 * v.1 + 3 * (u.2.2 * v.2.2)) % p)

/-- The value. -/
def value (p : ℕ) (x : ZMod p) (u : Quad) : ZMod p := u.1 + u.2.1 * x + u.2.2 * x ^ 2

theorem mulq_value {c : ℕ} {x : ZMod p} (hx : x ^ 3 = 3 * x + c) (u v : Quad) : value p x (mulq p c u v) = value p x u * value p x v := by
  unfold value mulq
  simp only [ZMod.natCast_mod]
  push_cast
  linear_combination (-(u.2.1 * v.2.2 + u.2.2 * v.2.1 : ZMod p) - u.2.2 * v.2.2 * x) * hx

/-- The power of `x`, `n` bits of the exponent. -/
def powq (p c e : ℕ) : ℕ → Quad
  | 0 => (1, 0, 0)
  | n + 1 =>
    let a := powq p c (e / 2) n
    let d := mulq p c a a
    if e % 2 = 1 then mulq p c d (0, 1, 0) else d

theorem powq_value {c : ℕ} {x : ZMod p} (hx : x ^ 3 = 3 * x + c) : ∀ n e, e < 2 ^ n → value p x (powq p c e n) = x ^ e
  | 0, e, h => by
    have : e = 0 := by simpa using h
    subst this
    simp [powq, value]
  | n + 1, e, h => by
    have ih := powq_value hx n (e / 2) (by rw [pow_succ] at h; omega)
    have hX : value p x (0, 1, 0) = x := by simp [value]
    unfold powq
    dsimp only
    split
    · next ho => rw [mulq_value hx, mulq_value hx, ih, hX, ← pow_add, ← pow_succ, show e / 2 + e / 2 + 1 = e by omega]
    · next ho => rw [mulq_value hx, ih, ← pow_add, show e / 2 + e / 2 = e by omega]

/-- A root would be fixed by the Frobenius map, but `x^p - x` has an inverse modulo the cubic. -/
theorem no_root {c n : ℕ} (hc : ((b : ℤ) : ZMod p) = -c) (hn : p < 2 ^ n) (v : Quad)
    (h : (fun r : Quad => mulq p c v (r.1, r.2.1 + (p - 1), r.2.2)) (powq p c p n) = (1, 0, 0)) (x : ZMod p) : x ^ 3 - 3 * x + b ≠ 0 := by
  intro h0
  have hx : x ^ 3 = 3 * x + c := by rw [hc] at h0; linear_combination h0
  have hv := congrArg (value p x) h
  dsimp only at hv
  have hpow := powq_value hx n p hn
  generalize powq p c p n = r at *
  rw [mulq_value hx] at hv
  have e : value p x (r.1, r.2.1 + (p - 1), r.2.2) = value p x r - x := by
    unfold value
    rw [Nat.cast_add, Nat.cast_sub hp.out.one_le, ZMod.natCast_self]
    push_cast
    ring
  rw [e, hpow, ZMod.pow_card, sub_self, mul_zero] at hv
  unfold value at hv
  simp at hv

end

theorem no_root_224 : ∀ x : ZMod 26959946667150639794667015087019630673557916260026308143510066298881, x ^ 3 - 3 * x + ((18958286285566608000408668544493926415504680968679321075787234672564 : ℤ) : ZMod 26959946667150639794667015087019630673557916260026308143510066298881) ≠ 0 :=
  have : Fact (Nat.Prime 26959946667150639794667015087019630673557916260026308143510066298881) := ⟨CurvePrimes.prime_p224⟩
  no_root (c := 8001660381584031794258346542525704258053235291346987067722831626317) (n := 224) (by
    rw [← Int.cast_natCast, ← Int.cast_neg, ZMod.intCast_eq_intCast_iff]
    decide +kernel) (by decide +kernel)
    (1261710631285627074303005901530361786216288604486499842249704943048, 4447412785031720342771701563499662000791675740805516550464163634437, 9439789507511725786058244597052783711805086828869674293526675889612)
    (by decide +kernel)

theorem no_root_256 : ∀ x : ZMod 115792089210356248762697446949407573530086143415290314195533631308867097853951, x ^ 3 - 3 * x + ((41058363725152142129326129780047268409114441015993725554835256314039467401291 : ℤ) : ZMod 115792089210356248762697446949407573530086143415290314195533631308867097853951) ≠ 0 :=
  have : Fact (Nat.Prime 115792089210356248762697446949407573530086143415290314195533631308867097853951) := ⟨CurvePrimes.prime_p256⟩
  no_root (c := 74733725485204106633371317169360305120971702399296588640698374994827630452660) (n := 256) (by
    rw [← Int.cast_natCast, ← Int.cast_neg, ZMod.intCast_eq_intCast_iff]
    decide +kernel) (by decide +kernel)
    (76626890310466861426869089647039036757962535851890885406097439786770458211455, 74462945259064871768191128030512052509059297803194871526163573358218695456204, 34768139465301476436978405170953382516735956999154666452188405812258086013549)
    (by decide +kernel)

theorem no_root_384 : ∀ x : ZMod 39402006196394479212279040100143613805079739270465446667948293404245721771496870329047266088258938001861606973112319, x ^ 3 - 3 * x + ((27580193559959705877849011840389048093056905856361568521428707301988689241309860865136260764883745107765439761230575 : ℤ) : ZMod 39402006196394479212279040100143613805079739270465446667948293404245721771496870329047266088258938001861606973112319) ≠ 0 :=
  have : Fact (Nat.Prime 39402006196394479212279040100143613805079739270465446667948293404245721771496870329047266088258938001861606973112319) := ⟨CurvePrimes.prime_p384⟩
  no_root (c := 11821812636434773334430028259754565712022833414103878146519586102257032530187009463911005323375192894096167211881744) (n := 384) (by
    rw [← Int.cast_natCast, ← Int.cast_neg, ZMod.intCast_eq_intCast_iff]
    decide +kernel) (by decide +kernel)
    (23037766613497683937702734290281044719364893268180251583910224888989381657771069200037813904257325918671976092329602, 8235438212423615602427778915669574859600037698862346933589434399495169446996583974901273360826717582835190849638831, 12157362177932134139146813183752135342286725243554133716818896354380897714709611791313184492360272402950851405460538)
    (by decide +kernel)

theorem no_root_521 : ∀ x : ZMod 6864797660130609714981900799081393217269435300143305409394463459185543183397656052122559640661454554977296311391480858037121987999716643812574028291115057151, x ^ 3 - 3 * x + ((1093849038073734274511112390766805569936207598951683748994586394495953116150735016013708737573759623248592132296706313309438452531591012912142327488478985984 : ℤ) : ZMod 6864797660130609714981900799081393217269435300143305409394463459185543183397656052122559640661454554977296311391480858037121987999716643812574028291115057151) ≠ 0 :=
  have : Fact (Nat.Prime 6864797660130609714981900799081393217269435300143305409394463459185543183397656052122559640661454554977296311391480858037121987999716643812574028291115057151) := ⟨CurvePrimes.prime_p521⟩
  no_root (c := 5770948622056875440470788408314587647333227701191621660399877064689590067246921036108850903087694931728704179094774544727683535468125630900431700802636071167) (n := 521) (by
    rw [← Int.cast_natCast, ← Int.cast_neg, ZMod.intCast_eq_intCast_iff]
    decide +kernel) (by decide +kernel)
    (5556850081864827842302249485475501585472702946772625307642304195702912034363837867267334216347521692509406916620096684956176894315447091116492501000392161958, 2592645775458497527836362227091103884154287512470494672274301275565663408730650270660448980645397363205839490313252565391972848223674401530161387302727484004, 3919380404691066388712376322317341026252002696138380915147944189379687824774581460974855590730258562532022938584569429027963361353339635641909491533809725330)
    (by decide +kernel)

end Verif.CurveOrder

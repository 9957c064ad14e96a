import Verif.Props.Elliptic
import Verif.Proof.CurveOrder

/-! Property C55, continued: the group of each named curve has exactly `n` points -/

namespace Verif.Props
open Verif.Model Verif.Model.Elliptic Verif.Spec.Elliptic

/-- The cofactor is one: the curve has `n` points, so that `n` times any point is infinity and any point is a multiple of the base point. -/
def FullOrder (c : CurveParams) : Prop :=
  ∃ (p : ℕ) (_ : Fact p.Prime), c.p = p ∧ ValidCurve p c.b ∧ (Nat.card (Point p c.b) : ℤ) = c.n ∧ (∀ P : Point p c.b, c.n.toNat • P = 0) ∧
    ∀ G : Point p c.b, Encodes p c.b c.gx c.gy G → ∀ P : Point p c.b, ∃ k < c.n.toNat, P = k • G

theorem encodes_inj {p : ℕ} [Fact p.Prime] {b x y : ℤ} (hv : ValidCurve p b) {P Q : Point p b} (hP : Encodes p b x y P) (hQ : Encodes p b x y Q) : P = Q := by
  rcases hP with ⟨rfl, rfl, h0⟩ | ⟨hn, h1⟩ <;> rcases hQ with ⟨e1, e2, h0'⟩ | ⟨hn', h1'⟩
  · rw [h0, h0']
  · rcases not_zero_zero hv hn' with h | h <;> exact absurd rfl h
  · subst e1 e2
    rcases not_zero_zero hv hn with h | h <;> exact absurd rfl h
  · rw [h1, h1']

theorem full_of (c : CurveParams) (p : ℕ) (hc : c.p = p) (hg : GoodCurve c) (hb : 2 * (p : ℤ) + 1 < 3 * c.n) (hr : ∀ x : ZMod p, x ^ 3 - 3 * x + (c.b : ZMod p) ≠ 0) :
    FullOrder c := by
  obtain ⟨p', n, hf, h1, h2, h3, h4, G, h5, h6⟩ := hg
  have : p' = p := by
    rw [hc] at h1
    exact_mod_cast h1.symm
  subst this
  have h3p := h4.three_lt
  have hcard := CurveOrder.card_eq (p := p') (b := c.b) (by omega) (by rw [h2] at hb; exact_mod_cast hb) hr h6
  refine ⟨p', hf, hc, h4, by rw [hcard, h2], ?_, ?_⟩
  · intro P
    rw [h2, Int.toNat_natCast]
    exact CurveOrder.nsmul_zero_of_card hcard P
  · intro G' hG' P
    have hGG : G' = G := encodes_inj h4 hG' h5
    subst hGG
    have hfin := CurveOrder.finite_point (p := p') (b := c.b) (by omega)
    have hm : P ∈ AddSubgroup.zmultiples G' := by
      have htop : AddSubgroup.zmultiples G' = ⊤ := AddSubgroup.eq_top_of_card_eq _ (by rw [Nat.card_zmultiples, h6, hcard])
      rw [htop]
      trivial
    rw [mem_zmultiples_iff_mem_range_addOrderOf, Finset.mem_image] at hm
    obtain ⟨k, hk, e⟩ := hm
    refine ⟨k, ?_, e.symm⟩
    rw [h2, Int.toNat_natCast, ← h6]
    exact Finset.mem_range.1 hk

/-- C55: P-224 has exactly `n` points. -/
theorem C55_order_p224 : FullOrder p224 := full_of p224 _ rfl C55_p224 (by decide +kernel) CurveOrder.no_root_224

/-- C55: P-256 has exactly `n` points. -/
theorem C55_order_p256 : FullOrder p256 := full_of p256 _ rfl C55_p256 (by decide +kernel) CurveOrder.no_root_256

/-- C55: P-384 has exactly `n` points. -/
theorem C55_order_p384 : FullOrder p384 := full_of p384 _ rfl C55_p384 (by decide +kernel) CurveOrder.no_root_384

/-- C55: P-521 has exactly `n` points. -/
theorem C55_order_p521 : FullOrder p521 := full_of p521 _ rfl C55_p521 (by decide +kernel) CurveOrder.no_root_521

/-- C55: so `n` works as the order in the API: on each of the four curves, for every point that `is_on_curve` accepts, `scalar` by `n` gives infinity and
`scalar` by `k` and by `k % n` give the same coordinates. -/
theorem C55_scalar_mod (c : CurveParams) (hc : c ∈ [p224, p256, p384, p521]) (x y : ℤ) (h : Elliptic.isOnCurve c (some x) (some y) = true) (k : ℕ) :
    Elliptic.scalar c (some x) (some y) (some c.n.toNat) = (some 0, some 0) ∧
      Elliptic.scalar c (some x) (some y) (some k) = Elliptic.scalar c (some x) (some y) (some (k % c.n.toNat)) := by
  have hf : FullOrder c := by
    simp only [List.mem_cons, List.not_mem_nil, or_false] at hc
    rcases hc with rfl | rfl | rfl | rfl
    · exact C55_order_p224
    · exact C55_order_p256
    · exact C55_order_p384
    · exact C55_order_p521
  obtain ⟨p, hp, h1, hv, -, h2, -⟩ := hf
  obtain ⟨P, -, hP⟩ := (C52_on_curve c p h1 hv x y).1 h
  obtain ⟨x1, y1, e1, k1, r1⟩ := C52_scalar c p h1 hv x y P hP c.n.toNat
  obtain ⟨x2, y2, e2, k2, r2⟩ := C52_scalar c p h1 hv x y P hP k
  obtain ⟨x3, y3, e3, k3, r3⟩ := C52_scalar c p h1 hv x y P hP (k % c.n.toNat)
  have hk : k • P = (k % c.n.toNat) • P := by
    conv_lhs => rw [← Nat.div_add_mod k c.n.toNat, add_nsmul, mul_nsmul, h2, nsmul_zero, zero_add]
  refine ⟨?_, ?_⟩
  · rw [h2] at k1
    have := (C52_infinity c p hv x1 y1 0 k1).2 rfl
    rw [e1, this.1, this.2]
  · rw [e2, e3]
    rw [hk] at k2
    have := C52_unique c p x2 y2 x3 y3 _ k2 k3 r2 r3
    rw [this.1, this.2]

/-- The base point of P-384 is such a point. -/
example : Elliptic.isOnCurve p384 (some p384.gx) (some p384.gy) = true := by decide +kernel

end Verif.Props

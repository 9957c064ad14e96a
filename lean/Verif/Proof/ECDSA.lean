import Verif.Model.ECDSA
import Verif.Spec.ECDSA
import Verif.Proof.Elliptic
import Verif.Proof.DSA
import Verif.Proof.CTR
import Verif.Props.AES
import Mathlib.GroupTheory.OrderOfElement

/-! Lemmas about ECDSA. -/

namespace Verif.Model.ECDSA
open Verif.Model.RSA (Rng powMod modInv bitsLen hashParts drawWords natBytes)
open Verif.Model.DSA (SigContent ofBeBytes)
open Verif.Model.Elliptic (Big CurveParams EllipticCurve PublicKey PrivateKey KeyPair)
open Verif.Spec.Elliptic Verif.Spec.ECDSA

/-- The group that a curve object works in. -/
structure Setting (c : CurveParams) (p n : ℕ) [Fact p.Prime] (G : Point p c.b) : Prop where
  p_eq : c.p = p
  n_eq : c.n = n
  prime : n.Prime
  two_lt : 2 < n
  valid : ValidCurve p c.b
  base : Encodes p c.b c.gx c.gy G
  order : addOrderOf G = n

section
variable {c : CurveParams} {p n : ℕ} [hpf : Fact p.Prime] {G : Point p c.b}

theorem randField_eq (hn : 2 ≤ n) (hc : c.n = n) (buf : Bytes) : randFieldElementInner c buf = (beNat buf % (n - 1) + 1 : ℕ) := by
  simp only [randFieldElementInner, hc]
  push_cast
  rw [Nat.cast_sub (by omega)]
  rfl

/-- The hash number. -/
theorem hashToBigint_eq (hc : c.n = n) {hash : Bytes} (h : hash ≠ []) (hn : 0 < n) : hashToBigint c hash = some (hashNumber n hash : ℤ) := by
  have hsz : bitsLen c.n.natAbs = Nat.size n := by rw [hc]; rfl
  have hs0 : 0 < Nat.size n := Nat.size_pos.2 hn
  unfold hashToBigint
  simp only [hsz, Nat.shiftRight_eq_div_pow]
  have key : ∀ t : Bytes, t ≠ [] → (ofBeBytes t).map (fun ret => ((if (t.length <<< 3) - Nat.size n > 0 then
      ret / 2 ^ ((t.length <<< 3) - Nat.size n) else ret : ℕ) : ℤ)) = some ((beNat t / 2 ^ (8 * t.length - Nat.size n) : ℕ) : ℤ) := by
    intro t ht
    have e : t.length <<< 3 = 8 * t.length := by rw [Nat.shiftLeft_eq]; omega
    unfold ofBeBytes
    rw [if_neg (by simpa using ht), e, Option.map_some]
    split
    · rfl
    · next h0 => rw [show 8 * t.length - Nat.size n = 0 by omega, pow_zero, Nat.div_one]
  split
  · next hl =>
    rw [key _ (by
      intro h0
      have := congrArg List.length h0
      rw [List.length_take, List.length_nil] at this
      omega)]
    have hlen : (hash.take ((Nat.size n + 7) / 2 ^ 3)).length = (Nat.size n + 7) / 2 ^ 3 := by
      rw [List.length_take]; omega
    rw [hlen]
    congr 2
    unfold hashNumber
    generalize hm : (Nat.size n + 7) / 2 ^ 3 = m at *
    have hsplit : beNat hash = beNat (hash.take m) * 256 ^ (hash.length - m) + beNat (hash.drop m) := by
      conv_lhs => rw [← List.take_append_drop m hash]
      rw [RSA.beNat_append, List.length_drop]
    have hlt : beNat (hash.drop m) < 256 ^ (hash.length - m) := by
      have := beNat_lt (hash.drop m)
      rwa [List.length_drop] at this
    rw [show 8 * hash.length - Nat.size n = 8 * (hash.length - m) + (8 * m - Nat.size n) by omega, pow_add, pow_mul, ← Nat.div_div_eq_div_mul, hsplit]
    congr 1
    rw [show (2 ^ 8 : ℕ) = 256 by norm_num, Nat.add_comm, Nat.add_mul_div_right _ _ (by positivity), Nat.div_eq_of_lt hlt, Nat.zero_add]
  · exact key hash h

/-- Coordinates of a point. -/
theorem xNumber_of {x y : ℤ} {P : Point p c.b} (h : Encodes p c.b x y P) (hr : Reduced p x y) : (P = 0 ∧ x = 0 ∧ y = 0) ∨ xNumber P = some x.toNat := by
  rcases h with ⟨rfl, rfl, h0⟩ | ⟨hn, rfl⟩
  · exact Or.inl ⟨h0, rfl, rfl⟩
  · right
    obtain ⟨h1, h2, -, -⟩ := hr
    show some (ZMod.val (x : ZMod p)) = _
    congr 1
    lift x to ℕ using h1
    rw [Int.cast_natCast, ZMod.val_natCast, Int.toNat_natCast, Nat.mod_eq_of_lt (by exact_mod_cast h2)]

theorem y_ne_zero (S : Setting c p n G) {m : ℕ} (hm : ¬ n ∣ m) {x y : ℤ} (h : Encodes p c.b x y (m • G)) : y ≠ 0 := by
  intro hy
  have hne : m • G ≠ 0 := by
    intro h0
    apply hm
    rw [← S.order]
    exact addOrderOf_dvd_of_nsmul_eq_zero h0
  rcases h with ⟨-, -, h0⟩ | ⟨hn, h1⟩
  · exact hne h0
  have h2 : (2 * m) • G = 0 := by
    rw [two_mul, add_nsmul, h1]
    subst hy
    rw [WeierstrassCurve.Affine.Point.add_of_Y_eq rfl]
    rw [Jac.negY_eq]
    simp
  have hd := addOrderOf_dvd_of_nsmul_eq_zero h2
  rw [S.order] at hd
  rcases (Nat.Prime.dvd_mul S.prime).1 hd with h | h
  · exact absurd (Nat.le_of_dvd (by decide) h) (by have := S.two_lt; omega)
  · exact hm h

theorem nsmul_congr (S : Setting c p n G) {a b : ℕ} (h : a ≡ b [MOD n]) : a • G = b • G := by
  rw [← S.order] at h
  exact nsmul_eq_nsmul_iff_modEq.2 h

/-- Signatures made as in section 6.4 are accepted. -/
theorem accepts_of (S : Setting c p n G) {d z k r s : ℕ} (h : IsSignature G n d z k r s) : Accepts G (d • G) n z r s := by
  have hq := S.prime
  have hc : Nat.Coprime s n := (Nat.Coprime.symm ((Nat.Prime.coprime_iff_not_dvd hq).2 fun hd => absurd (Nat.le_of_dvd h.s_pos hd) (by have := h.s_lt; omega)))
  obtain ⟨w, hw⟩ := RSA.modInv_coprime hc
  have hw1 := RSA.modInv_some hw
  obtain ⟨x, hx, hr⟩ := h.r_eq
  refine ⟨h.r_pos, by rw [hr]; exact Nat.mod_lt _ hq.pos, h.s_pos, h.s_lt, w, RSA.modInv_lt hq.pos hw, hw1, x, ?_, hr⟩
  have e1 : z * w % n + d * (r * w % n) ≡ k [MOD n] := by
    have a1 : z * w % n + d * (r * w % n) ≡ z * w + d * (r * w) [MOD n] := Nat.ModEq.add (Nat.mod_modEq _ _) ((Nat.mod_modEq _ _).mul_left d)
    have a2 : (z + d * r) * w ≡ s * k * w [MOD n] := (h.s_eq.symm).mul_right w
    have a3 : s * k * w ≡ 1 * k [MOD n] := by
      rw [show s * k * w = s * w * k by ring]
      exact hw1.mul_right k
    rw [one_mul] at a3
    exact a1.trans (by rw [show z * w + d * (r * w) = (z + d * r) * w by ring]; exact a2.trans a3)
  rw [← hx, ← mul_nsmul, ← add_nsmul, nsmul_congr S e1]

theorem scalar_ok (S : Setting c p n G) {x₁ y₁ : ℤ} {P : Point p c.b} (hP : Encodes p c.b x₁ y₁ P) (k : ℕ) :
    ∃ x y : ℤ, Elliptic.scalar c (some x₁) (some y₁) (some k) = (some x, some y) ∧ Encodes p c.b x y (k • P) ∧ Reduced p x y := by
  obtain ⟨x, y, e, h⟩ := Elliptic.scalarInner_ok S.valid hP (natBytes k)
  rw [RSA.beNat_natBytes] at h
  refine ⟨x, y, ?_, h⟩
  unfold Elliptic.scalar
  rw [S.p_eq]
  exact e

theorem base_ok (S : Setting c p n G) (k : ℕ) :
    ∃ x y : ℤ, Elliptic.scalarBasePoint c (some k) = (some x, some y) ∧ Encodes p c.b x y (k • G) ∧ Reduced p x y :=
  scalar_ok S S.base k

theorem add_ok (S : Setting c p n G) {x₁ y₁ x₂ y₂ : ℤ} {P Q : Point p c.b} (hP : Encodes p c.b x₁ y₁ P) (hQ : Encodes p c.b x₂ y₂ Q) :
    ∃ x y : ℤ, Elliptic.add c (some x₁) (some y₁) (some x₂) (some y₂) = (some x, some y) ∧ Encodes p c.b x y (P + Q) ∧ Reduced p x y := by
  have h := Elliptic.affine_ok (Elliptic.irep_add S.valid.three_lt (Elliptic.irep_affine S.valid hP) (Elliptic.irep_affine S.valid hQ))
  unfold Elliptic.add
  rw [S.p_eq]
  exact h

end

section
variable {σ S' C : Type} {E : EllipticCurve C} {cv : C} {p n : ℕ} [hpf : Fact p.Prime] {G : Point p (E.curveParams cv).b}

theorem fermatInverse_eq (k : ℕ) (hn : 2 ≤ n) : fermatInverse k n = (DSA.fermatInverse k n : ℕ) := by
  unfold fermatInverse DSA.fermatInverse
  rw [Int.toNat_natCast, Int.toNat_natCast]
  congr 2
  omega

/-! ### The per-message secrets -/

/-- The initial state of the counter. -/
def counter0 : DefaultCounter := ⟨128, nonceIv, none⟩

/-- The generator with the key `key` after `m` blocks. -/
def RngAt (key : Bytes) (m : ℕ) (rng : CSPRng) : Prop := AES.new key = .ok rng.aes ∧ rng.ctr = DefaultCounter.ops.after counter0 m

theorem aesIv_eq : aesIv = nonceIv := by decide

theorem bs_eq (a : AES) : a.cipher.bs = 16 := rfl

theorem csprng_new {key : Bytes} (h : key.length = 32) : ∃ rng, CSPRng.new key aesIv = .ok rng ∧ RngAt key 0 rng := by
  obtain ⟨a, ha⟩ := (Verif.Props.C20_aes_keys key).1 (Or.inr (Or.inr h))
  refine ⟨⟨a, counter0⟩, ?_, ha, rfl⟩
  unfold CSPRng.new
  rw [ha, aesIv_eq]
  simp only [bind, Except.bind, bs_eq]
  have e1 : DefaultCounter.new nonceIv (16 <<< 3) = .ok counter0 := rfl
  have e2 : CTR.new a.cipher DefaultCounter.ops counter0 = .ok counter0 := by
    unfold CTR.new
    rw [bs_eq]
    rfl
  rw [e1]
  dsimp only
  rw [e2]

theorem after_add {κ : Type} (ops : CounterOps κ) (k : κ) (a b : ℕ) : ops.after (ops.after k a) b = ops.after k (a + b) := by
  induction b with
  | zero => rfl
  | succ b ih => rw [CounterOps.after, ih]; rfl

theorem value_after {κ : Type} (ops : CounterOps κ) (k : κ) (a b : ℕ) : ops.value (ops.after k a) b = ops.value k (a + b) := by
  unfold CounterOps.value
  rw [after_add]

theorem counter_value (i : ℕ) : DefaultCounter.ops.value counter0 i = some (Verif.Spec.toBE 16 (beNat nonceIv + i)) :=
  DefaultCounter.ops_value counter0 (by decide) rfl i

theorem xorBytes_zero (b : ℕ) (l : Bytes) (h : b ≤ l.length) : xorBytes (List.replicate b 0#8) l = l.take b := by
  induction b generalizing l with
  | zero => simp [xorBytes]
  | succ b ih =>
    cases l with
    | nil => simp at h
    | cons x l =>
      rw [List.length_cons] at h
      have := ih l (by omega)
      unfold xorBytes at this ⊢
      rw [List.replicate_succ, List.zipWith_cons_cons, this, List.take_succ_cons]
      simp

theorem readFull_ok {key : Bytes} {m : ℕ} {rng : CSPRng} (h : RngAt key m rng) (b : ℕ) :
    ∃ rng', rng.readFull b = .ok (rng', (((List.range ((b + 15) / 16)).map fun j => nonceBlock key (m + j)).flatten).take b) ∧
      RngAt key (m + (b + 15) / 16) rng' := by
  obtain ⟨ha, hc⟩ := h
  have L := Verif.Props.C20_aes_lawful key rng.aes ha
  have hv : ∀ i, DefaultCounter.ops.value rng.ctr i = some (Verif.Spec.toBE 16 (beNat nonceIv + (m + i))) := fun i => by
    rw [hc, value_after, counter_value]
  have hG : CTR.Good rng.aes.cipher DefaultCounter.ops rng.ctr := fun i => ⟨_, hv i, by rw [Verif.Spec.length_toBE]; exact le_refl _⟩
  have hin : CTR.input rng.aes.cipher DefaultCounter.ops rng.ctr = fun i => Verif.Spec.toBE 16 (beNat nonceIv + (m + i)) := by
    funext i
    unfold CTR.input
    rw [hv i, Option.getD_some, bs_eq, List.take_of_length_le (by rw [Verif.Spec.length_toBE])]
  have e := CTR.encryptInner_eq L hG [] (List.replicate b 0#8)
  refine ⟨⟨rng.aes, DefaultCounter.ops.after rng.ctr ((b + 15) / 16)⟩, ?_, ha, by rw [hc, after_add]⟩
  unfold CSPRng.readFull CTR.encrypt
  rw [e]
  simp only [bind, Except.bind, List.length_replicate]
  congr 2
  rw [List.nil_append, hin, bs_eq]
  unfold Spec.ctr Spec.streamXor
  rw [List.length_replicate, xorBytes_zero]
  · rfl
  · exact Spec.length_keystream_ge _ L.pos (fun i => L.lenE _ (by rw [Verif.Spec.length_toBE]; rfl)) b

/-- One attempt of the signing loop: if the secret gives a signature it is returned, otherwise the next secret is tried. -/
theorem signLoop_step (S : Setting (E.curveParams cv) p n G)
    (d : ℕ) {hash : Bytes} (hh : hash ≠ []) (fuel : ℕ) (b : ℕ) (hb : b = (E.curveParams cv).bitSize / 8 + 8) (key : Bytes) (i : ℕ) (rng : CSPRng)
    (hE : (E.scalarBasePoint cv (some (nonce n b key i))).1 = (Elliptic.scalarBasePoint (E.curveParams cv) (some (nonce n b key i))).1)
    (hr : RngAt key (i * ((b + 15) / 16)) rng) :
    ∃ rng', RngAt key ((i + 1) * ((b + 15) / 16)) rng' ∧
      ((∃ r s : ℕ, IsSignature G n d (hashNumber n hash) (nonce n b key i) r s ∧
          signLoop E cv (some (d : ℤ)) hash (fuel + 1) rng = .ok ((r : ℤ), (s : ℤ))) ∨
        ((¬ ∃ r s, IsSignature G n d (hashNumber n hash) (nonce n b key i) r s) ∧
          signLoop E cv (some (d : ℤ)) hash (fuel + 1) rng = signLoop E cv (some (d : ℤ)) hash fuel rng')) := by
  obtain ⟨rng', er, hr'⟩ := readFull_ok hr b
  refine ⟨rng', by rw [Nat.succ_mul]; exact hr', ?_⟩
  have h2 := S.two_lt
  have hbs : ((E.curveParams cv).bitSize >>> 3) + 8 = b := by rw [hb, Nat.shiftRight_eq_div_pow]
  have hk : randFieldElementForCsprng (E.curveParams cv) rng = .ok ((nonce n b key i : ℕ), rng') := by
    unfold randFieldElementForCsprng
    rw [hbs]
    simp only [bind, Except.bind, er]
    congr 2
    exact randField_eq (by omega) S.n_eq _
  have hk0 : 0 < nonce n b key i := Nat.succ_pos _
  have hk1 : nonce n b key i < n := by
    have := Nat.mod_lt (beNat (nonceBytes key b i)) (show n - 1 > 0 by omega)
    unfold nonce
    omega
  generalize nonce n b key i = k at hE hk hk0 hk1 ⊢
  have hnd : ¬ n ∣ k := fun hd => absurd (Nat.le_of_dvd hk0 hd) (by omega)
  have hf := DSA.fermatInverse_spec S.prime hnd
  obtain ⟨x, y, e, hEnc, hR⟩ := base_ok S k
  rw [signLoop, hk]
  simp only [bind, Except.bind, Int.natAbs_natCast, hE, e, hashToBigint_eq S.n_eq hh S.prime.pos, S.n_eq]
  have hx0 : 0 ≤ x := hR.1
  lift x to ℕ using hx0
  rw [fermatInverse_eq k (by omega)]
  have ex : ((x : ℤ) % (n : ℤ)) = ((x % n : ℕ) : ℤ) := by push_cast; rfl
  rw [ex]
  have es : ((d : ℤ) * ((x % n : ℕ) : ℤ) + (hashNumber n hash : ℤ)) * ((DSA.fermatInverse k n : ℕ) : ℤ) % (n : ℤ) =
      (((d * (x % n) + hashNumber n hash) * DSA.fermatInverse k n % n : ℕ) : ℤ) := by push_cast; rfl
  rw [es]
  have hx : ∀ x', xNumber (k • G) = some x' → x' = x := by
    intro x' h
    rcases xNumber_of hEnc hR with ⟨h0, -, -⟩ | h0
    · rw [h0] at h
      cases h
    · rw [h, Int.toNat_natCast] at h0
      exact Option.some.inj h0
  by_cases hr0 : ((x % n : ℕ) : ℤ) > 0
  · rw [if_pos hr0]
    by_cases hs0 : (((d * (x % n) + hashNumber n hash) * DSA.fermatInverse k n % n : ℕ) : ℤ) > 0
    · rw [if_pos hs0]
      left
      refine ⟨x % n, _, ⟨hk0, hk1, by exact_mod_cast hr0, by exact_mod_cast hs0, Nat.mod_lt _ S.prime.pos, ?_, ?_⟩, rfl⟩
      · rcases xNumber_of hEnc hR with ⟨-, h0, -⟩ | h0
        · have : x = 0 := by exact_mod_cast h0
          subst this
          rw [Nat.zero_mod] at hr0
          exact absurd hr0 (by decide)
        · exact ⟨x, by rw [h0, Int.toNat_natCast], rfl⟩
      · have a1 : (d * (x % n) + hashNumber n hash) * DSA.fermatInverse k n % n * k ≡
            (d * (x % n) + hashNumber n hash) * DSA.fermatInverse k n * k [MOD n] := (Nat.mod_modEq _ _).mul_right k
        refine a1.trans ?_
        rw [show (d * (x % n) + hashNumber n hash) * DSA.fermatInverse k n * k = (hashNumber n hash + d * (x % n)) * (k * DSA.fermatInverse k n) by ring]
        conv_rhs => rw [← mul_one (hashNumber n hash + d * (x % n))]
        exact hf.mul_left _
    · rw [if_neg hs0]
      right
      refine ⟨?_, rfl⟩
      rintro ⟨r, s, h⟩
      obtain ⟨x', h1, h3⟩ := h.r_eq
      rw [hx x' h1] at h3
      have a1 : s * k * DSA.fermatInverse k n ≡ (hashNumber n hash + d * r) * DSA.fermatInverse k n [MOD n] := h.s_eq.mul_right _
      have a2 : s * k * DSA.fermatInverse k n ≡ s [MOD n] := by
        rw [mul_assoc]
        conv_rhs => rw [← mul_one s]
        exact hf.mul_left _
      have a3 := a2.symm.trans a1
      rw [Nat.ModEq, Nat.mod_eq_of_lt h.s_lt, h3, add_comm] at a3
      have := h.s_pos
      rw [a3] at this
      exact hs0 (by exact_mod_cast this)
  · rw [if_neg hr0]
    right
    refine ⟨?_, rfl⟩
    rintro ⟨r, s, h⟩
    obtain ⟨x', h1, h3⟩ := h.r_eq
    rw [hx x' h1] at h3
    have := h.r_pos
    rw [h3] at this
    exact hr0 (by exact_mod_cast this)

/-- The signing loop: the first secret that gives a signature is used, and the loop only ends so. -/
theorem signLoop_ok (S : Setting (E.curveParams cv) p n G)
    (d : ℕ) {hash : Bytes} (hh : hash ≠ []) (b : ℕ) (hb : b = (E.curveParams cv).bitSize / 8 + 8) (key : Bytes) (fuel i : ℕ) (rng : CSPRng)
    (hE : ∀ j, i ≤ j → j < i + fuel →
      (E.scalarBasePoint cv (some (nonce n b key j))).1 = (Elliptic.scalarBasePoint (E.curveParams cv) (some (nonce n b key j))).1)
    (hr : RngAt key (i * ((b + 15) / 16)) rng) :
    (∃ (j r s : ℕ), i ≤ j ∧ j < i + fuel ∧ IsSignature G n d (hashNumber n hash) (nonce n b key j) r s ∧
        (∀ l, i ≤ l → l < j → ¬ ∃ r s, IsSignature G n d (hashNumber n hash) (nonce n b key l) r s) ∧
        signLoop E cv (some (d : ℤ)) hash fuel rng = .ok ((r : ℤ), (s : ℤ))) ∨
      ((∀ l, i ≤ l → l < i + fuel → ¬ ∃ r s, IsSignature G n d (hashNumber n hash) (nonce n b key l) r s) ∧
        signLoop E cv (some (d : ℤ)) hash fuel rng = .error .diverge) := by
  induction fuel generalizing rng i with
  | zero => exact Or.inr ⟨fun l h1 h2 => by omega, rfl⟩
  | succ f ih =>
    obtain ⟨rng', hr', ⟨r, s, h1, h2⟩ | ⟨h1, h2⟩⟩ := signLoop_step S d hh f b hb key i rng (hE i le_rfl (by omega)) hr
    · exact Or.inl ⟨i, r, s, le_refl _, by omega, h1, fun l h3 h4 => by omega, h2⟩
    · have hl : ∀ l, i ≤ l → l < i + 1 → ¬ ∃ r s, IsSignature G n d (hashNumber n hash) (nonce n b key l) r s := fun l h3 h4 => by
        rw [show l = i by omega]; exact h1
      rcases ih (i + 1) rng' (fun j h3 h4 => hE j (by omega) (by omega)) hr' with ⟨j, r, s, h3, h4, h5, h6, h7⟩ | ⟨h3, h4⟩
      · refine Or.inl ⟨j, r, s, by omega, by omega, h5, fun l h8 h9 => ?_, h2.trans h7⟩
        rcases Nat.lt_or_ge l (i + 1) with h | h
        · exact hl l h8 h
        · exact h6 l h h9
      · refine Or.inr ⟨fun l h8 h9 => ?_, h2.trans h4⟩
        rcases Nat.lt_or_ge l (i + 1) with h | h
        · exact hl l h8 h
        · exact h3 l h (by omega)

/-- What `verify_inner` decides. -/
theorem verifyInner_eq (o : Obj σ S' C) (ho : o.curve = cv) (S : Setting (E.curveParams cv) p n G) (qx qy : ℤ) (d : ℕ)
    (hk : o.kp.publicKey = ⟨some qx, some qy⟩) (hQ : Encodes p (E.curveParams cv).b qx qy (d • G)) (hh : o.hashBuf ≠ []) (r s : ℕ) :
    (Accepts G (d • G) n (hashNumber n o.hashBuf) r s → verifyInner E o (some r) (some s) = .ok ()) ∧
    (¬ Accepts G (d • G) n (hashNumber n o.hashBuf) r s → verifyInner E o (some r) (some s) = .error (.err .verificationFailed)) := by
  subst ho
  unfold verifyInner
  simp only [hk]
  by_cases c0 : r = 0 ∨ s = 0 ∨ (r : ℤ) ≥ (E.curveParams o.curve).n ∨ (s : ℤ) ≥ (E.curveParams o.curve).n
  · rw [if_pos c0]
    refine ⟨fun ⟨h1, h2, h3, h4, _⟩ => ?_, fun _ => rfl⟩
    rw [S.n_eq] at c0
    omega
  · rw [if_neg c0]
    rw [S.n_eq] at c0 ⊢
    push Not at c0
    obtain ⟨hr0, hs0, hr1, hs1⟩ := c0
    have hr1' : r < n := by exact_mod_cast hr1
    have hs1' : s < n := by exact_mod_cast hs1
    have hcop : Nat.Coprime s n := (Nat.Coprime.symm ((Nat.Prime.coprime_iff_not_dvd S.prime).2 fun hd => absurd (Nat.le_of_dvd (by omega) hd) (by omega)))
    obtain ⟨w, hw⟩ := RSA.modInv_coprime hcop
    have hw1 := RSA.modInv_some hw
    have hw2 := RSA.modInv_lt S.prime.pos hw
    have em : Elliptic.modInverse s n = some (w : ℤ) := by
      unfold Elliptic.modInverse
      rw [Int.toNat_natCast, show ((s : ℤ) % (n : ℤ)) = ((s % n : ℕ) : ℤ) by push_cast; rfl, Int.toNat_natCast, Nat.mod_eq_of_lt hs1', hw]
      rfl
    rw [hashToBigint_eq S.n_eq hh S.prime.pos, em]
    dsimp only
    rw [show ((hashNumber n o.hashBuf : ℤ) * (w : ℤ) % (n : ℤ)) = ((hashNumber n o.hashBuf * w % n : ℕ) : ℤ) by push_cast; rfl,
      show ((w : ℤ) * (r : ℤ) % (n : ℤ)) = ((r * w % n : ℕ) : ℤ) by push_cast; rw [mul_comm], Int.natAbs_natCast, Int.natAbs_natCast]
    obtain ⟨x1, y1, e1, E1, -⟩ := base_ok S (hashNumber n o.hashBuf * w % n)
    obtain ⟨x2, y2, e2, E2, -⟩ := scalar_ok S hQ (r * w % n)
    obtain ⟨x, y, e3, E3, R3⟩ := add_ok S E1 E2
    rw [e1, e2]
    dsimp only
    rw [e3]
    dsimp only
    have hm : (hashNumber n o.hashBuf * w % n) • G + (r * w % n) • d • G = (hashNumber n o.hashBuf * w % n + d * (r * w % n)) • G := by
      rw [← mul_nsmul, ← add_nsmul]
    have hx0 := R3.1
    have hy0 := R3.2.2.1
    have hiff : Accepts G (d • G) n (hashNumber n o.hashBuf) r s ↔ (x > 0 ∧ y > 0) ∧ x % (n : ℤ) = (r : ℤ) := by
      constructor
      · rintro ⟨h1, h2, h3, h4, w', h5, h6, x', h7, h8⟩
        have hww : w' = w := by
          have : w' ≡ w [MOD n] := Nat.ModEq.cancel_left_of_coprime (hcop.symm) (h6.trans hw1.symm)
          rw [Nat.ModEq, Nat.mod_eq_of_lt h5, Nat.mod_eq_of_lt hw2] at this
          exact this
        subst hww
        rcases xNumber_of E3 R3 with ⟨h0, -, -⟩ | h0
        · rw [h0] at h7
          cases h7
        · rw [h7] at h0
          have hxx : x' = x.toNat := Option.some.inj h0
          have hxc : (x' : ℤ) = x := by rw [hxx]; exact Int.toNat_of_nonneg hx0
          have hmod : x % (n : ℤ) = (r : ℤ) := by rw [← hxc, h8]; push_cast; rfl
          refine ⟨⟨?_, ?_⟩, hmod⟩
          · rcases Int.lt_or_eq_of_le hx0 with h | h
            · exact h
            · rw [← h, Int.zero_emod] at hmod
              omega
          · have hnd : ¬ n ∣ hashNumber n o.hashBuf * w' % n + d * (r * w' % n) := by
              intro hd
              rw [← S.order] at hd
              have h9 := addOrderOf_dvd_iff_nsmul_eq_zero.1 hd
              rw [S.order, ← hm] at h9
              rw [h9] at h7
              cases h7
            rw [hm] at E3
            have := y_ne_zero S hnd E3
            omega
      · rintro ⟨⟨h1, h2⟩, h3⟩
        refine ⟨by omega, hr1', by omega, hs1', w, hw2, hw1, x.toNat, ?_, ?_⟩
        · rcases xNumber_of E3 R3 with ⟨-, h0, -⟩ | h0
          · omega
          · exact h0
        · have hxc : (x.toNat : ℤ) = x := Int.toNat_of_nonneg hx0
          rw [← hxc] at h3
          exact_mod_cast h3.symm
    constructor
    · intro h
      obtain ⟨h1, h2⟩ := hiff.1 h
      rw [if_pos h1, if_pos h2]
    · intro h
      by_cases h1 : x > 0 ∧ y > 0
      · rw [if_pos h1, if_neg fun h2 => h (hiff.2 ⟨h1, h2⟩)]
      · rw [if_neg h1]

end

end Verif.Model.ECDSA

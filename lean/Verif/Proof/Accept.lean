import Verif.Proof.PKCS1
import Mathlib.Data.Int.ModEq

/-! Helper lemmas for C102: multiplication by a number other than 1 does not map the accepted numbers of RSAES-PKCS1-v1_5 to accepted numbers. -/

namespace Verif.Spec.PKCS1
open Verif.Model.RSA (beNat_append beNat_cons beNat_replicate_zero)

/-- `x` is the number of a well-formed encoding of `k` bytes. -/
def Wf (k x : Nat) : Prop := ∃ ps m, IsPS ps ∧ (eme ps m).length = k ∧ x = beNat (eme ps m)

/-- The number of an encoding. -/
theorem beNat_eme (ps m : Bytes) :
    beNat (eme ps m) = 2 * 256 ^ (ps.length + m.length + 1) + beNat ps * 256 ^ (m.length + 1) + beNat m := by
  unfold eme
  simp only [beNat_append, List.length_cons, List.length_nil]
  have e : beNat [0x00#8, 0x02#8] = 2 := rfl
  have e' : beNat [0x00#8] = 0 := rfl
  rw [e, e']
  ring

theorem Wf.range {k x : Nat} (hk : 2 ≤ k) (h : Wf k x) : 2 * 256 ^ (k - 2) ≤ x ∧ x < 3 * 256 ^ (k - 2) := by
  obtain ⟨ps, m, -, hl, rfl⟩ := h
  have hl' : ps.length + m.length + 3 = k := by rw [← hl]; simp [eme]; omega
  rw [beNat_eme]
  have e : k - 2 = ps.length + m.length + 1 := by omega
  rw [e]
  have h1 := beNat_lt ps
  have h2 := beNat_lt m
  have h3 : beNat ps * 256 ^ (m.length + 1) + beNat m < 256 ^ (ps.length + m.length + 1) := by
    have a : (beNat ps + 1) * 256 ^ (m.length + 1) ≤ 256 ^ ps.length * 256 ^ (m.length + 1) := Nat.mul_le_mul_right _ h1
    have b : (256 : Nat) ^ m.length ≤ 256 ^ (m.length + 1) := Nat.pow_le_pow_right (by omega) (by omega)
    have c : (256 : Nat) ^ ps.length * 256 ^ (m.length + 1) = 256 ^ (ps.length + m.length + 1) := by rw [← Nat.pow_add]; congr 1
    rw [Nat.add_mul, Nat.one_mul] at a
    omega
  omega

/-- The encoding with eight padding bytes `01` and a message of `v` zero bytes. -/
def base (v : Nat) : Nat := beNat (eme (List.replicate 8 1#8) (List.replicate v 0#8))

theorem isPS_ones : IsPS (List.replicate 8 1#8) := ⟨by simp, by decide⟩

theorem wf_last {v i : Nat} (hi : i < 256 ^ v) : Wf (v + 11) (base v + i) := by
  refine ⟨List.replicate 8 1#8, toBE v i, isPS_ones, by simp [eme], ?_⟩
  rw [base, beNat_eme, beNat_eme, Spec.length_toBE, List.length_replicate, List.length_replicate, Spec.beNat_toBE, Nat.mod_eq_of_lt hi, beNat_replicate_zero,
    Nat.add_zero]

theorem wf_sep {v i : Nat} (hv : 0 < v) (hi : i ≤ 255) : Wf (v + 11) (base v + i * 256 ^ v) := by
  rcases Nat.eq_zero_or_pos i with rfl | h0
  · have := wf_last (v := v) (i := 0) (Nat.pow_pos (by omega))
    simpa using this
  · obtain ⟨u, rfl⟩ : ∃ u, v = u + 1 := ⟨v - 1, by omega⟩
    refine ⟨List.replicate 8 1#8 ++ [BitVec.ofNat 8 i], List.replicate u 0#8, ⟨by simp, ?_⟩, by simp [eme], ?_⟩
    · intro x hx
      rw [List.mem_append, List.mem_singleton] at hx
      rcases hx with hx | rfl
      · exact isPS_ones.2 x hx
      · intro h
        have := congrArg BitVec.toNat h
        simp at this
        omega
    · rw [base, beNat_eme, beNat_eme, beNat_append]
      have e : beNat [BitVec.ofNat 8 i] = i := by
        have : beNat [BitVec.ofNat 8 i] = (BitVec.ofNat 8 i).toNat := by simp [beNat]
        rw [this, BitVec.toNat_ofNat, Nat.mod_eq_of_lt (by omega)]
      rw [e]
      simp only [List.length_append, List.length_replicate, List.length_cons, List.length_nil, beNat_replicate_zero]
      ring

theorem wf_ps {v i j : Nat} (hj : j ≤ 7) (hi : i ≤ 254) : Wf (v + 11) (base v + i * (256 ^ (j + 1) * 256 ^ v)) := by
  refine ⟨List.replicate (7 - j) 1#8 ++ [BitVec.ofNat 8 (1 + i)] ++ List.replicate j 1#8, List.replicate v 0#8, ⟨by simp; omega, ?_⟩, by simp [eme]; omega, ?_⟩
  · intro x hx
    rw [List.mem_append, List.mem_append, List.mem_singleton] at hx
    rcases hx with (hx | rfl) | hx
    · rw [(List.mem_replicate.1 hx).2]; decide
    · intro h
      have := congrArg BitVec.toNat h
      simp at this
      omega
    · rw [(List.mem_replicate.1 hx).2]; decide
  · have e8 : List.replicate 8 1#8 = List.replicate (7 - j) 1#8 ++ [1#8] ++ List.replicate j 1#8 := by
      rw [show [1#8] = List.replicate 1 1#8 from rfl, List.replicate_append_replicate, List.replicate_append_replicate]
      congr 1; omega
    have e : beNat [BitVec.ofNat 8 (1 + i)] = 1 + i := by
      have : beNat [BitVec.ofNat 8 (1 + i)] = (BitVec.ofNat 8 (1 + i)).toNat := by simp [beNat]
      rw [this, BitVec.toNat_ofNat, Nat.mod_eq_of_lt (by omega)]
    have e1 : beNat [1#8] = 1 := rfl
    rw [base, e8]
    simp only [beNat_eme, beNat_append, e, e1, List.length_append, List.length_replicate, List.length_cons, List.length_nil]
    ring

/-! ## The arithmetic -/

/-- If `f` maps an arithmetic progression to `[2B, 3B)`, is linear modulo `n`, and a step is too short to leave the interval around a whole turn, then `f`
is linear on the progression. -/
theorem chain {n B : Nat} {T : Int} {f : Nat → Int} {a w L : Nat} (hc : ∀ x, f x ≡ T * x [ZMOD n])
    (hS : ∀ i ≤ L, 2 * (B : Int) ≤ f (a + i * w) ∧ f (a + i * w) < 3 * B) (hw : T.natAbs * w + B < n) : T.natAbs * (L * w) < B := by
  have lin : ∀ i ≤ L, f (a + i * w) - f a = T * (i * w : Nat) := by
    intro i
    induction i with
    | zero => intro _; simp
    | succ i ih =>
      intro hi
      have h0 := ih (by omega)
      have h1 := hS i (by omega)
      have h2 := hS (i + 1) hi
      have hd : (n : Int) ∣ f (a + (i + 1) * w) - f (a + i * w) - T * w := by
        have e1 := (hc (a + (i + 1) * w)).symm.dvd
        have e2 := (hc (a + i * w)).symm.dvd
        have := dvd_sub e1 e2
        refine (Int.dvd_iff_dvd_of_dvd_sub ?_).1 this
        rw [show f (a + (i + 1) * w) - T * ↑(a + (i + 1) * w) - (f (a + i * w) - T * ↑(a + i * w)) -
          (f (a + (i + 1) * w) - f (a + i * w) - T * ↑w) = 0 by push_cast; ring]
        exact dvd_zero _
      have habs : |f (a + (i + 1) * w) - f (a + i * w) - T * w| < n := by
        have t1 : |T * (w : Int)| = ((T.natAbs * w : Nat) : Int) := by rw [abs_mul, Int.natCast_mul, Int.natCast_natAbs, Nat.abs_cast]
        have t2 := abs_sub (f (a + (i + 1) * w) - f (a + i * w)) (T * w)
        have t3 : |f (a + (i + 1) * w) - f (a + i * w)| < B := by rw [abs_lt]; omega
        rw [t1] at t2
        omega
      have hz := Int.eq_zero_of_abs_lt_dvd hd habs
      have e : T * ((i + 1) * w : Nat) = T * (i * w : Nat) + T * w := by push_cast; ring
      rw [e]
      omega
  have h := lin L (le_refl _)
  have h0 := hS 0 (by omega)
  have hL := hS L (le_refl _)
  have t1 : |T * ((L * w : Nat) : Int)| = ((T.natAbs * (L * w) : Nat) : Int) := by
    rw [abs_mul, Nat.abs_cast, Int.natCast_mul T.natAbs, Int.natCast_natAbs]
  have t3 : |f (a + L * w) - f a| < B := by
    rw [Nat.zero_mul, Nat.add_zero] at h0
    rw [abs_lt]; omega
  rw [h, t1] at t3
  omega

/-- A factor that takes every accepted number to an accepted number is 1 modulo `n`. -/
theorem factor_one {n k t : Nat} (hk : 12 ≤ k) (hn : 256 ^ (k - 1) ≤ n) (h : ∀ x, Wf k x → Wf k (t * x % n)) : t % n = 1 % n := by
  obtain ⟨v, rfl⟩ : ∃ v, k = v + 11 := ⟨k - 11, by omega⟩
  have hv : 0 < v := by omega
  have hV : 256 ≤ 256 ^ v := Nat.le_self_pow (by omega) 256
  have hB : 256 ^ (v + 11 - 2) = 256 ^ 9 * 256 ^ v := by rw [← Nat.pow_add]; congr 1; omega
  have hn' : 256 * (256 ^ 9 * 256 ^ v) ≤ n := by
    have : 256 ^ (v + 11 - 1) = 256 * (256 ^ 9 * 256 ^ v) := by rw [← Nat.pow_add, ← Nat.pow_succ']; congr 1; omega
    omega
  have rng : ∀ x, Wf (v + 11) x → 2 * (256 ^ 9 * 256 ^ v) ≤ x ∧ x < 3 * (256 ^ 9 * 256 ^ v) := by
    intro x hx
    have := hx.range (by omega)
    rwa [hB] at this
  have w1 : ∀ i < 256 ^ v, Wf (v + 11) (base v + i) := fun i hi => wf_last hi
  have w2 : ∀ i ≤ 255, Wf (v + 11) (base v + i * 256 ^ v) := fun i hi => wf_sep hv hi
  have w3 : ∀ j ≤ 7, ∀ i ≤ 254, Wf (v + 11) (base v + i * (256 ^ (j + 1) * 256 ^ v)) := fun j hj i hi => wf_ps hj hi
  generalize base v = a at w1 w2 w3
  generalize hVe : 256 ^ v = V at *
  generalize hBe : 256 ^ 9 * V = B at *
  have hBV : B = 4722366482869645213696 * V := by rw [← hBe]; norm_num
  -- the factor as a small integer
  let f : Nat → Int := fun x => ((t * x % n : Nat) : Int)
  have hf : ∀ x, Wf (v + 11) x → 2 * (B : Int) ≤ f x ∧ f x < 3 * B := by
    intro x hx
    have := rng _ (h x hx)
    show 2 * (B : Int) ≤ ((t * x % n : Nat) : Int) ∧ ((t * x % n : Nat) : Int) < 3 * B
    omega
  have ft : ∀ x, f x ≡ t * x [ZMOD n] := by
    intro x
    show ((t * x % n : Nat) : Int) ≡ t * x [ZMOD n]
    rw [Int.natCast_mod, Int.natCast_mul]
    exact Int.mod_modEq _ _
  obtain ⟨T, hT⟩ : ∃ T, T = f (a + 1) - f a := ⟨_, rfl⟩
  have f0 := hf a (by have := w1 0 (by omega); rwa [Nat.add_zero] at this)
  have f1 := hf (a + 1) (w1 1 (by omega))
  have hTB : T.natAbs < B := by omega
  have hTt : T ≡ t [ZMOD n] := by
    have := (ft (a + 1)).sub (ft a)
    rw [← hT] at this
    refine this.trans ?_
    rw [show (t : Int) * ((a + 1 : Nat) : Int) - t * (a : Int) = t by push_cast; ring]
  have hc : ∀ x, f x ≡ T * x [ZMOD n] := fun x => (ft x).trans ((hTt.symm.mul_right _))
  clear_value f
  obtain ⟨τ, hτ⟩ : ∃ τ, τ = T.natAbs := ⟨_, rfl⟩
  obtain ⟨P, hP⟩ : ∃ P, P = τ * V := ⟨_, rfl⟩
  -- the last bytes
  have c1 := chain (a := a) (w := 1) (L := V - 1) hc (fun i hi => by rw [Nat.mul_one]; exact hf _ (w1 i (by omega))) (by omega)
  rw [← hτ, Nat.mul_one, Nat.mul_sub, ← hP, Nat.mul_one] at c1
  -- the byte after the padding
  have c2 := chain (a := a) (w := V) (L := 255) hc (fun i hi => hf _ (w2 i hi)) (by rw [← hτ, ← hP]; omega)
  rw [← hτ, Nat.mul_left_comm, ← hP] at c2
  -- the padding bytes
  have step : ∀ j ≤ 7, 256 ^ (j + 1) * P + B < n → 254 * (256 ^ (j + 1) * P) < B := by
    intro j hj hlt
    have e : ∀ L, τ * (L * (256 ^ (j + 1) * V)) = L * (256 ^ (j + 1) * P) := by intro L; rw [hP]; ring
    have := chain (a := a) (w := 256 ^ (j + 1) * V) (L := 254) hc (fun i hi => hf _ (w3 j hj i hi))
      (by rw [← hτ]; have := e 1; rw [Nat.one_mul, Nat.one_mul] at this; rw [this]; exact hlt)
    rw [← hτ, e] at this
    exact this
  have s0 := step 0 (by omega) (by norm_num; omega)
  have s1 := step 1 (by omega) (by norm_num at s0 ⊢; omega)
  have s2 := step 2 (by omega) (by norm_num at s1 ⊢; omega)
  have s3 := step 3 (by omega) (by norm_num at s2 ⊢; omega)
  have s4 := step 4 (by omega) (by norm_num at s3 ⊢; omega)
  have s5 := step 5 (by omega) (by norm_num at s4 ⊢; omega)
  have s6 := step 6 (by omega) (by norm_num at s5 ⊢; omega)
  have s7 := step 7 (by omega) (by norm_num at s6 ⊢; omega)
  have hle : τ ≤ 1 := by
    by_contra hgt
    have : 2 * V ≤ P := by rw [hP]; exact Nat.mul_le_mul_right _ (by omega)
    norm_num at s7
    omega
  have hT3 : T = 0 ∨ T = 1 ∨ T = -1 := by omega
  rcases hT3 with rfl | rfl | rfl
  · -- factor 0
    have := hc a
    rw [Int.zero_mul] at this
    have hd := (Int.modEq_zero_iff_dvd.1 this)
    have := Int.le_of_dvd (by omega) hd
    omega
  · have := (Int.natCast_modEq_iff (a := 1) (b := t) (n := n)).1 (by exact_mod_cast hTt)
    exact this.symm
  · -- factor -1
    have ha := rng a (by have := w1 0 (by omega); rwa [Nat.add_zero] at this)
    have := (hc a).symm.dvd
    have hd : (n : Int) ∣ f a + a := by
      have e : f a - -1 * (a : Int) = f a + a := by ring
      rwa [e] at this
    have := Int.le_of_dvd (by omega) hd
    omega

end Verif.Spec.PKCS1

namespace Verif.Model.PKCS1
open Verif.Model.RSA

/-- Every refusal of the check is of one kind. -/
theorem unpad_error {em : Bytes} {e : Fault} (hl : 11 < em.length) (h : unpad em = .error e) : e = .err .verificationFailed := by
  unfold unpad at h
  rw [if_neg (by omega), index_ok (by omega), index_ok (by omega)] at h
  simp only [bind, Except.bind] at h
  split at h
  · cases h; rfl
  · split at h
    · cases h; rfl
    · cases h

end Verif.Model.PKCS1

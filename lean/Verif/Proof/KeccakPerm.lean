import Verif.Proof.KeccakApi

/-!
Helper lemmas: every step mapping of Keccak is injective on states, for every lane length `2^l` and every round constant.

For theta: a difference `R` of column parities that theta maps to 0 satisfies `R(x, z) + R(x - n, z) + R(x + n, z - n) = 0` for `n = 1`, hence (adding three
instances) for `n = 2, 4, ..., 2^l`; there the shift of `z` vanishes, and five equations in five bits remain.
-/

namespace Verif.Keccak
open Model.Keccak

/-- Equal on all cells. -/
def Agree (w : Nat) (A B : Spec.Keccak.Arr) : Prop := ∀ x y z, x < 5 → y < 5 → z < w → A x y z = B x y z

theorem chi_row : ∀ a0 a1 a2 a3 a4 b0 b1 b2 b3 b4 : Bool,
    (a0 ^^ ((a1 ^^ true) && a2)) = (b0 ^^ ((b1 ^^ true) && b2)) → (a1 ^^ ((a2 ^^ true) && a3)) = (b1 ^^ ((b2 ^^ true) && b3)) →
    (a2 ^^ ((a3 ^^ true) && a4)) = (b2 ^^ ((b3 ^^ true) && b4)) → (a3 ^^ ((a4 ^^ true) && a0)) = (b3 ^^ ((b4 ^^ true) && b0)) →
    (a4 ^^ ((a0 ^^ true) && a1)) = (b4 ^^ ((b0 ^^ true) && b1)) → a0 = b0 ∧ a1 = b1 ∧ a2 = b2 ∧ a3 = b3 ∧ a4 = b4 := by
  decide +kernel

theorem chi_inj (w : Nat) (A B) (h : Agree w (Spec.Keccak.chi A) (Spec.Keccak.chi B)) : Agree w A B := by
  intro x y z hx hy hz
  have h0 := h 0 y z (by omega) hy hz
  have h1 := h 1 y z (by omega) hy hz
  have h2 := h 2 y z (by omega) hy hz
  have h3 := h 3 y z (by omega) hy hz
  have h4 := h 4 y z (by omega) hy hz
  simp only [Spec.Keccak.chi] at h0 h1 h2 h3 h4
  obtain ⟨e0, e1, e2, e3, e4⟩ := chi_row _ _ _ _ _ _ _ _ _ _ h0 h1 h2 h3 h4
  have : x = 0 ∨ x = 1 ∨ x = 2 ∨ x = 3 ∨ x = 4 := by omega
  rcases this with rfl | rfl | rfl | rfl | rfl <;> assumption

theorem pi_source : ∀ x < 5, ∀ y < 5, ∃ y' < 5, (y + 3 * y') % 5 = x := by decide

theorem pi_inj (w : Nat) (A B) (h : Agree w (Spec.Keccak.pi A) (Spec.Keccak.pi B)) : Agree w A B := by
  intro x y z hx hy hz
  obtain ⟨y', hy', e⟩ := pi_source x hx y hy
  have := h y y' z hy hy' hz
  simpa only [Spec.Keccak.pi, e] using this

theorem rho_inj (w : Nat) (A B) (h : Agree w (Spec.Keccak.rho w A) (Spec.Keccak.rho w B)) : Agree w A B := by
  intro x y z hx hy hz
  have hw : 0 < w := by omega
  have := h x y (Spec.Keccak.modw ((z : Int) + ((Spec.Keccak.offsets.getD x []).getD y 0 : Nat)) w) hx hy (modw_lt _ _ hw)
  simp only [Spec.Keccak.rho] at this
  generalize ((Spec.Keccak.offsets.getD x []).getD y 0 : Nat) = o at this
  have e : Spec.Keccak.modw ((Spec.Keccak.modw ((z : Int) + (o : Nat)) w : Nat) - (o : Nat)) w = z := by
    unfold Spec.Keccak.modw
    rw [Int.toNat_of_nonneg (Int.emod_nonneg _ (by omega)), Int.emod_sub_emod, show ((z : Int) + (o : Nat) - (o : Nat)) = z by omega,
      Int.emod_eq_of_lt (by omega) (by omega)]
    rfl
  rwa [e] at this

/-! ## theta -/

theorem z_step {R : Int → Int → Bool} {n : Int} (h : ∀ x z, (R x z ^^ R (x - n) z ^^ R (x + n) (z - n)) = false) (x z : Int) :
    (R x z ^^ R (x - 2 * n) z ^^ R (x + 2 * n) (z - 2 * n)) = false := by
  have h1 := h x z
  have h2 := h (x - n) z
  have h3 := h (x + n) (z - n)
  rw [show x - n - n = x - 2 * n by omega, show x - n + n = x by omega] at h2
  rw [show x + n - n = x by omega, show x + n + n = x + 2 * n by omega, show z - n - n = z - 2 * n by omega] at h3
  generalize R x z = a at *
  generalize R (x - n) z = b at *
  generalize R (x + n) (z - n) = c at *
  generalize R (x - 2 * n) z = d at *
  generalize R x (z - n) = e at *
  generalize R (x + 2 * n) (z - 2 * n) = f at *
  revert a b c d e f
  decide

theorem z_pow {R : Int → Int → Bool} (h : ∀ x z, (R x z ^^ R (x - 1) z ^^ R (x + 1) (z - 1)) = false) : ∀ (k : Nat) (x z : Int),
    (R x z ^^ R (x - (2 ^ k : Nat)) z ^^ R (x + (2 ^ k : Nat)) (z - (2 ^ k : Nat))) = false
  | 0, x, z => by simpa using h x z
  | k + 1, x, z => by
    have := z_step (z_pow h k) x z
    rwa [show (2 : Int) * ((2 ^ k : Nat) : Int) = ((2 ^ (k + 1) : Nat) : Int) by rw [Nat.pow_succ]; omega] at this

/-- The five equations, as a test. -/
def fiveTest (s : Nat) (f : List Bool) : Bool :=
  (List.range 5).all fun x => (f.getD x false ^^ f.getD ((x + 5 - s) % 5) false ^^ f.getD ((x + s) % 5) false) == false

theorem five : ∀ s : Fin 5, s.val ≠ 0 → ∀ f0 f1 f2 f3 f4 : Bool, fiveTest s [f0, f1, f2, f3, f4] = true →
    f0 = false ∧ f1 = false ∧ f2 = false ∧ f3 = false ∧ f4 = false := by
  decide +kernel

theorem five' (s : Nat) (hs : s < 5) (h0 : s ≠ 0) (f : Nat → Bool) (h : ∀ x < 5, (f x ^^ f ((x + 5 - s) % 5) ^^ f ((x + s) % 5)) = false) :
    ∀ x < 5, f x = false := by
  have g : ∀ x, x < 5 → [f 0, f 1, f 2, f 3, f 4].getD x false = f x := by
    intro x hx
    have : x = 0 ∨ x = 1 ∨ x = 2 ∨ x = 3 ∨ x = 4 := by omega
    rcases this with rfl | rfl | rfl | rfl | rfl <;> rfl
  obtain ⟨e0, e1, e2, e3, e4⟩ := five ⟨s, hs⟩ h0 (f 0) (f 1) (f 2) (f 3) (f 4) (by
    unfold fiveTest
    rw [List.all_eq_true]
    intro x hx
    rw [List.mem_range] at hx
    rw [g x hx, g _ (Nat.mod_lt _ (by omega)), g _ (Nat.mod_lt _ (by omega)), h x hx]
    rfl)
  intro x hx
  have : x = 0 ∨ x = 1 ∨ x = 2 ∨ x = 3 ∨ x = 4 := by omega
  rcases this with rfl | rfl | rfl | rfl | rfl <;> assumption

theorem two_pow_mod5 : ∀ l, 2 ^ l % 5 ≠ 0
  | 0 => by decide
  | l + 1 => by have := two_pow_mod5 l; rw [Nat.pow_succ]; omega

theorem modw_natCast (z w : Nat) (h : z < w) : Spec.Keccak.modw (z : Int) w = z := by
  unfold Spec.Keccak.modw; rw [Int.emod_eq_of_lt (by omega) (by omega)]; rfl

/-- A difference of parities that theta maps to nothing is nothing. -/
theorem parity_inj (l : Nat) (P : Nat → Nat → Bool)
    (h : ∀ x z, x < 5 → z < 2 ^ l → (P x z ^^ P ((x + 4) % 5) z ^^ P ((x + 1) % 5) (Spec.Keccak.modw ((z : Int) - 1) (2 ^ l))) = false) :
    ∀ x z, x < 5 → z < 2 ^ l → P x z = false := by
  have hw : 0 < 2 ^ l := Nat.two_pow_pos l
  generalize hwd : 2 ^ l = w at *
  let R : Int → Int → Bool := fun x z => P (Spec.Keccak.modw x 5) (Spec.Keccak.modw z w)
  have h1 : ∀ x z, (R x z ^^ R (x - 1) z ^^ R (x + 1) (z - 1)) = false := by
    intro x z
    have := h (Spec.Keccak.modw x 5) (Spec.Keccak.modw z w) (modw_lt _ _ (by omega)) (modw_lt _ _ hw)
    have e1 : (Spec.Keccak.modw x 5 + 4) % 5 = Spec.Keccak.modw (x - 1) 5 := by unfold Spec.Keccak.modw; omega
    have e2 : (Spec.Keccak.modw x 5 + 1) % 5 = Spec.Keccak.modw (x + 1) 5 := by unfold Spec.Keccak.modw; omega
    have e3 : Spec.Keccak.modw ((Spec.Keccak.modw z w : Nat) - 1) w = Spec.Keccak.modw (z - 1) w := by
      unfold Spec.Keccak.modw
      rw [Int.toNat_of_nonneg (Int.emod_nonneg _ (by omega)), Int.emod_sub_emod]
    rw [e1, e2, e3] at this
    exact this
  intro x z hx hz
  have h2 := z_pow h1 l
  rw [hwd] at h2
  have h3 := five' (w % 5) (Nat.mod_lt _ (by omega)) (by rw [← hwd]; exact two_pow_mod5 l) (fun x => P x z) (by
    intro x hx
    have := h2 x z
    simp only [R] at this
    have e1 : Spec.Keccak.modw (x : Int) 5 = x := modw_natCast _ _ hx
    have e2 : Spec.Keccak.modw ((x : Int) - w) 5 = (x + 5 - w % 5) % 5 := by unfold Spec.Keccak.modw; omega
    have e3 : Spec.Keccak.modw ((x : Int) + w) 5 = (x + w % 5) % 5 := by unfold Spec.Keccak.modw; omega
    have e4 : Spec.Keccak.modw ((z : Int) - w) w = z := by
      unfold Spec.Keccak.modw
      rw [Int.sub_emod_right, Int.emod_eq_of_lt (by omega) (by omega)]; rfl
    rw [e1, e2, e3, e4, modw_natCast _ _ hz] at this
    exact this)
  exact h3 x hx

/-- The parity of a column. -/
def parity (A : Spec.Keccak.Arr) (x z : Nat) : Bool := A x 0 z ^^ A x 1 z ^^ A x 2 z ^^ A x 3 z ^^ A x 4 z

theorem theta_eq (w : Nat) (A : Spec.Keccak.Arr) (x y z : Nat) :
    Spec.Keccak.theta w A x y z = (A x y z ^^ (parity A ((x + 4) % 5) z ^^ parity A ((x + 1) % 5) (Spec.Keccak.modw ((z : Int) - 1) w))) := rfl

theorem theta_parity (w : Nat) (A : Spec.Keccak.Arr) (x z : Nat) : parity (Spec.Keccak.theta w A) x z =
    (parity A x z ^^ (parity A ((x + 4) % 5) z ^^ parity A ((x + 1) % 5) (Spec.Keccak.modw ((z : Int) - 1) w))) := by
  rw [parity, theta_eq, theta_eq, theta_eq, theta_eq, theta_eq]
  generalize (parity A ((x + 4) % 5) z ^^ parity A ((x + 1) % 5) (Spec.Keccak.modw ((z : Int) - 1) w)) = d
  rw [parity]
  generalize A x 0 z = a0
  generalize A x 1 z = a1
  generalize A x 2 z = a2
  generalize A x 3 z = a3
  generalize A x 4 z = a4
  revert a0 a1 a2 a3 a4 d
  decide

theorem theta_inj (l : Nat) (A B) (h : Agree (2 ^ l) (Spec.Keccak.theta (2 ^ l) A) (Spec.Keccak.theta (2 ^ l) B)) : Agree (2 ^ l) A B := by
  have hp : ∀ x z, x < 5 → z < 2 ^ l → parity (Spec.Keccak.theta (2 ^ l) A) x z = parity (Spec.Keccak.theta (2 ^ l) B) x z := by
    intro x z hx hz
    unfold parity
    rw [h x 0 z hx (by omega) hz, h x 1 z hx (by omega) hz, h x 2 z hx (by omega) hz, h x 3 z hx (by omega) hz, h x 4 z hx (by omega) hz]
  have hq := parity_inj l (fun x z => parity A x z ^^ parity B x z) (by
    intro x z hx hz
    have := hp x z hx hz
    rw [theta_parity, theta_parity] at this
    generalize parity A x z = a0 at *
    generalize parity B x z = b0 at *
    generalize parity A ((x + 4) % 5) z = a1 at *
    generalize parity B ((x + 4) % 5) z = b1 at *
    generalize parity A ((x + 1) % 5) (Spec.Keccak.modw ((z : Int) - 1) (2 ^ l)) = a2 at *
    generalize parity B ((x + 1) % 5) (Spec.Keccak.modw ((z : Int) - 1) (2 ^ l)) = b2 at *
    revert a0 b0 a1 b1 a2 b2
    decide)
  have he : ∀ x z, x < 5 → z < 2 ^ l → parity A x z = parity B x z := by
    intro x z hx hz
    have := hq x z hx hz
    simpa using this
  intro x y z hx hy hz
  have := h x y z hx hy hz
  rw [theta_eq, theta_eq, he _ z (Nat.mod_lt _ (by omega)) hz, he _ _ (Nat.mod_lt _ (by omega)) (modw_lt _ _ (Nat.two_pow_pos l))] at this
  exact (Bool.xor_right_inj.1 (by rw [Bool.xor_comm, this, Bool.xor_comm])) 

/-! ## Rounds -/

theorem iotaIn_get (l ir s x y z) (hs : Shape s) (hz : z < 2 ^ l) : cell (iotaIn (2 ^ l) l ir s) x y z =
    if x = 0 ∧ y = 0 then cell s 0 0 z ^^ (iotaConst ir (l + 1) 0 (List.replicate 64 false)).getD z false else cell s x y z := by
  unfold iotaIn
  simp only []
  rw [get_setLane _ _ _ _ hs (by omega) (by omega)]
  split
  · rw [getD_map_range _ _ _ hz]
  · rfl

/-- The state before iota, for any round index. -/
theorem before_iota {k l nr} (ir : Int) (A) (hk : Ok k l nr) (h : Rel (2 ^ l) k.input A) : Ok (rnd ir k) l nr ∧
    ∃ s, Shape s ∧ (rnd ir k).input = iotaIn (2 ^ l) l ir s ∧
      Rel (2 ^ l) s (Spec.Keccak.chi (Spec.Keccak.pi (Spec.Keccak.rho (2 ^ l) (Spec.Keccak.theta (2 ^ l) A)))) := by
  have hw : 0 < 2 ^ l := Nat.two_pow_pos l
  have k1 : Ok (theta k) l nr := ok_setOutput hk _ (shape_tab _ _)
  have r1 : Rel (2 ^ l) (theta k).input (Spec.Keccak.theta (2 ^ l) A) := by
    unfold theta; rw [input_setOutput, hk.w_eq]; exact theta_rel _ _ _ hw h
  have k2 : Ok (rho (theta k)) l nr := ok_setOutput k1 _ (rho_shape _ _ _ k1.output)
  have r2 : Rel (2 ^ l) (rho (theta k)).input (Spec.Keccak.rho (2 ^ l) (Spec.Keccak.theta (2 ^ l) A)) := by
    unfold rho; rw [input_setOutput, k1.w_eq]; exact rho_rel _ _ _ _ hw k1.output r1
  have k3 : Ok (pi (rho (theta k))) l nr := ok_setOutput k2 _ (shape_tab _ _)
  have r3 : Rel (2 ^ l) (pi (rho (theta k))).input (Spec.Keccak.pi (Spec.Keccak.rho (2 ^ l) (Spec.Keccak.theta (2 ^ l) A))) := by
    unfold pi; rw [input_setOutput, k2.w_eq]; exact pi_rel _ _ _ r2
  have k4 : Ok (chi (pi (rho (theta k)))) l nr := ok_setOutput k3 _ (shape_tab _ _)
  have r4 : Rel (2 ^ l) (chi (pi (rho (theta k)))).input
      (Spec.Keccak.chi (Spec.Keccak.pi (Spec.Keccak.rho (2 ^ l) (Spec.Keccak.theta (2 ^ l) A)))) := by
    unfold chi; rw [input_setOutput, k3.w_eq]; exact chi_rel _ _ _ r3
  refine ⟨ok_setInput k4 _ (iota_shape _ _ _ _ k4.input), _, k4.input, ?_, r4⟩
  unfold rnd iota
  rw [input_setInput, k4.w_eq, k4.l_eq]

/-- One round maps equal states to equal states, and only those. -/
theorem rnd_agree {k k' l nr} (ir : Int) (hk : Ok k l nr) (hk' : Ok k' l nr) :
    Agree (2 ^ l) (cell (rnd ir k).input) (cell (rnd ir k').input) ↔ Agree (2 ^ l) (cell k.input) (cell k'.input) := by
  constructor
  · intro h
    obtain ⟨_, s, hs, e, hr⟩ := before_iota ir (cell k.input) hk (fun _ _ _ _ _ _ => rfl)
    obtain ⟨_, s', hs', e', hr'⟩ := before_iota ir (cell k'.input) hk' (fun _ _ _ _ _ _ => rfl)
    rw [e, e'] at h
    apply theta_inj l
    apply rho_inj
    apply pi_inj (2 ^ l)
    apply chi_inj
    intro x y z hx hy hz
    rw [← hr x y z hx hy hz, ← hr' x y z hx hy hz]
    have := h x y z hx hy hz
    rw [iotaIn_get _ _ _ _ _ _ hs hz, iotaIn_get _ _ _ _ _ _ hs' hz] at this
    split at this
    · rename_i e0
      obtain ⟨rfl, rfl⟩ := e0
      exact Bool.xor_right_inj.1 (by rw [Bool.xor_comm, this, Bool.xor_comm])
    · exact this
  · intro h
    obtain ⟨_, s, hs, e, hr⟩ := before_iota ir (cell k'.input) hk (fun x y z hx hy hz => h x y z hx hy hz)
    obtain ⟨_, s', hs', e', hr'⟩ := before_iota ir (cell k'.input) hk' (fun _ _ _ _ _ _ => rfl)
    rw [e, e']
    intro x y z hx hy hz
    rw [iotaIn_get _ _ _ _ _ _ hs hz, iotaIn_get _ _ _ _ _ _ hs' hz]
    split
    · rw [hr 0 0 z (by omega) (by omega) hz, hr' 0 0 z (by omega) (by omega) hz]
    · rw [hr x y z hx hy hz, hr' x y z hx hy hz]

theorem rounds_agree {l nr} : ∀ (n : Nat) (ir : Int) k k', Ok k l nr → Ok k' l nr → Ok (rounds n ir k) l nr ∧ Ok (rounds n ir k') l nr ∧
    (Agree (2 ^ l) (cell (rounds n ir k).input) (cell (rounds n ir k').input) ↔ Agree (2 ^ l) (cell k.input) (cell k'.input))
  | 0, _, _, _, hk, hk' => ⟨hk, hk', Iff.rfl⟩
  | n + 1, ir, k, k', hk, hk' => by
    have o1 := (before_iota ir (cell k.input) hk (fun _ _ _ _ _ _ => rfl)).1
    have o2 := (before_iota ir (cell k'.input) hk' (fun _ _ _ _ _ _ => rfl)).1
    obtain ⟨g1, g2, g3⟩ := rounds_agree n (ir + 1) _ _ o1 o2
    exact ⟨g1, g2, g3.trans (rnd_agree ir hk hk')⟩

theorem finish_agree (s s' : Arr) (w : Nat) (hw : 0 < w) : finish s w = finish s' w ↔ Agree w (cell s) (cell s') := by
  constructor
  · intro h x y z hx hy hz
    rw [rel_ofString s w hw x y z hx hy hz, h, ← rel_ofString s' w hw x y z hx hy hz]
  · intro h
    rw [finish_rel s w (cell s') hw h, finish_rel s' w (cell s') hw (fun _ _ _ _ _ _ => rfl)]

/-- What `permutation` returns, for any number of rounds. -/
theorem permutation_out {k l nr} (hk : Ok k l nr) (data : Bytes) (h : (25 * 2 ^ l + 7) / 8 ≤ data.length) :
    ∃ k' k1, Ok k' l nr ∧ Ok k1 l nr ∧ finish k1.input (2 ^ l) = ((Spec.Keccak.bitsOf data).reverse).take (25 * 2 ^ l) ∧
      permutation k data = .ok (k', Spec.Keccak.bytesOf (finish (permutationInner k1).input (2 ^ l))) := by
  have hw : 0 < 2 ^ l := Nat.two_pow_pos l
  have k1 : Ok (k.setOutput (cvtFromSlice data k.w)).dropGuard l nr := ok_setOutput hk _ (shape_tab _ _)
  have k2 := (rounds_agree nr (12 + 2 * (l : Int) - (nr : Int)) _ _ k1 k1).1
  have e2 : permutationInner (k.setOutput (cvtFromSlice data k.w)).dropGuard =
      rounds nr (12 + 2 * (l : Int) - (nr : Int)) (k.setOutput (cvtFromSlice data k.w)).dropGuard := by
    unfold permutationInner; rw [k1.l_eq, k1.nr_eq]
  refine ⟨_, (k.setOutput (cvtFromSlice data k.w)).dropGuard, ok_drop k2, k1, ?_, ?_⟩
  · rw [input_setOutput, hk.w_eq, finish_cvtFromSlice _ _ hw (by omega)]
  · unfold permutation
    rw [if_neg (by rw [hk.b_eq]; omega)]
    simp only []
    rw [e2, Sponge.cvtToSlice_eq, k2.w_eq]

theorem permutationInner_agree {k k' l nr} (hk : Ok k l nr) (hk' : Ok k' l nr) :
    finish (permutationInner k).input (2 ^ l) = finish (permutationInner k').input (2 ^ l) ↔ finish k.input (2 ^ l) = finish k'.input (2 ^ l) := by
  have hw : 0 < 2 ^ l := Nat.two_pow_pos l
  rw [finish_agree _ _ _ hw, finish_agree _ _ _ hw]
  unfold permutationInner
  rw [hk.l_eq, hk.nr_eq, hk'.l_eq, hk'.nr_eq]
  exact (rounds_agree nr _ _ _ hk hk').2.2

end Verif.Keccak

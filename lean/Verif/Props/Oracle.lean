import Verif.Proof.Oracle
import Verif.Props.Damage

/-!
# C96: what a receiver tells by accepting or refusing

`Spec.Ask` are the programs of someone who sends ciphertexts and sees only whether decryption succeeds. `attack n` is one such program, the same for
all ciphers, keys and messages.
-/

namespace Verif.Props
open Verif.Model Verif.Spec

variable {c : BlockCipher} {E D : Bytes → Bytes}

/-- What the receiver tells: success or not. -/
def accepted {α : Type} (r : Res α) : Bool := r.isOk

private theorem isBlocks_one {n : Nat} {b : Bytes} (h : b.length = n) : IsBlocks n [b] := .cons h .nil

private theorem accepted_eq {α β : Type} {r : Res α} {f : α → β} : accepted (r.bind fun x => .ok (f x)) = accepted r := by
  cases r <;> rfl

private theorem marker_of {X : Bytes} {o : Bytes → Bool} (h : ∀ x, x.length = X.length → o x = accepted ((Padding.default c.bs).unpad (xorBytes X x))) :
    Ask.Marker X o := by
  intro x hx
  rw [h x hx]
  exact unpad_isOk _ _

private theorem block_length {n j : Nat} {b : Bytes} (hmod : b.length % n = 0) {r : Nat} (hj : n * j + r < b.length) : (block n j b).length = n := by
  obtain ⟨q, hq⟩ := Nat.dvd_of_mod_eq_zero hmod
  rw [hq] at hj
  have h1 : j < q := Nat.lt_of_mul_lt_mul_left (a := n) (by omega)
  have h2 : n * (j + 1) ≤ n * q := Nat.mul_le_mul_left _ h1
  rw [Nat.mul_succ] at h2
  rw [block, List.length_take, List.length_drop, hq]
  omega

/-- C96 is false for CBC with the default padding: let `ct` be a ciphertext and `m` what its receiver reads. Someone without the key, who sends single
blocks of `ct` with initialization vectors of their own and sees only whether the receiver accepts, finds every byte of `m`, with 256 (bs + 1) questions
for a block. -/
theorem C96_cbc_refuted (h : Lawful c E D) (hbs : c.bs < 256) (p : Padding) (iv ct m : Bytes) (hiv : iv.length = c.bs) (hm : CBC.decrypt c p iv ct = .ok m)
    (j r : Nat) (hr : r < c.bs) (hj : c.bs * j + r < m.length) :
    let found := (Ask.attack c.bs).run fun iv' => accepted (CBC.decrypt c (.default c.bs) iv' (block c.bs j ct))
    m.getD (c.bs * j + r) 0#8 = found.getD r 0#8 ^^^ (iv ++ ct).getD (c.bs * j + r) 0#8 ∧ (Ask.attack c.bs).depth ≤ 256 * (c.bs + 1) := by
  intro found
  obtain ⟨hle, hmod⟩ := CBC.decrypt_le h hiv hm
  have hl : (block c.bs j ct).length = c.bs := block_length hmod (r := r) (by omega)
  have hX := h.lenD _ hl
  have : found = D (block c.bs j ct) := by
    have := Ask.attack_ok (X := D (block c.bs j ct)) (o := fun iv' => accepted (CBC.decrypt c (.default c.bs) iv' (block c.bs j ct)))
      (marker_of (c := c) fun x hx => by
        have := CBC.decrypt_eq h (p := .default c.bs) (iv := x) (by omega) (isBlocks_one hl)
        simp only [List.flatten_cons, List.flatten_nil, List.append_nil, cbcDec] at this
        rw [this]) (by omega)
    rw [hX] at this
    exact this
  exact ⟨by rw [this]; exact CBC.decrypt_byte h hiv hm hr hj, Ask.attack_depth _⟩

/-- C96 is false for CBC streams even if the initialization vector `iv'` of the receiver cannot be chosen: the block of `ct` is sent after a block of the
attacker's choice, in any portions `ops`. (The stream looks for padding in the last block only.) -/
theorem C96_cbc_stream_refuted (h : Lawful c E D) (hbs : c.bs < 256) (p : Padding) (iv ct m : Bytes) (hiv : iv.length = c.bs)
    (hm : CBC.decrypt c p iv ct = .ok m) (j r : Nat) (hr : r < c.bs) (hj : c.bs * j + r < m.length) (iv' : Bytes) (hiv' : iv'.length = c.bs)
    (ops : Bytes → List (Bytes × Bool)) (hops : ∀ b, written (ops b) = b) :
    let found := (Ask.attack c.bs).run fun x =>
      accepted (runStream (CBC.decStream c (.default c.bs) iv') (CBC.init iv') (ops (x ++ block c.bs j ct)))
    m.getD (c.bs * j + r) 0#8 = found.getD r 0#8 ^^^ (iv ++ ct).getD (c.bs * j + r) 0#8 := by
  intro found
  obtain ⟨hle, hmod⟩ := CBC.decrypt_le h hiv hm
  have hl : (block c.bs j ct).length = c.bs := block_length hmod (r := r) (by omega)
  have hX := h.lenD _ hl
  have : found = D (block c.bs j ct) := by
    have := Ask.attack_ok (X := D (block c.bs j ct)) (o := fun x =>
      accepted (runStream (CBC.decStream c (.default c.bs) iv') (CBC.init iv') (ops (x ++ block c.bs j ct))))
      (marker_of (c := c) fun x hx => by
        have := CBC.decRun_eq h (p := .default c.bs) hiv' (cb := [x]) (isBlocks_one (by omega)) hl (ops (x ++ block c.bs j ct))
          (by rw [hops, List.flatten_cons, List.flatten_nil, List.append_nil])
        rw [this]
        exact accepted_eq) (by omega)
    rw [hX] at this
    exact this
  rw [this]
  exact CBC.decrypt_byte h hiv hm hr hj

/-- C96 is false for CFB with the default padding: the attacker sends segments of their own under the initialization vector that stands in front of a
segment of `ct`. -/
theorem C96_cfb_refuted (h : Lawful c E D) (s : Nat) (hs0 : 0 < s) (hs : s ≤ c.bs) (hs' : s < 256) (p : Padding) (iv ct m : Bytes) (hiv : iv.length = c.bs)
    (hm : CFB.decrypt c p s iv ct = .ok m) (j r : Nat) (hr : r < s) (hj : s * j + r < m.length) :
    let found := (Ask.attack s).run fun x => accepted (CFB.decrypt c (.default c.bs) s (((iv ++ ct).drop (s * j)).take c.bs) x)
    m.getD (s * j + r) 0#8 = found.getD r 0#8 ^^^ ct.getD (s * j + r) 0#8 ∧ (Ask.attack s).depth ≤ 256 * (s + 1) := by
  intro found
  obtain ⟨hle, hmod⟩ := CFB.decrypt_le h hs0 hs hiv hm
  have hl : (((iv ++ ct).drop (s * j)).take c.bs).length = c.bs := by
    have hd := block_length hmod (r := r) (j := j) (by omega)
    rw [block, List.length_take, List.length_drop] at hd
    rw [List.length_take, List.length_drop, List.length_append]
    omega
  have hE := h.lenE _ hl
  have hX : ((E (((iv ++ ct).drop (s * j)).take c.bs)).take s).length = s := by rw [List.length_take]; omega
  have : found = (E (((iv ++ ct).drop (s * j)).take c.bs)).take s := by
    have := Ask.attack_ok (X := (E (((iv ++ ct).drop (s * j)).take c.bs)).take s)
      (o := fun x => accepted (CFB.decrypt c (.default c.bs) s (((iv ++ ct).drop (s * j)).take c.bs) x))
      (marker_of (c := c) fun x hx => by
        have := CFB.decrypt_eq h hs0 hs (p := .default c.bs) hl (isBlocks_one (b := x) (by omega))
        simp only [List.flatten_cons, List.flatten_nil, List.append_nil, cfbDec] at this
        rw [this, xorBytes_comm]) (by omega)
    rw [hX] at this
    exact this
  refine ⟨?_, Ask.attack_depth _⟩
  rw [this, CFB.decrypt_byte h hs0 hs hiv hm hr hj]
  simp only [List.getD_eq_getElem?_getD, List.getElem?_take, if_pos hr]

/-- A message of two blocks under a cipher with blocks of two bytes, and the attack on it. -/
example : CBC.decrypt (Toy.cipher 2) .empty [9, 9] [13, 11, 200, 17] = .ok [3, 5, 29, 204] ∧
    (Ask.attack 2).run (fun iv' => accepted (CBC.decrypt (Toy.cipher 2) (.default 2) iv' [200, 17])) = xorBytes [29, 204] [13, 11] := by
  decide +kernel

/-- C96 holds without padding: whether a ciphertext is accepted depends on its length only. OFB accepts everything. -/
theorem C96_empty_partial (h : Lawful c E D) (iv ct : Bytes) (hiv : iv.length = c.bs) (s : Nat) (hs0 : 0 < s) (hs : s ≤ c.bs) :
    accepted (ECB.decrypt c .empty ct) = decide (ct.length % c.bs = 0) ∧ accepted (CBC.decrypt c .empty iv ct) = decide (ct.length % c.bs = 0) ∧
    accepted (CFB.decrypt c .empty s iv ct) = decide (ct.length % s = 0) ∧ accepted (OFB.decrypt c iv ct) = true := by
  refine ⟨?_, ?_, ?_, ?_⟩
  · by_cases hmod : ct.length % c.bs = 0
    · rw [← flatten_blocksOf h.pos hmod, ECB.decrypt_eq h (blocksOf_isBlocks _ _), flatten_blocksOf h.pos hmod, decide_eq_true hmod]; rfl
    · rw [decide_eq_false hmod, ECB.decrypt, if_pos hmod]; rfl
  · by_cases hmod : ct.length % c.bs = 0
    · rw [← flatten_blocksOf h.pos hmod, CBC.decrypt_eq h hiv (blocksOf_isBlocks _ _), flatten_blocksOf h.pos hmod, decide_eq_true hmod]; rfl
    · rw [decide_eq_false hmod, CBC.decrypt, if_pos hmod]; rfl
  · by_cases hmod : ct.length % s = 0
    · rw [← flatten_blocksOf hs0 hmod, CFB.decrypt_eq h hs0 hs hiv (blocksOf_isBlocks _ _), flatten_blocksOf hs0 hmod, decide_eq_true hmod]; rfl
    · rw [decide_eq_false hmod, CFB.decrypt, if_pos hmod]; rfl
  · rw [OFB.decrypt, OFB.encrypt_eq h hiv]; rfl

/-- Both answers occur. -/
example : accepted (CBC.decrypt (Toy.cipher 2) .empty [9, 9] [13, 11, 200, 17]) = true ∧ accepted (CBC.decrypt (Toy.cipher 2) .empty [9, 9] [13, 11, 200]) = false ∧
    accepted (OFB.decrypt (Toy.cipher 2) [9, 9] [13, 11, 200]) = true := by decide

end Verif.Props

import Verif.Model.Print
import Mathlib.Data.Nat.Digits.Defs

/-! Property C94: the texts of keys -/

namespace Verif.Props
open Verif.Model

/-- What is asked of the text of a number: different numbers have different texts, and there are no quotes in it. -/
structure NumberText {α : Type} (f : α → List Char) : Prop where
  inj : ∀ a b, f a = f b → a = b
  noQuote : ∀ a, '"' ∉ f a

theorem quote_split {a b r s : List Char} (ha : '"' ∉ a) (hb : '"' ∉ b) (h : a ++ '"' :: r = b ++ '"' :: s) : a = b ∧ r = s := by
  induction a generalizing b with
  | nil =>
    cases b with
    | nil => simpa using h
    | cons y b => simp at h hb; exact absurd h.1 hb.1
  | cons x a ih =>
    cases b with
    | nil => simp at h ha; exact absurd h.1.symm ha.1
    | cons y b =>
      simp only [List.cons_append, List.cons.injEq] at h
      simp only [List.mem_cons, not_or] at ha hb
      obtain ⟨e1, e2⟩ := ih ha.2 hb.2 h.2
      exact ⟨by rw [h.1, e1], e2⟩

theorem quoted_split {α : Type} {f : α → List Char} (hf : NumberText f) {a b : α} {p r s : List Char}
    (h : p ++ (Print.quoted (f a) ++ r) = p ++ (Print.quoted (f b) ++ s)) : a = b ∧ r = s := by
  have h := List.append_cancel_left h
  unfold Print.quoted at h
  simp only [List.cons_append, List.cons.injEq, true_and, List.append_assoc] at h
  obtain ⟨e1, e2⟩ := quote_split (hf.noQuote a) (hf.noQuote b) h
  exact ⟨hf.inj _ _ e1, by simpa using e2⟩

variable {hx : Nat → List Char} {hb : Elliptic.Big → List Char}

theorem rsaPublic_split (hf : NumberText hx) {a b : RSA.PublicKey} {r s : List Char}
    (h : Print.rsaPublic hx a ++ r = Print.rsaPublic hx b ++ s) : a = b ∧ r = s := by
  unfold Print.rsaPublic at h
  simp only [List.append_assoc] at h
  obtain ⟨e1, k1⟩ := quoted_split hf h
  obtain ⟨e2, k2⟩ := quoted_split hf k1
  cases a; cases b; simp only at e1 e2; subst e1 e2
  exact ⟨rfl, List.append_cancel_left k2⟩

theorem dsaDomain_split (hf : NumberText hx) {a b : DSA.Domain} {r s : List Char}
    (h : Print.dsaDomain hx a ++ r = Print.dsaDomain hx b ++ s) : a = b ∧ r = s := by
  unfold Print.dsaDomain at h
  simp only [List.append_assoc] at h
  obtain ⟨e1, k1⟩ := quoted_split hf h
  obtain ⟨e2, k2⟩ := quoted_split hf k1
  obtain ⟨e3, k3⟩ := quoted_split hf k2
  cases a; cases b; simp only at e1 e2 e3; subst e1 e2 e3
  exact ⟨rfl, List.append_cancel_left k3⟩

theorem dsaPublic_split (hf : NumberText hx) {a b : DSA.PublicKey} {r s : List Char}
    (h : Print.dsaPublic hx a ++ r = Print.dsaPublic hx b ++ s) : a = b ∧ r = s := by
  unfold Print.dsaPublic at h
  simp only [List.append_assoc] at h
  obtain ⟨e1, k1⟩ := quoted_split hf h
  obtain ⟨e2, k2⟩ := dsaDomain_split hf (List.append_cancel_left k1)
  cases a; cases b; simp only at e1 e2; subst e1 e2
  exact ⟨rfl, List.append_cancel_left k2⟩

theorem ecPublic_split (hf : NumberText hb) {a b : Elliptic.PublicKey} {r s : List Char}
    (h : Print.ecPublic hb a ++ r = Print.ecPublic hb b ++ s) : a = b ∧ r = s := by
  unfold Print.ecPublic at h
  simp only [List.append_assoc] at h
  obtain ⟨e1, k1⟩ := quoted_split hf h
  obtain ⟨e2, k2⟩ := quoted_split hf k1
  cases a; cases b; simp only at e1 e2; subst e1 e2
  exact ⟨rfl, List.append_cancel_left k2⟩

/-- C94: the text of a public key determines the key, for RSA, DSA (also its domain parameters) and ECDSA. -/
theorem C94_public (hf : NumberText hx) (hg : NumberText hb) :
    (∀ a b, Print.rsaPublic hx a = Print.rsaPublic hx b → a = b) ∧ (∀ a b, Print.dsaDomain hx a = Print.dsaDomain hx b → a = b) ∧
    (∀ a b, Print.dsaPublic hx a = Print.dsaPublic hx b → a = b) ∧ (∀ a b, Print.ecPublic hb a = Print.ecPublic hb b → a = b) :=
  ⟨fun _ _ h => (rsaPublic_split hf (r := []) (s := []) (by rw [h])).1, fun _ _ h => (dsaDomain_split hf (r := []) (s := []) (by rw [h])).1,
    fun _ _ h => (dsaPublic_split hf (r := []) (s := []) (by rw [h])).1, fun _ _ h => (ecPublic_split hg (r := []) (s := []) (by rw [h])).1⟩

/-- C94: the text of a private key determines it, and two keys have the same text only if they are the same; of an RSA key the text shows the modulus
and both exponents, but not the primes. -/
theorem C94_private (hf : NumberText hx) (hg : NumberText hb) :
    (∀ a b : RSA.PrivateKey, Print.rsaPrivate hx a = Print.rsaPrivate hx b ↔ a.pk = b.pk ∧ a.d = b.d) ∧
    (∀ a b, Print.dsaPrivate hx a = Print.dsaPrivate hx b → a = b) ∧ (∀ a b, Print.ecPrivate hb a = Print.ecPrivate hb b → a = b) := by
  refine ⟨fun a b => ⟨fun h => ?_, fun h => ?_⟩, fun a b h => ?_, fun a b h => ?_⟩
  · unfold Print.rsaPrivate at h
    obtain ⟨e1, h⟩ := quoted_split hf h
    exact ⟨(rsaPublic_split hf (List.append_cancel_left h)).1, e1⟩
  · unfold Print.rsaPrivate; rw [h.1, h.2]
  · unfold Print.dsaPrivate at h
    obtain ⟨e1, h⟩ := quoted_split hf h
    have e2 := (dsaPublic_split hf (List.append_cancel_left h)).1
    cases a; cases b; simp only at e1 e2; subst e1 e2; rfl
  · unfold Print.ecPrivate at h
    obtain ⟨e1, h⟩ := quoted_split hg h
    have e2 := (ecPublic_split hg (List.append_cancel_left h)).1
    cases a; cases b; simp only at e1 e2; subst e1 e2; rfl

/-- C94 is false in its second half: the text of a private key, also that of `{:?}`, shows the secret. Keys which agree in the public part have different
texts whenever their secrets differ. -/
theorem C94_secret_refuted (hf : NumberText hx) (hg : NumberText hb) :
    (∀ a b : RSA.PrivateKey, a.d ≠ b.d → Print.rsaPrivate hx a ≠ Print.rsaPrivate hx b) ∧
    (∀ a b : DSA.PrivateKey, a.x ≠ b.x → Print.dsaPrivate hx a ≠ Print.dsaPrivate hx b) ∧
    (∀ a b : Elliptic.PrivateKey, a.d ≠ b.d → Print.ecPrivate hb a ≠ Print.ecPrivate hb b) := by
  obtain ⟨h1, h2, h3⟩ := C94_private hf hg
  exact ⟨fun a b hne h => hne ((h1 a b).1 h).2, fun a b hne h => hne (by rw [h2 a b h]), fun a b hne h => hne (by rw [h3 a b h])⟩

/-! The hypothesis is met by the usual text of a number, `0x` and lower case hexadecimal digits. -/

/-- The digit for a number below 16. -/
def hexChar (d : Nat) : Char := ['0', '1', '2', '3', '4', '5', '6', '7', '8', '9', 'a', 'b', 'c', 'd', 'e', 'f'].getD d '?'

/-- `0x` and the hexadecimal digits, most significant first. -/
def hexText (n : Nat) : List Char := '0' :: 'x' :: (if n = 0 then ['0'] else ((Nat.digits 16 n).reverse.map hexChar))

theorem hexChar_inj : ∀ a < 16, ∀ b < 16, hexChar a = hexChar b → a = b := by decide

theorem map_hexChar_inj : ∀ {a b : List Nat}, (∀ x ∈ a, x < 16) → (∀ x ∈ b, x < 16) → a.map hexChar = b.map hexChar → a = b
  | [], [], _, _, _ => rfl
  | [], _ :: _, _, _, h => by simp at h
  | _ :: _, [], _, _, h => by simp at h
  | x :: a, y :: b, ha, hb, h => by
    simp only [List.map_cons, List.cons.injEq] at h
    rw [hexChar_inj x (ha x (by simp)) y (hb y (by simp)) h.1, map_hexChar_inj (fun z hz => ha z (by simp [hz])) (fun z hz => hb z (by simp [hz])) h.2]

theorem hexText_ok : NumberText hexText := by
  have hd : ∀ n, ∀ x ∈ (Nat.digits 16 n).reverse, x < 16 := fun n x hx => Nat.digits_lt_base (by omega) (List.mem_reverse.1 hx)
  have h0 : ∀ n, n ≠ 0 → (Nat.digits 16 n).reverse.map hexChar ≠ ['0'] := by
    intro n hn h
    have h1 : (Nat.digits 16 n).reverse = [0] := map_hexChar_inj (hd n) (by simp) (by rw [h]; rfl)
    have h2 : Nat.digits 16 n = [0] := by simpa using congrArg List.reverse h1
    have h3 := Nat.ofDigits_digits 16 n
    rw [h2] at h3
    exact hn (by simpa using h3.symm)
  constructor
  · intro a b h
    unfold hexText at h
    simp only [List.cons.injEq, true_and] at h
    split at h <;> split at h
    · omega
    · next hb => exact absurd h.symm (h0 b hb)
    · next ha _ => exact absurd h (h0 a ha)
    · have := map_hexChar_inj (hd a) (hd b) h
      exact Nat.digits_inj_iff.1 (List.reverse_inj.1 this)
  · intro a h
    unfold hexText at h
    simp only [List.mem_cons] at h
    have hq : ∀ d < 16, '"' ≠ hexChar d := by decide
    rcases h with h | h | h
    · exact absurd h (by decide)
    · exact absurd h (by decide)
    · split at h
      · exact absurd h (by decide)
      · obtain ⟨d, hd1, hd2⟩ := List.mem_map.1 h
        exact hq d (hd a d hd1) hd2.symm

/-- For coordinates, which may be negative or a NaN as far as the type goes. -/
def bigText : Elliptic.Big → List Char
  | none => ['N']
  | some (.ofNat n) => hexText n
  | some (.negSucc n) => '-' :: hexText (n + 1)

theorem bigText_ok : NumberText bigText := by
  have h0 : ∀ n, ∃ t, hexText n = '0' :: t := fun n => ⟨_, rfl⟩
  constructor
  · intro a b h
    match a, b with
    | none, none => rfl
    | none, some (.ofNat n) => obtain ⟨t, e⟩ := h0 n; rw [bigText, bigText, e] at h; simp at h
    | none, some (.negSucc n) => rw [bigText, bigText] at h; simp at h
    | some (.ofNat n), none => obtain ⟨t, e⟩ := h0 n; rw [bigText, bigText, e] at h; simp at h
    | some (.negSucc n), none => rw [bigText, bigText] at h; simp at h
    | some (.ofNat n), some (.ofNat m) => rw [hexText_ok.inj n m h]
    | some (.ofNat n), some (.negSucc m) => obtain ⟨t, e⟩ := h0 n; rw [bigText, bigText, e] at h; simp at h
    | some (.negSucc n), some (.ofNat m) => obtain ⟨t, e⟩ := h0 m; rw [bigText, bigText, e] at h; simp at h
    | some (.negSucc n), some (.negSucc m) =>
      rw [bigText, bigText] at h
      have := hexText_ok.inj _ _ (List.cons.inj h).2
      rw [show n = m by omega]
  · intro a h
    match a with
    | none => simp [bigText] at h
    | some (.ofNat n) => exact hexText_ok.noQuote n h
    | some (.negSucc n) =>
      rw [bigText, List.mem_cons] at h
      rcases h with h | h
      · exact absurd h (by decide)
      · exact hexText_ok.noQuote _ h

/-- The texts of a toy RSA key and a toy DSA key. -/
example : Print.rsaPrivate hexText ⟨⟨55, 3⟩, 27, [5, 11], ⟨none, none, none, []⟩⟩ = "{d: \"0x1b\", {n=\"0x37\", e:\"0x3\"}}".toList := by decide +kernel
example : Print.dsaPrivate hexText ⟨⟨⟨23, 11, 4⟩, 18⟩, 3⟩ = "{x: \"0x3\", {y: \"0x12\", dp: {p: \"0x17\", q: \"0xb\", g: \"0x4\"}}}".toList := by
  decide +kernel
example : Print.ecPrivate bigText ⟨⟨some 3, some 10⟩, some 2⟩ = "{d: \"0x2\", {qx: \"0x3\", qy: \"0xa\"}}".toList := by decide +kernel

end Verif.Props

import Verif.Model.HMAC
import Verif.Spec.MAC
import Verif.Proof.DigestLaw

/-! Helper lemmas: MAC objects and HMAC -/

namespace Verif
open Model Spec

/-- Contract of a MAC object for the function `F` on messages of less than `lim` bytes. `Inv s m done`: the current message is `m`. -/
structure LawfulMac {S : Type} (d : Digest S) (F : Bytes → Bytes) (lim : Nat) (Inv : S → Bytes → Bool → Prop) : Prop where
  write : ∀ s m done x, Inv s m done → (if done then x else m ++ x).length < lim →
    ∃ s', d.write s x = .ok s' ∧ Inv s' (if done then x else m ++ x) false
  checksum : ∀ s m done, Inv s m done → m.length < lim → ∃ s', d.checksum s = .ok (s', F m) ∧ Inv s' m true
  reset : ∀ s m done, Inv s m done → ∃ s', d.reset s = .ok s' ∧ Inv s' [] false

theorem LawfulMac.run {S : Type} {d : Digest S} {F : Bytes → Bytes} {lim : Nat} {Inv : S → Bytes → Bool → Prop} (L : LawfulMac d F lim Inv)
    (ops : List DOp) (s : S) (m : Bytes) (done : Bool) (h : Inv s m done) (hl : m.length + written ops < lim) :
    ∃ s' m' done', runDigest d s ops = .ok (s', idealTags F m done ops) ∧ Inv s' m' done' := by
  induction ops generalizing s m done with
  | nil => exact ⟨s, m, done, rfl, h⟩
  | cons op rest ih =>
    cases op with
    | write x =>
      rw [written] at hl
      have hx : (if done then x else m ++ x).length ≤ m.length + x.length := by
        cases done
        · simp
        · simp
      obtain ⟨s1, e1, i1⟩ := L.write s m done x h (by omega)
      obtain ⟨s2, m2, d2, e2, i2⟩ := ih s1 _ _ i1 (by omega)
      refine ⟨s2, m2, d2, ?_, i2⟩
      rw [runDigest, e1]; exact e2
    | checksum =>
      rw [written] at hl
      · obtain ⟨s1, e1, i1⟩ := L.checksum s m done h (by omega)
        obtain ⟨s2, m2, d2, e2, i2⟩ := ih s1 _ _ i1 hl
        refine ⟨s2, m2, d2, ?_, i2⟩
        simp only [runDigest, e1, e2, bind, Except.bind]; rfl
      · intro x h; cases h
    | reset =>
      rw [written] at hl
      · obtain ⟨s1, e1, i1⟩ := L.reset s m done h
        obtain ⟨s2, m2, d2, e2, i2⟩ := ih s1 _ _ i1 (by simp; omega)
        refine ⟨s2, m2, d2, ?_, i2⟩
        rw [runDigest, e1]; exact e2
      · intro x h; cases h

namespace Model.HMAC

variable {S : Type} {d : Digest S} {H : Bytes → Bytes} {b size : Nat} {Abs Chk : S → Bytes → Prop}

/-- The invariant of an HMAC object with key `key`. -/
def Inv (H : Bytes → Bytes) (b : Nat) (Abs Chk : S → Bytes → Prop) (key : Bytes) (s : State S) (m : Bytes) (done : Bool) : Prop :=
  let ip := (hmacK0 H b key).map (· ^^^ 0x36#8)
  let op := (hmacK0 H b key).map (· ^^^ 0x5c#8)
  s.isChecked = done ∧ s.k0i = ip ++ m ∧
    (if done then s.k0o.take b = op ∧ Chk s.df (op ++ H (ip ++ m)) else s.k0o = op ∧ ∃ x, Abs s.df x ∨ Chk s.df x)

theorem k0_length (L : LawfulDigest d H (some b) size Abs Chk) (hs : size ≤ b) (key : Bytes) : (hmacK0 H b key).length = b := by
  unfold hmacK0
  simp only
  split
  · simp; omega
  · simp [L.length]; omega

theorem Inv.any {key : Bytes} {s : State S} {m : Bytes} {done : Bool} (h : Inv H b Abs Chk key s m done) : ∃ x, Abs s.df x ∨ Chk s.df x := by
  obtain ⟨_, _, h⟩ := h
  cases done with
  | false => exact h.2
  | true => exact ⟨_, Or.inr h.2⟩

theorem xor_replicate (k : Bytes) (n : Nat) (c : Byte) (h : k.length = n) : xorBytes k (List.replicate n c) = k.map (· ^^^ c) := by
  subst h
  induction k with
  | nil => rfl
  | cons x r ih => simp only [xorBytes, List.length_cons, List.replicate_succ, List.zipWith_cons_cons, List.map_cons] at ih ⊢; rw [ih]

theorem hmac_eq (L : LawfulDigest d H (some b) size Abs Chk) (hs : size ≤ b) (key m : Bytes) :
    hmac H b key m = H ((hmacK0 H b key).map (· ^^^ 0x5c#8) ++ H ((hmacK0 H b key).map (· ^^^ 0x36#8) ++ m)) := by
  unfold hmac
  simp only
  rw [xor_replicate _ _ _ (k0_length L hs key), xor_replicate _ _ _ (k0_length L hs key)]

theorem genK0_ok (L : LawfulDigest d H (some b) size Abs Chk) (hs : size ≤ b) (key : Bytes) (hk : key.length < 2 ^ 64) (df : S) (x : Bytes)
    (h : Abs df x ∨ Chk df x) : ∃ df' x', genK0 d df key b = .ok (df', hmacK0 H b key) ∧ (Abs df' x' ∨ Chk df' x') := by
  unfold genK0 hmacK0
  simp only
  by_cases h1 : b > key.length
  · rw [if_pos h1, if_pos (by omega)]
    exact ⟨df, x, by rw [resize, List.take_of_length_le (by omega)], h⟩
  · rw [if_neg h1]
    by_cases h2 : b < key.length
    · rw [if_pos h2, if_neg (by omega)]
      obtain ⟨s1, e1, a1⟩ := L.reset df x h
      obtain ⟨s2, e2, a2⟩ := L.write s1 [] key a1 (by simpa using hk)
      rw [List.nil_append] at a2
      obtain ⟨s3, e3, a3⟩ := L.checksum s2 key a2 hk
      refine ⟨s3, key, ?_, Or.inr a3⟩
      simp only [e1, e2, e3, bind, Except.bind, resize]
      rw [List.take_of_length_le (by rw [L.length]; omega)]
    · rw [if_neg h2, if_pos (by omega), show b - key.length = 0 by omega]
      exact ⟨df, x, by simp, h⟩

theorem blockSize_ok (L : LawfulDigest d H (some b) size Abs Chk) {s : State S} (h : ∃ x, Abs s.df x ∨ Chk s.df x) : blockSize d s = .ok b := by
  obtain ⟨x, h⟩ := h
  unfold blockSize
  rw [L.blockSize _ _ h]

theorem take_ip {α : Type} {x y : List α} {b : Nat} (h : x.length = b) : (x ++ y).take b = x := by
  rw [List.take_append_of_le_length (by omega), List.take_of_length_le (by omega)]

theorem lawful (L : LawfulDigest d H (some b) size Abs Chk) (hs : size ≤ b) (hb : b < 2 ^ 63) (key : Bytes) :
    LawfulMac (digest d) (hmac H b key) (2 ^ 64 - b) (Inv H b Abs Chk key) where
  write := by
    intro s m done x h hl
    have hbs := blockSize_ok L h.any
    have hany := h.any
    obtain ⟨h1, h2, h3⟩ := h
    cases done with
    | false =>
      refine ⟨{ s with k0i := s.k0i ++ x, isChecked := false }, by
        simp only [digest, write, h1, Bool.false_eq_true, if_false, bind, Except.bind], rfl, ?_, h3⟩
      simp only [Bool.false_eq_true, if_false]
      rw [h2, List.append_assoc]
    | true =>
      refine ⟨{ s with k0i := s.k0i.take b ++ x, k0o := s.k0o.take b, isChecked := false }, by
        simp only [digest, write, h1, hbs, if_true, bind, Except.bind], rfl, ?_, h3.1, hany⟩
      simp only [if_true]
      rw [h2, take_ip (by rw [List.length_map, k0_length L hs key])]
  checksum := by
    intro s m done h hl
    have hany := h.any
    obtain ⟨h1, h2, h3⟩ := h
    have hk := k0_length L hs key
    cases done with
    | false =>
      obtain ⟨h3, x, h4⟩ := h3
      obtain ⟨s1, e1, a1⟩ := L.reset _ _ h4
      obtain ⟨s2, e2, a2⟩ := L.write s1 [] s.k0i a1 (by rw [h2, List.nil_append, List.length_append, List.length_map, hk]; omega)
      obtain ⟨s3, e3, a3⟩ := L.checksum s2 _ a2 (by rw [h2, List.nil_append, List.length_append, List.length_map, hk]; omega)
      obtain ⟨s4, e4, a4⟩ := L.reset _ _ (Or.inr a3)
      rw [List.nil_append] at e3
      have hl2 : ([] ++ (s.k0o ++ H s.k0i)).length < 2 ^ 64 := by
        rw [h3, List.nil_append, List.length_append, List.length_map, hk, L.length]; omega
      obtain ⟨s5, e5, a5⟩ := L.write s4 [] (s.k0o ++ H s.k0i) a4 hl2
      obtain ⟨s6, e6, a6⟩ := L.checksum s5 _ a5 hl2
      rw [List.nil_append] at e6 a6
      refine ⟨{ s with df := s6, k0o := s.k0o ++ H s.k0i, buf := H s.k0i, isChecked := true }, ?_, ⟨rfl, h2, ?_⟩⟩
      · simp only [digest, checksum, h1, Bool.not_false, if_true, e1, e2, e3, e4, e5, e6, bind, Except.bind]
        rw [hmac_eq L hs, h3, h2]
      · simp only [if_true]
        rw [h3, h2] at a6
        exact ⟨by rw [h3, take_ip (by rw [List.length_map, hk])], a6⟩
    | true =>
      obtain ⟨h3, h4⟩ := h3
      refine ⟨s, ?_, ⟨h1, h2, h3, h4⟩⟩
      simp only [digest, checksum, h1, Bool.not_true, Bool.false_eq_true, if_false, L.again _ _ h4, bind, Except.bind]
      rw [hmac_eq L hs, ← h1]
  reset := by
    intro s m done h
    have hbs := blockSize_ok L h.any
    obtain ⟨x, hany⟩ := h.any
    obtain ⟨h1, h2, h3⟩ := h
    obtain ⟨s1, e1, a1⟩ := L.reset _ _ hany
    have hk := k0_length L hs key
    refine ⟨{ df := s1, k0i := s.k0i.take b, k0o := s.k0o.take b, buf := [], isChecked := false }, by
      simp only [digest, reset, hbs, e1, bind, Except.bind], rfl, ?_, ?_, [], Or.inl a1⟩
    · rw [h2, List.append_nil, take_ip (by rw [List.length_map, hk])]
    · cases done with
      | false => simp only [Bool.false_eq_true, if_false] at h3; show s.k0o.take b = _; rw [h3.1, List.take_of_length_le (by rw [List.length_map, hk]; omega)]
      | true => exact h3.1

theorem new_ok (L : LawfulDigest d H (some b) size Abs Chk) (hs : size ≤ b) (key : Bytes) (hk : key.length < 2 ^ 64) (df : S) (x : Bytes)
    (h : Abs df x ∨ Chk df x) : ∃ s, new d key df = .ok s ∧ Inv H b Abs Chk key s [] false := by
  obtain ⟨s1, x1, e1, a1⟩ := genK0_ok L hs key hk df x h
  unfold new
  rw [L.blockSize _ _ h, L.bitsLen _ _ h]
  simp only
  rw [if_neg (by omega), e1]
  exact ⟨_, rfl, rfl, by rw [List.append_nil], rfl, x1, a1⟩

theorem setKey_ok (L : LawfulDigest d H (some b) size Abs Chk) (hs : size ≤ b) (key key' : Bytes) (hk : key'.length < 2 ^ 64)
    (s : State S) (m : Bytes) (done : Bool) (h : Inv H b Abs Chk key s m done) :
    ∃ s', setKey d s key' = .ok s' ∧ Inv H b Abs Chk key' s' [] false := by
  have hbs := blockSize_ok L h.any
  obtain ⟨x, hany⟩ := h.any
  obtain ⟨s1, x1, e1, a1⟩ := genK0_ok L hs key' hk s.df x hany
  obtain ⟨s2, e2, i2⟩ := L.reset _ _ a1
  have hk0 := k0_length L hs key'
  unfold setKey
  rw [hbs]
  simp only [bind, Except.bind]
  rw [e1]
  refine ⟨{ df := s2, k0i := (hmacK0 H b key').map (· ^^^ 0x36#8), k0o := (hmacK0 H b key').map (· ^^^ 0x5c#8), buf := [], isChecked := false },
    ?_, rfl, by rw [List.append_nil], rfl, [], Or.inl i2⟩
  simp only [reset, bind, Except.bind, e2]
  rw [blockSize_ok L ⟨x1, a1⟩]
  simp only
  rw [List.take_of_length_le (by rw [List.length_map, hk0]; omega), List.take_of_length_le (by rw [List.length_map, hk0]; omega)]

end Model.HMAC
end Verif

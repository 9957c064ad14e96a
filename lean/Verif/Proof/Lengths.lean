import Verif.Proof.Facade
import Verif.Proof.HashLaw
import Verif.Proof.CMAC
import Verif.Proof.SHA3
import Verif.Model.ZUC

/-! Helper lemmas: the length of digests -/

namespace Verif.Model

/-- An invariant of all calls holds at the end of a history. -/
theorem run_inv {S : Type} (d : Digest S) (I : S → Prop) (hw : ∀ s x s', I s → d.write s x = .ok s' → I s')
    (hc : ∀ s s' x, I s → d.checksum s = .ok (s', x) → I s') (hr : ∀ s s', I s → d.reset s = .ok s' → I s') :
    ∀ (ops : List DOp) (s s' : S) (xs : List Bytes), I s → runDigest d s ops = .ok (s', xs) → I s'
  | [], s, s', xs, h, e => by
    simp only [runDigest, Except.ok.injEq, Prod.mk.injEq] at e
    rw [← e.1]; exact h
  | .write x :: rest, s, s', xs, h, e => by
    simp only [runDigest] at e
    cases h1 : d.write s x with
    | error _ => rw [h1] at e; cases e
    | ok s1 => rw [h1] at e; exact run_inv d I hw hc hr rest s1 s' xs (hw _ _ _ h h1) e
  | .checksum :: rest, s, s', xs, h, e => by
    simp only [runDigest] at e
    cases h1 : d.checksum s with
    | error _ => rw [h1] at e; cases e
    | ok p =>
      obtain ⟨s1, y⟩ := p
      rw [h1] at e
      simp only [bind, Except.bind] at e
      cases h2 : runDigest d s1 rest with
      | error _ => rw [h2] at e; cases e
      | ok q =>
        obtain ⟨s2, ys⟩ := q
        rw [h2] at e
        simp only [Except.ok.injEq, Prod.mk.injEq] at e
        rw [← e.1]
        exact run_inv d I hw hc hr rest s1 s2 ys (hc _ _ _ h h1) h2
  | .reset :: rest, s, s', xs, h, e => by
    simp only [runDigest] at e
    cases h1 : d.reset s with
    | error _ => rw [h1] at e; cases e
    | ok s1 => rw [h1] at e; exact run_inv d I hw hc hr rest s1 s' xs (hr _ _ h h1) e

theorem bind_ok {α β : Type} {a : Res α} {f : α → Res β} {b : β} (h : (a >>= f) = .ok b) : ∃ x, a = .ok x ∧ f x = .ok b := by
  cases a with
  | error e => cases h
  | ok x => exact ⟨x, rfl, h⟩

theorem SHA2.out256_length (q : SHA2.Eight 32) : (SHA2.out256 q).length = 32 := rfl
theorem SHA2.out512_length (q : SHA2.Eight 64) : (SHA2.out512 q).length = 64 := rfl

theorem MD5.len (s s' : MD.State MD5.Quad) (x : Bytes) (e : MD5.digest.checksum s = .ok (s', x)) : x.length = 16 := by
  obtain ⟨p, -, e2⟩ := bind_ok e
  simp only [Except.ok.injEq, Prod.mk.injEq] at e2
  rw [← e2.2]; rfl

theorem SHA1.len (s s' : MD.State SHA1.Five) (x : Bytes) (e : SHA1.digest.checksum s = .ok (s', x)) : x.length = 20 := by
  obtain ⟨p, -, e2⟩ := bind_ok e
  simp only [Except.ok.injEq, Prod.mk.injEq] at e2
  rw [← e2.2]; rfl

theorem SM3.len (s s' : MD.State (SHA2.Eight 32)) (x : Bytes) (e : SM3.digest.checksum s = .ok (s', x)) : x.length = 32 := by
  obtain ⟨p, -, e2⟩ := bind_ok e
  simp only [Except.ok.injEq, Prod.mk.injEq] at e2
  rw [← e2.2]; rfl

theorem SHA2.len256 (iv : Eight 32) (size : Nat) (h : size ≤ 32) (s s' : MD.State (Eight 32)) (x : Bytes)
    (e : (digest256 iv size).checksum s = .ok (s', x)) : x.length = size := by
  obtain ⟨⟨q, d⟩, e1, e2⟩ := bind_ok e
  obtain ⟨p, -, e3⟩ := bind_ok e1
  simp only [Except.ok.injEq, Prod.mk.injEq] at e2 e3
  rw [← e2.2, ← e3.2, List.length_take, SHA2.out256_length]; omega

theorem SHA2.len512 (iv : Eight 64) (size : Nat) (h : size ≤ 64) (s s' : MD.State (Eight 64)) (x : Bytes)
    (e : (digest512 iv size).checksum s = .ok (s', x)) : x.length = size := by
  obtain ⟨⟨q, d⟩, e1, e2⟩ := bind_ok e
  obtain ⟨p, -, e3⟩ := bind_ok e1
  simp only [Except.ok.injEq, Prod.mk.injEq] at e2 e3
  rw [← e2.2, ← e3.2, List.length_take, SHA2.out512_length]; omega

theorem SHA2.lenT (t : Nat) (ht : t ≤ 512) (s s' : SHA2.T) (hs : s.bitsLen = t) (x : Bytes) (e : SHA2.digestT.checksum s = .ok (s', x)) :
    x.length = (t + 7) / 8 ∧ s'.bitsLen = t := by
  obtain ⟨⟨q, d⟩, e1, e2⟩ := bind_ok e
  obtain ⟨p, -, e3⟩ := bind_ok e1
  simp only [Except.ok.injEq, Prod.mk.injEq] at e2 e3
  rw [← e2.2, ← e3.2, ← e2.1, hs]
  exact ⟨SHA2.truncT_length t ht _ (SHA2.out512_length _), rfl⟩

theorem SHA2.runT_bits (t : Nat) (ops : List DOp) (s s' : SHA2.T) (xs : List Bytes) (hs : s.bitsLen = t)
    (e : runDigest SHA2.digestT s ops = .ok (s', xs)) : s'.bitsLen = t := by
  refine run_inv SHA2.digestT (fun s => s.bitsLen = t) ?_ ?_ ?_ ops s s' xs hs e
  · intro s x s' h e
    obtain ⟨p, -, e2⟩ := bind_ok e
    simp only [Except.ok.injEq] at e2
    rw [← e2]; exact h
  · intro s s' x h e
    obtain ⟨⟨q, d⟩, e1, e2⟩ := bind_ok e
    simp only [Except.ok.injEq, Prod.mk.injEq] at e2
    rw [← e2.1]; exact h
  · intro s s' h e
    obtain ⟨o, e1, e2⟩ := bind_ok e
    cases o with
    | none => cases e2
    | some n =>
      simp only [Except.ok.injEq] at e2
      subst e2
      have hb : s.bitsLen ≤ 512 := by
        by_contra hb
        unfold SHA2.newT at e1
        rw [if_neg hb] at e1
        cases e1
      obtain ⟨q, e3, -⟩ := SHA2.newT_eq s.bitsLen hb
      rw [e3] at e1
      simp only [Except.ok.injEq, Option.some.injEq] at e1
      rw [← e1]; exact h

theorem CMAC.mac_length {E D : Bytes → Bytes} {c : BlockCipher} (L : Lawful c E D) (rb : Nat) (m : Bytes) :
    (Spec.CMAC.mac E c.bs rb m).length = c.bs := by
  have hp := L.pos
  have hb := CMAC.mid_bounds c.bs hp m
  have hkm : (Spec.CMAC.blocks c.bs m - 1) * c.bs ≤ m.length ∧ m.length ≤ (Spec.CMAC.blocks c.bs m - 1) * c.bs + c.bs := by
    rcases hb with hb | ⟨h1, h2⟩
    · omega
    · rw [h1, h2]; simp
  unfold Spec.CMAC.mac
  apply L.lenE
  rw [CMAC.xorBytes_length, CMAC.chain_length L m _ hkm.1]
  unfold Spec.CMAC.lastBlock Spec.CMAC.k1 Spec.CMAC.k2
  simp only
  have hx : (Spec.CMAC.block c.bs m (Spec.CMAC.blocks c.bs m - 1)).length ≤ c.bs := by rw [Spec.CMAC.block, List.length_take]; omega
  split
  · rw [CMAC.xorBytes_length, CMAC.double_length]; omega
  · rw [CMAC.xorBytes_length, CMAC.double_length]; simp; omega

/-- Every state in a history of a SHA-3 object satisfies the invariant. -/
theorem SHA3.runSHA3_inv {r : Nat} {sfx : List Bool} {d : Nat} (hr : 0 < r) (hr2 : r ≤ 1600) : ∀ (ops : List SOp) (s s' : SHA3.State) (xs : List Bytes) m done,
    SHA3.Inv r sfx d s m done → runSHA3 s ops = .ok (s', xs) → ∃ m' done', SHA3.Inv r sfx d s' m' done'
  | [], s, s', xs, m, done, h, e => by
    simp only [runSHA3, Except.ok.injEq, Prod.mk.injEq] at e
    rw [← e.1]; exact ⟨m, done, h⟩
  | .write x :: rest, s, s', xs, m, done, h, e => by
    obtain ⟨s1, e1, h1⟩ := SHA3.write_ok h x
    simp only [runSHA3, e1] at e
    exact SHA3.runSHA3_inv hr hr2 rest s1 s' xs _ _ h1 e
  | .writeBit b :: rest, s, s', xs, m, done, h, e => by
    obtain ⟨s1, e1, h1⟩ := SHA3.writeBit_ok h b
    simp only [runSHA3, e1] at e
    exact SHA3.runSHA3_inv hr hr2 rest s1 s' xs _ _ h1 e
  | .checksum :: rest, s, s', xs, m, done, h, e => by
    obtain ⟨s1, e1, h1⟩ := SHA3.checksum_ok hr hr2 h
    simp only [runSHA3, e1] at e
    obtain ⟨⟨q, ys⟩, e2, e3⟩ := bind_ok (a := runSHA3 s1 rest) e
    simp only [Except.ok.injEq, Prod.mk.injEq] at e3
    rw [← e3.1]
    exact SHA3.runSHA3_inv hr hr2 rest s1 q ys _ _ h1 e2
  | .reset :: rest, s, s', xs, m, done, h, e => by
    obtain ⟨s1, e1, h1⟩ := SHA3.reset_ok h
    simp only [runSHA3, e1] at e
    exact SHA3.runSHA3_inv hr hr2 rest s1 s' xs _ _ h1 e

theorem SHA3.runSHAKE_inv {r : Nat} {sfx : List Bool} (hr : 0 < r) (hr2 : r ≤ 1600) : ∀ (ops : List XOp) (s s' : SHA3.State) (xs : List Bytes) d m done,
    SHA3.Inv r sfx d s m done → runSHAKE s ops = .ok (s', xs) → ∃ d' m' done', SHA3.Inv r sfx d' s' m' done'
  | [], s, s', xs, d, m, done, h, e => by
    simp only [runSHAKE, Except.ok.injEq, Prod.mk.injEq] at e
    rw [← e.1]; exact ⟨d, m, done, h⟩
  | .write x :: rest, s, s', xs, d, m, done, h, e => by
    obtain ⟨s1, e1, h1⟩ := SHA3.write_ok h x
    simp only [runSHAKE, e1] at e
    exact SHA3.runSHAKE_inv hr hr2 rest s1 s' xs _ _ _ h1 e
  | .setDigestLen b :: rest, s, s', xs, d, m, done, h, e => by
    obtain ⟨s1, e1, h1⟩ := SHA3.setDigestLen_ok h b
    simp only [runSHAKE, e1] at e
    exact SHA3.runSHAKE_inv hr hr2 rest s1 s' xs _ _ _ h1 e
  | .checksum :: rest, s, s', xs, d, m, done, h, e => by
    obtain ⟨s1, e1, h1⟩ := SHA3.checksum_ok hr hr2 h
    simp only [runSHAKE, e1] at e
    obtain ⟨⟨q, ys⟩, e2, e3⟩ := bind_ok (a := runSHAKE s1 rest) e
    simp only [Except.ok.injEq, Prod.mk.injEq] at e3
    rw [← e3.1]
    exact SHA3.runSHAKE_inv hr hr2 rest s1 q ys _ _ _ h1 e2
  | .reset :: rest, s, s', xs, d, m, done, h, e => by
    obtain ⟨s1, e1, h1⟩ := SHA3.reset_ok h
    simp only [runSHAKE, e1] at e
    exact SHA3.runSHAKE_inv hr hr2 rest s1 s' xs _ _ _ h1 e

end Verif.Model

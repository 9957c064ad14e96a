import Verif.Model.Reads
import Verif.Proof.AES
import Verif.Proof.SM4
import Verif.Proof.DESRefine

/-! Helper lemmas for C99: what the table reads tell -/

namespace Verif.Model.Reads

@[simp] theorem val_pure {α : Type} (a : α) : (pure a : Log α).val = a := rfl
@[simp] theorem evs_pure {α : Type} (a : α) : (pure a : Log α).evs = [] := rfl
@[simp] theorem val_bind {α β : Type} (x : Log α) (f : α → Log β) : (x >>= f).val = (f x.val).val := rfl
@[simp] theorem evs_bind {α β : Type} (x : Log α) (f : α → Log β) : (x >>= f).evs = x.evs ++ (f x.val).evs := rfl

section AES
open Verif.Model.AES

/-- The sixteen indices of an encryption round. -/
def encIdx (s : Quad) : List Byte :=
  [byteBe s.s0 0, byteBe s.s1 1, byteBe s.s2 2, byteBe s.s3 3, byteBe s.s1 0, byteBe s.s2 1, byteBe s.s3 2, byteBe s.s0 3,
   byteBe s.s2 0, byteBe s.s3 1, byteBe s.s0 2, byteBe s.s1 3, byteBe s.s3 0, byteBe s.s0 1, byteBe s.s1 2, byteBe s.s2 3]

/-- The sixteen indices of a decryption round. -/
def decIdx (s : Quad) : List Byte :=
  [byteBe s.s0 0, byteBe s.s3 1, byteBe s.s2 2, byteBe s.s1 3, byteBe s.s1 0, byteBe s.s0 1, byteBe s.s3 2, byteBe s.s2 3,
   byteBe s.s2 0, byteBe s.s1 1, byteBe s.s0 2, byteBe s.s3 3, byteBe s.s3 0, byteBe s.s2 1, byteBe s.s1 2, byteBe s.s0 3]

theorem encIdx_inj {s s' : Quad} (h : encIdx s = encIdx s') : s = s' := by
  obtain ⟨a, b, c, d⟩ := s
  obtain ⟨a', b', c', d'⟩ := s'
  simp only [encIdx, List.cons.injEq, and_true] at h
  obtain ⟨h1, h2, h3, h4, h5, h6, h7, h8, h9, h10, h11, h12, h13, h14, h15, h16⟩ := h
  rw [word_ext h1 h14 h11 h8, word_ext h5 h2 h15 h12, word_ext h9 h6 h3 h16, word_ext h13 h10 h7 h4]

theorem decIdx_inj {s s' : Quad} (h : decIdx s = decIdx s') : s = s' := by
  obtain ⟨a, b, c, d⟩ := s
  obtain ⟨a', b', c', d'⟩ := s'
  simp only [decIdx, List.cons.injEq, and_true] at h
  obtain ⟨h1, h2, h3, h4, h5, h6, h7, h8, h9, h10, h11, h12, h13, h14, h15, h16⟩ := h
  rw [word_ext h1 h6 h11 h16, word_ext h5 h10 h15 h4, word_ext h9 h14 h3 h8, word_ext h13 h2 h7 h12]

/-- The tables of a round, in order. -/
def teTabs : List Tab := [.te 0, .te 1, .te 2, .te 3, .te 0, .te 1, .te 2, .te 3, .te 0, .te 1, .te 2, .te 3, .te 0, .te 1, .te 2, .te 3]
/-- The tables of a round, in order. -/
def tdTabs : List Tab := [.td 0, .td 1, .td 2, .td 3, .td 0, .td 1, .td 2, .td 3, .td 0, .td 1, .td 2, .td 3, .td 0, .td 1, .td 2, .td 3]

/-- Reads of tables at bytes. -/
def reads (t : List Tab) (l : List Byte) : List Read := List.zipWith (fun t b => ⟨t, b.toNat⟩) t l

theorem reads_inj : ∀ (t : List Tab) (l l' : List Byte), t.length = l.length → t.length = l'.length → reads t l = reads t l' → l = l'
  | [], [], [], _, _, _ => rfl
  | t :: ts, b :: l, b' :: l', h, h', e => by
    simp only [reads, List.zipWith_cons_cons, List.cons.injEq, Read.mk.injEq, true_and] at e
    rw [BitVec.eq_of_toNat_eq e.1, reads_inj ts l l' (by simpa using h) (by simpa using h') e.2]
  | [], _ :: _, _, h, _, _ => by simp at h
  | [], _, _ :: _, _, h, _ => by simp at h
  | _ :: _, [], _, h, _, _ => by simp at h
  | _ :: _, _, [], _, h, _ => by simp at h

theorem reads_tab : ∀ (t : List Tab) (l : List Byte), t.length = l.length → (reads t l).map Read.tab = t
  | [], [], _ => rfl
  | t :: ts, b :: l, h => by
    have := reads_tab ts l (by simpa using h)
    simp only [reads, List.zipWith_cons_cons, List.map_cons] at this ⊢
    rw [this]
  | [], _ :: _, h => by simp at h
  | _ :: _, [], h => by simp at h

theorem encRoundL_evs (k s : Quad) : (encRoundL k s).evs = reads teTabs (encIdx s) := rfl
theorem encLastL_evs (k s : Quad) : (encLastL k s).evs = reads (List.replicate 16 .sbox0) (encIdx s) := rfl
theorem decRoundL_evs (k s : Quad) : (decRoundL k s).evs = reads tdTabs (decIdx s) := rfl
theorem decLastL_evs (k s : Quad) : (decLastL k s).evs = reads (List.replicate 16 .sbox1) (decIdx s) := rfl
theorem encRoundL_val (k s : Quad) : (encRoundL k s).val = encRound k s := rfl
theorem encLastL_val (k s : Quad) : (encLastL k s).val = encLast k s := rfl
theorem decRoundL_val (k s : Quad) : (decRoundL k s).val = decRound k s := rfl
theorem decLastL_val (k s : Quad) : (decLastL k s).val = decLast k s := rfl

theorem roundsL_val {round last : Quad → Quad → Log Quad} {r l : Quad → Quad → Quad} (hr : ∀ k s, (round k s).val = r k s)
    (hl : ∀ k s, (last k s).val = l k s) (ks : List (BitVec 32)) : ∀ (count k : Nat) (s : Quad),
    (roundsL round last ks count k s).val = l (keyQuad ks (roundLoop r ks count k s).1) (roundLoop r ks count k s).2
  | 0, k, s => hl _ _
  | count + 1, k, s => by
    rw [roundsL, val_bind, hr, roundsL_val hr hl ks count]
    rfl

theorem encryptAES_val (a : AES) (b : Bytes) : (encryptAES a b).val = cryptBlock a b := by
  rw [encryptAES, val_bind, roundsL_val encRoundL_val encLastL_val]
  rfl

theorem decryptAES_val (a : AES) (b : Bytes) : (decryptAES a b).val = decryptBlock a b := by
  rw [decryptAES, val_bind, roundsL_val decRoundL_val decLastL_val]
  rfl

/-- Every round key but the last and the first one, and the state, can be told from the reads. -/
theorem roundsL_inj {round last : Quad → Quad → Log Quad} {t tl : List Tab} {ix : Quad → List Byte} (ht : t.length = 16) (htl : tl.length = 16)
    (hix : ∀ s, (ix s).length = 16) (inj : ∀ s s', ix s = ix s' → s = s') (hr : ∀ k s, (round k s).evs = reads t (ix s))
    (hl : ∀ k s, (last k s).evs = reads tl (ix s)) (hk : ∀ k k' s, (round k s).val = (round k' s).val → k = k') (ks ks' : List (BitVec 32)) :
    ∀ (count k : Nat) (s s' : Quad), (roundsL round last ks count k s).evs = (roundsL round last ks' count k s').evs →
      s = s' ∧ ∀ j < count, keyQuad ks (k + 4 * j) = keyQuad ks' (k + 4 * j)
  | 0, k, s, s', h => by
    rw [roundsL, roundsL, hl, hl] at h
    exact ⟨inj _ _ (reads_inj _ _ _ (by rw [htl, hix]) (by rw [htl, hix]) h), fun j hj => by omega⟩
  | count + 1, k, s, s', h => by
    rw [roundsL, roundsL, evs_bind, evs_bind, hr, hr] at h
    obtain ⟨h1, h2⟩ := List.append_inj h (by simp [reads, ht, hix])
    have e := inj _ _ (reads_inj _ _ _ (by rw [ht, hix]) (by rw [ht, hix]) h1)
    subst e
    obtain ⟨h3, h4⟩ := roundsL_inj ht htl hix inj hr hl hk ks ks' count (k + 4) _ _ h2
    refine ⟨rfl, fun j hj => ?_⟩
    rcases j with _ | j
    · exact hk _ _ _ h3
    · have := h4 j (by omega)
      rwa [show k + 4 + 4 * j = k + 4 * (j + 1) by omega] at this

theorem roundsL_tab {round last : Quad → Quad → Log Quad} {t tl : List Tab} {ix : Quad → List Byte} (ht : t.length = 16) (htl : tl.length = 16)
    (hix : ∀ s, (ix s).length = 16) (hr : ∀ k s, (round k s).evs = reads t (ix s)) (hl : ∀ k s, (last k s).evs = reads tl (ix s))
    (ks : List (BitVec 32)) : ∀ (count k : Nat) (s : Quad),
    ((roundsL round last ks count k s).evs).map Read.tab = (List.replicate count t).flatten ++ tl
  | 0, k, s => by
    rw [roundsL, hl, reads_tab _ _ (by rw [htl, hix])]
    rfl
  | count + 1, k, s => by
    rw [roundsL, evs_bind, hr, List.map_append, reads_tab _ _ (by rw [ht, hix]), roundsL_tab ht htl hix hr hl ks count]
    simp [List.replicate_succ]

theorem xor_left_cancel {a b c : BitVec 32} (h : a ^^^ c = b ^^^ c) : a = b := by
  have := congrArg (· ^^^ c) h
  simpa [BitVec.xor_assoc] using this

theorem encRound_key (k k' s : Quad) (h : encRound k s = encRound k' s) : k = k' := by
  obtain ⟨a, b, c, d⟩ := k
  obtain ⟨a', b', c', d'⟩ := k'
  simp only [encRound, teWord, Quad.mk.injEq] at h
  obtain ⟨h1, h2, h3, h4⟩ := h
  rw [xor_left_cancel (xor_left_cancel (xor_left_cancel (xor_left_cancel h1))), xor_left_cancel (xor_left_cancel (xor_left_cancel (xor_left_cancel h2))),
    xor_left_cancel (xor_left_cancel (xor_left_cancel (xor_left_cancel h3))), xor_left_cancel (xor_left_cancel (xor_left_cancel (xor_left_cancel h4)))]

theorem decRound_key (k k' s : Quad) (h : decRound k s = decRound k' s) : k = k' := by
  obtain ⟨a, b, c, d⟩ := k
  obtain ⟨a', b', c', d'⟩ := k'
  simp only [decRound, tdLine, Quad.mk.injEq] at h
  obtain ⟨h1, h2, h3, h4⟩ := h
  rw [xor_left_cancel (xor_left_cancel (xor_left_cancel (xor_left_cancel h1))), xor_left_cancel (xor_left_cancel (xor_left_cancel (xor_left_cancel h2))),
    xor_left_cancel (xor_left_cancel (xor_left_cancel (xor_left_cancel h3))), xor_left_cancel (xor_left_cancel (xor_left_cancel (xor_left_cancel h4)))]

theorem encryptAES_inj {a a' : AES} {b b' : Bytes} (hn : a.nr = a'.nr) (h : (encryptAES a b).evs = (encryptAES a' b').evs) :
    addKey (load b) (keyQuad a.encKs 0) = addKey (load b') (keyQuad a'.encKs 0) ∧
      ∀ j < a.nr - 1, keyQuad a.encKs (4 + 4 * j) = keyQuad a'.encKs (4 + 4 * j) := by
  rw [encryptAES, encryptAES, evs_bind, evs_bind, evs_pure, evs_pure, List.append_nil, List.append_nil, ← hn] at h
  exact roundsL_inj rfl rfl (fun _ => rfl) (fun _ _ => encIdx_inj) encRoundL_evs encLastL_evs encRound_key _ _ _ _ _ _ h

theorem decryptAES_inj {a a' : AES} {b b' : Bytes} (hn : a.nr = a'.nr) (h : (decryptAES a b).evs = (decryptAES a' b').evs) :
    addKey (load b) (keyQuad a.decKs 0) = addKey (load b') (keyQuad a'.decKs 0) ∧
      ∀ j < a.nr - 1, keyQuad a.decKs (4 + 4 * j) = keyQuad a'.decKs (4 + 4 * j) := by
  rw [decryptAES, decryptAES, evs_bind, evs_bind, evs_pure, evs_pure, List.append_nil, List.append_nil, ← hn] at h
  exact roundsL_inj rfl rfl (fun _ => rfl) (fun _ _ => decIdx_inj) decRoundL_evs decLastL_evs decRound_key _ _ _ _ _ _ h

theorem encryptAES_tab (a : AES) (b : Bytes) :
    ((encryptAES a b).evs).map Read.tab = (List.replicate (a.nr - 1) teTabs).flatten ++ List.replicate 16 .sbox0 := by
  rw [encryptAES, evs_bind, evs_pure, List.append_nil]
  exact roundsL_tab rfl rfl (fun _ => rfl) encRoundL_evs encLastL_evs _ _ _ _

theorem decryptAES_tab (a : AES) (b : Bytes) :
    ((decryptAES a b).evs).map Read.tab = (List.replicate (a.nr - 1) tdTabs).flatten ++ List.replicate 16 .sbox1 := by
  rw [decryptAES, evs_bind, evs_pure, List.append_nil]
  exact roundsL_tab rfl rfl (fun _ => rfl) decRoundL_evs decLastL_evs _ _ _ _

/-! The key schedule of AES -/

theorem subWordL_val (w : BitVec 32) : (subWordL w).val = subWord w := rfl

theorem schedTL_val (nk i : Nat) (t : BitVec 32) : (schedTL nk i t).val = schedT nk i t := by
  unfold schedTL schedT
  split
  · rfl
  · split <;> rfl

theorem schedLoopL_val (nk : Nat) : ∀ (count i : Nat) (enc : List (BitVec 32)), (schedLoopL nk count i enc).val = schedLoop nk count i enc
  | 0, _, _ => rfl
  | count + 1, i, enc => by rw [schedLoopL, val_bind, schedLoopL_val nk count, schedTL_val]; rfl

theorem decEntryL_val (n : Nat) (enc : List (BitVec 32)) (k : Nat) : (decEntryL n enc k).val = decEntry n enc k := by
  unfold decEntryL decEntry
  dsimp only
  split <;> rfl

theorem decEntriesL_val (n : Nat) (enc : List (BitVec 32)) : ∀ (count k : Nat),
    (decEntriesL n enc count k).val = (List.range' k count).map (decEntry n enc)
  | 0, _ => rfl
  | count + 1, k => by
    rw [decEntriesL, val_bind, val_bind, val_pure, decEntriesL_val n enc count, decEntryL_val]
    rfl

theorem keyScheduleL_val (key : Bytes) (nk nr : Nat) : (keyScheduleL key nk nr).val = keySchedule key nk nr := by
  rw [keyScheduleL, val_bind, val_bind, val_pure, schedLoopL_val, decEntriesL_val, keySchedule, List.range_eq_range']

end AES
end Verif.Model.Reads

import Verif.Proof.ReadsZUC
import Verif.Proof.ReadsMore
import Verif.Props.ZUCShare

/-!
Property C106: what the table reads of ZUC and triple DES tell about key, initial vector and message

`l.evs` for the computations of `Model/ReadsZUC` are the lists of the reads (table and index) that they make at indices that depend on data.
-/

namespace Verif.Props
open Verif.Model Verif.Model.Reads

/-- A history of calls on a cipher object with the reads that they make. -/
def runReads : ZUCCipher.State → List Spec.ZUC.Call → Log (Res (List (Bytes × Nat)))
  | _, [] => pure (.ok [])
  | s, .encrypt m :: rest => do
    match ← encryptZUC s m with
    | .ok (out, n, s) => do
      let r ← runReads s rest
      pure (r.map ((out, n) :: ·))
    | .error e => pure (.error e)
  | s, .decrypt m :: rest => do
    match ← encryptZUC s m with
    | .ok (out, n, s) => do
      let r ← runReads s rest
      pure (r.map ((out, n) :: ·))
    | .error e => pure (.error e)
  | s, .reset :: rest => do
    match ← resetZUC s with
    | .ok s => runReads s rest
    | .error e => pure (.error e)

/-- What a call is, without the bytes of its message: `none` for `reset`, else the length. -/
def callSize : Spec.ZUC.Call → Option ℕ
  | .encrypt m => some m.length
  | .decrypt m => some m.length
  | .reset => none

/-- Number of bytes of keystream used up after the calls. -/
def usedUp : ℕ → List (Option ℕ) → ℕ
  | pos, [] => pos
  | pos, some n :: rest => usedUp (pos + n) rest
  | _, none :: rest => usedUp 0 rest

/-- The object after the calls. -/
def afterCalls : ZUCCipher.State → List Spec.ZUC.Call → Res ZUCCipher.State
  | s, [] => .ok s
  | s, .encrypt m :: rest =>
    match ZUCCipher.encrypt s m with
    | .ok (_, _, s) => afterCalls s rest
    | .error e => .error e
  | s, .decrypt m :: rest =>
    match ZUCCipher.decrypt s m with
    | .ok (_, _, s) => afterCalls s rest
    | .error e => .error e
  | s, .reset :: rest =>
    match ZUCCipher.reset s with
    | .ok s => afterCalls s rest
    | .error e => .error e

theorem afterCalls_at {key iv : Bytes} (hk : key.length = 16) (hv : iv.length = 16) (calls : List Spec.ZUC.Call) : ∀ (pos : ℕ) (s : ZUCCipher.State),
    ZUCCipher.At s key iv pos → ∃ t, afterCalls s calls = .ok t ∧ ZUCCipher.At t key iv (usedUp pos (calls.map callSize)) := by
  induction calls with
  | nil => exact fun pos s h => ⟨s, rfl, h⟩
  | cons c rest ih =>
    intro pos s h
    cases c with
    | encrypt m =>
      obtain ⟨s', e, h'⟩ := ZUCCipher.encrypt_at h m
      obtain ⟨t, et, ht⟩ := ih _ s' h'
      exact ⟨t, by simp only [afterCalls, e, et], ht⟩
    | decrypt m =>
      obtain ⟨s', e, h'⟩ := ZUCCipher.encrypt_at h m
      obtain ⟨t, et, ht⟩ := ih _ s' h'
      exact ⟨t, by simp only [afterCalls, ZUCCipher.decrypt, e, et], ht⟩
    | reset =>
      obtain ⟨s', e, h'⟩ := ZUCCipher.reset_at h hk hv
      obtain ⟨t, et, ht⟩ := ih _ s' h'
      exact ⟨t, by simp only [afterCalls, e, et], ht⟩

/-- The reads of a history: those of the words that it takes from the generator. -/
def historyReads (key iv : Bytes) : ℕ → List (Option ℕ) → List Read
  | _, [] => []
  | pos, some n :: rest => wordReads key iv ((pos + 3) / 4) ((pos + n + 3) / 4 - (pos + 3) / 4) ++ historyReads key iv (pos + n) rest
  | _, none :: rest => initReads key iv ++ historyReads key iv 0 rest

theorem runReads_at {key iv : Bytes} (hk : key.length = 16) (hv : iv.length = 16) (calls : List Spec.ZUC.Call) : ∀ (pos : ℕ) (s : ZUCCipher.State),
    ZUCCipher.At s key iv pos → (runReads s calls).val = runCipher s calls ∧ (runReads s calls).evs = historyReads key iv pos (calls.map callSize) := by
  induction calls with
  | nil => exact fun pos s h => ⟨rfl, rfl⟩
  | cons c rest ih =>
    intro pos s h
    cases c with
    | encrypt m =>
      obtain ⟨s', e, h'⟩ := ZUCCipher.encrypt_at h m
      obtain ⟨v, w⟩ := encryptZUC_run h m
      obtain ⟨a, b⟩ := ih _ s' h'
      rw [e] at v
      simp only [runReads, runCipher, val_bind, evs_bind, v, w, e, val_pure, evs_pure, a, b, List.map_cons, callSize, historyReads, List.append_nil, and_self]
    | decrypt m =>
      obtain ⟨s', e, h'⟩ := ZUCCipher.encrypt_at h m
      obtain ⟨v, w⟩ := encryptZUC_run h m
      obtain ⟨a, b⟩ := ih _ s' h'
      rw [e] at v
      simp only [runReads, runCipher, ZUCCipher.decrypt, val_bind, evs_bind, v, w, e, val_pure, evs_pure, a, b, List.map_cons, callSize, historyReads,
        List.append_nil, and_self]
    | reset =>
      obtain ⟨s', e, h'⟩ := ZUCCipher.reset_at h hk hv
      obtain ⟨v, w⟩ := resetZUC_run h hk hv
      obtain ⟨a, b⟩ := ih _ s' h'
      rw [e] at v
      simp only [runReads, runCipher, val_bind, evs_bind, v, w, e, a, b, List.map_cons, callSize, historyReads, and_self]

/-- C106: the computations that are observed are the computations of the other theorems: making a generator, making a cipher object, any history of
calls on it, and triple DES have the same results. -/
theorem C106_values :
    (∀ key iv, (newZUC key iv).map Log.val = (ZUC.fromSlice key iv).toOption) ∧
    (∀ count bearer direction ck, (newZUCCipher count bearer direction ck).map Log.val = (ZUCCipher.fromSlice count bearer direction ck).toOption) ∧
    (∀ count bearer direction ck s calls, ZUCCipher.fromSlice count bearer direction ck = .ok s → (runReads s calls).val = runCipher s calls) ∧
    ∀ key1 key2 key3 b : Bytes, b.length = 8 →
      (TDES.cipher (TDES.new key1 key2 key3)).encrypt b = .ok (cryptTDES (TDES.new key1 key2 key3) b true).val ∧
      (TDES.cipher (TDES.new key1 key2 key3)).decrypt b = .ok (cryptTDES (TDES.new key1 key2 key3) b false).val := by
  have hz : ∀ key iv, (newZUC key iv).map Log.val = (ZUC.fromSlice key iv).toOption := by
    intro key iv
    by_cases h : key.length = 16 ∧ iv.length = 16
    · obtain ⟨l, m, h1, h2, h3, -⟩ := newZUC_run h.1 h.2
      rw [h1, h2, Option.map_some, h3]
      rfl
    · rw [newZUC, ZUC.fromSlice, if_pos (by omega), if_pos (by omega)]
      rfl
  refine ⟨hz, ?_, ?_, ?_⟩
  · intro count bearer direction ck
    unfold newZUCCipher ZUCCipher.fromSlice
    split
    · rfl
    · rename_i hk
      obtain ⟨l, m, h1, h2, h3, -⟩ := newZUC_run (not_not.1 hk) (ZUCCipher.length_mkIv count bearer direction)
      simp only [h1, h2, h3, bind, Except.bind, Option.map_some]
      rfl
  · intro count bearer direction ck s calls e
    by_cases hk : ck.length = 16
    · obtain ⟨t, et, ht⟩ := ZUCCipher.fromSlice_at count bearer direction hk
      rw [et] at e
      injection e with e
      subst e
      exact (runReads_at hk (length_eea3Iv _ _ _) calls 0 t ht).1
    · rw [ZUCCipher.fromSlice, if_pos hk] at e
      cases e
  · intro key1 key2 key3 b hb
    have l : ∀ (d : DES) (x : Bytes) (e : Bool), (DES.cryptBlock d x e).length = 8 := fun d x e => rfl
    simp only [TDES.cipher, TDES.new, DES.cipher, hb, l, if_true, bind, Except.bind, cryptTDES, Bool.false_eq_true, if_false, cryptDES_val, and_self]

example : ∃ s, ZUCCipher.fromSlice 7#32 1#8 true (List.replicate 16 9#8) = .ok s :=
  let ⟨s, e, _⟩ := ZUCCipher.fromSlice_at 7#32 1#8 true (ck := List.replicate 16 9#8) (by simp)
  ⟨s, e⟩

theorem initReads_tab (key iv key' iv' : Bytes) : (initReads key iv).map Read.tab = (initReads key' iv').map Read.tab := looks_tab _ _ _

theorem historyReads_tab (key iv key' iv' : Bytes) : ∀ (sizes : List (Option ℕ)) (pos : ℕ),
    (historyReads key iv pos sizes).map Read.tab = (historyReads key' iv' pos sizes).map Read.tab
  | [], _ => rfl
  | some n :: rest, pos => by
    rw [historyReads, historyReads, List.map_append, List.map_append, historyReads_tab _ _ key' iv' rest, wordReads, wordReads, looks_tab]
  | none :: rest, pos => by
    rw [historyReads, historyReads, List.map_append, List.map_append, historyReads_tab _ _ key' iv' rest, initReads_tab]

/-- C106, what is hidden: which tables are read, in which order and how often does not depend on key, count, bearer, direction and message bytes, only on
the lengths of the messages; and which entries are read does not depend on the messages: two histories with the same lengths on objects with the same
parameters make the same reads. -/
theorem C106_hidden_partial :
    (∀ count count' bearer bearer' direction direction' ck ck' l l', newZUCCipher count bearer direction ck = some l →
      newZUCCipher count' bearer' direction' ck' = some l' → l.evs.map Read.tab = l'.evs.map Read.tab) ∧
    (∀ count count' bearer bearer' direction direction' ck ck' s s', ZUCCipher.fromSlice count bearer direction ck = .ok s →
      ZUCCipher.fromSlice count' bearer' direction' ck' = .ok s' → ∀ calls calls' : List Spec.ZUC.Call, calls.map callSize = calls'.map callSize →
      (runReads s calls).evs.map Read.tab = (runReads s' calls').evs.map Read.tab) ∧
    (∀ count bearer direction ck s, ZUCCipher.fromSlice count bearer direction ck = .ok s → ∀ calls calls' : List Spec.ZUC.Call,
      calls.map callSize = calls'.map callSize → (runReads s calls).evs = (runReads s calls').evs) ∧
    ∀ (t t' : TDES) (b b' : Bytes) (e e' : Bool), (cryptTDES t b e).evs.map Read.tab = (cryptTDES t' b' e').evs.map Read.tab := by
  have at' : ∀ {count bearer direction ck s}, ZUCCipher.fromSlice count bearer direction ck = .ok s →
      ck.length = 16 ∧ ZUCCipher.At s ck (Spec.ZUC.eea3Iv count (bearer.setWidth 5) (BitVec.ofBool direction)) 0 := by
    intro count bearer direction ck s e
    by_cases hk : ck.length = 16
    · obtain ⟨t, et, ht⟩ := ZUCCipher.fromSlice_at count bearer direction hk
      rw [et] at e
      injection e with e
      subst e
      exact ⟨hk, ht⟩
    · rw [ZUCCipher.fromSlice, if_pos hk] at e
      cases e
  refine ⟨?_, ?_, ?_, ?_⟩
  · intro count count' bearer bearer' direction direction' ck ck' l l' h h'
    unfold newZUCCipher at h h'
    split at h
    · cases h
    · rename_i hk
      split at h'
      · cases h'
      · rename_i hk'
        obtain ⟨a, m, h1, -, -, h2⟩ := newZUC_run (not_not.1 hk) (ZUCCipher.length_mkIv count bearer direction)
        obtain ⟨a', m', h1', -, -, h2'⟩ := newZUC_run (not_not.1 hk') (ZUCCipher.length_mkIv count' bearer' direction')
        rw [h1, Option.map_some, Option.some.injEq] at h
        rw [h1', Option.map_some, Option.some.injEq] at h'
        rw [← h, ← h']
        simp only [h2, h2']
        exact initReads_tab _ _ _ _
  · intro count count' bearer bearer' direction direction' ck ck' s s' e e' calls calls' hc
    obtain ⟨hk, h⟩ := at' e
    obtain ⟨hk', h'⟩ := at' e'
    rw [(runReads_at hk (length_eea3Iv _ _ _) calls 0 s h).2, (runReads_at hk' (length_eea3Iv _ _ _) calls' 0 s' h').2, hc]
    exact historyReads_tab _ _ _ _ _ _
  · intro count bearer direction ck s e calls calls' hc
    obtain ⟨hk, h⟩ := at' e
    rw [(runReads_at hk (length_eea3Iv _ _ _) calls 0 s h).2, (runReads_at hk (length_eea3Iv _ _ _) calls' 0 s h).2, hc]
  · intro t t' b b' e e'
    cases e <;> cases e' <;> simp [cryptTDES, evs_bind, cryptDES_tab]

/-- Two different messages of one length. -/
example : [Spec.ZUC.Call.encrypt [1, 2, 3], .reset].map callSize = [Spec.ZUC.Call.decrypt [4, 5, 6], .reset].map callSize := rfl

/-- C106 is false for ZUC: someone who sees which table entries are read while a generator is made knows its key and its initial vector. -/
theorem C106_new_refuted (key iv key' iv' : Bytes) (l l' : Log ZUC.State) (h : newZUC key iv = some l) (h' : newZUC key' iv' = some l') :
    l.evs = l'.evs ↔ key = key' ∧ iv = iv' := by
  have len : ∀ {key iv l}, newZUC key iv = some l → key.length = 16 ∧ iv.length = 16 := by
    intro key iv l h
    rw [newZUC] at h
    split at h
    · cases h
    · omega
  obtain ⟨hk, hv⟩ := len h
  obtain ⟨hk', hv'⟩ := len h'
  obtain ⟨a, m, h1, -, -, h2⟩ := newZUC_run hk hv
  obtain ⟨a', m', h1', -, -, h2'⟩ := newZUC_run hk' hv'
  rw [h] at h1
  rw [h'] at h1'
  injection h1 with h1
  injection h1' with h1'
  rw [h1, h1', h2, h2']
  refine ⟨initReads_inj hk hv hk' hv', ?_⟩
  rintro ⟨rfl, rfl⟩
  rfl

/-- And making a cipher object gives away the key, the count, the direction and the bearer modulo 32. -/
theorem C106_cipher_new_refuted (count count' : BitVec 32) (bearer bearer' : Byte) (direction direction' : Bool) (ck ck' : Bytes)
    (l l' : Log ZUCCipher.State) (h : newZUCCipher count bearer direction ck = some l) (h' : newZUCCipher count' bearer' direction' ck' = some l') :
    l.evs = l'.evs ↔ ck = ck' ∧ count = count' ∧ bearer.toNat % 32 = bearer'.toNat % 32 ∧ direction = direction' := by
  unfold newZUCCipher at h h'
  split at h
  · cases h
  · split at h'
    · cases h'
    · rename_i hk hk'
      obtain ⟨a, m, h1, -, -, h2⟩ := newZUC_run (not_not.1 hk) (ZUCCipher.length_mkIv count bearer direction)
      obtain ⟨a', m', h1', -, -, h2'⟩ := newZUC_run (not_not.1 hk') (ZUCCipher.length_mkIv count' bearer' direction')
      rw [h1, Option.map_some, Option.some.injEq] at h
      rw [h1', Option.map_some, Option.some.injEq] at h'
      rw [← h, ← h']
      simp only
      rw [C106_new_refuted _ _ _ _ a a' h1 h1', ZUCCipher.mkIv_eq, ZUCCipher.mkIv_eq]
      constructor
      · rintro ⟨rfl, e⟩
        obtain ⟨e1, e2, e3⟩ := Spec.ZUC.eea3Iv_inj e
        exact ⟨rfl, e1, Spec.ZUC.setWidth5.1 e2, ofBool_inj.1 e3⟩
      · rintro ⟨rfl, rfl, e2, rfl⟩
        rw [Spec.ZUC.setWidth5.2 e2]
        exact ⟨rfl, rfl⟩

/-- Objects whose keys differ in one bit are told apart, objects with bearers 1 and 33 are not. -/
example : ∃ l l' l'', newZUCCipher 7#32 1#8 true (List.replicate 16 9#8) = some l ∧ newZUCCipher 7#32 1#8 true (8#8 :: List.replicate 15 9#8) = some l' ∧
    newZUCCipher 7#32 33#8 true (List.replicate 16 9#8) = some l'' ∧ l.evs ≠ l'.evs ∧ l.evs = l''.evs := by
  have ex : ∀ (bearer : Byte) (ck : Bytes), ck.length = 16 → ∃ l, newZUCCipher 7#32 bearer true ck = some l := by
    intro bearer ck hk
    obtain ⟨a, m, h1, -, -, h2⟩ := newZUC_run hk (ZUCCipher.length_mkIv 7#32 bearer true)
    exact ⟨_, by rw [newZUCCipher, if_neg (by omega), h1]; rfl⟩
  obtain ⟨l, h⟩ := ex 1#8 (List.replicate 16 9#8) (by simp)
  obtain ⟨l', h'⟩ := ex 1#8 (8#8 :: List.replicate 15 9#8) (by simp)
  obtain ⟨l'', h''⟩ := ex 33#8 (List.replicate 16 9#8) (by simp)
  refine ⟨l, l', l'', h, h', h'', ?_, (C106_cipher_new_refuted _ _ _ _ _ _ _ _ l l'' h h'').2 (by decide)⟩
  rw [Ne, C106_cipher_new_refuted _ _ _ _ _ _ _ _ l l' h h']
  decide

/-- And the reads of a single message of at least 60 bytes are enough, whatever came before: they give away
the state of the generator, that is all later words. Objects that had used up the same number of bytes have the same key, count and direction, and the
same bearer modulo 32. -/
theorem C106_message_refuted (count count' : BitVec 32) (bearer bearer' : Byte) (direction direction' : Bool) (ck ck' : Bytes)
    (s s' t t' : ZUCCipher.State) (h : ZUCCipher.fromSlice count bearer direction ck = .ok s)
    (h' : ZUCCipher.fromSlice count' bearer' direction' ck' = .ok s') (hk : ck.length = 16) (hk' : ck'.length = 16)
    (calls calls' : List Spec.ZUC.Call) (ht : afterCalls s calls = .ok t) (ht' : afterCalls s' calls' = .ok t') (p p' : Bytes) (hp : 60 ≤ p.length)
    (e : (encryptZUC t p).evs = (encryptZUC t' p').evs) :
    (∀ n, Spec.ZUC.word ck (Spec.ZUC.eea3Iv count (bearer.setWidth 5) (BitVec.ofBool direction)) ((usedUp 0 (calls.map callSize) + 3) / 4 + n) =
      Spec.ZUC.word ck' (Spec.ZUC.eea3Iv count' (bearer'.setWidth 5) (BitVec.ofBool direction')) ((usedUp 0 (calls'.map callSize) + 3) / 4 + n)) ∧
    (usedUp 0 (calls.map callSize) = usedUp 0 (calls'.map callSize) →
      ck = ck' ∧ count = count' ∧ bearer.toNat % 32 = bearer'.toNat % 32 ∧ direction = direction') := by
  have hv := length_eea3Iv count (bearer.setWidth 5) (BitVec.ofBool direction)
  have hv' := length_eea3Iv count' (bearer'.setWidth 5) (BitVec.ofBool direction')
  obtain ⟨a, ea, ha⟩ := ZUCCipher.fromSlice_at count bearer direction hk
  obtain ⟨a', ea', ha'⟩ := ZUCCipher.fromSlice_at count' bearer' direction' hk'
  rw [h] at ea
  rw [h'] at ea'
  injection ea with ea
  injection ea' with ea'
  subst ea ea'
  obtain ⟨b, eb, hb⟩ := afterCalls_at hk hv calls 0 s ha
  obtain ⟨b', eb', hb'⟩ := afterCalls_at hk' hv' calls' 0 s' ha'
  rw [ht] at eb
  rw [ht'] at eb'
  injection eb with eb
  injection eb' with eb'
  subst eb eb'
  rw [(encryptZUC_run hb p).2, (encryptZUC_run hb' p').2] at e
  obtain ⟨-, x⟩ := wordReads_inj (by omega) e
  refine ⟨fun n => ?_, fun hu => ?_⟩
  · rw [Spec.ZUC.word, Spec.ZUC.word, ← stateAt_repeat, ← stateAt_repeat, x]
  · rw [← hu] at x
    obtain ⟨e0, y⟩ := Spec.ZUC.stateAt_inj hk hv hk' hv' _ x
    obtain ⟨e1, e2, e3⟩ := Spec.ZUC.eea3Iv_inj y
    exact ⟨e0, e1, Spec.ZUC.setWidth5.1 e2, ofBool_inj.1 e3⟩

/-- After a call of 5 bytes, a message of 60 bytes tells two keys apart. -/
example : ∃ s s' t t', ZUCCipher.fromSlice 7#32 1#8 true (List.replicate 16 9#8) = .ok s ∧
    ZUCCipher.fromSlice 7#32 1#8 true (8#8 :: List.replicate 15 9#8) = .ok s' ∧ afterCalls s [.encrypt [1, 2, 3, 4, 5]] = .ok t ∧
    afterCalls s' [.encrypt [1, 2, 3, 4, 5]] = .ok t' ∧ (encryptZUC t (List.replicate 60 0#8)).evs ≠ (encryptZUC t' (List.replicate 60 0#8)).evs := by
  obtain ⟨s, e, h⟩ := ZUCCipher.fromSlice_at 7#32 1#8 true (ck := List.replicate 16 9#8) (by simp)
  obtain ⟨s', e', h'⟩ := ZUCCipher.fromSlice_at 7#32 1#8 true (ck := 8#8 :: List.replicate 15 9#8) (by simp)
  obtain ⟨t, et, -⟩ := afterCalls_at (by simp) (length_eea3Iv _ _ _) [.encrypt [1, 2, 3, 4, 5]] 0 s h
  obtain ⟨t', et', -⟩ := afterCalls_at (by simp) (length_eea3Iv _ _ _) [.encrypt [1, 2, 3, 4, 5]] 0 s' h'
  refine ⟨s, s', t, t', e, e', et, et', fun hc => ?_⟩
  have := (C106_message_refuted _ _ _ _ _ _ _ _ s s' t t' e e' (by simp) (by simp) _ _ et et' _ _ (by simp) hc).2 rfl
  exact absurd this.1 (by decide)

theorem des_value {key key' : Bytes} (h : ∀ i < 8, key.getD i 0#8 >>> 1 = key'.getD i 0#8 >>> 1) (b : Bytes) (e : Bool) :
    DES.cryptBlock (DES.new key) b e = DES.cryptBlock (DES.new key') b e := by
  have := roundKey_congr ((parity_bits _ _).1 h)
  cases e
  · rw [DES.cryptBlock_dec, DES.cryptBlock_dec, Spec.DES.decrypt, Spec.DES.decrypt, this]
  · rw [DES.cryptBlock_enc, DES.cryptBlock_enc, Spec.DES.encrypt, Spec.DES.encrypt, this]

/-- C106 is false for triple DES: one encryption or decryption of a known block gives the three keys away, up to their parity bits. -/
theorem C106_tdes_refuted (k1 k2 k3 k1' k2' k3' b : Bytes) (enc : Bool) :
    (cryptTDES (TDES.new k1 k2 k3) b enc).evs = (cryptTDES (TDES.new k1' k2' k3') b enc).evs ↔
      ∀ i < 8, k1.getD i 0#8 >>> 1 = k1'.getD i 0#8 >>> 1 ∧ k2.getD i 0#8 >>> 1 = k2'.getD i 0#8 >>> 1 ∧ k3.getD i 0#8 >>> 1 = k3'.getD i 0#8 >>> 1 := by
  have len : ∀ (d d' : DES) (x x' : Bytes) (e : Bool), (cryptDES d x e).evs.length = (cryptDES d' x' e).evs.length := by
    intro d d' x x' e
    rw [← List.length_map (f := Read.tab), ← List.length_map (f := Read.tab) (as := (cryptDES d' x' e).evs), cryptDES_tab, cryptDES_tab]
  have split : ∀ {a a' c c' d d' : List Read}, a.length = a'.length → c.length = c'.length → (a ++ (c ++ d) = a' ++ (c' ++ d') ↔ a = a' ∧ c = c' ∧ d = d') := by
    intro a a' c c' d d' h1 h2
    constructor
    · intro h
      obtain ⟨h3, h4⟩ := List.append_inj h h1
      obtain ⟨h5, h6⟩ := List.append_inj h4 h2
      exact ⟨h3, h5, h6⟩
    · rintro ⟨rfl, rfl, rfl⟩
      rfl
  cases enc
  · simp only [cryptTDES, TDES.new, Bool.false_eq_true, if_false, evs_bind, cryptDES_val]
    rw [split (len _ _ _ _ _) (len _ _ _ _ _)]
    constructor
    · rintro ⟨h3, h2, h1⟩
      rw [des_reads] at h3
      rw [des_value h3, des_reads] at h2
      rw [des_value h3, des_value h2, des_reads] at h1
      exact fun i hi => ⟨h1 i hi, h2 i hi, h3 i hi⟩
    · intro h
      have h1 := fun i hi => (h i hi).1
      have h2 := fun i hi => (h i hi).2.1
      have h3 := fun i hi => (h i hi).2.2
      rw [des_value h3, des_value h2, des_reads, des_reads, des_reads]
      exact ⟨h3, h2, h1⟩
  · simp only [cryptTDES, TDES.new, if_true, evs_bind, cryptDES_val]
    rw [split (len _ _ _ _ _) (len _ _ _ _ _)]
    constructor
    · rintro ⟨h1, h2, h3⟩
      rw [des_reads] at h1
      rw [des_value h1, des_reads] at h2
      rw [des_value h1, des_value h2, des_reads] at h3
      exact fun i hi => ⟨h1 i hi, h2 i hi, h3 i hi⟩
    · intro h
      have h1 := fun i hi => (h i hi).1
      have h2 := fun i hi => (h i hi).2.1
      have h3 := fun i hi => (h i hi).2.2
      rw [des_value h1, des_value h2, des_reads, des_reads, des_reads]
      exact ⟨h1, h2, h3⟩

/-- Two third keys that differ in one bit. -/
example (b k : Bytes) : (cryptTDES (TDES.new k k (List.replicate 8 0#8)) b true).evs ≠ (cryptTDES (TDES.new k k (2#8 :: List.replicate 7 0#8)) b true).evs := by
  rw [Ne, C106_tdes_refuted]
  intro h
  exact absurd (h 0 (by decide)).2.2 (by decide)

end Verif.Props

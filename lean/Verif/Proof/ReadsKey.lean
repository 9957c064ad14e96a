import Verif.Proof.Reads
import Verif.Proof.AESNI

/-! Helper lemmas for C99: from the round keys back to the key -/

namespace Verif.Model.Reads

section AES
open Verif.Model.AES
open Spec.AES (Col keyExpansion xorCol)

theorem getD_lt {l : Bytes} {m : Nat} (h : m < l.length) : l.getD m 0#8 = l[m] := by simp [List.getD, h]

theorem xorCol_cancel {a b c : Col} (h : xorCol a c = xorCol b c) : a = b := by
  funext r
  have := congrArg (· ^^^ c r) (congrFun h r)
  simpa [xorCol, BitVec.xor_assoc] using this

/-- One step back in the key expansion. -/
theorem kx_back {key key' : Bytes} {nk i : Nat} (h0 : 0 < nk) (h : nk ≤ i) (h1 : keyExpansion key nk i = keyExpansion key' nk i)
    (h2 : keyExpansion key nk (i - 1) = keyExpansion key' nk (i - 1)) : keyExpansion key nk (i - nk) = keyExpansion key' nk (i - nk) := by
  rw [keyExpansion.eq_1 key nk i, keyExpansion.eq_1 key' nk i, dif_neg (by omega), dif_neg (by omega), h2] at h1
  exact xorCol_cancel h1

theorem kx_key {key key' : Bytes} {nk : Nat} (h4 : 4 ≤ nk) (hl : key.length = 4 * nk) (hl' : key'.length = 4 * nk)
    (h : ∀ i, 4 ≤ i → i < 4 + nk → keyExpansion key nk i = keyExpansion key' nk i) : key = key' := by
  have h3 : keyExpansion key nk 3 = keyExpansion key' nk 3 := by
    have := kx_back (i := nk + 3) (by omega) (by omega) (h (nk + 3) (by omega) (by omega)) (h _ (by omega) (by omega))
    rwa [show nk + 3 - nk = 3 by omega] at this
  have h2 : keyExpansion key nk 2 = keyExpansion key' nk 2 := by
    have := kx_back (i := nk + 2) (by omega) (by omega) (h (nk + 2) (by omega) (by omega)) (h _ (by omega) (by omega))
    rwa [show nk + 2 - nk = 2 by omega] at this
  have h1 : keyExpansion key nk 1 = keyExpansion key' nk 1 := by
    have := kx_back (i := nk + 1) (by omega) (by omega) (h (nk + 1) (by omega) (by omega)) (h _ (by omega) (by omega))
    rwa [show nk + 1 - nk = 1 by omega] at this
  have h0 : keyExpansion key nk 0 = keyExpansion key' nk 0 := by
    have := kx_back (key := key) (key' := key') (i := nk) (by omega) (by omega) (h nk (by omega) (by omega)) (by
      by_cases e : nk = 4
      · rw [e] at h3 ⊢; exact h3
      · exact h _ (by omega) (by omega))
    rwa [show nk - nk = 0 by omega] at this
  have all : ∀ i, i < nk → keyExpansion key nk i = keyExpansion key' nk i := by
    intro i hi
    match i with
    | 0 => exact h0
    | 1 => exact h1
    | 2 => exact h2
    | 3 => exact h3
    | i + 4 => exact h _ (by omega) (by omega)
  refine List.ext_getElem (by omega) fun m hm hm' => ?_
  have e := all (m / 4) (by omega)
  rw [keyExpansion.eq_1 key, keyExpansion.eq_1 key', dif_pos (by omega), dif_pos (by omega)] at e
  have e := congrFun e ⟨m % 4, by omega⟩
  simp only [show 4 * (m / 4) + m % 4 = m by omega, getD_lt hm, getD_lt hm'] at e
  exact e

theorem quad_words {ks ks' : List (BitVec 32)} {k : Nat} (h : keyQuad ks k = keyQuad ks' k) :
    ∀ j < 4, ks.getD (k + j) 0#32 = ks'.getD (k + j) 0#32 := by
  simp only [keyQuad, Quad.mk.injEq] at h
  intro j hj
  match j, hj with
  | 0, _ => exact h.1
  | 1, _ => exact h.2.1
  | 2, _ => exact h.2.2.1
  | 3, _ => exact h.2.2.2

theorem addKey_inj {s s' k : Quad} (h : addKey s k = addKey s' k) : s = s' := by
  obtain ⟨a, b, c, d⟩ := s
  obtain ⟨a', b', c', d'⟩ := s'
  simp only [addKey, Quad.mk.injEq] at h
  rw [xor_left_cancel h.1, xor_left_cancel h.2.1, xor_left_cancel h.2.2.1, xor_left_cancel h.2.2.2]

theorem load_inj {b b' : Bytes} (h : b.length = 16) (h' : b'.length = 16) (e : load b = load b') : b = b' := by
  have e := (stateOf_load b h).symm.trans ((congrArg stateOf e).trans (stateOf_load b' h'))
  refine List.ext_getElem (by omega) fun m hm hm' => ?_
  have := congrFun (congrFun e ⟨m % 4, by omega⟩) ⟨m / 4, by omega⟩
  simp only [Spec.AES.toState, show m % 4 + 4 * (m / 4) = m by omega, getD_lt hm, getD_lt hm'] at this
  exact this

theorem nr_len {key : Bytes} {a : AES} (h : AES.new key = .ok a) : key.length = 4 * (a.nr - 6) ∧ 4 ≤ a.nr - 6 ∧ a.nr - 6 ≤ 8 ∧ 6 < a.nr := by
  obtain ⟨h1, h2, -⟩ := new_spec key a h
  rcases h1 with h1 | h1 | h1 <;> rw [h1] at h2 ⊢ <;> omega

theorem encrypt_keys {key key' : Bytes} {a a' : AES} (ha : AES.new key = .ok a) (ha' : AES.new key' = .ok a') {b b' : Bytes}
    (hb : b.length = 16) (hb' : b'.length = 16) (h : (encryptAES a b).evs = (encryptAES a' b').evs) : key = key' ∧ b = b' := by
  obtain ⟨l, l4, l8, l6⟩ := nr_len ha
  obtain ⟨l', l4', l8', l6'⟩ := nr_len ha'
  have hn : a.nr = a'.nr := by
    have e := congrArg (fun l => (l.map Read.tab).length) h
    simp only [encryptAES_tab, List.length_append, List.length_flatten, List.map_replicate, List.sum_replicate_nat, List.length_replicate,
      show teTabs.length = 16 from rfl] at e
    omega
  obtain ⟨h1, h2⟩ := encryptAES_inj hn h
  obtain ⟨-, e1, ag, -⟩ := new_spec key a ha
  obtain ⟨-, e1', ag', -⟩ := new_spec key' a' ha'
  rw [show key.length / 4 = a.nr - 6 by omega] at ag
  rw [show key'.length / 4 = a.nr - 6 by omega, ← hn] at ag'
  have hk : key = key' := by
    refine kx_key l4 l (by omega) fun i hi hi' => ?_
    have := quad_words (h2 (i / 4 - 1) (by omega)) (i % 4) (by omega)
    rw [show 4 + 4 * (i / 4 - 1) + i % 4 = i by omega] at this
    rw [← ag i (by omega), ← ag' i (by omega), this]
  subst hk
  rw [ha] at ha'
  injection ha' with ha'
  subst ha'
  exact ⟨rfl, load_inj hb hb' (addKey_inj h1)⟩

theorem invMixCol_inj {a b : Col} (h : Spec.AES.invMixCol a = Spec.AES.invMixCol b) : a = b := by
  rw [← Spec.AES.mixCol_invMixCol a, h, Spec.AES.mixCol_invMixCol]

theorem decrypt_keys {key key' : Bytes} {a a' : AES} (ha : AES.new key = .ok a) (ha' : AES.new key' = .ok a') {b b' : Bytes}
    (hb : b.length = 16) (hb' : b'.length = 16) (h : (decryptAES a b).evs = (decryptAES a' b').evs) : key = key' ∧ b = b' := by
  obtain ⟨l, l4, l8, l6⟩ := nr_len ha
  obtain ⟨l', l4', l8', l6'⟩ := nr_len ha'
  have hn : a.nr = a'.nr := by
    have e := congrArg (fun l => (l.map Read.tab).length) h
    simp only [decryptAES_tab, List.length_append, List.length_flatten, List.map_replicate, List.sum_replicate_nat, List.length_replicate,
      show tdTabs.length = 16 from rfl] at e
    omega
  obtain ⟨h1, h2⟩ := decryptAES_inj hn h
  obtain ⟨-, e1, -, ag⟩ := new_spec key a ha
  obtain ⟨-, e1', -, ag'⟩ := new_spec key' a' ha'
  rw [show key.length / 4 = a.nr - 6 by omega] at ag
  rw [show key'.length / 4 = a.nr - 6 by omega, ← hn] at ag'
  have hk : key = key' := by
    refine kx_key l4 l (by omega) fun i hi hi' => ?_
    have := quad_words (h2 (a.nr - i / 4 - 1) (by omega)) (i % 4) (by omega)
    rw [show 4 + 4 * (a.nr - i / 4 - 1) + i % 4 = 4 * (a.nr - i / 4) + i % 4 by omega] at this
    have g := ag (a.nr - i / 4) (i % 4) (by omega) (by omega)
    have g' := ag' (a.nr - i / 4) (i % 4) (by omega) (by omega)
    rw [if_pos (by omega), show 4 * (a.nr - (a.nr - i / 4)) + i % 4 = i by omega] at g g'
    rw [this, g'] at g
    exact (invMixCol_inj g).symm
  subst hk
  rw [ha] at ha'
  injection ha' with ha'
  subst ha'
  exact ⟨rfl, load_inj hb hb' (addKey_inj h1)⟩

/-! Making the object -/

/-- The number of table reads of the key expansion. -/
def schedLen (nk : Nat) : Nat → Nat → Nat
  | 0, _ => 0
  | count + 1, i => (if i % nk = 0 then 4 else if nk > 6 ∧ i % nk = 4 then 4 else 0) + schedLen nk count (i + 1)

theorem schedLoopL_len (nk : Nat) : ∀ (count i : Nat) (enc : List (BitVec 32)), ((schedLoopL nk count i enc).evs).length = schedLen nk count i
  | 0, _, _ => rfl
  | count + 1, i, enc => by
    rw [schedLoopL, evs_bind, List.length_append, schedLoopL_len nk count, schedLen]
    congr 1
    unfold schedTL
    split
    · rfl
    · split <;> rfl

theorem schedLoopL_tab (nk : Nat) : ∀ (count i : Nat) (enc : List (BitVec 32)),
    ((schedLoopL nk count i enc).evs).map Read.tab = List.replicate (schedLen nk count i) .sbox0
  | 0, _, _ => rfl
  | count + 1, i, enc => by
    rw [schedLoopL, evs_bind, List.map_append, schedLoopL_tab nk count, schedLen, List.replicate_add]
    congr 1
    unfold schedTL
    split
    · rfl
    · split <;> rfl

/-- The tables of the middle keys of the decryption. -/
def decTabs : List Tab := [.sbox0, .td 0, .sbox0, .td 1, .sbox0, .td 2, .sbox0, .td 3]

/-- The tables read for the decryption keys. -/
def decEntriesTab (n : Nat) : Nat → Nat → List Tab
  | 0, _ => []
  | count + 1, k => (if 0 < k / 4 * 4 ∧ k / 4 * 4 + 4 < n then decTabs else []) ++ decEntriesTab n count (k + 1)

theorem decEntriesL_tab (n : Nat) (enc : List (BitVec 32)) : ∀ (count k : Nat),
    ((decEntriesL n enc count k).evs).map Read.tab = decEntriesTab n count k
  | 0, _ => rfl
  | count + 1, k => by
    rw [decEntriesL, evs_bind, evs_bind, evs_pure, List.append_nil, List.map_append, decEntriesL_tab n enc count, decEntriesTab]
    congr 1
    unfold decEntryL
    dsimp only
    split <;> rfl

theorem tdWordL_inj {x y : BitVec 32} (h : (tdWordL x).evs = (tdWordL y).evs) : x = y := by
  simp only [tdWordL, evs_bind, read, List.cons_append, List.nil_append, evs_pure, List.cons.injEq, Read.mk.injEq, true_and, and_true] at h
  exact word_ext (BitVec.eq_of_toNat_eq h.1) (BitVec.eq_of_toNat_eq h.2.2.1) (BitVec.eq_of_toNat_eq h.2.2.2.2.1) (BitVec.eq_of_toNat_eq h.2.2.2.2.2.2.1)

theorem decEntriesL_inj (n : Nat) (enc enc' : List (BitVec 32)) : ∀ (count k : Nat),
    (decEntriesL n enc count k).evs = (decEntriesL n enc' count k).evs →
    ∀ m, k ≤ m → m < k + count → 0 < m / 4 * 4 → m / 4 * 4 + 4 < n →
      enc.getD (n - m / 4 * 4 - 4 + m % 4) 0#32 = enc'.getD (n - m / 4 * 4 - 4 + m % 4) 0#32
  | 0, _, _, m, h1, h2, _, _ => by omega
  | count + 1, k, h, m, h1, h2, h3, h4 => by
    simp only [decEntriesL, evs_bind, evs_pure, List.append_nil] at h
    obtain ⟨e1, e2⟩ := List.append_inj h (by
      unfold decEntryL
      dsimp only
      split <;> rfl)
    rcases Nat.eq_or_lt_of_le h1 with rfl | hlt
    · simp only [decEntryL, if_pos (And.intro h3 h4)] at e1
      exact tdWordL_inj e1
    · exact decEntriesL_inj n enc enc' count (k + 1) e2 m (by omega) (by omega) h3 h4

theorem keyScheduleL_evs (key : Bytes) (nk nr : Nat) : (keyScheduleL key nk nr).evs =
    (schedLoopL nk ((nr + 1) * 4 - nk) nk (beWords key)).evs ++ (decEntriesL ((nr + 1) * 4) (keySchedule key nk nr).encKs ((nr + 1) * 4) 0).evs := by
  rw [keyScheduleL, evs_bind, evs_bind, evs_pure, List.append_nil, schedLoopL_val]
  rfl

theorem keyScheduleL_tab (key : Bytes) (nk nr : Nat) : ((keyScheduleL key nk nr).evs).map Read.tab =
    List.replicate (schedLen nk ((nr + 1) * 4 - nk) nk) .sbox0 ++ decEntriesTab ((nr + 1) * 4) ((nr + 1) * 4) 0 := by
  rw [keyScheduleL_evs, List.map_append, schedLoopL_tab, decEntriesL_tab]

theorem newAES_some {key : Bytes} {l : Log AES} (h : newAES key = some l) : AES.new key = .ok l.val ∧
    ∃ nk nr, nkNr key.length = some (nk, nr) ∧ l = keyScheduleL key nk nr := by
  unfold newAES at h
  unfold AES.new
  split at h
  · rename_i nk nr e
    rw [e]
    injection h with h
    rw [← h, keyScheduleL_val]
    exact ⟨rfl, _, _, rfl, rfl⟩
  · cases h

theorem nkNr_cases {n nk nr : Nat} (h : nkNr n = some (nk, nr)) :
    (n = 16 ∧ nk = 4 ∧ nr = 10) ∨ (n = 24 ∧ nk = 6 ∧ nr = 12) ∨ (n = 32 ∧ nk = 8 ∧ nr = 14) := by
  unfold nkNr at h
  split at h <;> simp only [Option.some.injEq, Prod.mk.injEq, reduceCtorEq] at h <;> omega

theorem new_keys {key key' : Bytes} {l l' : Log AES} (h : newAES key = some l) (h' : newAES key' = some l') (he : l.evs = l'.evs) : key = key' := by
  obtain ⟨ha, nk, nr, hk, rfl⟩ := newAES_some h
  obtain ⟨ha', nk', nr', hk', rfl⟩ := newAES_some h'
  have c := nkNr_cases hk
  have c' := nkNr_cases hk'
  have e : ∀ nk nr, (nk = 4 ∧ nr = 10) ∨ (nk = 6 ∧ nr = 12) ∨ (nk = 8 ∧ nr = 14) → ∀ nk' nr', (nk' = 4 ∧ nr' = 10) ∨ (nk' = 6 ∧ nr' = 12) ∨ (nk' = 8 ∧ nr' = 14) →
      (List.replicate (schedLen nk ((nr + 1) * 4 - nk) nk) Tab.sbox0 ++ decEntriesTab ((nr + 1) * 4) ((nr + 1) * 4) 0).length =
      (List.replicate (schedLen nk' ((nr' + 1) * 4 - nk') nk') Tab.sbox0 ++ decEntriesTab ((nr' + 1) * 4) ((nr' + 1) * 4) 0).length → nk = nk' ∧ nr = nr' := by
    rintro nk nr (⟨rfl, rfl⟩ | ⟨rfl, rfl⟩ | ⟨rfl, rfl⟩) nk' nr' (⟨rfl, rfl⟩ | ⟨rfl, rfl⟩ | ⟨rfl, rfl⟩) <;> decide +kernel
  obtain ⟨rfl, rfl⟩ := e nk nr (by omega) nk' nr' (by omega) (by rw [← keyScheduleL_tab key, ← keyScheduleL_tab key', he])
  rw [keyScheduleL_evs, keyScheduleL_evs] at he
  have he := (List.append_inj he (by rw [schedLoopL_len, schedLoopL_len])).2
  have w := decEntriesL_inj _ _ _ _ _ he
  obtain ⟨-, -, ag, -⟩ := new_spec key _ ha
  obtain ⟨-, -, ag', -⟩ := new_spec key' _ ha'
  simp only [keyScheduleL_val] at ag ag'
  rw [show key.length / 4 = nk by omega] at ag
  rw [show key'.length / 4 = nk by omega] at ag'
  have g : (keySchedule key nk nr).nr = nr := rfl
  have g' : (keySchedule key' nk nr).nr = nr := rfl
  rw [g] at ag
  rw [g'] at ag'
  refine kx_key (nk := nk) (by omega) (by omega) (by omega) fun i hi hi' => ?_
  have := w ((nr - i / 4) * 4 + i % 4) (by omega) (by omega) (by omega) (by omega)
  rw [show ((nr - i / 4) * 4 + i % 4) / 4 * 4 = (nr - i / 4) * 4 by omega, show ((nr - i / 4) * 4 + i % 4) % 4 = i % 4 by omega,
    show (nr + 1) * 4 - (nr - i / 4) * 4 - 4 + i % 4 = i by omega] at this
  rw [← ag i (by omega), ← ag' i (by omega), this]

end AES
end Verif.Model.Reads

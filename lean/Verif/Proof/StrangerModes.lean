import Verif.Proof.Stranger

/-! Helper lemmas for C100: a mode gives a ciphertext exactly if the cipher takes the values that message and ciphertext call for. -/

namespace Verif.Spec
open Model

variable {n : Nat}

theorem permCipher_bs (π : Equiv.Perm (Block n)) : (permCipher π).bs = n := rfl

theorem lenOn (π : Equiv.Perm (Block n)) (b : Bytes) (hb : b.length = n) : (onBytes π b).length = n := by rw [onBytes_mk π hb]; exact (π _).2

theorem permCipher_lawful (hn : 0 < n) (π : Equiv.Perm (Block n)) : Lawful (permCipher π) (onBytes π) (onBytes π.symm) where
  pos := hn
  enc b hb := by rw [permCipher_bs] at hb; simp [permCipher, hb]
  dec b hb := by rw [permCipher_bs] at hb; simp [permCipher, hb]
  lenE b hb := lenOn π b hb
  lenD b hb := lenOn π.symm b hb
  DE b hb := by
    rw [onBytes_mk π.symm (lenOn π b hb)]
    have : (⟨onBytes π b, lenOn π b hb⟩ : Block n) = π ⟨b, hb⟩ := Subtype.ext (onBytes_mk π hb)
    rw [this, Equiv.symm_apply_apply]
  ED b hb := by
    rw [onBytes_mk π (lenOn π.symm b hb)]
    have : (⟨onBytes π.symm b, lenOn π.symm b hb⟩ : Block n) = π.symm ⟨b, hb⟩ := Subtype.ext (onBytes_mk π.symm hb)
    rw [this, Equiv.apply_symm_apply]
  encErr b hb := by rw [permCipher_bs] at hb; simp [permCipher, hb]
  decErr b hb := by rw [permCipher_bs] at hb; simp [permCipher, hb]

theorem ecb_iff (E : Bytes → Bytes) {xs ys : List Bytes} (hl : xs.length = ys.length) : ecb E xs = ys ↔ ∀ a ∈ xs.zip ys, E a.1 = a.2 := by
  induction xs generalizing ys with
  | nil => cases ys with
    | nil => simp [ecb]
    | cons y ys => simp at hl
  | cons x xs ih =>
    cases ys with
    | nil => simp at hl
    | cons y ys =>
      have := ih (ys := ys) (by simpa using hl)
      simp only [ecb, List.map_cons, List.cons.injEq, List.zip_cons_cons, List.forall_mem_cons] at this ⊢
      rw [this]

theorem cbc_iff (E : Bytes → Bytes) (iv : Bytes) {xs ys : List Bytes} (hl : xs.length = ys.length) :
    cbcEnc E iv xs = ys ↔ ∀ a ∈ (List.zipWith xorBytes xs (iv :: ys)).zip ys, E a.1 = a.2 := by
  induction xs generalizing iv ys with
  | nil => cases ys with
    | nil => simp [cbcEnc]
    | cons y ys => simp at hl
  | cons x xs ih =>
    cases ys with
    | nil => simp at hl
    | cons y ys =>
      have := ih y (ys := ys) (by simpa using hl)
      simp only [cbcEnc, List.cons.injEq, List.zipWith_cons_cons, List.zip_cons_cons, List.forall_mem_cons] at this ⊢
      rw [← this]
      constructor
      · rintro ⟨h1, h2⟩; rw [h1] at h2; exact ⟨h1, h2⟩
      · rintro ⟨h1, h2⟩; rw [h1]; exact ⟨rfl, h2⟩

theorem xor_eq_iff {a b c : Bytes} (h1 : a.length = n) (h2 : b.length = n) (h3 : c.length = n) : xorBytes a b = c ↔ b = xorBytes a c := by
  constructor
  · rintro rfl; rw [xorBytes_self_left _ _ (by omega), List.take_of_length_le (by omega)]
  · rintro rfl; rw [xorBytes_self_left _ _ (by omega), List.take_of_length_le (by omega)]

theorem cfb_iff (E : Bytes → Bytes) (hE : ∀ b, b.length = n → (E b).length = n) {iv : Bytes} (hiv : iv.length = n) {xs ys : List Bytes}
    (hx : IsBlocks n xs) (hy : IsBlocks n ys) (hl : xs.length = ys.length) :
    cfbEnc E n iv xs = ys ↔ ∀ a ∈ (iv :: ys).zip (List.zipWith xorBytes xs ys), E a.1 = a.2 := by
  induction xs generalizing iv ys with
  | nil => cases ys with
    | nil => simp [cfbEnc]
    | cons y ys => simp at hl
  | cons x xs ih =>
    cases ys with
    | nil => simp at hl
    | cons y ys =>
      have := ih (ys := ys) hy.head hx.tail hy.tail (by simpa using hl)
      have ht : (E iv).take n = E iv := List.take_of_length_le (by rw [hE _ hiv])
      have hd : iv.drop n = [] := List.drop_of_length_le (by omega)
      simp only [cfbEnc, List.cons.injEq, List.zipWith_cons_cons, List.zip_cons_cons, List.forall_mem_cons, ht, hd, List.nil_append] at this ⊢
      rw [← this, ← xor_eq_iff hx.head (hE _ hiv) hy.head]
      constructor
      · rintro ⟨h1, h2⟩; rw [h1] at h2; exact ⟨h1, h2⟩
      · rintro ⟨h1, h2⟩; rw [h1]; exact ⟨rfl, h2⟩

/-- A stream cipher on whole blocks gives a ciphertext exactly if its key stream blocks are the masks. -/
theorem stream_iff (hn : 0 < n) (block : Nat → Bytes) (hb : ∀ i, (block i).length = n) {xs ys : List Bytes} (hx : IsBlocks n xs)
    (hy : IsBlocks n ys) (hl : xs.length = ys.length) :
    streamXor block n xs.flatten = ys.flatten ↔ (List.range xs.length).map block = List.zipWith xorBytes xs ys := by
  induction xs generalizing block ys with
  | nil => cases ys with
    | nil => simp [streamXor]
    | cons y ys => simp at hl
  | cons x xs ih =>
    cases ys with
    | nil => simp at hl
    | cons y ys =>
      have := ih (fun i => block (i + 1)) (fun i => hb _) (ys := ys) hx.tail hy.tail (by simpa using hl)
      rw [List.flatten_cons, List.flatten_cons, streamXor_cons _ hn (hb 0) hx.head, List.length_cons, List.range_succ_eq_map, List.map_cons,
        List.map_map, List.zipWith_cons_cons, List.cons.injEq]
      have hf : (List.range xs.length).map (block ∘ Nat.succ) = (List.range xs.length).map fun i => block (i + 1) := rfl
      rw [hf, ← this, ← xor_eq_iff hx.head (hb 0) hy.head]
      constructor
      · intro e
        exact List.append_inj e (by rw [length_xorBytes, hb, hx.head, hy.head]; simp)
      · rintro ⟨h1, h2⟩; rw [h1, h2]

theorem ofbChain_iff (E : Bytes → Bytes) (iv : Bytes) (zs : List Bytes) :
    (List.range zs.length).map (ofbBlock E iv) = zs ↔ ∀ a ∈ (iv :: zs).zip zs, E a.1 = a.2 := by
  induction zs generalizing iv with
  | nil => simp
  | cons z zs ih =>
    have := ih z
    rw [List.length_cons, List.range_succ_eq_map, List.map_cons, List.map_map, List.cons.injEq, List.zip_cons_cons, List.forall_mem_cons, ← this]
    have hf : ofbBlock E iv ∘ Nat.succ = ofbBlock E (E iv) := funext (ofbBlock_succ E iv)
    rw [hf]
    constructor
    · rintro ⟨h1, h2⟩
      have h1 : E iv = z := h1
      rw [h1] at h2
      exact ⟨h1, h2⟩
    · rintro ⟨h1, h2⟩
      have h1 : E iv = z := h1
      rw [h1]
      exact ⟨h1, h2⟩

theorem map_range_iff (E : Bytes → Bytes) (v : Nat → Bytes) (zs : List Bytes) :
    (List.range zs.length).map (fun i => E (v i)) = zs ↔ ∀ a ∈ ((List.range zs.length).map v).zip zs, E a.1 = a.2 := by
  rw [← ecb_iff E (by simp)]; simp [ecb, Function.comp_def]

/-- The padded message is a number of blocks. -/
theorem padding_blocks (hn : 0 < n) {p : Padding} {m : Bytes} (hp : PadOk p n n m) :
    ∃ blocks t pb, m = blocks.flatten ++ t ∧ t.length < n ∧ IsBlocks n blocks ∧ IsBlocks n pb ∧ p.padding t = pb.flatten ∧
      p.padding m = (blocks ++ pb).flatten := by
  obtain ⟨blocks, t, hb, ht, rfl⟩ := exists_blocks hn m
  obtain ⟨pb, h1, h2, _, h3, _⟩ := padOk_blocks hn (Nat.dvd_refl _) hn hb ht hp
  refine ⟨blocks, t, pb, rfl, ht, hb, h1, h2, ?_⟩
  rcases hp with rfl | ⟨rfl, _⟩
  · rw [padding_append_blocks hb ht, h2, List.flatten_append]
  · rw [List.flatten_append, ← h2]; rfl

theorem flatten_eq_iff (hn : 0 < n) {xs ys : List Bytes} (hx : IsBlocks n xs) (hy : IsBlocks n ys) : xs.flatten = ys.flatten ↔ xs = ys :=
  ⟨fun e => by rw [← blocksOf_flatten' hn hx, e, blocksOf_flatten' hn hy], fun e => by rw [e]⟩

theorem length_blocks_eq (hn : 0 < n) {xs ys : List Bytes} (hx : IsBlocks n xs) (hy : IsBlocks n ys) (h : xs.flatten.length = ys.flatten.length) :
    xs.length = ys.length := by
  rw [hx.length_flatten, hy.length_flatten] at h
  exact Nat.eq_of_mul_eq_mul_left hn h

theorem as_blocks (hn : 0 < n) {ct : Bytes} {xs : List Bytes} (hx : IsBlocks n xs) (hl : ct.length = xs.flatten.length) :
    ∃ ys, IsBlocks n ys ∧ ct = ys.flatten ∧ xs.length = ys.length := by
  have hm : ct.length % n = 0 := by rw [hl, hx.length_flatten, Nat.mul_mod_right]
  refine ⟨blocksOf n ct, blocksOf_isBlocks _ _, (flatten_blocksOf hn hm).symm, length_blocks_eq hn hx (blocksOf_isBlocks _ _) ?_⟩
  rw [flatten_blocksOf hn hm, hl]

theorem ecb_encrypt_iff (hn : 0 < n) (π : Equiv.Perm (Block n)) {p : Padding} {m ct : Bytes} (hp : PadOk p n n m)
    (hl : ct.length = (p.padding m).length) :
    ECB.encrypt (permCipher π) p m = .ok ct ↔ ∀ a ∈ ecbPairs n (p.padding m) ct, onBytes π a.1 = a.2 := by
  have L := permCipher_lawful hn π
  obtain ⟨blocks, t, pb, rfl, ht, hb, hpb, h2, h3⟩ := padding_blocks hn hp
  have hbp := hb.append hpb
  rw [h3] at hl ⊢
  obtain ⟨ys, hy, rfl, hlen⟩ := as_blocks hn hbp hl
  rw [ECB.encrypt_eq L hb ht hpb h2, Except.ok.injEq, flatten_eq_iff hn (ECB.ecb_isBlocks L hbp) hy, ecb_iff _ hlen, ecbPairs,
    blocksOf_flatten' hn hbp, blocksOf_flatten' hn hy]

theorem cfb_encrypt_iff (hn : 0 < n) (π : Equiv.Perm (Block n)) {p : Padding} {iv m ct : Bytes} (hiv : iv.length = n) (hp : PadOk p n n m)
    (hl : ct.length = (p.padding m).length) :
    CFB.encrypt (permCipher π) p n iv m = .ok ct ↔ ∀ a ∈ cfbPairs n iv (p.padding m) ct, onBytes π a.1 = a.2 := by
  have L := permCipher_lawful hn π
  obtain ⟨blocks, t, pb, rfl, ht, hb, hpb, h2, h3⟩ := padding_blocks hn hp
  have hbp := hb.append hpb
  rw [h3] at hl ⊢
  obtain ⟨ys, hy, rfl, hlen⟩ := as_blocks hn hbp hl
  rw [CFB.encrypt_eq L hn (Nat.le_refl _) hiv hb ht hpb (rem := []) hn (by rw [h2]; simp), Except.ok.injEq,
    flatten_eq_iff hn (CFB.cfbEnc_isBlocks (s := n) L (Nat.le_refl _) hiv hbp) hy, cfb_iff (n := n) _ L.lenE hiv hbp hy hlen, cfbPairs, masks,
    blocksOf_flatten' hn hbp, blocksOf_flatten' hn hy]

theorem cbc_encrypt_iff (hn : 0 < n) (π : Equiv.Perm (Block n)) {p : Padding} {iv m ct : Bytes} (hiv : iv.length = n) (hp : PadOk p n n m)
    (hl : ct.length = (p.padding m).length) :
    CBC.encrypt (permCipher π) p iv m = .ok ct ↔
      ∀ a ∈ cbcPairs n iv (m.take (n * (m.length / n))) (ct.take (n * (m.length / n))) ++
        ecbPairs n (p.padding (m.drop (n * (m.length / n)))) (ct.drop (n * (m.length / n))), onBytes π a.1 = a.2 := by
  have L := permCipher_lawful hn π
  obtain ⟨blocks, t, pb, rfl, ht, hb, hpb, h2, h3⟩ := padding_blocks hn hp
  have hbp := hb.append hpb
  rw [h3] at hl
  obtain ⟨ys, hy, rfl, hlen⟩ := as_blocks hn hbp hl
  have hk : n * ((blocks.flatten ++ t).length / n) = blocks.flatten.length := by
    rw [List.length_append, hb.length_flatten, Nat.mul_add_div hn, Nat.div_eq_of_lt ht, Nat.add_zero]
  have hy1 : IsBlocks n (ys.take blocks.length) := fun b hb => hy b (List.mem_of_mem_take hb)
  have hy2 : IsBlocks n (ys.drop blocks.length) := fun b hb => hy b (List.mem_of_mem_drop hb)
  have hsplit : ys.flatten = (ys.take blocks.length).flatten ++ (ys.drop blocks.length).flatten := by
    rw [← List.flatten_append, List.take_append_drop]
  rw [List.length_append] at hlen
  have hl1 : blocks.length = (ys.take blocks.length).length := by rw [List.length_take]; omega
  have hl2 : pb.length = (ys.drop blocks.length).length := by rw [List.length_drop]; omega
  have hfl : (ys.take blocks.length).flatten.length = blocks.flatten.length := by rw [hy1.length_flatten, hb.length_flatten, ← hl1]
  rw [hk, List.take_left, List.drop_left, hsplit, ← hfl, List.take_left, List.drop_left, CBC.encrypt_eq L hiv hb ht hpb h2, Except.ok.injEq, h2]
  have hc := CBC.cbcEnc_isBlocks L hiv hb
  have hcl : (cbcEnc (onBytes π) iv blocks).flatten.length = (ys.take blocks.length).flatten.length := by
    rw [hc.length_flatten, hfl, hb.length_flatten]
    congr 1
    clear hc hfl hl1 hsplit hy1 hl2 hy2 hlen hk hl h3 hp hbp
    induction blocks generalizing iv with
    | nil => rfl
    | cons b bs ih => 
      have hx : (xorBytes b iv).length = n := by rw [length_xorBytes, hiv, hb.head]; omega
      simp only [cbcEnc, List.length_cons, ih (L.lenE _ hx) hb.tail]
  have happ : ∀ {a b c d : Bytes}, a.length = c.length → (a ++ b = c ++ d ↔ a = c ∧ b = d) := fun {a b c d} hl =>
    ⟨fun e => List.append_inj e hl, fun ⟨e1, e2⟩ => by rw [e1, e2]⟩
  rw [happ hcl, flatten_eq_iff hn hc hy1, flatten_eq_iff hn (ECB.ecb_isBlocks L hpb) hy2, cbc_iff _ _ hl1, ecb_iff _ hl2, cbcPairs, ecbPairs,
    blocksOf_flatten' hn hb, blocksOf_flatten' hn hy1, blocksOf_flatten' hn hpb, blocksOf_flatten' hn hy2, List.forall_mem_append]

theorem ofb_encrypt_iff (hn : 0 < n) (π : Equiv.Perm (Block n)) {iv m ct : Bytes} (hiv : iv.length = n) (hm : m.length % n = 0)
    (hl : ct.length = m.length) :
    OFB.encrypt (permCipher π) iv m = .ok ct ↔ ∀ a ∈ ofbPairs n iv m ct, onBytes π a.1 = a.2 := by
  have L := permCipher_lawful hn π
  have hx := blocksOf_isBlocks n m
  have hf := flatten_blocksOf hn hm
  obtain ⟨ys, hy, rfl, hlen⟩ := as_blocks (ct := ct) hn hx (by rw [hf, hl])
  rw [OFB.encrypt_eq L hiv, Except.ok.injEq, ofb, permCipher_bs, ofbPairs, masks, blocksOf_flatten' hn hy]
  have hz : (List.zipWith xorBytes (blocksOf n m) ys).length = (blocksOf n m).length := by rw [List.length_zipWith]; omega
  rw [← ofbChain_iff, hz, ← stream_iff hn _ (OFB.length_ofbBlock L hiv) hx hy hlen, hf]

theorem ctr_encrypt_iff {κ : Type} {ops : CounterOps κ} (hn : 0 < n) (π : Equiv.Perm (Block n)) {k : κ} {v : Nat → Bytes}
    (hv : ∀ i, ops.value k i = some (v i) ∧ n ≤ (v i).length) {m ct : Bytes} (hm : m.length % n = 0) (hl : ct.length = m.length) :
    (∃ k', CTR.encrypt (permCipher π) ops k m = .ok (k', ct)) ↔ ∀ a ∈ ctrPairs n (fun i => (v i).take n) m ct, onBytes π a.1 = a.2 := by
  have L := permCipher_lawful hn π
  have hx := blocksOf_isBlocks n m
  have hf := flatten_blocksOf hn hm
  obtain ⟨ys, hy, rfl, hlen⟩ := as_blocks (ct := ct) hn hx (by rw [hf, hl])
  have hk : CTR.Good (permCipher π) ops k := fun i => ⟨v i, hv i⟩
  have hin : CTR.input (permCipher π) ops k = fun i => (v i).take n := by funext i; simp [CTR.input, (hv i).1, permCipher_bs]
  have hz : (List.zipWith xorBytes (blocksOf n m) ys).length = (blocksOf n m).length := by rw [List.length_zipWith]; omega
  have hbl : (blocksOf n m).length = m.length / n := by simp [blocksOf]
  rw [CTR.encrypt, CTR.encryptInner_eq L hk, hin, ctr, permCipher_bs, ctrPairs, masks, blocksOf_flatten' hn hy, ← hbl, ← hz, ← map_range_iff, hz,
    ← stream_iff hn _ (fun i => lenOn π _ (by rw [List.length_take]; have := (hv i).2; omega)) hx hy hlen, hf]
  constructor
  · rintro ⟨k', e⟩; injection e with e; injection e
  · intro e; exact ⟨_, by rw [e, List.nil_append]⟩

theorem xors_isBlocks {xs ys : List Bytes} (hx : IsBlocks n xs) (hy : IsBlocks n ys) : IsBlocks n (List.zipWith xorBytes xs ys) := by
  induction xs generalizing ys with
  | nil => simp [IsBlocks]
  | cons x xs ih =>
    cases ys with
    | nil => simp [IsBlocks]
    | cons y ys =>
      rw [List.zipWith_cons_cons]
      exact .cons (by rw [length_xorBytes, hx.head, hy.head]; omega) (ih hx.tail hy.tail)

theorem zip_lengths {xs ys : List Bytes} (hx : IsBlocks n xs) (hy : IsBlocks n ys) : ∀ a ∈ xs.zip ys, a.1.length = n ∧ a.2.length = n := by
  rintro ⟨x, y⟩ h
  exact ⟨hx _ (List.of_mem_zip h).1, hy _ (List.of_mem_zip h).2⟩

theorem ecbPairs_lengths (m ct : Bytes) : ∀ a ∈ ecbPairs n m ct, a.1.length = n ∧ a.2.length = n :=
  zip_lengths (blocksOf_isBlocks _ _) (blocksOf_isBlocks _ _)

theorem cbcPairs_lengths {iv : Bytes} (hiv : iv.length = n) (m ct : Bytes) : ∀ a ∈ cbcPairs n iv m ct, a.1.length = n ∧ a.2.length = n :=
  zip_lengths (xors_isBlocks (blocksOf_isBlocks _ _) (.cons hiv (blocksOf_isBlocks _ _))) (blocksOf_isBlocks _ _)

theorem masks_isBlocks (m ct : Bytes) : IsBlocks n (masks n m ct) := xors_isBlocks (blocksOf_isBlocks _ _) (blocksOf_isBlocks _ _)

theorem cfbPairs_lengths {iv : Bytes} (hiv : iv.length = n) (m ct : Bytes) : ∀ a ∈ cfbPairs n iv m ct, a.1.length = n ∧ a.2.length = n :=
  zip_lengths (.cons hiv (blocksOf_isBlocks _ _)) (masks_isBlocks _ _)

theorem ofbPairs_lengths {iv : Bytes} (hiv : iv.length = n) (m ct : Bytes) : ∀ a ∈ ofbPairs n iv m ct, a.1.length = n ∧ a.2.length = n :=
  zip_lengths (.cons hiv (masks_isBlocks _ _)) (masks_isBlocks _ _)

theorem ctrPairs_lengths {v : Nat → Bytes} (hv : ∀ i, (v i).length = n) (m ct : Bytes) : ∀ a ∈ ctrPairs n v m ct, a.1.length = n ∧ a.2.length = n := by
  refine zip_lengths (fun b hb => ?_) (masks_isBlocks _ _)
  obtain ⟨i, _, rfl⟩ := List.mem_map.1 hb
  exact hv i

open Classical in
/-- Counting over a history of calls. -/
theorem count_history {τ : Type} (hist : List τ) (pairs : τ → List (Bytes × Bytes)) (P : Equiv.Perm (Block n) → τ → Prop)
    (hl : ∀ t ∈ hist, ∀ a ∈ pairs t, a.1.length = n ∧ a.2.length = n)
    (hP : ∀ π, ∀ t ∈ hist, P π t ↔ ∀ a ∈ pairs t, onBytes π a.1 = a.2) :
    Nat.card { π : Equiv.Perm (Block n) // ∀ t ∈ hist, P π t } =
      if Matching (hist.flatMap pairs) then (256 ^ n - distinct ((hist.flatMap pairs).map Prod.fst)).factorial else 0 := by
  rw [← count_perm]
  · refine Nat.card_congr (Equiv.subtypeEquivRight fun π => ?_)
    constructor
    · intro h a ha
      obtain ⟨t, ht, ha⟩ := List.mem_flatMap.1 ha
      exact (hP π t ht).1 (h t ht) a ha
    · intro h t ht
      exact (hP π t ht).2 fun a ha => h a (List.mem_flatMap.2 ⟨t, ht, ha⟩)
  · intro a ha
    obtain ⟨t, ht, ha⟩ := List.mem_flatMap.1 ha
    exact hl t ht a ha

theorem map_flatMap' {τ : Type} (hist : List τ) (pairs : τ → List (Bytes × Bytes)) (f : Bytes × Bytes → Bytes) (g : τ → List Bytes)
    (h : ∀ t ∈ hist, (pairs t).map f = g t) : (hist.flatMap pairs).map f = hist.flatMap g := by
  induction hist with
  | nil => rfl
  | cons t hist ih =>
    rw [List.flatMap_cons, List.map_append, h t (by simp), ih fun x hx => h x (by simp [hx]), List.flatMap_cons]

theorem zip_snd {xs ys : List Bytes} (h : ys.length ≤ xs.length) : (xs.zip ys).map Prod.snd = ys := List.map_snd_zip h
theorem zip_fst {xs ys : List Bytes} (h : xs.length ≤ ys.length) : (xs.zip ys).map Prod.fst = xs := List.map_fst_zip h

theorem length_blocksOf (n : Nat) (m : Bytes) : (blocksOf n m).length = m.length / n := by simp [blocksOf]

theorem blocksOf_split (hn : 0 < n) (ct : Bytes) (k : Nat) (hk : n * k ≤ ct.length) :
    blocksOf n (ct.take (n * k)) ++ blocksOf n (ct.drop (n * k)) = blocksOf n ct := by
  have h1 : (ct.take (n * k)).length % n = 0 := by rw [List.length_take, Nat.min_eq_left hk, Nat.mul_mod_right]
  conv_rhs => rw [← List.take_append_drop (n * k) ct, ← flatten_blocksOf hn h1]
  rw [blocksOf_append hn (blocksOf_isBlocks _ _)]

end Verif.Spec

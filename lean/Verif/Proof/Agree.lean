import Verif.Proof.Parts
import Verif.Proof.Oracle
import Verif.Proof.CBC
import Verif.Proof.ECB

/-! Helper lemmas for C130: what a decrypting stream makes of any bytes. -/

namespace Verif.Model
open Spec
variable {c : BlockCipher} {E D : Bytes → Bytes}

theorem pending_last {n : Nat} (hn : 0 < n) {w d : Bytes} {cb : List Bytes} (h1 : IsBlocks n cb) (h2 : w = cb.flatten ++ d) (h3 : d.length ≤ n)
    (h4 : w ≠ [] → 0 < d.length) :
    (d.length ≠ n ∧ (w = [] ∨ w.length % n ≠ 0)) ∨
      (d.length = n ∧ ¬ (w = [] ∨ w.length % n ≠ 0) ∧ lastBytes n w = d ∧ w.take (w.length - n) = cb.flatten) := by
  have hl : w.length = n * cb.length + d.length := by rw [h2, List.length_append, h1.length_flatten]
  by_cases hd : d.length = n
  · refine .inr ⟨hd, ?_, ?_, ?_⟩
    · rintro (h | h)
      · rw [h] at hl; simp only [List.length_nil] at hl; omega
      · rw [hl, hd, ← Nat.mul_succ, Nat.mul_mod_right] at h; exact h rfl
    · rw [h2, lastBytes_append _ (by omega), lastBytes_self hd]
    · rw [hl, hd, Nat.add_sub_cancel, h2, ← h1.length_flatten, List.take_left]
  · refine .inl ⟨hd, ?_⟩
    by_cases hw : w = []
    · exact .inl hw
    · have := h4 hw
      exact .inr (by rw [hl, Nat.mul_add_mod, Nat.mod_eq_of_lt (by omega)]; omega)

theorem ECB.decRun_any (h : Lawful c E D) (p : Padding) (ops : List (Bytes × Bool)) :
    runStream (ECB.decStream c p) ECB.init ops =
      if written ops = [] ∨ (written ops).length % c.bs ≠ 0 then .error (.err .invalidParameter)
      else (p.unpad (D (lastBytes c.bs (written ops)))).map fun u =>
        ((ecb D (blocksOf c.bs ((written ops).take ((written ops).length - c.bs)))).flatten ++ u, ECB.init) := by
  obtain ⟨out, s, h1, cb, g1, g2, g3, g4, g5, g6⟩ := feed_inv (str := ECB.decStream c p) (s := ECB.init) (RGt (ECB.encF D) c.bs ())
    (fun m o s d hR => ECB.decWrite_inv h d hR) (fun _ _ _ hR => hR.draw) ops RGt.init
  simp only [List.nil_append] at g2 g4 g6
  rcases pending_last h.pos g1 g2 g3 g4 with ⟨a, b⟩ | ⟨a, b, e1, e2⟩
  · rw [if_pos b]
    simp only [runStream, h1, bind, Except.bind]
    simp only [ECB.decStream, ECB.decFinish, h.decErr _ a, bind, Except.bind]
  · rw [if_neg b, e1, e2, blocksOf_flatten' h.pos g1]
    simp only [runStream, h1, bind, Except.bind]
    simp only [ECB.decStream, ECB.decFinish, h.dec _ a, bind, Except.bind]
    cases p.unpad (D s.data) with
    | error e => rfl
    | ok u =>
      simp only [Except.map, ← List.append_assoc, g6, ECB.runPure_encF]
      rfl

theorem CBC.chain_last (D : Bytes → Bytes) {n : Nat} {iv : Bytes} (hiv : iv.length = n) {cb : List Bytes} (h : IsBlocks n cb) :
    (runPure (CBC.decF D) iv cb).1 = lastBytes n (iv ++ cb.flatten) := by
  rcases List.eq_nil_or_concat cb with rfl | ⟨a, b, rfl⟩
  · rw [List.flatten_nil, List.append_nil, lastBytes_self hiv]; rfl
  · rw [List.concat_eq_append] at h ⊢
    have hb : b.length = n := h b (by simp)
    rw [CBC.runPure_decF_fst_snoc, List.flatten_append, ← List.append_assoc, List.flatten_cons, List.flatten_nil, List.append_nil,
      lastBytes_append _ (by omega), lastBytes_self hb]

theorem CBC.decRun_any (h : Lawful c E D) (p : Padding) {iv : Bytes} (hiv : iv.length = c.bs) (ops : List (Bytes × Bool)) :
    runStream (CBC.decStream c p iv) (CBC.init iv) ops =
      if written ops = [] ∨ (written ops).length % c.bs ≠ 0 then .error (.err .invalidParameter)
      else (p.unpad (xorBytes (D (lastBytes c.bs (written ops))) (lastBytes c.bs (iv ++ (written ops).take ((written ops).length - c.bs))))).map fun u =>
        ((cbcDec D iv (blocksOf c.bs ((written ops).take ((written ops).length - c.bs)))).flatten ++ u, CBC.init iv) := by
  obtain ⟨out, s, h1, cb, g1, g2, g3, g4, g5, g6⟩ := feed_inv (str := CBC.decStream c p iv) (s := CBC.init iv) (RGt (CBC.decF D) c.bs iv)
    (fun m o s d hR => CBC.decWrite_inv h hiv d hR) (fun _ _ _ hR => hR.draw) ops RGt.init
  simp only [List.nil_append] at g2 g4 g6
  rcases pending_last h.pos g1 g2 g3 g4 with ⟨a, b⟩ | ⟨a, b, e1, e2⟩
  · rw [if_pos b]
    simp only [runStream, h1, bind, Except.bind]
    simp only [CBC.decStream, CBC.decFinish, h.decErr _ a, bind, Except.bind]
  · rw [if_neg b, CBC.decRun_eq h hiv g1 a ops g2, e1, e2, blocksOf_flatten' h.pos g1, CBC.chain_last D hiv g1]
    cases p.unpad (xorBytes (D s.data) (lastBytes c.bs (iv ++ cb.flatten))) with
    | error e => rfl
    | ok u => rfl

end Verif.Model

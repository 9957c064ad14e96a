import Verif.Spec.Live
import Verif.Proof.StreamErr

/-! Helper lemmas: two ends of a connection -/

namespace Verif.Model
open Spec

variable {σ τ : Type}

/-- `g` undoes `f`, block by block, as long as the states satisfy `P`. -/
def Undoes (P : σ → Prop) (n : Nat) (f g : σ → Bytes → σ × Bytes) : Prop :=
  ∀ s b, P s → b.length = n → (f s b).2.length = n ∧ P (f s b).1 ∧ g s (f s b).2 = ((f s b).1, b)

theorem Undoes.prefix {P : σ → Prop} {n : Nat} (hn : 0 < n) {f g : σ → Bytes → σ × Bytes} (h : Undoes P n f g) {cs : List Bytes} (hc : IsBlocks n cs)
    {bl : List Bytes} (hb : IsBlocks n bl) {s : σ} (hs : P s) (hp : cs.flatten <+: (runPure f s bl).2) :
    (runPure g s cs).2 <+: bl.flatten ∧ (runPure g s cs).2.length = n * cs.length := by
  induction cs generalizing bl s with
  | nil => exact ⟨List.nil_prefix, by simp [runPure]⟩
  | cons c cs ih =>
    have hcl : c.length = n := hc c (List.mem_cons_self ..)
    cases bl with
    | nil =>
      have := hp.length_le
      rw [List.flatten_cons, List.length_append, hcl, runPure, List.length_nil] at this
      omega
    | cons b bl =>
      obtain ⟨h1, h2, h3⟩ := h s b hs (hb b (List.mem_cons_self ..))
      rw [List.flatten_cons, runPure] at hp
      obtain ⟨t, ht⟩ := hp
      rw [List.append_assoc] at ht
      obtain ⟨e1, e2⟩ := List.append_inj ht (by rw [hcl, h1])
      obtain ⟨i1, i2⟩ := ih (fun x hx => hc x (List.mem_cons_of_mem _ hx)) (fun x hx => hb x (List.mem_cons_of_mem _ hx)) h2 ⟨t, e2⟩
      subst e1
      simp only [runPure, h3]
      obtain ⟨u, hu⟩ := i1
      refine ⟨⟨u, ?_⟩, ?_⟩
      · rw [List.append_assoc, hu, List.flatten_cons]
      · rw [List.length_append, i2, hb b (List.mem_cons_self ..), List.length_cons, Nat.mul_succ, Nat.add_comm]

theorem runPure_length {P : σ → Prop} {n : Nat} {f g : σ → Bytes → σ × Bytes} (h : Undoes P n f g) {bl : List Bytes} (hb : IsBlocks n bl) {s : σ} (hs : P s) :
    (runPure f s bl).2.length = n * bl.length := by
  induction bl generalizing s with
  | nil => simp [runPure]
  | cons b bl ih =>
    obtain ⟨h1, h2, -⟩ := h s b hs (hb b (List.mem_cons_self ..))
    rw [runPure, List.length_append, h1, ih (fun x hx => hb x (List.mem_cons_of_mem _ hx)) h2, List.length_cons, Nat.mul_succ, Nat.add_comm]

/-- What is ready at a sender. -/
theorem ready_length {P : σ → Prop} {n : Nat} (hn : 0 < n) {f g : σ → Bytes → σ × Bytes} (h : Undoes P n f g) {s0 : σ} (hs : P s0) {m tx : Bytes} {S : StreamSt σ}
    (hS : RGe f n s0 m tx S) : (tx ++ S.pond).length = n * (m.length / n) := by
  rw [(hS.blocks hn).1, runPure_length h (blocksOf_isBlocks _ _) hs]
  simp [blocksOf]

theorem arrived_ge {P : σ → Prop} {n : Nat} (hn : 0 < n) {f g : σ → Bytes → σ × Bytes} (h : Undoes P n f g) {s0 : σ} (hs : P s0) {m tx rx got : Bytes}
    {S R : StreamSt σ} (hS : RGe f n s0 m tx S) (hrx : rx <+: tx) (hR : RGe g n s0 rx got R) :
    got ++ R.pond <+: m ∧ (got ++ R.pond).length = n * (rx.length / n) := by
  obtain ⟨bl, b1, b2, b3, -, b5⟩ := hS
  obtain ⟨cs, c1, c2, c3, -, c5⟩ := hR
  have hp : cs.flatten <+: (runPure f s0 bl).2 := by
    rw [← b5]
    refine List.IsPrefix.trans ?_ (List.prefix_append _ _)
    refine List.IsPrefix.trans ?_ hrx
    rw [c2]; exact List.prefix_append _ _
  obtain ⟨h1, h2⟩ := h.prefix hn c1 b1 hs hp
  rw [c5]
  refine ⟨h1.trans (by rw [b2]; exact List.prefix_append _ _), ?_⟩
  rw [h2, c2, List.length_append, c1.length_flatten, Nat.mul_add_div hn, Nat.div_eq_of_lt c3, Nat.add_zero]

theorem arrived_gt {P : σ → Prop} {n : Nat} (hn : 0 < n) {f g : σ → Bytes → σ × Bytes} (h : Undoes P n f g) {s0 : σ} (hs : P s0) {m tx rx got : Bytes}
    {S R : StreamSt σ} (hS : RGe f n s0 m tx S) (hrx : rx <+: tx) (hR : RGt g n s0 rx got R) :
    got ++ R.pond <+: m ∧ (got ++ R.pond).length = n * ((rx.length - 1) / n) := by
  obtain ⟨bl, b1, b2, b3, -, b5⟩ := hS
  obtain ⟨cs, c1, c2, c3, c5, -⟩ := hR.blocks hn
  have hp : cs.flatten <+: (runPure f s0 bl).2 := by
    rw [← b5]
    refine List.IsPrefix.trans ?_ (List.prefix_append _ _)
    refine List.IsPrefix.trans ?_ hrx
    rw [c3]; exact List.prefix_append _ _
  obtain ⟨h1, h2⟩ := h.prefix hn c1 b1 hs hp
  rw [c5]
  refine ⟨h1.trans (by rw [b2]; exact List.prefix_append _ _), ?_⟩
  rw [h2, ← c2, c1.length_flatten]

theorem sent_append (a b : List LiveOp) : sent (a ++ b) = sent a ++ sent b := by
  induction a with
  | nil => rfl
  | cons op a ih => cases op <;> simp [sent, ih]

theorem Live.run_append (enc : Stream σ) (dec : Stream τ) (L : Live σ τ) (a b : List LiveOp) :
    Live.run enc dec L (a ++ b) = (Live.run enc dec L a >>= fun L => Live.run enc dec L b) := by
  induction a generalizing L with
  | nil => rfl
  | cons op a ih =>
    simp only [List.cons_append, Live.run, bind, Except.bind]
    cases Live.step enc dec L op with
    | error e => rfl
    | ok L' => simp only [ih, bind, Except.bind]

theorem feed_append (str : Stream σ) (s : StreamSt σ) (a b : List (Bytes × Bool)) :
    feed str s (a ++ b) = (feed str s a >>= fun r => feed str r.2 b >>= fun r' => .ok (r.1 ++ r'.1, r'.2)) := by
  induction a generalizing s with
  | nil =>
    simp only [List.nil_append, feed, bind, Except.bind]
    cases feed str s b <;> rfl
  | cons op a ih =>
    obtain ⟨d, w⟩ := op
    simp only [List.cons_append, feed, bind, Except.bind]
    cases str.write s d with
    | error e => rfl
    | ok s' =>
      cases w <;> simp only [if_true, Bool.false_eq_true, if_false, ih, bind, Except.bind] <;>
      · cases feed str _ a with
        | error e => rfl
        | ok r =>
          dsimp only
          generalize feed str r.2 b = x
          cases x <;> simp [List.append_assoc]

/-- The invariant of a connection: what the sender has handed out is what has arrived and what is on its way; either end is as after its own calls alone. -/
structure Conn (enc : Stream σ) (dec : Stream τ) (R : Bytes → Bytes → StreamSt σ → Prop) (Q : Bytes → Bytes → StreamSt τ → Prop) (s0 : StreamSt σ)
    (r0 : StreamSt τ) (m : Bytes) (L : Live σ τ) (tx rx : Bytes) (a b : List (Bytes × Bool)) : Prop where
  split : tx = rx ++ L.channel
  sender : R m tx L.sender
  receiver : Q rx L.got L.receiver
  fed : feed enc s0 a = .ok (tx, L.sender)
  fedW : written a = m
  eaten : feed dec r0 b = .ok (L.got, L.receiver)
  eatenW : written b = rx

section
variable {enc : Stream σ} {dec : Stream τ} {R : Bytes → Bytes → StreamSt σ → Prop} {Q : Bytes → Bytes → StreamSt τ → Prop} {s0 : StreamSt σ} {r0 : StreamSt τ}

theorem written_snoc (a : List (Bytes × Bool)) (d : Bytes) (w : Bool) : written (a ++ [(d, w)]) = written a ++ d := by simp [written]

theorem feed_snoc (str : Stream σ) {s s1 s2 : StreamSt σ} {a : List (Bytes × Bool)} {o : Bytes} (h : feed str s a = .ok (o, s1)) (d : Bytes) (w : Bool)
    (h2 : str.write s1 d = .ok s2) : feed str s (a ++ [(d, w)]) = .ok (if w then (o ++ s2.pond, { s2 with pond := [] }) else (o, s2)) := by
  rw [feed_append, h]
  cases w <;> simp [feed, bind, Except.bind, h2, drawOff]

theorem Conn.step (hw : ∀ m o s d, R m o s → ∃ s', enc.write s d = .ok s' ∧ R (m ++ d) o s') (hd : ∀ m o s, R m o s → R m (o ++ s.pond) { s with pond := [] })
    (hw' : ∀ m o s d, Q m o s → ∃ s', dec.write s d = .ok s' ∧ Q (m ++ d) o s') (hd' : ∀ m o s, Q m o s → Q m (o ++ s.pond) { s with pond := [] })
    {m tx rx : Bytes} {L : Live σ τ} {a b : List (Bytes × Bool)} (h : Conn enc dec R Q s0 r0 m L tx rx a b) (op : LiveOp) (ho : op ≠ .close ∧ op ≠ .last) :
    ∃ L' tx' rx' a' b', Live.step enc dec L op = .ok L' ∧ Conn enc dec R Q s0 r0 (m ++ sent [op]) L' tx' rx' a' b' := by
  obtain ⟨h1, h2, h3, h4, h5, h6, h7⟩ := h
  cases op with
  | send d =>
    obtain ⟨s', e, i⟩ := hw _ _ _ d h2
    refine ⟨{ L with sender := s' }, tx, rx, a ++ [(d, false)], b, by simp only [Live.step, e, bind, Except.bind], ⟨h1, by simpa [sent] using i, h3, ?_, ?_, h6, h7⟩⟩
    · simpa using feed_snoc enc h4 d false e
    · rw [written_snoc, h5]; simp [sent]
  | flush =>
    obtain ⟨s', e, i⟩ := hw _ _ _ [] h2
    refine ⟨{ L with sender := { s' with pond := [] }, channel := L.channel ++ s'.pond }, tx ++ s'.pond, rx, a ++ [([], true)], b,
      by simp only [Live.step, e, bind, Except.bind, drawOff], ⟨by simp [h1], ?_, h3, ?_, ?_, h6, h7⟩⟩
    · have := hd _ _ _ i
      simpa [sent] using this
    · simpa using feed_snoc enc h4 [] true e
    · rw [written_snoc, h5]; simp [sent]
  | deliver k =>
    obtain ⟨s', e, i⟩ := hw' _ _ _ (L.channel.take k) h3
    refine ⟨{ L with receiver := s', channel := L.channel.drop k }, tx, rx ++ L.channel.take k, a, b ++ [(L.channel.take k, false)],
      by simp only [Live.step, e, bind, Except.bind], ⟨?_, by simpa [sent] using h2, i, h4, by simpa [sent] using h5, ?_, ?_⟩⟩
    · rw [h1, List.append_assoc, List.take_append_drop]
    · simpa using feed_snoc dec h6 (L.channel.take k) false e
    · rw [written_snoc, h7]
  | read =>
    obtain ⟨s', e, i⟩ := hw' _ _ _ [] h3
    refine ⟨{ L with receiver := { s' with pond := [] }, got := L.got ++ s'.pond }, tx, rx, a, b ++ [([], true)],
      by simp only [Live.step, e, bind, Except.bind, drawOff], ⟨h1, by simpa [sent] using h2, ?_, h4, by simpa [sent] using h5, ?_, ?_⟩⟩
    · have := hd' _ _ _ i
      simpa using this
    · simpa using feed_snoc dec h6 [] true e
    · rw [written_snoc, h7, List.append_nil]
  | close => exact absurd rfl ho.1
  | last => exact absurd rfl ho.2

theorem Conn.run (hw : ∀ m o s d, R m o s → ∃ s', enc.write s d = .ok s' ∧ R (m ++ d) o s') (hd : ∀ m o s, R m o s → R m (o ++ s.pond) { s with pond := [] })
    (hw' : ∀ m o s d, Q m o s → ∃ s', dec.write s d = .ok s' ∧ Q (m ++ d) o s') (hd' : ∀ m o s, Q m o s → Q m (o ++ s.pond) { s with pond := [] })
    (ops : List LiveOp) (ho : Open ops) {m tx rx : Bytes} {L : Live σ τ} {a b : List (Bytes × Bool)} (h : Conn enc dec R Q s0 r0 m L tx rx a b) :
    ∃ L' tx' rx' a' b', Live.run enc dec L ops = .ok L' ∧ Conn enc dec R Q s0 r0 (m ++ sent ops) L' tx' rx' a' b' := by
  induction ops generalizing m tx rx L a b with
  | nil => exact ⟨L, tx, rx, a, b, rfl, by simpa [sent] using h⟩
  | cons op ops ih =>
    obtain ⟨L1, tx1, rx1, a1, b1, e1, i1⟩ := h.step hw hd hw' hd' op
      ⟨fun e => ho.1 (by rw [e]; exact List.mem_cons_self ..), fun e => ho.2 (by rw [e]; exact List.mem_cons_self ..)⟩
    obtain ⟨L2, tx2, rx2, a2, b2, e2, i2⟩ := ih ⟨fun h => ho.1 (List.mem_cons_of_mem _ h), fun h => ho.2 (List.mem_cons_of_mem _ h)⟩ i1
    refine ⟨L2, tx2, rx2, a2, b2, by simp only [Live.run, e1, bind, Except.bind, e2], ?_⟩
    rw [List.append_assoc, ← sent_append] at i2
    exact i2

theorem Conn.start (h1 : R [] [] s0) (h2 : Q [] [] r0) : Conn enc dec R Q s0 r0 [] (Live.start s0 r0) [] [] [] [] :=
  ⟨rfl, h1, h2, rfl, rfl, rfl, rfl⟩

/-- After any schedule, once everything that is ready has been handed over and delivered, the receiver has drawn off everything that it can have. -/
theorem Conn.catch_up (hw : ∀ m o s d, R m o s → ∃ s', enc.write s d = .ok s' ∧ R (m ++ d) o s') (hd : ∀ m o s, R m o s → R m (o ++ s.pond) { s with pond := [] })
    (hw' : ∀ m o s d, Q m o s → ∃ s', dec.write s d = .ok s' ∧ Q (m ++ d) o s') (hd' : ∀ m o s, Q m o s → Q m (o ++ s.pond) { s with pond := [] })
    {m tx rx : Bytes} {L : Live σ τ} {a b : List (Bytes × Bool)} (h : Conn enc dec R Q s0 r0 m L tx rx a b) (k : Nat)
    (hk : ∀ tx S, R m tx S → tx.length ≤ k) :
    ∃ L' tx', Live.run enc dec L [.flush, .deliver k, .read] = .ok L' ∧ R m tx' L'.sender ∧ L'.sender.pond = [] ∧ Q tx' L'.got L'.receiver ∧
      L'.receiver.pond = [] := by
  obtain ⟨h1, h2, h3, -, -, -, -⟩ := h
  obtain ⟨s', e, i⟩ := hw _ _ _ [] h2
  have i' := hd _ _ _ i
  rw [List.append_nil] at i'
  have hl := hk _ _ i'
  have hc : (L.channel ++ s'.pond).take k = L.channel ++ s'.pond := by
    apply List.take_of_length_le
    rw [h1] at hl
    simp only [List.length_append] at hl ⊢
    omega
  obtain ⟨r', e', j⟩ := hw' _ _ _ (L.channel ++ s'.pond) h3
  obtain ⟨r'', e'', j'⟩ := hw' _ _ _ [] j
  refine ⟨⟨{ s' with pond := [] }, (L.channel ++ s'.pond).drop k, { r'' with pond := [] }, L.got ++ r''.pond⟩, tx ++ s'.pond, ?_, i', rfl, ?_, rfl⟩
  · simp only [Live.run, Live.step, bind, Except.bind, e, drawOff, hc, e', e'']
  · have := hd' _ _ _ j'
    rw [h1]
    simpa using this

/-- After any schedule: the sender closes, everything is delivered, the receiver calls `finish`. -/
theorem Conn.finish {m tx rx : Bytes} {L : Live σ τ} {a b : List (Bytes × Bool)} (h : Conn enc dec R Q s0 r0 m L tx rx a b) {ct m' : Bytes}
    {s1 : StreamSt σ} {r1 : StreamSt τ} (he : ∀ ops, written ops = m → runStream enc s0 ops = .ok (ct, s1))
    (hd : ∀ ops u, written ops = ct → feed dec r0 ops = .ok (L.got, u) → runStream dec r0 ops = .ok (m', r1))
    (hw' : ∀ m o s d, Q m o s → ∃ s', dec.write s d = .ok s' ∧ Q (m ++ d) o s') (k : Nat) (hk : ct.length ≤ k) :
    Live.run enc dec L [.close, .deliver k, .last] = .ok ⟨s1, [], r1, m'⟩ := by
  obtain ⟨h1, h2, h3, h4, h5, h6, h7⟩ := h
  have e := he a h5
  rw [runStream, h4] at e
  simp only [bind, Except.bind] at e
  cases hf : enc.finish L.sender with
  | error z => rw [hf] at e; cases e
  | ok r =>
    obtain ⟨out, s2⟩ := r
    rw [hf] at e
    simp only [Except.ok.injEq, Prod.mk.injEq] at e
    have hct : ct = rx ++ (L.channel ++ out) := by rw [← e.1, h1, List.append_assoc]
    have hlen : (L.channel ++ out).length ≤ k := by
      rw [hct, List.length_append] at hk
      omega
    have hc : (L.channel ++ out).take k = L.channel ++ out := List.take_of_length_le hlen
    have hc' : (L.channel ++ out).drop k = [] := List.drop_eq_nil_of_le hlen
    obtain ⟨r', e', -⟩ := hw' _ _ _ (L.channel ++ out) h3
    have hfeed := feed_snoc dec h6 (L.channel ++ out) false e'
    have e2 := hd (b ++ [(L.channel ++ out, false)]) r' (by rw [written_snoc, h7, hct]) (by simpa using hfeed)
    rw [runStream, hfeed] at e2
    simp only [bind, Except.bind, Bool.false_eq_true, if_false] at e2
    cases hg : dec.finish r' with
    | error z => rw [hg] at e2; cases e2
    | ok q =>
      obtain ⟨out', r2⟩ := q
      rw [hg] at e2
      simp only [Except.ok.injEq, Prod.mk.injEq] at e2
      simp only [Live.run, Live.step, bind, Except.bind, hf, hc, hc', e', hg, e2.1, e2.2, e.2]

end

theorem Live.run_append_ok {enc : Stream σ} {dec : Stream τ} {L L' : Live σ τ} {a b : List LiveOp} (h : Live.run enc dec L a = .ok L') :
    Live.run enc dec L (a ++ b) = Live.run enc dec L' b := by
  rw [Live.run_append, h]; rfl

theorem prefix_take {a b : Bytes} {n : Nat} (h : a <+: b) (hn : a.length = n) : a = b.take n := by
  rw [← hn]; exact List.prefix_iff_eq_take.1 h

section
variable {enc dec : Stream σ} {f g : σ → Bytes → σ × Bytes} {P : σ → Prop} {n : Nat} {k0 : σ}

theorem delivers_ge (hn : 0 < n) (h : Undoes P n f g) (hs : P k0)
    (hw : ∀ m o s d, RGe f n k0 m o s → ∃ s', enc.write s d = .ok s' ∧ RGe f n k0 (m ++ d) o s')
    (hw' : ∀ m o s d, RGe g n k0 m o s → ∃ s', dec.write s d = .ok s' ∧ RGe g n k0 (m ++ d) o s') :
    LiveDelivers enc dec ⟨[], [], k0⟩ ⟨[], [], k0⟩ (fun l => n * (l / n)) := by
  intro ops ho
  obtain ⟨L, tx, rx, a, b, e, c⟩ := Conn.run hw (fun _ _ _ hR => hR.draw) hw' (fun _ _ _ hR => hR.draw) ops ho
    (Conn.start (RGe.init hn) (RGe.init hn))
  rw [List.nil_append] at c
  refine ⟨⟨L, e, ?_⟩, fun k hk => ?_⟩
  · exact (List.prefix_append _ _).trans (arrived_ge hn h hs c.sender (by rw [c.split]; exact List.prefix_append _ _) c.receiver).1
  · obtain ⟨L', tx', e', i1, i2, i3, i4⟩ := c.catch_up hw (fun _ _ _ hR => hR.draw) hw' (fun _ _ _ hR => hR.draw) k (fun tx S hS => by
      have := ready_length hn h hs hS
      have := Nat.mul_div_le (sent ops).length n
      rw [List.length_append] at *
      omega)
    have hl := ready_length hn h hs i1
    rw [i2, List.append_nil] at hl
    have ha := arrived_ge hn h hs i1 (List.prefix_refl _) i3
    rw [i4, List.append_nil, hl, Nat.mul_div_cancel_left _ hn] at ha
    exact ⟨L', by rw [Live.run_append_ok e, e'], prefix_take ha.1 ha.2⟩

theorem delivers_gt (hn : 0 < n) (h : Undoes P n f g) (hs : P k0)
    (hw : ∀ m o s d, RGe f n k0 m o s → ∃ s', enc.write s d = .ok s' ∧ RGe f n k0 (m ++ d) o s')
    (hw' : ∀ m o s d, RGt g n k0 m o s → ∃ s', dec.write s d = .ok s' ∧ RGt g n k0 (m ++ d) o s') :
    LiveDelivers enc dec ⟨[], [], k0⟩ ⟨[], [], k0⟩ (fun l => n * (l / n - 1)) := by
  intro ops ho
  obtain ⟨L, tx, rx, a, b, e, c⟩ := Conn.run hw (fun _ _ _ hR => hR.draw) hw' (fun _ _ _ hR => hR.draw) ops ho
    (Conn.start (RGe.init hn) RGt.init)
  rw [List.nil_append] at c
  refine ⟨⟨L, e, ?_⟩, fun k hk => ?_⟩
  · exact (List.prefix_append _ _).trans (arrived_gt hn h hs c.sender (by rw [c.split]; exact List.prefix_append _ _) c.receiver).1
  · obtain ⟨L', tx', e', i1, i2, i3, i4⟩ := c.catch_up hw (fun _ _ _ hR => hR.draw) hw' (fun _ _ _ hR => hR.draw) k (fun tx S hS => by
      have := ready_length hn h hs hS
      have := Nat.mul_div_le (sent ops).length n
      rw [List.length_append] at *
      omega)
    have hl := ready_length hn h hs i1
    rw [i2, List.append_nil] at hl
    have ha := arrived_gt hn h hs i1 (List.prefix_refl _) i3
    have hq : (n * ((sent ops).length / n) - 1) / n = (sent ops).length / n - 1 := by
      cases (sent ops).length / n with
      | zero => simp
      | succ q =>
        rw [Nat.mul_succ, show n * q + n - 1 = n * q + (n - 1) by omega, Nat.mul_add_div hn, Nat.div_eq_of_lt (by omega)]
        rfl
    rw [i4, List.append_nil, hl, hq] at ha
    exact ⟨L', by rw [Live.run_append_ok e, e'], prefix_take ha.1 ha.2⟩

/-- One message: what the two streams do with it on their own. -/
structure Message (enc dec : Stream σ) (s0 r0 s1 r1 : StreamSt σ) (m : Bytes) (extra : Nat) (ct : Bytes) : Prop where
  short : ct.length ≤ m.length + extra
  enc : ∀ ops, written ops = m → runStream enc s0 ops = .ok (ct, s1)
  dec : ∀ ops got u, written ops = ct → feed dec r0 ops = .ok (got, u) → got <+: m → runStream dec r0 ops = .ok (m, r1)

/-- The end of a message, from what the two streams do on their own. -/
theorem message_of {R Q : Bytes → Bytes → StreamSt σ → Prop} {s0 r0 s1 r1 : StreamSt σ} {extra : Nat} {arr : Nat → Nat} (hD : LiveDelivers enc dec s0 r0 arr)
    (h1 : R [] [] s0) (h2 : Q [] [] r0)
    (hw : ∀ m o s d, R m o s → ∃ s', enc.write s d = .ok s' ∧ R (m ++ d) o s') (hd : ∀ m o s, R m o s → R m (o ++ s.pond) { s with pond := [] })
    (hw' : ∀ m o s d, Q m o s → ∃ s', dec.write s d = .ok s' ∧ Q (m ++ d) o s') (hd' : ∀ m o s, Q m o s → Q m (o ++ s.pond) { s with pond := [] })
    {ops : List LiveOp} (ho : Open ops) {ct : Bytes} (hm : Message enc dec s0 r0 s1 r1 (sent ops) extra ct) (k : Nat) (hk : (sent ops).length + extra ≤ k) :
    Live.run enc dec (Live.start s0 r0) (ops ++ [.close, .deliver k, .last]) = .ok ⟨s1, [], r1, sent ops⟩ := by
  obtain ⟨L, tx, rx, a, b, e, c⟩ := Conn.run hw hd hw' hd' ops ho (Conn.start h1 h2)
  rw [List.nil_append] at c
  obtain ⟨L0, e0, hp⟩ := (hD ops ho).1
  rw [e] at e0
  cases e0
  rw [Live.run_append_ok e]
  exact c.finish hm.enc (fun ops u hw hf => hm.dec ops _ u hw hf hp) hw' k (by have := hm.short; omega)

end

theorem Live.step_got (enc : Stream σ) (dec : Stream τ) (L : Live σ τ) (g : Bytes) (op : LiveOp) :
    Live.step enc dec { L with got := g ++ L.got } op = (Live.step enc dec L op).map fun L => { L with got := g ++ L.got } := by
  cases op <;> simp only [Live.step, bind, Except.bind]
  · cases enc.write L.sender _ <;> rfl
  · cases enc.write L.sender _ <;> rfl
  · cases dec.write L.receiver _ <;> rfl
  · cases dec.write L.receiver _ <;> simp [Except.map]
  · cases enc.finish L.sender <;> rfl
  · cases dec.finish L.receiver <;> simp [Except.map]

theorem Live.run_got (enc : Stream σ) (dec : Stream τ) (L : Live σ τ) (g : Bytes) (ops : List LiveOp) :
    Live.run enc dec { L with got := g ++ L.got } ops = (Live.run enc dec L ops).map fun L => { L with got := g ++ L.got } := by
  induction ops generalizing L with
  | nil => rfl
  | cons op ops ih =>
    simp only [Live.run, bind, Except.bind, Live.step_got]
    cases Live.step enc dec L op with
    | error e => rfl
    | ok L' => exact ih L'

/-- Several messages, from one. -/
theorem sessions_of {enc : Stream σ} {dec : Stream τ} {ok : Bytes → Prop} {extra : Nat} (I : StreamSt σ → StreamSt τ → Prop)
    (hI : ∀ s r, I s r → ∀ ops, Open ops → ok (sent ops) → ∀ k, (sent ops).length + extra ≤ k →
      ∃ s1 r1, I s1 r1 ∧ Live.run enc dec (Live.start s r) (ops ++ [.close, .deliver k, .last]) = .ok ⟨s1, [], r1, sent ops⟩)
    {s0 : StreamSt σ} {r0 : StreamSt τ} (h0 : I s0 r0) : LiveSessions enc dec s0 r0 ok extra := by
  intro ms
  induction ms generalizing s0 r0 with
  | nil => exact fun _ => ⟨_, rfl, rfl⟩
  | cons m ms ih =>
    intro hms
    obtain ⟨ops, k⟩ := m
    obtain ⟨a1, a2, a3⟩ := hms _ (List.mem_cons_self ..)
    obtain ⟨s1, r1, i, e⟩ := hI _ _ h0 ops a1 a2 k a3
    obtain ⟨L, e', g⟩ := ih i (fun m hm => hms m (List.mem_cons_of_mem _ hm))
    refine ⟨{ L with got := sent ops ++ L.got }, ?_, ?_⟩
    · rw [session, Live.run_append_ok e]
      have := Live.run_got enc dec (Live.start s1 r1) (sent ops) (session ms)
      rw [e'] at this
      simpa [Live.start, Except.map] using this
    · simp [g]

theorem ends_of_message {enc : Stream σ} {dec : Stream τ} {s0 : StreamSt σ} {r0 : StreamSt τ} {ok : Bytes → Prop} {extra : Nat}
    (h : ∀ ops, Open ops → ok (sent ops) → ∀ k, (sent ops).length + extra ≤ k →
      ∃ s1 r1, Live.run enc dec (Live.start s0 r0) (ops ++ [.close, .deliver k, .last]) = .ok ⟨s1, [], r1, sent ops⟩) :
    LiveEnds enc dec s0 r0 ok extra := by
  intro ops ho hm k hk
  obtain ⟨s1, r1, e⟩ := h ops ho hm k hk
  exact ⟨_, e, rfl⟩

end Verif.Model

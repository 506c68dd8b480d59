import Verif.Lemmas.Ratchet
/-! # Histories of an OTRv4 session -/

namespace Otrr
open Spec

/-! ## Order of ids -/

theorem idLt_trans {x y z : Nat × Nat} (h1 : idLt x y) (h2 : idLt y z) : idLt x z := by
  unfold idLt at *
  omega

def idLe (x y : Nat × Nat) : Prop := x.1 < y.1 ∨ (x.1 = y.1 ∧ x.2 ≤ y.2)

theorem idLt_of_le {x y z : Nat × Nat} (h1 : idLt x y) (h2 : idLe y z) : idLt x z := by
  unfold idLt idLe at *
  omega

theorem idLe_refl (x : Nat × Nat) : idLe x x := .inr ⟨rfl, Nat.le_refl _⟩

/-- The id that the next message sent will carry. -/
def sendPos (d : DoubleRatchet) : Nat × Nat :=
  if d.next = .sender then (d.i.toNat, 0) else (d.i.toNat - 1, d.sender.id.toNat)

/-- All messages accepted so far are below this id; no message below it will be accepted. -/
def recvPos (d : DoubleRatchet) : Nat × Nat := (d.i.toNat - 1, d.receiver.id.toNat)

/-! ## Single steps -/

theorem encrypt4_step {E : Env} {our their : UInt32} {flags : UInt8} {content reveals : Bytes} {r : Rand}
    {now : Nat} {d d' : DoubleRatchet} {m : DataMessage4}
    (h : encrypt4 E our their flags content reveals r now d = .ok (m, d')) :
    id4 m = sendPos d ∧ idLt (sendPos d) (sendPos d') ∧ idLe (recvPos d) (recvPos d') ∧
      (d.i = 0 → d.receiver.id = 0 → d'.i = 0 → d'.receiver.id = 0) ∧
      (d'.i.toNat = 0 → d.i.toNat = 0) ∧ d'.receiver = d.receiver ∧
      m.revealed ++ d'.reveals = reveals ++ d.reveals ∧ m.validate E = .ok () := by
  obtain ⟨rv, d1, keys, h1, h2, h3, h4, h5⟩ := encrypt4_ok h
  obtain ⟨h6, h7, h8, h9, h10⟩ := DoubleRatchet.rotateSenderChain_ok h5
  have e1 : d'.i = d1.i := by rw [h7]
  have e2 : d'.receiver = d1.receiver := by rw [h7]
  have e3 : d'.next = .receiver := by rw [h7]; exact h6
  have e4 : d'.reveals = d1.reveals := by rw [h7]
  have m1 : m.i.toNat = d1.i.toNat - 1 := by rw [h3]; exact predSat_toNat _
  have m2 : m.j = d1.sender.id := by rw [h3]; rfl
  have m3 : m.revealed = rv := by rw [h3]; rfl
  rcases ratchetForSend_ok h1 with ⟨n1, n2, n3⟩ | ⟨n1, n2, n3⟩
  · obtain ⟨_, _, _, r3, r4, r5, r6, _, r7⟩ := DoubleRatchet.rotateSender_ok n3
    simp only at r4 r6 r7
    have r3' : d1.sender.id.toNat = 0 := by rw [r3]; rfl
    refine ⟨?_, ?_, ?_, ?_, ?_, ?_, ?_, h4⟩
    · simp only [id4, sendPos, n1, if_true, m1, m2, r3', r6, Nat.add_sub_cancel]
    · simp only [sendPos, n1, e3, if_true, reduceCtorEq, if_false, e1, r6, h9, idLt]
      omega
    · simp only [recvPos, e1, e2, r4, r6, idLe]
      omega
    · intro _ hr _
      rw [e2, r4, hr]
    · intro hz
      rw [e1, r6] at hz
      exact absurd hz (Nat.succ_ne_zero _)
    · rw [e2, r4]
    · rw [m3, e4, r7, n2, List.append_nil]
  · subst n3
    refine ⟨?_, ?_, ?_, ?_, ?_, e2, ?_, h4⟩
    · simp only [id4, sendPos, n1, reduceCtorEq, if_false, m1, m2]
    · simp only [sendPos, n1, e3, reduceCtorEq, if_false, e1, h9, idLt]
      exact .inr ⟨trivial, by omega⟩
    · simp only [recvPos, e1, e2, idLe]
      exact .inr ⟨trivial, Nat.le_refl _⟩
    · intro _ hr _
      rw [e2, hr]
    · intro hz
      rwa [e1] at hz
    · rw [m3, e4, n2]

theorem decrypt4_step {E : Env} {m : DataMessage4} {ad plain : Bytes} {now : Nat} {d d' : DoubleRatchet}
    (h : decrypt4 E m ad now d = .ok (plain, d')) :
    ∃ k, Authentic E (m, ad) k ∧ d'.reveals = d.reveals ++ k ∧ idLe (sendPos d) (sendPos d') ∧
      (0 < d.i.toNat ∨ d.receiver.id = 0 → idLe (recvPos d) (id4 m)) ∧ idLt (id4 m) (recvPos d') ∧ 0 < d'.i.toNat := by
  obtain ⟨s, keys, h1, h2, h3, h4, h5, h6, h7, h8⟩ := decrypt4_ok h
  obtain ⟨_, k2, k3⟩ := Ratchet.keys_ok h3
  have hm : keys.mac.length = 64 := by rw [k3]; exact kdf_length _ _ _ _
  have hj := (incId_of_lt h7).2
  have e1 : d'.i = s.i := by rw [h8]
  have e2 : d'.receiver.id = m.j + 1 := by rw [h8]
  have e3 : d'.next = s.next := by rw [h8]
  have e4 : d'.reveals = s.reveals ++ keys.mac := by rw [h8]
  have e5 : d'.sender = s.sender := by rw [h8]
  refine ⟨keys.mac, ⟨hm, h4.symm⟩, ?_⟩
  rcases speculate4_ok h1 with ⟨s1, s2, _, _, s3⟩ | ⟨s1, s2, s3⟩
  · obtain ⟨_, _, _, _, _, r1, r2, r3, r4, _, r5⟩ := DoubleRatchet.rotateReceiver_ok s3
    refine ⟨by rw [e4, r5], ?_, ?_, ?_, by rw [e1, r4]; omega⟩
    · simp only [sendPos, s2, e3, r3, reduceCtorEq, if_false, if_true, e1, r4, idLe]
      omega
    · intro hz
      simp only [recvPos, id4, idLe, s1]
      rcases hz with hz | hz
      · omega
      · rw [hz]
        have : (0 : UInt32).toNat = 0 := rfl
        omega
    · simp only [recvPos, id4, idLt, s1, e1, e2, r4, hj]
      omega
  · subst s3
    refine ⟨e4, ?_, ?_, ?_, by rw [e1]; omega⟩
    · simp only [sendPos, e3, e1, e5]
      exact idLe_refl _
    · intro _
      simp only [recvPos, id4, idLe]
      omega
    · simp only [recvPos, id4, idLt, e1, e2, hj]
      omega

theorem handle4_cases {E : Env} {m : DataMessage4} {ad : Bytes} {now : Nat} {s s' : Enc4}
    {r : Res (PMessage × Bool)} (h : Enc4.handle E m ad now s = (r, s')) (hp : r ≠ .panic) :
    (r = .err (.unreadableMessage s.their) ∧ s' = s ∧ ∃ e, decrypt4 E m ad now s.ratchet = .err e) ∨
    (∃ plain d', decrypt4 E m ad now s.ratchet = .ok (plain, d') ∧ s' = { s with ratchet := d' } ∧
      r = (parseMessage plain).bind fun p =>
        .ok (p, match p with | .confidentialFinished _ => true | .confidential _ _ => false)) := by
  unfold Enc4.handle Enc4.onRatchet at h
  cases hd : decrypt4 E m ad now s.ratchet with
  | panic => simp only [hd] at h; simp only [Prod.mk.injEq] at h; exact absurd h.1.symm hp
  | err e =>
    simp only [hd, Prod.mk.injEq] at h
    exact .inl ⟨h.1.symm, h.2.symm, e, rfl⟩
  | ok x =>
    obtain ⟨plain, d'⟩ := x
    refine .inr ⟨plain, d', rfl, ?_⟩
    simp only [hd] at h
    cases hpm : parseMessage plain with
    | panic => simp only [hpm, Prod.mk.injEq] at h; exact absurd h.1.symm hp
    | err e =>
      simp only [hpm, Prod.mk.injEq] at h
      exact ⟨h.2.symm, h.1.symm⟩
    | ok p =>
      cases p with
      | confidential c t => simp only [hpm, Prod.mk.injEq] at h; exact ⟨h.2.symm, h.1.symm⟩
      | confidentialFinished c => simp only [hpm, Prod.mk.injEq] at h; exact ⟨h.2.symm, h.1.symm⟩

/-- A decoder that never returns `UnreadableMessage`. -/
def Dec.Legible (d : Dec α) : Prop := ∀ s t, d s ≠ .err (.unreadableMessage t)

theorem Dec.Legible.pure (a : α) : Dec.Legible (Pure.pure a : Dec α) := fun _ _ => by simp

theorem Dec.Legible.bind {x : Dec α} {f : α → Dec β} (hx : x.Legible) (hf : ∀ a, (f a).Legible) :
    Dec.Legible (x >>= f) := by
  intro s t
  rw [Dec.bind_run]
  cases h : x s with
  | ok p => exact hf _ _ _
  | err e => intro he; simp only [Res.err.injEq] at he; exact hx s t (he ▸ h)
  | panic => simp

theorem readN_legible (n : Nat) : (readN n).Legible := by
  intro s t
  unfold readN
  split <;> simp

theorem readU16_legible : readU16.Legible := (readN_legible 2).bind fun _ => .pure _

theorem readTlv_legible : readTlv.Legible :=
  readU16_legible.bind fun _ => readU16_legible.bind fun _ => (readN_legible _).bind fun _ => .pure _

theorem readTlvsFuel_legible : ∀ n, (readTlvsFuel n).Legible
  | 0 => fun s t => by unfold readTlvsFuel; split <;> simp
  | n + 1 => fun s t => by
    unfold readTlvsFuel
    split
    · simp
    · exact (readTlv_legible.bind fun _ => (readTlvsFuel_legible n).bind fun _ => .pure _) s t

theorem readPayloadParts_legible : readPayloadParts.Legible := by
  refine Dec.Legible.bind (fun s t => by simp [readNullTerminated]) fun _ => ?_
  refine Dec.Legible.bind (fun s t => readTlvsFuel_legible _ s t) fun _ => ?_
  refine Dec.Legible.bind (fun s t => by unfold decDone; split <;> simp) fun _ => .pure _

theorem parse_ne_unreadable {plain : Bytes} {t : UInt32} : parseMessage plain ≠ .err (.unreadableMessage t) := by
  have h := readPayloadParts_legible plain t
  unfold parseMessage runDec
  cases hr : readPayloadParts plain with
  | ok p => simp only [Res.bind_ok]; split <;> simp
  | err e =>
    simp only [Res.bind_err, ne_eq, Res.err.injEq]
    rintro rfl
    exact h hr
  | panic => simp

theorem encrypt4_enc {E : Env} {flags : UInt8} {content : Bytes} {r : Rand} {now : Nat} {s s' : Enc4}
    {m : DataMessage4} (h : Enc4.encrypt E flags content r now s = (.ok m, s')) :
    encrypt4 E s.our s.their flags content [] r now s.ratchet = .ok (m, s'.ratchet) ∧
      s' = { s with ratchet := s'.ratchet } := by
  unfold Enc4.encrypt Enc4.onRatchet at h
  split at h
  · rename_i a d hd
    simp only [Prod.mk.injEq, Res.ok.injEq] at h
    obtain ⟨rfl, rfl⟩ := h
    exact ⟨hd, rfl⟩
  · simp at h
  · simp at h

theorem disconnect4_enc {E : Env} {r : Rand} {now : Nat} {s s' : Enc4} {m : DataMessage4}
    (h : Enc4.disconnect E r now s = (.ok m, s')) :
    encrypt4 E s.our s.their IGNORE_UNREADABLE disconnectPlain s.ratchet.reveals r now
        { s.ratchet with reveals := [] } = .ok (m, s'.ratchet) ∧
      s' = { s with ratchet := s'.ratchet } := by
  unfold Enc4.disconnect Enc4.onRatchet at h
  split at h
  · rename_i a d hd
    simp only [Prod.mk.injEq, Res.ok.injEq] at h
    obtain ⟨rfl, rfl⟩ := h
    exact ⟨hd, rfl⟩
  · simp at h
  · simp at h

/-! ## Invariant -/

/-- What holds at any point of the life of a session. -/
structure Inv4 (E : Env) (s₀ : Enc4) (h : List Ev4) (s : Enc4) : Prop where
  tags : s.our = s₀.our ∧ s.their = s₀.their
  zero : s.ratchet.i = 0 → s.ratchet.receiver.id = 0
  sentLt : ∀ m ∈ sent4 h, idLt (id4 m) (sendPos s.ratchet)
  sentInc : ((sent4 h).map id4).Pairwise idLt
  accLt : ∀ x ∈ accepted4 h, idLt (id4 x.1) (recvPos s.ratchet)
  accInc : ((accepted4 h).map fun x => id4 x.1).Pairwise idLt
  macs : ∃ ks, List.Forall₂ (Authentic E) (accepted4 h) ks ∧
    revealed4 h ++ s.ratchet.reveals = s₀.ratchet.reveals ++ ks.flatten
  valid : ∀ m ∈ sent4 h, m.validate E = .ok ()

theorem sent4_snoc (h : List Ev4) (e : Ev4) : sent4 (h ++ [e]) = sent4 h ++ sent4 [e] := List.filterMap_append

theorem accepted4_snoc (h : List Ev4) (e : Ev4) : accepted4 (h ++ [e]) = accepted4 h ++ accepted4 [e] :=
  List.filterMap_append

theorem revealed4_snoc (h : List Ev4) (m : DataMessage4) :
    revealed4 (h ++ [.sent m]) = revealed4 h ++ m.revealed := by
  simp [revealed4, sent4]

theorem pairwise_snoc {R : α → α → Prop} {l : List α} {x : α} (h : l.Pairwise R) (hx : ∀ y ∈ l, R y x) :
    (l ++ [x]).Pairwise R := by
  rw [List.pairwise_append]
  refine ⟨h, by simp, ?_⟩
  intro a ha b hb
  simp only [List.mem_singleton] at hb
  exact hb ▸ hx a ha

theorem Inv4.sent {E : Env} {s₀ s s' : Enc4} {h : List Ev4} {m : DataMessage4} (I : Inv4 E s₀ h s)
    (hs : s' = { s with ratchet := s'.ratchet })
    (h1 : id4 m = sendPos s.ratchet) (h2 : idLt (sendPos s.ratchet) (sendPos s'.ratchet))
    (h3 : idLe (recvPos s.ratchet) (recvPos s'.ratchet)) (h4 : s'.ratchet.i.toNat = 0 → s.ratchet.i.toNat = 0)
    (h5 : s'.ratchet.receiver = s.ratchet.receiver)
    (h6 : m.revealed ++ s'.ratchet.reveals = s.ratchet.reveals) (h7 : m.validate E = .ok ()) :
    Inv4 E s₀ (h ++ [.sent m]) s' := by
  have ea : accepted4 (h ++ [.sent m]) = accepted4 h := by rw [accepted4_snoc]; simp [accepted4]
  have es : sent4 (h ++ [.sent m]) = sent4 h ++ [m] := by rw [sent4_snoc]; rfl
  constructor
  · rw [hs]; exact I.tags
  · intro hz
    rw [h5]
    exact I.zero (UInt32.toNat_inj.mp (h4 (by rw [hz]; rfl)))
  · intro x hx
    rw [es, List.mem_append, List.mem_singleton] at hx
    rcases hx with hx | rfl
    · exact idLt_trans (I.sentLt x hx) h2
    · rw [h1]; exact h2
  · rw [es, List.map_append]
    refine pairwise_snoc I.sentInc ?_
    intro y hy
    simp only [List.mem_map] at hy
    obtain ⟨x, hx, rfl⟩ := hy
    rw [h1]
    exact I.sentLt x hx
  · intro x hx
    rw [ea] at hx
    exact idLt_of_le (I.accLt x hx) h3
  · rw [ea]; exact I.accInc
  · obtain ⟨ks, k1, k2⟩ := I.macs
    refine ⟨ks, ea ▸ k1, ?_⟩
    rw [revealed4_snoc, List.append_assoc, h6, k2]
  · intro x hx
    rw [es, List.mem_append, List.mem_singleton] at hx
    rcases hx with hx | rfl
    · exact I.valid x hx
    · exact h7

theorem forall2_snoc {R : α → β → Prop} {l : List α} {l' : List β} {x : α} {y : β} (h : List.Forall₂ R l l')
    (hx : R x y) : List.Forall₂ R (l ++ [x]) (l' ++ [y]) := by
  induction h with
  | nil => exact .cons hx .nil
  | cons a _ ih => exact .cons a ih

theorem life4_inv {E : Env} {s₀ s : Enc4} {h : List Ev4} (hz : s₀.ratchet.i = 0 → s₀.ratchet.receiver.id = 0)
    (hl : Life4 E s₀ h s) : Inv4 E s₀ h s := by
  induction hl with
  | start =>
    exact ⟨⟨rfl, rfl⟩, hz, by simp [sent4], by simp [sent4], by simp [accepted4], by simp [accepted4],
      ⟨[], by simp [accepted4], by simp [revealed4, sent4]⟩, by simp [sent4]⟩
  | send _ he I =>
    obtain ⟨h1, h2⟩ := encrypt4_enc he
    obtain ⟨a1, a2, a3, _, a5, a6, a7, a8⟩ := encrypt4_step h1
    exact I.sent h2 a1 a2 a3 a5 a6 (by simpa using a7) a8
  | bye _ he I =>
    obtain ⟨h1, h2⟩ := disconnect4_enc he
    obtain ⟨a1, a2, a3, _, a5, a6, a7, a8⟩ := encrypt4_step h1
    exact I.sent h2 a1 a2 a3 a5 a6 (by simpa using a7) a8
  | @recv h s s' m ad now r _ he hp I =>
    have er : revealed4 (h ++ [.got m ad r]) = revealed4 h := by
      simp [revealed4, sent4]
    have es : sent4 (h ++ [.got m ad r]) = sent4 h := by rw [sent4_snoc]; simp [sent4]
    rcases handle4_cases he hp with ⟨h1, h2, _⟩ | ⟨plain, d', h1, h2, h3⟩
    · have ea : accepted4 (h ++ [.got m ad r]) = accepted4 h := by
        rw [accepted4_snoc, h1]; simp [accepted4]
      subst h2
      exact ⟨I.tags, I.zero, by rw [es]; exact I.sentLt, by rw [es]; exact I.sentInc, by rw [ea]; exact I.accLt,
        by rw [ea]; exact I.accInc, by rw [ea, er]; exact I.macs, by rw [es]; exact I.valid⟩
    · have hne : ∀ t, r ≠ .err (.unreadableMessage t) := by
        intro t
        rw [h3]
        cases hpm : parseMessage plain with
        | ok p => simp [Res.bind]
        | panic => simp [Res.bind]
        | err e =>
          simp only [Res.bind, ne_eq, Res.err.injEq]
          rintro rfl
          exact parse_ne_unreadable hpm
      have ea : accepted4 (h ++ [.got m ad r]) = accepted4 h ++ [(m, ad)] := by
        rw [accepted4_snoc]
        have : accepted4 [.got m ad r] = [(m, ad)] := by
          cases r with
          | ok _ => rfl
          | panic => rfl
          | err e =>
            cases e <;> first | rfl | exact absurd rfl (hne _)
        rw [this]
      obtain ⟨k, k1, k2, k3, k4, k5, k6⟩ := decrypt4_step h1
      have hd : s'.ratchet = d' := by rw [h2]
      rw [← hd] at k2 k3 k5 k6
      have k4' : idLe (recvPos s.ratchet) (id4 m) := by
        apply k4
        by_cases h0 : s.ratchet.i.toNat = 0
        · exact .inr (I.zero (UInt32.toNat_inj.mp h0))
        · omega
      constructor
      · rw [h2]; exact I.tags
      · intro h0
        rw [h0] at k6
        exact absurd k6 (by decide)
      · intro x hx
        rw [es] at hx
        exact idLt_of_le (I.sentLt x hx) k3
      · rw [es]; exact I.sentInc
      · intro x hx
        rw [ea, List.mem_append, List.mem_singleton] at hx
        rcases hx with hx | rfl
        · exact idLt_trans (idLt_of_le (I.accLt x hx) k4') k5
        · exact k5
      · rw [ea, List.map_append]
        refine pairwise_snoc I.accInc ?_
        intro y hy
        simp only [List.mem_map] at hy
        obtain ⟨x, hx, rfl⟩ := hy
        exact idLt_of_le (I.accLt x hx) k4'
      · obtain ⟨ks, k7, k8⟩ := I.macs
        refine ⟨ks ++ [k], by rw [ea]; exact forall2_snoc k7 k1, ?_⟩
        rw [er, k2, ← List.append_assoc, k8]
        simp
      · rw [es]; exact I.valid

theorem init4_zero {E : Env} {d : DoubleRatchet} {shared : Mixed} {root : Bytes} {now : Nat}
    (h : d = DoubleRatchet.init E .sender shared root now ∨
      ∃ rnd now', (DoubleRatchet.init E .receiver shared root now).rotateSender E rnd now' = .ok d) :
    (d.i = 0 → d.receiver.id = 0) ∧ d.reveals = [] := by
  obtain h | ⟨rnd, now', h⟩ := h
  · rw [h]; exact ⟨fun _ => rfl, rfl⟩
  · obtain ⟨_, _, _, _, _, _, r, _, r2⟩ := DoubleRatchet.rotateSender_ok h
    refine ⟨?_, r2⟩
    intro hz
    rw [hz] at r
    simp at r

theorem fresh4_zero {E : Env} {s : Enc4} (h : Fresh4 E s) :
    (s.ratchet.i = 0 → s.ratchet.receiver.id = 0) ∧ s.ratchet.reveals = [] := by
  obtain ⟨_, _, _, _, _, _, _, _, h⟩ := h
  exact init4_zero h

end Otrr

import Verif.Lemmas.Data3
/-! # Histories of OTRv3 sessions -/

namespace Otrr
open KeyManager Spec

theorem sentCounters_append (h : List Ev3) (e : Ev3) :
    sentCounters (h ++ [e]) = sentCounters h ++ sentCounters [e] := by
  simp [sentCounters]

/-- No counter was used twice and the used ones are not ahead of the state. -/
theorem life3_counters {E : Env} {s₀ s : Enc3} {h : List Ev3} (hs : s₀.keys.WF) (hl : Life3 E s₀ h s) :
    (sentCounters h).Nodup ∧ ∀ x ∈ sentCounters h,
      x.1.toNat ≤ s.keys.ours.acknowledged.toNat ∧ x.2.1.toNat ≤ s.keys.theirs.id.toNat ∧
      (x.1 = s.keys.ours.acknowledged → x.2.1 = s.keys.theirs.id → beNat x.2.2 ≤ beNat s.keys.ourCtr) := by
  induction hl with
  | start => simp [sentCounters]
  | @send h s s' flags plain m hl he ih =>
    have hwf := life3_wf hs hl
    obtain ⟨_, h1, h2, h3, h4, _, h6, h7⟩ := encrypt3_adv hwf (encrypt_keys he).1
    have hsc : sentCounters [Ev3.sent m] = [(m.senderKeyid, m.receiverKeyid, m.ctr)] := rfl
    rw [sentCounters_append, hsc]
    constructor
    · rw [List.nodup_append]
      refine ⟨ih.1, by simp, ?_⟩
      rintro x hx y hy rfl
      simp only [List.mem_singleton] at hy
      subst hy
      have := (ih.2 _ hx).2.2 h1 h2
      simp only at this
      omega
    · intro x hx
      simp only [List.mem_append, List.mem_singleton] at hx
      rw [h6, h7]
      rcases hx with hx | rfl
      · obtain ⟨i1, i2, i3⟩ := ih.2 x hx
        refine ⟨i1, i2, fun e1 e2 => ?_⟩
        have := i3 e1 e2
        rw [h4]
        omega
      · simp only [h1, h2, h4]
        exact ⟨Nat.le_refl _, Nat.le_refl _, fun _ _ => Nat.le_refl _⟩
  | @recv h s s' m ad fresh r hl hd hh hr ih =>
    have hwf := life3_wf hs hl
    have ha := handle_adv hwf hd hh hr
    have hsc : sentCounters [Ev3.got m ad r] = [] := rfl
    rw [sentCounters_append, hsc, List.append_nil]
    refine ⟨ih.1, fun x hx => ?_⟩
    obtain ⟨i1, i2, i3⟩ := ih.2 x hx
    refine ⟨Nat.le_trans i1 ha.ack_le, Nat.le_trans i2 ha.id_le, fun e1 e2 => ?_⟩
    have q1 : s'.keys.ours.acknowledged = s.keys.ours.acknowledged := by
      rw [← UInt32.toNat_inj]
      have := ha.ack_le
      rw [← e1] at this ⊢
      omega
    have q2 : s'.keys.theirs.id = s.keys.theirs.id := by
      rw [← UInt32.toNat_inj]
      have := ha.id_le
      rw [← e2] at this ⊢
      omega
    exact Nat.le_trans (i3 (by rw [e1, q1]) (by rw [e2, q2])) (ha.same q1 q2).1

/-! ## Acceptance -/

/-- What an accepted message did. -/
theorem handle_accepts {E : Env} {m : DataMessage} {ad fresh : Bytes} {s s' : Enc3} {x : PMessage × Bool}
    (hk : s.keys.WF) (hm : Decoded m) (h : Enc3.handle E m ad fresh s = (.ok x, s')) :
    s.keys.InWindow m ∧ beNat s.keys.theirCtr < beNat m.ctr ∧ m.senderKeyid.toNat < 4294967295 ∧
      s'.keys.ours.acknowledged = m.receiverKeyid ∧ s'.keys.theirs.id.toNat = m.senderKeyid.toNat + 1 ∧
      (s'.keys.ours.acknowledged = s.keys.ours.acknowledged → s'.keys.theirs.id = s.keys.theirs.id →
        s'.keys.theirCtr = m.ctr) := by
  obtain ⟨rd, hd, _, _, _, _, _, hok, _⟩ := handle_decrypt h
  obtain ⟨p, rfl⟩ := hok x rfl
  obtain ⟨sec, _, _, _, w1, w2, _, _, _, hc, hlt, _, _, _, hk'⟩ := (decrypt3_ok hk.theirCtr hm.2.2).mp hd
  obtain ⟨e1, e2⟩ := add_one_ne_zero hlt
  have hack : s'.keys.ours.acknowledged = m.receiverKeyid := by rw [hk', afterAccept, regStep_ours, ackStep_ack]
  have hid : s'.keys.theirs.id = m.senderKeyid + 1 := by rw [hk', afterAccept, regStep_id]
  refine ⟨⟨w1, w2⟩, hc, hlt, hack, by rw [hid, e1], ?_⟩
  intro h1 h2
  rw [hack] at h1
  rw [hid] at h2
  rw [hk', afterAccept, KeyManager.ackStep, if_pos (by rw [h1]; simp only [seeCtr, useMac_ours]),
    KeyManager.regStep, if_pos (by rw [h2]; simp only [seeCtr, useMac_theirs])]
  rfl

/-- The number of times a message with these keys and this counter was accepted. -/
theorem life3_accepts {E : Env} {s₀ s : Enc3} {h : List Ev3} (hs : s₀.keys.WF) (hl : Life3 E s₀ h s)
    (m : DataMessage) (n₀ : Nat) (h₀ : n₀ ≤ 1)
    (h₁ : 1 ≤ n₀ → m.senderKeyid.toNat + 1 ≤ s₀.keys.theirs.id.toNat ∧
      m.receiverKeyid.toNat ≤ s₀.keys.ours.acknowledged.toNat ∧
      (s₀.keys.theirs.id.toNat = m.senderKeyid.toNat + 1 → s₀.keys.ours.acknowledged = m.receiverKeyid →
        beNat m.ctr ≤ beNat s₀.keys.theirCtr)) :
    let n := n₀ + h.countP (fun e => decide (Accepts m e))
    (n₀ = 1 → h.countP (fun e => decide (Accepts m e)) = 0) ∧ n ≤ 2 ∧
    (1 ≤ n → m.senderKeyid.toNat + 1 ≤ s.keys.theirs.id.toNat ∧
      m.receiverKeyid.toNat ≤ s.keys.ours.acknowledged.toNat) ∧
    (n = 2 ∨ n₀ = 1 → s.keys.theirs.id.toNat = m.senderKeyid.toNat + 1 →
      s.keys.ours.acknowledged = m.receiverKeyid → beNat m.ctr ≤ beNat s.keys.theirCtr) := by
  induction hl with
  | start =>
    simp only [List.countP_nil, Nat.add_zero]
    refine ⟨fun _ => trivial, by omega, fun h => ⟨(h₁ h).1, (h₁ h).2.1⟩, fun h => ?_⟩
    exact (h₁ (by omega)).2.2
  | @send h s s' flags plain m' hl he ih =>
    have hwf := life3_wf hs hl
    obtain ⟨ha, _, _, _, _, _, h6, h7⟩ := encrypt3_adv hwf (encrypt_keys he).1
    have hc : (h ++ [Ev3.sent m']).countP (fun e => decide (Accepts m e)) =
        h.countP (fun e => decide (Accepts m e)) := by
      have hn : ¬ Accepts m (.sent m') := fun h => h
      simp [List.countP_append, hn]
    rw [hc, h6, h7]
    refine ⟨ih.1, ih.2.1, ih.2.2.1, fun hn e1 e2 => ?_⟩
    exact Nat.le_trans (ih.2.2.2 hn e1 e2) (ha.same (by rw [h6]) (by rw [h7])).2
  | @recv h s s' m' ad fresh r hl hd hh hr ih =>
    have hwf := life3_wf hs hl
    have ha := handle_adv hwf hd hh hr
    by_cases hacc : Accepts m (.got m' ad r)
    · have hx : ∃ x, r = .ok x := by
        cases r with
        | ok x => exact ⟨x, rfl⟩
        | err e => simp [Accepts] at hacc
        | panic => simp [Accepts] at hacc
      obtain ⟨x, rfl⟩ := hx
      obtain ⟨q1, q2, q3⟩ := id hacc
      obtain ⟨w, hlt, _, hack, hid, hsame⟩ := handle_accepts hwf hd hh
      rw [q2] at hack
      rw [q1] at hid
      have hc : (h ++ [Ev3.got m' ad (.ok x)]).countP (fun e => decide (Accepts m e)) =
          h.countP (fun e => decide (Accepts m e)) + 1 := by
        simp [List.countP_append, hacc]
      rw [hc]
      obtain ⟨i1, i2, i3, i4⟩ := ih
      -- if it was accepted before, the state is exactly the one of that acceptance
      have exact : 1 ≤ n₀ + h.countP (fun e => decide (Accepts m e)) →
          s.keys.theirs.id.toNat = m.senderKeyid.toNat + 1 ∧ s.keys.ours.acknowledged = m.receiverKeyid := by
        intro h1
        obtain ⟨j1, j2⟩ := i3 h1
        obtain ⟨w1, w2⟩ := w
        rw [q1] at w1
        rw [q2] at w2
        constructor
        · rcases w1 with e | e
          · exact e
          · rw [e] at j1; omega
        · rcases w2 with e | e
          · exact e
          · omega
      have no : ¬ (n₀ + h.countP (fun e => decide (Accepts m e)) = 2 ∨ n₀ = 1) := by
        intro h1
        obtain ⟨j1, j2⟩ := exact (by omega)
        have := i4 h1 j1 j2
        rw [q3] at hlt
        omega
      refine ⟨fun e => absurd (Or.inr e) no, by omega, fun _ => ?_, fun hn e1 e2 => ?_⟩
      · rw [hid, hack]
        exact ⟨Nat.le_refl _, Nat.le_refl _⟩
      · obtain ⟨j1, j2⟩ := exact (by omega)
        have : s'.keys.theirCtr = m'.ctr := by
          apply hsame
          · rw [j2]; exact hack
          · rw [← UInt32.toNat_inj, hid, j1]
        rw [this, q3]
        exact Nat.le_refl _
    · have hc : (h ++ [Ev3.got m' ad r]).countP (fun e => decide (Accepts m e)) =
          h.countP (fun e => decide (Accepts m e)) := by
        simp [List.countP_append, hacc]
      rw [hc]
      obtain ⟨i1, i2, i3, i4⟩ := ih
      refine ⟨i1, i2, fun h1 => ?_, fun hn e1 e2 => ?_⟩
      · obtain ⟨j1, j2⟩ := i3 h1
        exact ⟨Nat.le_trans j1 ha.id_le, Nat.le_trans j2 ha.ack_le⟩
      · obtain ⟨j1, j2⟩ := i3 (by omega)
        have q1 : s'.keys.ours.acknowledged = s.keys.ours.acknowledged := by
          rw [← UInt32.toNat_inj]
          have := ha.ack_le
          rw [e2] at this ⊢
          omega
        have q2 : s'.keys.theirs.id = s.keys.theirs.id := by
          rw [← UInt32.toNat_inj]
          have := ha.id_le
          omega
        exact Nat.le_trans (i4 hn (by rw [← q2]; exact e1) (by rw [← q1]; exact e2)) (ha.same q1 q2).2

/-! ## Revealed MAC keys -/

/-- `mac` verified the authenticator of a message received in `h`. -/
def Verified (E : Env) (h : List Ev3) (mac : Bytes) : Prop :=
  mac.length = 20 ∧ ∃ m ad r, Ev3.got m ad r ∈ h ∧ m.authenticator = E.hmacSha1 mac ad

theorem Verified.mono {E : Env} {h : List Ev3} {e : Ev3} {mac : Bytes} (hv : Verified E h mac) :
    Verified E (h ++ [e]) mac := by
  obtain ⟨hl, m, ad, r, hm, ha⟩ := hv
  exact ⟨hl, m, ad, r, by simp [hm], ha⟩

/-- The MAC keys of a state all satisfy `P`. -/
def MacsP (P : Bytes → Prop) (k : KeyManager) : Prop :=
  (∀ m ∈ k.usedMacs, P m) ∧ ∃ macs : List Bytes, k.oldMacs = macs.flatten ∧ ∀ m ∈ macs, P m

theorem MacsP.useMac {P : Bytes → Prop} {k : KeyManager} (h : MacsP P k) {mac : Bytes} (hm : P mac) :
    MacsP P (k.useMac mac) := by
  unfold KeyManager.useMac
  split
  · exact h
  · refine ⟨fun m hm' => ?_, h.2⟩
    simp only [List.mem_append, List.mem_singleton] at hm'
    rcases hm' with h' | rfl
    · exact h.1 m h'
    · exact hm

theorem MacsP.rotated {P : Bytes → Prop} {k : KeyManager} (h : MacsP P k) : MacsP P k.rotated := by
  obtain ⟨h1, macs, h2, h3⟩ := h
  refine ⟨by simp [KeyManager.rotated, resetCounters, revealUsed], macs ++ k.usedMacs, ?_, ?_⟩
  · simp [KeyManager.rotated, resetCounters, revealUsed, h2]
  · intro m hm
    rcases List.mem_append.mp hm with hm | hm
    · exact h3 m hm
    · exact h1 m hm

theorem MacsP.ackStep {P : Bytes → Prop} {G : DHGroup} {k : KeyManager} (h : MacsP P k) {r : UInt32} {fresh : Bytes} :
    MacsP P (k.ackStep G r fresh) := by
  unfold KeyManager.ackStep
  split
  · exact h
  · exact MacsP.rotated (k := { k with ours := _ }) h

theorem MacsP.regStep {P : Bytes → Prop} {k : KeyManager} (h : MacsP P k) {id : UInt32} {key : Nat} :
    MacsP P (k.regStep id key) := by
  unfold KeyManager.regStep
  split
  · exact h
  · exact MacsP.rotated (k := { k with theirs := _ }) h

theorem MacsP.mono {P Q : Bytes → Prop} {k : KeyManager} (h : MacsP P k) (hpq : ∀ m, P m → Q m) : MacsP Q k :=
  ⟨fun m hm => hpq m (h.1 m hm), h.2.elim fun macs hm => ⟨macs, hm.1, fun m hm' => hpq m (hm.2 m hm')⟩⟩

theorem life3_macs {E : Env} {s₀ s : Enc3} {h : List Ev3} (hs : s₀.keys.WF)
    (hm : s₀.keys.usedMacs = [] ∧ s₀.keys.oldMacs = []) (hl : Life3 E s₀ h s) :
    MacsP (Verified E h) s.keys := by
  induction hl with
  | start => exact ⟨by simp [hm.1], [], by simp [hm.2], by simp⟩
  | @send h s s' flags plain m hl he ih =>
    obtain ⟨_, _, _, _, _, _, _, _, hk⟩ := encrypt3_ok (encrypt_keys he).1
    rw [hk]
    refine (MacsP.mono (P := Verified E h) ?_ fun _ hv => hv.mono)
    exact ⟨ih.1, [], rfl, by simp⟩
  | @recv h s s' m ad fresh r hl hd hh hr ih =>
    have hwf := life3_wf hs hl
    obtain ⟨rd, hdec, _, _, hp, _⟩ := handle_decrypt hh
    have hrd : rd ≠ .panic := fun e => hr (hp e)
    have ih' : MacsP (Verified E (h ++ [Ev3.got m ad r])) s.keys := ih.mono fun _ hv => hv.mono
    have hmac : ∀ sec : DataSecrets, m.authenticator = E.hmacSha1 (sec.receiverMac E) ad →
        Verified E (h ++ [Ev3.got m ad r]) (sec.receiverMac E) := fun sec ha =>
      ⟨hmac_len sec, m, ad, r, by simp, ha⟩
    rcases decrypt3_cases (E := E) m ad fresh hd.1 hd.2.1 hd.2.2 hwf with
      ⟨_, h1 | ⟨h1, _⟩⟩ | ⟨_, _, h1⟩ | ⟨_, sec, _, ⟨_, h1⟩ | ⟨ha, _, ⟨_, h1⟩ | ⟨_, ⟨_, h1⟩ | ⟨_, _, ⟨_, _, h1⟩ | ⟨_, h1⟩⟩⟩⟩⟩ <;>
    rw [hdec] at h1
    · rw [(Prod.mk.inj h1).2]; exact ih'
    · exact absurd (Prod.mk.inj h1).1 hrd
    · exact absurd (Prod.mk.inj h1).1 hrd
    · rw [(Prod.mk.inj h1).2]; exact ih'
    · rw [(Prod.mk.inj h1).2]; exact ih'.useMac (hmac sec ha)
    · exact absurd h1 hrd
    · rw [(Prod.mk.inj h1).2]
      exact MacsP.ackStep (k := (s.keys.useMac (sec.receiverMac E)).seeCtr m.ctr) (ih'.useMac (hmac sec ha))
    · rw [(Prod.mk.inj h1).2]
      exact MacsP.regStep (MacsP.ackStep (k := (s.keys.useMac (sec.receiverMac E)).seeCtr m.ctr)
        (ih'.useMac (hmac sec ha)))

end Otrr

import Verif.Spec.Work
import Verif.Props.Data4Safe
/-! C102: the work done for a received OTRv4 data message. -/

namespace Otrr.Props
open Otrr Otrr.Spec

/-- The loop of the code always ends, without a crash, after as many rounds as there are message ids to pass, with the ratchet that the
model computes. -/
theorem C102_loop (E : Env) (j : UInt32) (r : Ratchet) (n : Nat) (o : Res Ratchet) :
    Loop E j r n o ↔ n = j.toNat - r.id.toNat ∧ o = r.forward E n ∧ o ≠ .panic := by
  have hj := j.toNat_lt
  constructor
  · intro h
    induction h with
    | done h =>
      rw [UInt32.lt_iff_toNat_lt] at h
      exact ⟨by omega, rfl, by simp⟩
    | @round r r' n o h h1 _ ih =>
      rw [UInt32.lt_iff_toNat_lt] at h
      have hlt : r.id.toNat < 4294967295 := by omega
      have h2 := (incId_of_lt hlt).2
      obtain ⟨i1, i2, i3⟩ := ih
      have h3 := Ratchet.rotate_of_lt (E := E) hlt
      rw [h1] at h3
      cases h3
      simp only at i1
      refine ⟨by omega, ?_, i3⟩
      rw [Ratchet.forward, h1]
      exact i2
    | @crash r h h1 =>
      rw [UInt32.lt_iff_toNat_lt] at h
      rw [Ratchet.rotate_of_lt (by omega)] at h1
      cases h1
  · rintro ⟨h1, rfl, -⟩
    induction n generalizing r with
    | zero => exact .done (by rw [UInt32.lt_iff_toNat_lt]; omega)
    | succ n ih =>
      have hlt : r.id.toNat < 4294967295 := by omega
      have h2 := (incId_of_lt hlt).2
      rw [Ratchet.forward, Ratchet.rotate_of_lt hlt]
      exact .round (by rw [UInt32.lt_iff_toNat_lt]; omega) (Ratchet.rotate_of_lt hlt) (ih _ (by simp only; omega))

/-- The number of rounds is determined by the message and the ratchet. -/
theorem rounds_iff {E : Env} {m : DataMessage4} {now : Nat} {d : DoubleRatchet} {n : Nat} : Rounds E m now d n ↔
    (∃ s, speculate4 E m now d = .ok s ∧ n = m.j.toNat - s.receiver.id.toNat) ∨ ((∀ s, speculate4 E m now d ≠ .ok s) ∧ n = 0) := by
  unfold Rounds
  refine or_congr_left ⟨fun ⟨s, o, h1, h2⟩ => ⟨s, h1, ((C102_loop E _ _ _ _).mp h2).1⟩, fun ⟨s, h1, h2⟩ => ?_⟩
  refine ⟨s, _, h1, (C102_loop E _ _ _ _).mpr ⟨h2, rfl, ?_⟩⟩
  obtain ⟨r, h3, _⟩ := Ratchet.forward_ne_panic E s.receiver m.j
  rw [h2, h3]
  simp

/-- C102, what holds: checking a message takes a definite number of rounds, fewer than 2^32; none at all for a message that is not of the
current or the next ratchet, or of an id that was passed; and for an accepted message it is the number of messages of the same ratchet that
were passed over: those that come again cost no round. -/
theorem C102_bounded_partial (E : Env) (m : DataMessage4) (now : Nat) (s : Enc4) :
    (∃ n, Rounds E m now s.ratchet n ∧ n ≤ m.j.toNat ∧ n < 4294967296 ∧ ∀ n', Rounds E m now s.ratchet n' → n' = n) ∧
    (m.i.toNat > s.ratchet.i.toNat ∨ m.i.toNat + 1 < s.ratchet.i.toNat ∨
      (m.i.toNat + 1 = s.ratchet.i.toNat ∧ m.j.toNat < s.ratchet.receiver.id.toNat) → Rounds E m now s.ratchet 0) ∧
    (∀ ad p s', Enc4.handle E m ad now s = (.ok p, s') → ∃ n, Rounds E m now s.ratchet n ∧
      s'.ratchet.receiver.id.toNat = (if m.i = s.ratchet.i then 0 else s.ratchet.receiver.id.toNat) + n + 1) := by
  have hj := m.j.toNat_lt
  refine ⟨?_, fun h => ?_, fun ad p s' h => ?_⟩
  · cases hs : speculate4 E m now s.ratchet with
    | ok sp =>
      refine ⟨m.j.toNat - sp.receiver.id.toNat, rounds_iff.mpr (.inl ⟨sp, hs, rfl⟩), by omega, by omega, fun n' h => ?_⟩
      rcases rounds_iff.mp h with ⟨sp', h1, h2⟩ | ⟨h1, _⟩
      · rw [hs] at h1; cases h1; exact h2
      · exact absurd hs (h1 _)
    | err e =>
      refine ⟨0, .inr ⟨by rw [hs]; simp, rfl⟩, by omega, by omega, fun n' h => ?_⟩
      rcases h with ⟨_, _, h1, _⟩ | ⟨_, h1⟩
      · rw [hs] at h1; cases h1
      · exact h1
    | panic =>
      refine ⟨0, .inr ⟨by rw [hs]; simp, rfl⟩, by omega, by omega, fun n' h => ?_⟩
      rcases h with ⟨_, _, h1, _⟩ | ⟨_, h1⟩
      · rw [hs] at h1; cases h1
      · exact h1
  · refine .inr ⟨fun sp hs => ?_, rfl⟩
    unfold speculate4 at hs
    have hp := predSat_toNat s.ratchet.i
    by_cases h1 : m.i > s.ratchet.i
    · rw [if_pos h1] at hs; cases hs
    · rw [if_neg h1, if_pos] at hs
      · cases hs
      · rw [gt_iff_lt, UInt32.lt_iff_toNat_lt] at h1
        simp only [UInt32.lt_iff_toNat_lt, ← UInt32.toNat_inj]
        omega
  · rcases handle4_cases h (by simp) with ⟨h1, _, _⟩ | ⟨plain, d', h1, h2, _⟩
    · cases h1
    · obtain ⟨sp, keys, h3, h4, _, _, _, _, h5, h6⟩ := decrypt4_ok h1
      refine ⟨_, rounds_iff.mpr (.inl ⟨sp, h3, rfl⟩), ?_⟩
      have e1 : (m.j + 1).toNat = m.j.toNat + 1 := (incId_of_lt h5).2
      have e2 : s'.ratchet.receiver.id = m.j + 1 := by rw [h2, h6]
      rw [e2, e1]
      rcases speculate4_ok h3 with ⟨s1, s2, s3, s4, s5⟩ | ⟨s1, s2, rfl⟩
      · obtain ⟨_, _, _, _, _, hrec, _⟩ := DoubleRatchet.rotateReceiver_ok s5
        have : sp.receiver.id.toNat = 0 := by rw [hrec]; rfl
        rw [if_pos s1]
        omega
      · rw [if_neg]
        · omega
        · intro h; rw [h] at s1; omega

/-- C102 fails: whoever sees a message of the current ratchet, and knows no secret, changes its message id to any later one.  Then the client
makes a round of the loop for each id in between, up to 2^32 - 1, before it checks the authenticator and rejects the message; the session
is as before, so that it can be done again and again. -/
theorem C102_violated (E : Env) (hz : NoZeroHash E) (s : Enc4) (m : DataMessage4) (now : Nat) (hv : m.validate E = .ok ())
    (hi : m.i.toNat + 1 = s.ratchet.i.toNat) (j : UInt32) (hj : s.ratchet.receiver.id.toNat < j.toNat) (ad : Bytes)
    (hbad : m.authenticator ≠ kdf2 E 64 0x18
      (kdf E 64 0x16 (kdf E 64 0x15 (chainFwd E (j.toNat - s.ratchet.receiver.id.toNat) s.ratchet.receiver.chain))) ad) :
    ({ m with j := j } : DataMessage4).validate E = .ok () ∧
    Rounds E { m with j := j } now s.ratchet (j.toNat - s.ratchet.receiver.id.toNat) ∧
    Enc4.handle E { m with j := j } ad now s = (.err (.unreadableMessage s.their), s) := by
  have hj2 := j.toNat_lt
  have hj0 : j ≠ 0 := by rintro rfl; exact absurd hj (Nat.not_lt_zero _)
  have hpi : (predSat s.ratchet.i).toNat + 1 = s.ratchet.i.toNat := by rw [predSat_toNat]; omega
  have hip : m.i = predSat s.ratchet.i := UInt32.toNat_inj.mp (by omega)
  have hval : ({ m with j := j } : DataMessage4).validate E = .ok () := by
    obtain ⟨h1, h2⟩ := (C48_validate E m).mp hv
    exact (C48_validate E _).mpr ⟨⟨h1.1, h1.2, h1.3, h1.4, fun _ h => absurd h hj0⟩, h2⟩
  have hsp : speculate4 E { m with j := j } now s.ratchet = .ok s.ratchet := by
    unfold speculate4
    simp only
    rw [hip, if_neg, if_neg, if_neg]
    · intro h
      rw [h] at hpi
      omega
    · simp only [UInt32.lt_iff_toNat_lt]
      omega
    · rw [gt_iff_lt, UInt32.lt_iff_toNat_lt]
      omega
  refine ⟨hval, rounds_iff.mpr (.inl ⟨_, hsp, rfl⟩), ?_⟩
  have hkz : anyNonzero (chainFwd E (j.toNat - s.ratchet.receiver.id.toNat) s.ratchet.receiver.chain) = true := by
    obtain ⟨n, hn⟩ : ∃ n, j.toNat - s.ratchet.receiver.id.toNat = n + 1 := ⟨j.toNat - s.ratchet.receiver.id.toNat - 1, by omega⟩
    rw [hn, chainFwd_succ]
    exact (HashOut.kdf E (by omega) _ _).ne hz
  have hkey : (⟨chainFwd E (j.toNat - s.ratchet.receiver.id.toNat) s.ratchet.receiver.chain, j⟩ : Ratchet).keys E =
      .ok ⟨kdf E 64 0x15 (chainFwd E (j.toNat - s.ratchet.receiver.id.toNat) s.ratchet.receiver.chain),
        kdf E 64 0x16 (kdf E 64 0x15 (chainFwd E (j.toNat - s.ratchet.receiver.id.toNat) s.ratchet.receiver.chain)),
        kdf2 E 64 0x17 [0xff] (chainFwd E (j.toNat - s.ratchet.receiver.id.toNat) s.ratchet.receiver.chain)⟩ := if_pos hkz
  have hdec : ∃ e, decrypt4 E { m with j := j } ad now s.ratchet = .err e := by
    unfold decrypt4
    simp only
    rw [hsp, Res.bind_ok, Ratchet.forward_to E s.ratchet.receiver j (by omega), Res.bind_ok, hkey, Res.bind_ok]
    cases hc : compareBytes (kdf2 E 64 0x18
        (kdf E 64 0x16 (kdf E 64 0x15 (chainFwd E (j.toNat - s.ratchet.receiver.id.toNat) s.ratchet.receiver.chain))) ad) m.authenticator with
    | ok u => exact absurd (compareBytes_ok_iff.mp hc).1.symm hbad
    | err e => exact ⟨e, rfl⟩
    | panic => exact absurd hc (compareBytes_ne_panic _ _)
  obtain ⟨e, he⟩ := hdec
  unfold Enc4.handle Enc4.onRatchet
  rw [he]

/-- A message of the current ratchet of the concrete session, not authentic. -/
@[irreducible] def Firm4.seen : DataMessage4 :=
  ⟨0, 0, 0, 1, b0.ratchet.shared.publicEcdh, some b0.ratchet.shared.publicDh, [1], List.replicate 64 2, []⟩

theorem Firm4.odd (n : Nat) (x : Bytes) : (firmEnv.shake n x).headD 1 ≠ 2 := by
  intro h
  have h1 : firmEnv.shake n x = (toyHash n x).set 0 ((toyHash n x).getD 0 0 ||| 1) := rfl
  rw [h1] at h
  cases ht : toyHash n x with
  | nil => rw [ht] at h; cases h
  | cons b bs =>
    rw [ht] at h
    have := congrArg (fun b => b.toNat % 2) h
    simp only [List.set_cons_zero, List.headD_cons, List.getD_cons_zero, UInt8.toNat_or] at this
    have h2 : b.toNat ||| (1 : UInt8).toNat = (b.toNat ||| 1) := rfl
    rw [h2, Nat.or_mod_two_eq_one.mpr (.inr rfl)] at this
    cases this

theorem Firm4.facts : seen.validate firmEnv = .ok () ∧ seen.i.toNat + 1 = b0.ratchet.i.toNat ∧ b0.ratchet.receiver.id.toNat = 0 ∧
    seen.authenticator.headD 1 = 2 := by decide +kernel

open Firm4

/-- The concrete session: 4294967295 rounds for one message, and the session is as before. -/
example (ad : Bytes) : Rounds firmEnv { seen with j := 0xFFFFFFFF } 0 b0.ratchet 4294967295 ∧
    Enc4.handle firmEnv { seen with j := 0xFFFFFFFF } ad 0 b0 = (.err (.unreadableMessage b0.their), b0) := by
  obtain ⟨f1, f2, f3, f4⟩ := Firm4.facts
  have h := C102_violated firmEnv firm b0 seen 0 f1 f2 0xFFFFFFFF (by rw [f3]; decide) ad (fun h => by
    rw [h] at f4
    exact Firm4.odd _ _ f4)
  rw [f3] at h
  exact h.2

/-- Seven rounds for message number seven of the same ratchet. -/
example : Rounds firmEnv { seen with j := 7 } 0 b0.ratchet 7 := by
  obtain ⟨f1, f2, f3, f4⟩ := Firm4.facts
  have h := C102_violated firmEnv firm b0 seen 0 f1 f2 7 (by rw [f3]; decide) [] (fun h => by
    rw [h] at f4
    exact Firm4.odd _ _ f4)
  rw [f3] at h
  exact h.2.1

end Otrr.Props

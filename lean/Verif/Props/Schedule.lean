import Verif.Lemmas.Schedule
import Verif.Props.Data4
import Verif.Props.SessionLife
/-! C97: the keys of OTRv4 messages; and C49. -/

namespace Otrr.Props
open Otrr Otrr.Spec

theorem positions_distinct {E : Env} {k : Bytes} {ks : List Bytes} {ps : List (Nat × Nat)} (hd : ps.Nodup) (hb : ∀ p ∈ ps, p.1 < ks.length) {J : Nat}
    (hJ : ∀ p ∈ ps, p.2 ≤ J) (hn : NoCollision E (hashed E k ks J)) :
    (ps.map fun p => (messageKey E k ks p).take 32).Nodup ∧ (ps.map (macKey E k ks)).Nodup :=
  ⟨hd.map_on fun _ hp _ hq h => messageKey_inj hn ⟨hb _ hp, hJ _ hp⟩ ⟨hb _ hq, hJ _ hq⟩ h,
    hd.map_on fun _ hp _ hq h => macKey_inj hn ⟨hb _ hp, hJ _ hp⟩ ⟨hb _ hq, hJ _ hq⟩ h⟩

/-- C97: in the life of a session that began with a key exchange, whatever is sent and received, the keys follow the key schedule of OTRv4: there
are a list of secrets, one for each ratchet, and a position for each message that the client sent or accepted, such that the message was
encrypted and authenticated, or verified and decrypted, with the keys at this position.  No position occurs twice, also not once for a message
sent and once for one received.  So no two of these messages have the same encryption key or the same MAC key, unless two of the
inputs from which these keys are derived collide under the hash function. -/
theorem C97_keys (E : Env) (k : Bytes) (s₀ s : Enc4) (us : List Use4) (hf : FreshFrom E k s₀) (hl : Log4 E s₀ us s) :
    ∃ ks ps, s.ratchet.root = rootKey E k ks ∧ List.Forall₂ (KeyedAt E k ks s₀) us ps ∧ ps.Nodup ∧ (∀ p ∈ ps, p.1 < ks.length) ∧
      ∀ J, (∀ p ∈ ps, p.2 ≤ J) → NoCollision E (hashed E k ks J) →
        (ps.map fun p => (messageKey E k ks p).take 32).Nodup ∧ (ps.map (macKey E k ks)).Nodup := by
  obtain ⟨ks, ps, L⟩ := logged hf hl
  exact ⟨ks, ps, L.sched.root, L.keyed, L.distinct, L.bound, fun J hJ hn => positions_distinct L.distinct L.bound hJ hn⟩

/-- C49: each MAC key that a client revealed is the key of a message that it accepted, and is revealed once; and unless inputs of the key
derivation collide under the hash function, no two of the accepted messages have the same MAC key, so that a revealed key is not that of
any other message that is accepted, earlier or later, nor of a message that the client sent. -/
theorem C49_once (E : Env) (k : Bytes) (s₀ s : Enc4) (us : List Use4) (hf : FreshFrom E k s₀) (hl : Log4 E s₀ us s) :
    ∃ ks ps, List.Forall₂ (KeyedAt E k ks s₀) us ps ∧ revealedBy us <+: ((readAt us ps).map (macKey E k ks)).flatten ∧
      ∀ J, (∀ p ∈ ps, p.2 ≤ J) → NoCollision E (hashed E k ks J) →
        ((readAt us ps).map (macKey E k ks)).Nodup ∧ (ps.map (macKey E k ks)).Nodup := by
  obtain ⟨ks, ps, L⟩ := logged hf hl
  refine ⟨ks, ps, L.keyed, ⟨_, L.reveals⟩, fun J hJ hn => ?_⟩
  have := (positions_distinct L.distinct L.bound hJ hn).2
  exact ⟨this.sublist (readAt_sub.map _), this⟩

/-- Every life of a session is told by such a log, with the same messages accepted and sent. -/
theorem C97_complete (E : Env) (s₀ s : Enc4) (h : List Ev4) (hl : Life4 E s₀ h s) :
    ∃ us, Log4 E s₀ us s ∧ us.filterMap readOf = accepted4 h ∧ us.filterMap sentOf = sent4 h := by
  obtain ⟨us, h1, h2, h3⟩ := log_of_life hl
  exact ⟨us, h1, h2.symm, h3.symm⟩

/-- Whatever calls a client made, each session that it has with OTRv4 has a log that begins at a key exchange: `C97_keys` and `C49_once` hold
of it. -/
theorem C97_session (E : Env) (A : Account) (h : List Ev) (s : Session) (hh : Hist E A h s) (tag : UInt32) (x : Enc4) (smp : SMP4Context)
    (hs : stateOf s tag = .encrypted4 x smp) : ∃ k s₀ us, FreshFrom E k s₀ ∧ Log4 E s₀ us x := by
  obtain ⟨x0, l, _, ⟨k, hf⟩, hl, _⟩ := (hist_alive hh tag).2 x smp hs
  obtain ⟨us, hu, _, _⟩ := log_of_life hl
  exact ⟨k, x0, us, hf, hu⟩

open Toy4

/-- The client `a` accepts two messages and sends one. -/
theorem toy_log : Log4 toyEnv a0 ([] ++ [.read n1 (authenticatorData4 4 b2.our a0.our n1) (.ok (.confidential [104, 105] [], false))] ++
    [.read n2 (authenticatorData4 4 b2.our a1.our n2) (.ok (.confidential [104, 111] [], false))] ++ [.sent m1 [111, 107]]) a3 :=
  .send (.accept (.accept .start rcv_n1 (by simp) (by simp)) rcv_n2 (by simp) (by simp)) snd_m1

theorem toy_from : FreshFrom toyEnv [1, 2, 3] a0 := ⟨_, _, _, _, sa, 0, new_a, .inl ratchet_a⟩

/-- The secrets of the three ratchets. -/
@[irreducible] def toySecrets : List Bytes := [sa.k, a1.ratchet.shared.k, a3.ratchet.shared.k]

theorem noCollision_of {E : Env} {xs : List Bytes} (h : (xs.map fun x => (E.shake 64 x).take 32).Nodup) : NoCollision E xs :=
  fun _ hx _ hy e => List.inj_on_of_nodup_map h hx hy e

theorem toy_secrets : a3.ratchet.root = rootKey toyEnv [1, 2, 3] toySecrets ∧
    ((hashed toyEnv [1, 2, 3] toySecrets 1).map fun x => (toyEnv.shake 64 x).take 32).Nodup ∧
    n1.authenticator = kdf2 toyEnv 64 0x18 (macKey toyEnv [1, 2, 3] toySecrets (1, 0)) (authenticatorData4 4 b2.our a0.our n1) ∧
    n2.authenticator = kdf2 toyEnv 64 0x18 (macKey toyEnv [1, 2, 3] toySecrets (1, 1)) (authenticatorData4 4 b2.our a1.our n2) ∧
    m1.encrypted = chachaCrypt toyEnv ((messageKey toyEnv [1, 2, 3] toySecrets (2, 0)).take 32) [111, 107] := by decide +kernel

/-- In this log, with these secrets, the positions are 0 and 1 of ratchet 1, and 0 of ratchet 2; and there is no collision. -/
example : NoCollision toyEnv (hashed toyEnv [1, 2, 3] toySecrets 1) ∧ a3.ratchet.root = rootKey toyEnv [1, 2, 3] toySecrets :=
  ⟨noCollision_of toy_secrets.2.1, toy_secrets.1⟩

/-- So the keys differ. -/
example : [(1, 0), (1, 1), (2, 0)].map (macKey toyEnv [1, 2, 3] toySecrets) |>.Nodup :=
  (positions_distinct (J := 1) (by decide) (by unfold toySecrets; simp) (by simp) (noCollision_of toy_secrets.2.1)).2

example : FreshFrom toyEnv [1, 2, 3] a0 ∧ ∃ us, us.length = 3 ∧ Log4 toyEnv a0 us a3 := ⟨toy_from, _, rfl, toy_log⟩

end Otrr.Props

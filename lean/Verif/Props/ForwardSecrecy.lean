import Verif.Spec.ForwardSecrecy
import Verif.Lemmas.Schedule
import Verif.Props.Schedule
import Verif.Props.Dake
/-! C103: forward secrecy of OTRv4 sessions. -/

namespace Otrr.Props
open Otrr Otrr.Spec

/-- The secrets that a double ratchet holds, when the keys at the positions `ps` were accepted. -/
def heldSecrets (d : DoubleRatchet) (ps : List (Nat × Nat)) : List Secret :=
  [.root (d.i.toNat + 1)] ++ (if d.next = .receiver then [.chain d.i.toNat d.sender.id.toNat] else []) ++
    (if d.next = .sender ∧ 0 < d.i.toNat then [.chain (d.i.toNat - 1) d.sender.id.toNat] else []) ++
    (if d.next = .sender ∨ 0 < d.i.toNat then [.chain (recvNo d) d.receiver.id.toNat] else []) ++ ps.map fun p => .mac p.1 p.2

/-- The positions ahead of a double ratchet. -/
def Ahead (d : DoubleRatchet) (n j : Nat) : Prop :=
  d.i.toNat < n ∨ (d.next = .receiver ∧ n = d.i.toNat ∧ d.sender.id.toNat ≤ j) ∨
    (d.next = .sender ∧ 0 < d.i.toNat ∧ n = d.i.toNat - 1 ∧ d.sender.id.toNat ≤ j) ∨
    ((d.next = .sender ∨ 0 < d.i.toNat) ∧ n = recvNo d ∧ d.receiver.id.toNat ≤ j)

theorem Ahead.next {d : DoubleRatchet} {n j : Nat} (h : Ahead d n j) : Ahead d n (j + 1) := by
  rcases h with h | ⟨h1, h2, h3⟩ | ⟨h1, h2, h3, h4⟩ | ⟨h1, h2, h3⟩
  · exact .inl h
  · exact .inr (.inl ⟨h1, h2, by omega⟩)
  · exact .inr (.inr (.inl ⟨h1, h2, h3, by omega⟩))
  · exact .inr (.inr (.inr ⟨h1, h2, by omega⟩))

/-- What can be computed lies ahead. -/
theorem computable_ahead {d : DoubleRatchet} {ps : List (Nat × Nat)} {x : Secret}
    (h : Computable (fun x => x ∈ heldSecrets d ps ∨ ∃ n, x = .mixed n) x) : match x with
      | .root n => d.i.toNat < n
      | .chain n j => Ahead d n j
      | .message n j => Ahead d n j
      | .mixed _ => True
      | .mac _ _ => True := by
  induction h with
  | @known x h =>
    rcases h with h | ⟨n, rfl⟩
    · revert h
      simp only [heldSecrets, List.mem_append, List.mem_map, List.mem_ite_nil_right, List.mem_singleton]
      rintro ((((rfl | ⟨h, rfl⟩) | ⟨h, rfl⟩) | ⟨h, rfl⟩) | ⟨p, _, rfl⟩)
      · exact Nat.lt_succ_self _
      · exact .inr (.inl ⟨h, rfl, Nat.le_refl _⟩)
      · exact .inr (.inr (.inl ⟨h.1, h.2, rfl, Nat.le_refl _⟩))
      · exact .inr (.inr (.inr ⟨h, rfl, Nat.le_refl _⟩))
      · trivial
    · trivial
  | root _ _ ih _ => simp only at ih ⊢; omega
  | first _ _ ih _ => exact .inl ih
  | next _ ih => exact ih.next
  | message _ ih => exact ih
  | mac _ _ => trivial

theorem Logged.heldBy {E : Env} {k : Bytes} {s₀ s : Enc4} {us : List Use4} {ks : List Bytes} {ps : List (Nat × Nat)}
    (L : Logged E k s₀ us s ks ps) : HeldBy E k ks (heldSecrets s.ratchet (readAt us ps)) s.ratchet := by
  refine ⟨⟨.root (s.ratchet.i.toNat + 1), by simp [heldSecrets], ?_⟩, ?_, ?_, ?_⟩
  · rw [L.sched.root]
    simp only [Secret.value]
    rw [List.take_of_length_le (by rw [L.sched.len])]
  · cases hn : s.ratchet.next with
    | receiver =>
      refine .inr ⟨.chain s.ratchet.i.toNat s.ratchet.sender.id.toNat, by simp [heldSecrets, hn], ?_⟩
      exact L.sched.send hn
    | sender =>
      by_cases h0 : 0 < s.ratchet.i.toNat
      · refine .inr ⟨.chain (s.ratchet.i.toNat - 1) s.ratchet.sender.id.toNat, by simp [heldSecrets, hn, h0], ?_⟩
        exact L.sched.old hn h0
      · exact .inl ((L.sched.blank (by omega)).2 hn)
  · by_cases h0 : s.ratchet.next = .sender ∨ 0 < s.ratchet.i.toNat
    · refine .inr ⟨.chain (recvNo s.ratchet) s.ratchet.receiver.id.toNat, by simp [heldSecrets, h0], ?_⟩
      exact L.sched.recv h0
    · refine .inl ((L.sched.blank (by omega)).1 ?_)
      cases hn : s.ratchet.next with
      | receiver => rfl
      | sender => exact absurd (.inl hn) h0
  · refine ⟨readAt us ps, fun p hp => ?_, ?_⟩
    · simp only [heldSecrets, List.mem_append, List.mem_map]
      exact .inr ⟨p, hp, rfl⟩
    · exact ⟨revealedBy us, L.reveals⟩

/-- C103: at any time in the life of a session that began with a key exchange, whatever was sent and received, the root key and the chain keys
that the client holds are values of secrets of the key schedule, from which the encryption key of no message that was sent or accepted
before can be computed, even by someone who also knows all the secrets of the key agreements. -/
theorem C103_ratchet_partial (E : Env) (k : Bytes) (s₀ s : Enc4) (us : List Use4) (hf : FreshFrom E k s₀) (hl : Log4 E s₀ us s) :
    ∃ ks ps K, List.Forall₂ (KeyedAt E k ks s₀) us ps ∧ HeldBy E k ks K s.ratchet ∧
      ∀ p ∈ ps, ¬ Computable (fun x => x ∈ K ∨ ∃ n, x = .mixed n) (.message p.1 p.2) := by
  obtain ⟨ks, ps, L⟩ := logged hf hl
  have hr : recvNo s.ratchet ≤ s.ratchet.i.toNat := by simp only [recvNo]; split <;> omega
  refine ⟨ks, ps, heldSecrets s.ratchet (readAt us ps), L.keyed, Logged.heldBy L, fun p hp hc => ?_⟩
  · obtain ⟨b1, b2, b3, b4⟩ := L.spent p hp
    have h : Ahead s.ratchet p.1 p.2 := computable_ahead hc
    rcases h with h | ⟨h1, h2, h3⟩ | ⟨h1, h2, h3, h4⟩ | ⟨h1, h2, h3⟩
    · omega
    · have := b2 h1 h2; omega
    · have := b4 h1 h2 h3; omega
    · have := b3 h1 h2; omega

/-- C103, the client that began the exchange: once it is complete, nothing of it is kept. -/
theorem C103_began (E : Env) (host : DAKEHost) (m : AuthRMessage) (rnd : Rand) (now : Nat) (s s' : DAKEState)
    (r : MixedKeyMaterial × EncodedMessageType) (hs : DAKE.handleAuthR E host m rnd now s = (.ok r, s')) : s' = .initial := by
  have hs := transact_ok.mp hs
  split at hs
  · simp only [Res.bind_eq_ok, Res.pure_def, Res.ok.injEq, Prod.mk.injEq] at hs
    obtain ⟨_, _, _, rfl⟩ := hs
    rfl
  · cases hs

theorem _root_.Otrr.Spec.KeptOn.same {E : Env} {st : AwaitingAuthI} {s : DAKEState} (h : KeptOn E (.awaitingAuthI st) s) :
    s = .awaitingAuthI st := by
  induction h with
  | now => rfl
  | initiate _ h ih => subst ih; cases h; rfl
  | identity _ h ih => subst ih; exact (transact_err.mp h).2
  | authR _ h ih => subst ih; cases h; rfl
  | @authI s1 s2 host m now r _ h ih =>
    subst ih
    cases r with
    | ok mat =>
      have := transact_ok.mp h
      simp only [Res.bind_eq_ok, Res.pure_def, Res.ok.injEq, Prod.mk.injEq] at this
      obtain ⟨_, _, _, rfl⟩ := this
      rfl
    | err e => exact (transact_err.mp h).2
    | panic => exact (transact_panic.mp h).2

/-- Messages sent before any is received are encrypted with the keys of the first chain. -/
theorem sends_first {E : Env} {s₀ s : Enc4} {us : List Use4} (hn : s₀.ratchet.next = .receiver) (hid : s₀.ratchet.sender.id.toNat = 0)
    (hl : Log4 E s₀ us s) (ho : OnlySent us) : s.ratchet.next = .receiver ∧
      s.ratchet.sender.chain = chainFwd E s.ratchet.sender.id.toNat s₀.ratchet.sender.chain ∧
      ∀ m plain, Use4.sent m plain ∈ us →
        m.encrypted = chachaCrypt E ((kdf E 64 0x15 (chainFwd E m.j.toNat s₀.ratchet.sender.chain)).take 32) plain := by
  have step : ∀ {our their : UInt32} {flags : UInt8} {content reveals : Bytes} {r : Rand} {now : Nat} {m : DataMessage4} {d d' : DoubleRatchet},
      encrypt4 E our their flags content reveals r now d = .ok (m, d') → d.next = .receiver →
      d.sender.chain = chainFwd E d.sender.id.toNat s₀.ratchet.sender.chain →
      d'.next = .receiver ∧ d'.sender.chain = chainFwd E d'.sender.id.toNat s₀.ratchet.sender.chain ∧
        m.encrypted = chachaCrypt E ((kdf E 64 0x15 (chainFwd E m.j.toNat s₀.ratchet.sender.chain)).take 32) content := by
    intro our their flags content reveals r now m d d' h hd hc
    obtain ⟨rv, d1, keys, h1, h2, h3, _, h5⟩ := encrypt4_ok h
    obtain ⟨h6, h7, h8, h9, h10⟩ := DoubleRatchet.rotateSenderChain_ok h5
    obtain ⟨_, k1, k2⟩ := Ratchet.keys_ok h2
    rcases ratchetForSend_ok h1 with ⟨n1, _, _⟩ | ⟨_, _, n3⟩
    · rw [hd] at n1; cases n1
    · subst n3
      refine ⟨by rw [h7]; exact h6, by rw [h9, chainFwd_succ, h8, hc], ?_⟩
      rw [h3]
      show chachaCrypt E (encKey keys.enc) content = chachaCrypt E ((kdf E 64 0x15 (chainFwd E d1.sender.id.toNat _)).take 32) content
      rw [k1, hc]
      rfl
  induction hl with
  | start => exact ⟨hn, by rw [hid]; rfl, by simp⟩
  | @send us s s' flags plain rnd now m _ he ih =>
    obtain ⟨i1, i2, i3⟩ := ih fun u hu => ho u (by simp [hu])
    obtain ⟨e1, e2⟩ := encrypt4_enc he
    obtain ⟨j1, j2, j3⟩ := step e1 i1 i2
    refine ⟨j1, j2, fun m' plain' h => ?_⟩
    rcases List.mem_append.mp h with h | h
    · exact i3 _ _ h
    · cases List.mem_singleton.mp h
      exact j3
  | @bye us s s' rnd now m _ he ih =>
    obtain ⟨i1, i2, i3⟩ := ih fun u hu => ho u (by simp [hu])
    obtain ⟨e1, e2⟩ := disconnect4_enc he
    obtain ⟨j1, j2, j3⟩ := step e1 i1 i2
    refine ⟨j1, j2, fun m' plain' h => ?_⟩
    rcases List.mem_append.mp h with h | h
    · exact i3 _ _ h
    · cases List.mem_singleton.mp h
      exact j3
  | refuse _ he ih =>
    rcases handle4_cases he (by simp) with ⟨_, rfl, _⟩ | ⟨plain, d', _, _, h3⟩
    · exact ih ho
    · exfalso
      cases hp : parseMessage plain with
      | ok p => rw [hp] at h3; cases h3
      | panic => rw [hp] at h3; cases h3
      | err e => rw [hp] at h3; cases h3; exact parse_ne_unreadable hp
  | @accept us s s' m ad now r _ _ _ _ _ =>
    obtain ⟨_, _, e⟩ := ho (.read m ad r) (by simp)
    cases e

/-- C103 is false of the code for the client that answered: once the exchange is complete, whatever is called and received later, the state of the
exchange stays, and with it and the recorded messages every message that the client sent before it first received one can be read. -/
theorem C103_violated (E : Env) (host : DAKEHost) (i : AuthIMessage) (now : Nat) (s s' s'' : DAKEState) (mat : MixedKeyMaterial)
    (hi : DAKE.handleAuthI E host i now s = (.ok mat, s')) (hk : KeptOn E s' s'') (our their : UInt32) (us : List Use4) (x : Enc4)
    (hl : Log4 E ⟨our, their, mat.ratchet⟩ us x) (ho : OnlySent us) :
    ∀ m plain, Use4.sent m plain ∈ us → recovered E s'' host i m = some plain := by
  intro m plain hm
  have hr := C35_replay E host i now 0 s s' mat hi
  have hs := transact_ok.mp hi
  split at hs
  · rename_i st
    simp only [DAKE.acceptAuthI, Res.bind_eq_ok, exUnit, Res.pure_def, Res.ok.injEq, Prod.mk.injEq] at hs
    obtain ⟨_, ⟨_, _, _, _, _, first, _, rfl⟩, rfl, rfl⟩ := hs
    have := hk.same
    subst this
    unfold recovered
    rw [hr]
    have := (sends_first rfl rfl hl ho).2.2 m plain hm
    simp only [Option.some.injEq]
    rw [this]
    exact xorStream_twice _ _
  · cases hs

theorem toy_kept : ∃ mat m x, DAKE.handleAuthI toyEnv hostA toyAuthI 6 toyAnswer = (.ok mat, toyAnswer) ∧
    Enc4.encrypt toyEnv 0 [104, 105] (smallRand 3) 7 ⟨1, 2, mat.ratchet⟩ = (.ok m, x) ∧ m.encrypted ≠ [104, 105] := by
  have h : (match DAKE.handleAuthI toyEnv hostA toyAuthI 6 toyAnswer with
    | (.ok mat, s) => decide (s = toyAnswer) && match Enc4.encrypt toyEnv 0 [104, 105] (smallRand 3) 7 ⟨1, 2, mat.ratchet⟩ with
      | (.ok m, _) => m.encrypted ≠ [104, 105]
      | _ => false
    | _ => false) = true := by decide +kernel
  split at h
  · rename_i mat s e
    rw [Bool.and_eq_true] at h
    obtain ⟨h1, h2⟩ := h
    have h1 := of_decide_eq_true h1
    subst h1
    split at h2
    · rename_i m x e2
      exact ⟨mat, m, x, e, e2, of_decide_eq_true h2⟩
    · cases h2
  · cases h

/-- A client answers an exchange, sends `hi`. -/
example : ∃ mat m x, DAKE.handleAuthI toyEnv hostA toyAuthI 6 toyAnswer = (.ok mat, toyAnswer) ∧
    Log4 toyEnv ⟨1, 2, mat.ratchet⟩ ([] ++ [.sent m [104, 105]]) x ∧ m.encrypted ≠ [104, 105] ∧
      recovered toyEnv toyAnswer hostA toyAuthI m = some [104, 105] := by
  obtain ⟨mat, m, x, h1, h2, h3⟩ := toy_kept
  have hl : Log4 toyEnv ⟨1, 2, mat.ratchet⟩ ([] ++ [.sent m [104, 105]]) x := .send .start h2
  exact ⟨mat, m, x, h1, hl, h3, C103_violated toyEnv hostA toyAuthI 6 _ _ _ mat h1 .now 1 2 _ x hl (by simp [OnlySent]) m _ (by simp)⟩

/-- The first example, for a client that accepts two messages and sends one: the keys of the three messages cannot be computed. -/
example : ∃ (ks : List Bytes) (ps : List (Nat × Nat)) (K : List Secret), ps.length = 3 ∧ HeldBy toyEnv [1, 2, 3] ks K Toy4.a3.ratchet ∧
    ∀ p ∈ ps, ¬ Computable (fun x => x ∈ K ∨ ∃ n, x = .mixed n) (.message p.1 p.2) := by
  obtain ⟨ks, ps, K, h1, h2, h3⟩ := C103_ratchet_partial _ _ _ _ _ toy_from toy_log
  exact ⟨ks, ps, K, h1.length_eq.symm, h2, h3⟩

end Otrr.Props

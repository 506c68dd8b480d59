import Verif.Spec.SessionCalls
import Verif.Lemmas.SessionCrash
import Verif.Props.SessionLife
/-!
# Crashes of the calls of the user
-/

namespace Otrr
namespace Props
open Spec Session

variable {E : Env} {A : Account} {c : Call}

theorem overhead_eq {v : Version} (hv : v = .v3 ∨ v = .v4) : headerSize v = overhead v := by rcases hv with rfl | rfl <;> rfl

theorem fragmentContent_panic {v : Version} (hv : v = .v3 ∨ v = .v4) {rnd text : Bytes} {n : Nat} {s r : UInt32}
    (hl : n < text.length) (h : ¬ (overhead v < n ∧ text.length ≤ 65535 * (n - overhead v))) :
    fragmentContent rnd n v s r text = .panic := by
  have key : ∀ k, k < n → ¬ text.length ≤ 65535 * (n - k) →
      ¬ (text.length / (n - k) + (if text.length % (n - k) = 0 then 0 else 1) < 65536) := by
    intro k hk hb hc
    have hd := Nat.div_add_mod text.length (n - k)
    have hm := Nat.mod_lt text.length (show n - k > 0 by omega)
    have : text.length / (n - k) * (n - k) = (n - k) * (text.length / (n - k)) := Nat.mul_comm _ _
    split at hc
    · rename_i h0
      have : (n - k) * (text.length / (n - k)) ≤ (n - k) * 65535 := Nat.mul_le_mul_left _ (by omega)
      rw [Nat.mul_comm (n - k) 65535] at this
      omega
    · have : (n - k) * (text.length / (n - k)) ≤ (n - k) * 65534 := Nat.mul_le_mul_left _ (by omega)
      have e : (n - k) * 65534 + (n - k) = 65535 * (n - k) := by omega
      omega
  unfold fragmentContent
  rcases hv with rfl | rfl
  · by_cases h1 : 36 < n
    · have h2 := key 36 h1 (fun h2 => h ⟨h1, h2⟩)
      simp [Res.assert, h1, hl, h2]
    · simp [Res.assert, h1]
  · by_cases h1 : 45 < n
    · have h2 := key 45 h1 (fun h2 => h ⟨h1, h2⟩)
      simp [Res.assert, h1, hl, h2]
    · simp [Res.assert, h1]

/-- Sending a text crashes exactly if it does not fit. -/
theorem payloads_iff {rnd : Rand} {v : Version} {k : UInt32} {m : EncodedMessageType} {text : Bytes} (hA : 0x100 ≤ A.tag) (hv : v = .v3 ∨ v = .v4)
    (hk : ValidTag k) (ht : encodeMessage v A.tag k m = .ok text) :
    Instance.payloads A c v k rnd text = .panic ↔ ¬ Fits v c.messageSize text := by
  by_cases hl : text.length ≤ c.messageSize
  · exact ⟨fun h => by rw [Instance.payloads, if_pos hl] at h; exact (nomatch h), fun h => absurd (Or.inl hl) h⟩
  constructor
  · rintro h (h1 | ⟨h1, h2⟩)
    · exact hl h1
    · rw [← overhead_eq hv] at h1 h2
      have hbig : c.messageSize < text.length := Nat.lt_of_not_le hl
      have heq := (fragmentContent_eq (rnd := rnd.bytes [] 4) (sender := A.tag) (receiver := k) hv h1 hbig h2).1
      have F := fragmented (fun _ => false) hv (rnd.length_bytes [] 4) h1 hbig h2 hA
        (hk.imp_right UInt32.le_iff_toNat_le.mp) (text_chars (m := ⟨v, A.tag, k, m⟩) ht) heq
      unfold Instance.payloads at h
      rw [if_neg hl, heq] at h
      simp only [Res.bind_ok] at h
      have := F.fits
      revert this h
      generalize numberFragments _ _ _ _ _ _ _ = fs
      intro h hf
      have : ∃ out, fs.mapM encodeFragment = .ok out := by
        clear h heq F
        induction fs with
        | nil => exact ⟨[], rfl⟩
        | cons f fs ih =>
          obtain ⟨t, h1, _⟩ := hf f (by simp)
          obtain ⟨out, ho⟩ := ih fun g hg => hf g (by simp [hg])
          exact ⟨t :: out, by rw [List.mapM_cons, h1, ho]; rfl⟩
      obtain ⟨out, ho⟩ := this
      rw [ho] at h
      cases h
  · intro h
    have h' : ¬ (overhead v < c.messageSize ∧ text.length ≤ 65535 * (c.messageSize - overhead v)) := fun h1 => h (.inr h1)
    unfold Instance.payloads
    rw [if_neg hl, fragmentContent_panic hv (Nat.lt_of_not_le hl) h']
    rfl

/-- Injecting a message crashes exactly if its text does not fit. -/
theorem inject_iff {rnd : Rand} {v : Version} {k : UInt32} {m : EncodedMessageType} {text : Bytes} {i : Instance} {sent : List Bytes}
    (hA : 0x100 ≤ A.tag) (hv : v = .v3 ∨ v = .v4)
    (hk : ValidTag k) (ht : encodeMessage v A.tag k m = .ok text) (hi : i.receiver = k) :
    (Instance.inject A c rnd v k m ⟨i, sent⟩).1 = .panic ↔ ¬ Fits v c.messageSize text := by
  rw [← payloads_iff (rnd := rnd) hA hv hk ht]
  subst hi
  have ha : (i.receiver != 0 && i.receiver == 0 || i.receiver == i.receiver) = true := by simp
  simp only [Instance.inject, StM.bind_run, StM.gets, StM.lift, ha, Res.assert, if_true, ht]
  cases Instance.payloads A c v i.receiver rnd text <;> simp [Instance.emit]

/-- The state of an encrypted session that calls can lead to. -/
structure Live (E : Env) (st : PState) : Prop where
  life : ∀ x smp, st = .encrypted3 x smp → ∃ x0 l, Fresh3 E x0 ∧ Life3 E x0 l x
  pts : StatePts E st

theorem encrypt4_iff (hc : GoodCurve E.curve) {x : Enc4} (hx : Sound4 E x.ratchet) (flags : UInt8) (plain : Bytes) (rnd : Rand) (now : Nat) :
    (Stuck4 E x.our x.their flags plain rnd now x.ratchet ∧ (Enc4.encrypt E flags plain rnd now x).1 = .panic) ∨
    (¬ Stuck4 E x.our x.their flags plain rnd now x.ratchet ∧
      ∃ d x', Enc4.encrypt E flags plain rnd now x = (.ok d, x') ∧ d.revealed.length % 64 = 0) := by
  by_cases hs : Stuck4 E x.our x.their flags plain rnd now x.ratchet
  · refine .inl ⟨hs, ?_⟩
    unfold Enc4.encrypt Enc4.onRatchet
    cases he : encrypt4 E x.our x.their flags plain [] rnd now x.ratchet with
    | ok y => exact absurd he fun he => encrypt4_stuck hs he
    | err e => exact absurd he (encrypt4_ne_err e)
    | panic => rfl
  · refine .inr ⟨hs, ?_⟩
    obtain ⟨m, d', he⟩ := encrypt4_safe hc hx.1 (rv := []) rfl (fun h => by simpa using hx.2 h) x.our x.their flags plain now hs
    obtain ⟨_, _, _, _, _, _, h4, _⟩ := encrypt4_ok he
    refine ⟨m, { x with ratchet := d' }, ?_, (validate_ok h4).2.2.2.1⟩
    unfold Enc4.encrypt Enc4.onRatchet
    rw [he]

theorem disconnect4_iff (hc : GoodCurve E.curve) {x : Enc4} (hx : Sound4 E x.ratchet) (rnd : Rand) (now : Nat) :
    (Stuck4 E x.our x.their IGNORE_UNREADABLE disconnectPlain rnd now x.ratchet ∧ (Enc4.disconnect E rnd now x).1 = .panic) ∨
    (¬ Stuck4 E x.our x.their IGNORE_UNREADABLE disconnectPlain rnd now x.ratchet ∧
      ∃ d x', Enc4.disconnect E rnd now x = (.ok d, x') ∧ d.revealed.length % 64 = 0) := by
  obtain ⟨I, J⟩ := hx
  have I' : Weak4 E { x.ratchet with reveals := [] } := by
    cases I
    constructor <;> first | assumption | rfl
  by_cases hs : Stuck4 E x.our x.their IGNORE_UNREADABLE disconnectPlain rnd now x.ratchet
  · refine .inl ⟨hs, ?_⟩
    unfold Enc4.disconnect Enc4.onRatchet
    dsimp only
    cases he : encrypt4 E x.our x.their IGNORE_UNREADABLE disconnectPlain x.ratchet.reveals rnd now { x.ratchet with reveals := [] } with
    | ok y => exact absurd he fun he => encrypt4_stuck (hs.reveals []) he
    | err e => exact absurd he (encrypt4_ne_err e)
    | panic => rfl
  · refine .inr ⟨hs, ?_⟩
    obtain ⟨m, d', he⟩ := encrypt4_safe hc I' I.rev
      (fun hn => by show x.ratchet.reveals ++ [] ≠ []; rw [List.append_nil]; exact J hn) x.our x.their IGNORE_UNREADABLE disconnectPlain now
      (r := rnd) fun h => hs (h.reveals x.ratchet.reveals)
    obtain ⟨_, _, _, _, _, _, h4, _⟩ := encrypt4_ok he
    refine ⟨m, { x with ratchet := d' }, ?_, (validate_ok h4).2.2.2.1⟩
    unfold Enc4.disconnect Enc4.onRatchet
    dsimp only at he ⊢
    rw [he]

theorem encrypt3_iff {x x0 : Enc3} {l : List Ev3} (hf : Fresh3 E x0) (hl : Life3 E x0 l x) (flags : UInt8) (plain : Bytes) :
    (Stuck3 E x flags plain ∧ (Enc3.encrypt E flags plain x).1 = .panic) ∨
    (¬ Stuck3 E x flags plain ∧ ∃ d x', Enc3.encrypt E flags plain x = (.ok d, x')) := by
  have h := C43_send_partial E x0 x l hf hl flags plain
  by_cases hs : Stuck3 E x flags plain
  · exact .inl ⟨hs, h.2 hs⟩
  · exact .inr ⟨hs, h.1 hs⟩

/-- What becomes of a plaintext in an encrypted session. -/
theorem prepare_cases (hc : GoodCurve E.curve) (A : Account) (c : Call) {st : PState} (hL : Live E st) (he : st.status = .encrypted) (k : UInt32)
    (flags : UInt8) (plain : Bytes) (rnd : Rand) :
    (st.version = .v3 ∨ st.version = .v4) ∧
    (((st.prepare E flags plain rnd c.now).1 = .panic ∧ Unsent E A c k flags plain rnd st) ∨
      ∃ m st' text, st.prepare E flags plain rnd c.now = (.ok m, st') ∧ st'.version = st.version ∧ (∀ b, m ≠ .unencoded b) ∧
        encodeMessage st.version A.tag k m = .ok text ∧ (Unsent E A c k flags plain rnd st ↔ ¬ Fits st.version c.messageSize text)) := by
  cases st with
  | plaintext => cases he
  | finished => cases he
  | encrypted3 x smp =>
    refine ⟨.inl rfl, ?_⟩
    obtain ⟨x0, l, hf, hl⟩ := hL.life x smp rfl
    rcases encrypt3_iff hf hl flags plain with ⟨hs, hp⟩ | ⟨hs, d, x', hd⟩
    · left
      refine ⟨?_, .stuck3 hs⟩
      simp only [PState.prepare, StM.bind_run]
      revert hp
      cases Enc3.encrypt E flags plain x with
      | mk r y => rintro rfl; rfl
    · right
      obtain ⟨text, ht⟩ := Session.encodeMessage_ok (v := .v3) (m := .data d) (.inl rfl) nofun nofun A.tag k
      refine ⟨.data d, .encrypted3 x' smp, text, ?_, rfl, nofun, ht, ⟨?_, fun h => .long3 hd ht h⟩⟩
      · simp only [PState.prepare, StM.bind_run, hd]
        rfl
      · intro h
        cases h with
        | stuck3 h => exact absurd h hs
        | long3 h1 h2 h3 =>
          rw [hd] at h1
          cases h1
          rw [show serialize (.encoded ⟨.v3, A.tag, k, .data d⟩) = .ok text from ht] at h2
          cases h2
          exact h3
  | encrypted4 x smp =>
    refine ⟨.inr rfl, ?_⟩
    rcases encrypt4_iff hc (hL.pts x smp rfl) flags plain rnd c.now with ⟨hs, hp⟩ | ⟨hs, d, x', hd, h64⟩
    · left
      refine ⟨?_, .stuck4 hs⟩
      simp only [PState.prepare, StM.bind_run]
      revert hp
      cases Enc4.encrypt E flags plain rnd c.now x with
      | mk r y => rintro rfl; rfl
    · right
      obtain ⟨text, ht⟩ := Session.encodeMessage_ok (v := .v4) (m := .data4 d) (.inr rfl) nofun (fun _ h => by cases h; exact h64) A.tag k
      refine ⟨.data4 d, .encrypted4 x' smp, text, ?_, rfl, nofun, ht, ⟨?_, fun h => .long4 hd ht h⟩⟩
      · simp only [PState.prepare, StM.bind_run, hd]
        rfl
      · intro h
        cases h with
        | stuck4 h => exact absurd h hs
        | long4 h1 h2 h3 =>
          rw [hd] at h1
          cases h1
          rw [show serialize (.encoded ⟨.v4, A.tag, k, .data4 d⟩) = .ok text from ht] at h2
          cases h2
          exact h3

/-- What becomes of the end of an encrypted session. -/
theorem finish_cases (hc : GoodCurve E.curve) (A : Account) (c : Call) {st : PState} (hL : Live E st) (he : st.status = .encrypted) (k : UInt32) (rnd : Rand) :
    (st.version = .v3 ∨ st.version = .v4) ∧
    (((st.finish E rnd c.now).1 = .panic ∧ NoFarewell E A c k rnd st) ∨
      ∃ m text, st.finish E rnd c.now = (.ok (some m), .plaintext) ∧
        encodeMessage st.version A.tag k m = .ok text ∧ (NoFarewell E A c k rnd st ↔ ¬ Fits st.version c.messageSize text)) := by
  cases st with
  | plaintext => cases he
  | finished => cases he
  | encrypted3 x smp =>
    refine ⟨.inl rfl, ?_⟩
    obtain ⟨x0, l, hf, hl⟩ := hL.life x smp rfl
    rcases encrypt3_iff hf hl IGNORE_UNREADABLE disconnectPlain with ⟨hs, hp⟩ | ⟨hs, d, x', hd⟩
    · left
      refine ⟨?_, .stuck3 hs⟩
      simp only [PState.finish]
      revert hp
      cases Enc3.encrypt E IGNORE_UNREADABLE disconnectPlain x with
      | mk r y => rintro rfl; rfl
    · right
      obtain ⟨text, ht⟩ := Session.encodeMessage_ok (v := .v3) (m := .data d) (.inl rfl) nofun nofun A.tag k
      refine ⟨.data d, text, ?_, ht, ⟨?_, fun h => .long3 hd ht h⟩⟩
      · simp only [PState.finish, hd]
      · intro h
        cases h with
        | stuck3 h => exact absurd h hs
        | long3 h1 h2 h3 =>
          rw [show Enc3.encrypt E 1 [0, 0, 1, 0, 0] x = (.ok d, x') from hd] at h1
          cases h1
          rw [show serialize (.encoded ⟨.v3, A.tag, k, .data d⟩) = .ok text from ht] at h2
          cases h2
          exact h3
  | encrypted4 x smp =>
    refine ⟨.inr rfl, ?_⟩
    rcases disconnect4_iff hc (hL.pts x smp rfl) rnd c.now with ⟨hs, hp⟩ | ⟨hs, d, x', hd, h64⟩
    · left
      refine ⟨?_, .stuck4 hs⟩
      simp only [PState.finish]
      revert hp
      cases Enc4.disconnect E rnd c.now x with
      | mk r y => rintro rfl; rfl
    · right
      obtain ⟨text, ht⟩ := Session.encodeMessage_ok (v := .v4) (m := .data4 d) (.inr rfl) nofun (fun _ h => by cases h; exact h64) A.tag k
      refine ⟨.data4 d, text, ?_, ht, ⟨?_, fun h => .long4 hd ht h⟩⟩
      · simp only [PState.finish, hd]
      · intro h
        cases h with
        | stuck4 h => exact absurd h hs
        | long4 h1 h2 h3 =>
          rw [hd] at h1
          cases h1
          rw [show serialize (.encoded ⟨.v4, A.tag, k, .data4 d⟩) = .ok text from ht] at h2
          cases h2
          exact h3

/-- Sending a TLV crashes exactly if it is too long or cannot be sent. -/
theorem sendTlv_iff (hc : GoodCurve E.curve) (hA : 0x100 ≤ A.tag) {k : UInt32} (hk : ValidTag k) {i : Instance} {sent : List Bytes} (hi : i.receiver = k)
    (hL : Live E i.state) (he : i.state.status = .encrypted) (rnd : Rand) (t : TLV) :
    (Instance.sendTlv E A c rnd k t ⟨i, sent⟩).1 = .panic ↔ 65535 < t.value.length ∨ Unsent E A c k 1 (onlyTlv t) (rnd.sub 0) i.state := by
  simp only [Instance.sendTlv, StM.bind_run, StM.lift, tlvPlain_onlyTlv]
  by_cases hl : t.value.length < 2 ^ 16
  · rw [if_pos hl]
    obtain ⟨hv, h⟩ := prepare_cases hc A c hL he k IGNORE_UNREADABLE (onlyTlv t) (rnd.sub 0)
    simp only [Instance.onState]
    have hno : ¬ 65535 < t.value.length := by omega
    simp only [hno, false_or]
    rcases h with ⟨hp, hu⟩ | ⟨m, st', text, hp, hv', _, ht, hu⟩
    · refine ⟨fun _ => hu, fun _ => ?_⟩
      revert hp
      cases PState.prepare E IGNORE_UNREADABLE (onlyTlv t) (rnd.sub 0) c.now i.state with
      | mk r s => rintro rfl; rfl
    · rw [hp]
      simp only [StM.gets]
      rw [hv', inject_iff (i := { i with state := st' }) hA hv hk ht hi]
      exact hu.symm
  · rw [if_neg hl]
    exact ⟨fun _ => .inl (by omega), fun _ => rfl⟩

/-- Sessions are with instances that have a permitted tag. -/
theorem hist_tag {h : List Ev} {s : Session} (hh : Hist E A h s) (k : UInt32) : stateOf s k = .plaintext ∨ ValidTag k := by
  have noKex : ∀ {a b : PState}, NoKex a b → a = .plaintext → b = .plaintext := by
    rintro a b (⟨x, h1, -⟩ | ⟨-, h1⟩ | h1) rfl
    · cases h1
    · exact absurd rfl h1
    · exact h1
  simp only [stateOf_inst]
  induction hh with
  | new =>
    left
    unfold inst Session.new
    simp only [lookup]
    split <;> rfl
  | @step h s op c e hh hr hp ih =>
    rcases ih with ih | ih
    · subst hr
      by_cases ho : ∀ p, op ≠ .receive p
      · exact .inl (noKex ((calm_run ho).each k).calm ih)
      · simp only [not_forall, not_not] at ho
        obtain ⟨payload, rfl⟩ := ho
        rcases changes_receive (A := A) (c := c) (w := ⟨s, []⟩) (hist_inv hh) payload with hx | ⟨m, ssid, hd, hr, ho, _⟩
        · left
          rw [Op.run, perform_after]
          exact noKex (hx.each k).calm ih
        · by_cases hk : k = m.sender
          · right
            obtain ⟨text, ht⟩ := delivers_parse hd
            rw [hk]
            exact (C13_header E text m ht).2.2.1
          · left
            rw [Op.run, perform_after]
            exact noKex (ho k hk) ih
    · exact .inr ih

end Props
end Otrr

import Verif.Spec.SessionEnd
import Verif.Props.SessionSmp
import Verif.Lemmas.SessionEndToy
/-!
# C84: a session that ends, seen from both clients
-/

namespace Otrr.Props
open Otrr Otrr.Spec Otrr.Session

/-- The key pairs of a client that sends are proper ones. -/
theorem encrypt4_own {E : Env} {our their : UInt32} {flags : UInt8} {content reveals : Bytes} {r : Rand} {now : Nat} {d d' : DoubleRatchet} {m : DataMessage4}
    (h : encrypt4 E our their flags content reveals r now d = .ok (m, d')) (ho : Own E d) : Own E d' := by
  obtain ⟨rv, d1, keys, h1, _, _, _, h5⟩ := encrypt4_ok h
  have e : d'.shared = d1.shared := by rw [(DoubleRatchet.rotateSenderChain_ok h5).2.1]
  rcases ratchetForSend_ok h1 with ⟨_, _, n3⟩ | ⟨_, _, n3⟩
  · obtain ⟨_, ⟨dh, h1, h2⟩, _⟩ := DoubleRatchet.rotateSender_ok n3
    obtain ⟨_, _, _, _, k5⟩ := Mixed.next_ok h1
    constructor
    · rw [e, k5]; rfl
    · rw [e, k5]
      simp only [h2]
      split
      · rfl
      · exact ho.dh
  · subst n3
    exact ⟨by rw [e]; exact ho.ecdh, by rw [e]; exact ho.dh⟩

/-- The disconnect message of an OTRv4 session arrives. -/
theorem goodbye4 {E : Env} (hC : GoodCurve E.curve) (hG : GoodGroup E.dh3) (hg : FitsMpi E.dh3.p) {S R : Account} (tS : 0x100 ≤ S.tag) (tR : 0x100 ≤ R.tag)
    {a b : PState} (hm : MaySend4 E S R a b) {c : Call} {m : EncodedMessageType} (hdis : Disconnects E c a m) {text : Bytes}
    (htxt : serialize (.encoded ⟨a.version, S.tag, R.tag, m⟩) = .ok text) (hfr : FreshGoodbye E a text) (hl : text.length < 2 ^ 32) (c' : Call) :
    parse E text = .ok (.encoded ⟨.v4, S.tag, R.tag, m⟩) ∧ DecryptsTo E c' ⟨.v4, S.tag, R.tag, m⟩ b (.confidentialFinished []) .finished := by
  obtain ⟨x, mx, y, n, rfl, rfl, o1, o2, o3, o4, ht⟩ := hm
  obtain ⟨d, d', rnd, rfl, he⟩ : ∃ d d' rnd, m = .data4 d ∧
      encrypt4 E x.our x.their 1 [0, 0, 1, 0, 0] x.ratchet.reveals rnd c.now { x.ratchet with reveals := [] } = .ok (d, d') := by
    rcases hdis with ⟨_, _, _, _, h, _⟩ | ⟨_, _, d, d', rnd, h1, h2, h3⟩
    · cases h
    · cases h1; exact ⟨d, d', rnd, h2, h3⟩
  rw [o1, o2] at he
  obtain ⟨I, C1, C2⟩ : PInv E S.tag R.tag x.ratchet y.ratchet [] [] ∧ Calm E x.ratchet y.ratchet [] ∧ Calm E y.ratchet x.ratchet [] := by
    rcases ht with ht | ht
    · have I := (reach4_inv hC hG ht.reach).1
      simp only [o1, o3] at I
      exact ⟨I, calm4_inv hC hG ht⟩
    · have I := (reach4_inv hC hG ht.reach).1
      simp only [o1, o3] at I
      exact ⟨I.symm, (calm4_inv hC hG ht).symm⟩
  obtain ⟨hv, hwf⟩ := encrypt4_wf hC hG hg he (.inr rfl) (encrypt4_own he ⟨(own_of I.rel).1.ecdh, (own_of I.rel).1.dh⟩) htxt hl
  obtain ⟨t, h1, h2⟩ := C03_transport E hC ⟨.v4, S.tag, R.tag, .data4 d⟩ (.inr tS) (.inr tR) rfl hwf
  have h1' := htxt.symm.trans h1
  cases h1'
  have hfk : FreshKey { x.ratchet with reveals := [] } d' := by
    intro h1 h0
    obtain ⟨rv, d1, keys, k1, k2, k3, k4, k5⟩ := encrypt4_ok he
    obtain ⟨h6, h7, h8, h9, h10⟩ := DoubleRatchet.rotateSenderChain_ok k5
    have hi : d.i = x.ratchet.i := by
      rcases ratchetForSend_ok k1 with ⟨_, _, n3⟩ | ⟨n1, _, n3⟩
      · have hr := (DoubleRatchet.rotateSender_ok n3).2.2.2.2.2.2.1
        have : d.i.toNat = d1.i.toNat - 1 := by rw [k3]; exact predSat_toNat _
        refine UInt32.toNat_inj.mp ?_
        rw [this, hr]
        simp
      · rw [h1] at n1; cases n1
    have hd : d.dh = some d'.shared.dh.pub := by
      have e1 : d.dh = if d.i % 3 = 0 then some d1.shared.dh.pub else .none := by rw [k3]; rfl
      have e2 : d'.shared = d1.shared := by rw [h7]
      rw [e1, e2, if_pos]
      refine UInt32.toNat_inj.mp ?_
      rw [UInt32.toNat_mod, hi]
      exact h0
    exact hfr x mx _ d _ rfl h1 h2 rfl hd
  have I' := (I.forget []).send he hfk
  have C' := (I.forget []).calm_send ⟨C1.recent, C1.told⟩ ⟨C2.recent, C2.told⟩ he
  refine ⟨h2, ?_⟩
  rcases I'.recv hC hG c'.now with ⟨h4, _, _⟩ | ⟨_, b', h4, _⟩
  · have := C'.1.recent (d, [0, 0, 1, 0, 0]) (by simp)
    simp only at h4 this
    omega
  · have hh := handle4_of_ok (s := y) (onlyTlv_composed (t := ⟨1, []⟩) (by decide)) h4
    exact .inr ⟨y, n, d, _, true, rfl, rfl, rfl, hv, hh, rfl⟩

/-- Clients that are connected may both send. -/
theorem connected_may4 {E : Env} {A B : Account} {sA sB : Session} (h : Connected4 E A B sA sB) :
    MaySend4 E A B (stateOf sA B.tag) (stateOf sB A.tag) ∧ MaySend4 E B A (stateOf sB A.tag) (stateOf sA B.tag) := by
  obtain ⟨xA, mA, xB, mB, ssid, h1, h2, h3, h4, o1, o2, o3, o4, calm⟩ := h
  exact ⟨⟨xA, mA, xB, mB, h1, h2, o1, o2, o3, o4, .inl calm⟩, ⟨xB, mB, xA, mA, h2, h1, o3, o4, o1, o2, .inr calm⟩⟩

/-- The disconnect message of an OTRv3 session arrives. -/
theorem goodbye3 {E : Env} (hC : GoodCurve E.curve) (hG : GoodGroup E.dh) (hg : FitsMpi E.dh.p) {S R : Account} (tS : 0x100 ≤ S.tag) (tR : 0x100 ≤ R.tag)
    {a b : PState} (hm : MaySend3 E S R a b) {c : Call} {m : EncodedMessageType} (hdis : Disconnects E c a m) {text : Bytes}
    (htxt : serialize (.encoded ⟨a.version, S.tag, R.tag, m⟩) = .ok text) (hl : text.length < 2 ^ 32) (c' : Call) :
    parse E text = .ok (.encoded ⟨.v3, S.tag, R.tag, m⟩) ∧ DecryptsTo E c' ⟨.v3, S.tag, R.tag, m⟩ b (.confidentialFinished []) .finished := by
  obtain ⟨a', henc⟩ : ∃ a', Encrypts E c 1 (onlyTlv ⟨1, []⟩) a a' m := by
    rcases hdis with ⟨x, x', smp, d, h1, h2, h3⟩ | ⟨_, _, _, _, _, h1, _⟩
    · exact ⟨.encrypted3 x' smp, .inl ⟨x, x', smp, d, h1, rfl, h2, h3⟩⟩
    · obtain ⟨_, _, _, _, h, _⟩ := hm
      rw [h1] at h
      cases h
  obtain ⟨_, _, _, _, hp, hdec, _⟩ := arrives3 hC hG hg tS tR hm (.inr rfl) (onlyTlv_composed (t := ⟨1, []⟩) (by decide)) henc htxt hl c'
  exact ⟨hp, hdec⟩

/-- The client that gets the disconnect message. -/
theorem learns {E : Env} {R : Account} {h : List Ev} {s : Session} (hh : Hist E R h s) {c : Call} {text : Bytes} {m : EncodedMessage}
    (hn : matchFragment text = false) (hp : parse E text = .ok (.encoded m))
    (hv : m.version = .v3 ∧ AllowsV3 R ∨ m.version = .v4 ∧ AllowsV4 R) (hs : m.sender ≠ 0) (hr : m.receiver = R.tag) (ht : R.tag ≠ 0)
    (hdec : DecryptsTo E c m (stateOf s m.sender) (.confidentialFinished []) .finished) :
    Learns E R m.sender ((Op.receive text).run E R c s) := by
  rw [stateOf_inst] at hdec
  obtain ⟨i, hl, hdec⟩ := hdec.decrypts.found
  obtain ⟨h1, h2, h3⟩ := C22_disconnect E R h s hh c text m i [] (.inl ⟨hn, hp⟩) hv hs hr ht hl hdec
  obtain ⟨_, hh'⟩ := hist_next hh (e := (Op.receive text).run E R c s) rfl (by rw [h1]; simp)
  have some : SomeVersion R := by
    rcases hv with ⟨_, hv⟩ | ⟨_, hv⟩
    · exact .inl hv
    · exact .inr hv
  refine ⟨h1, h3, h2, fun c content => C16_finished E R c _ m.sender content some h2, fun c => ?_⟩
  obtain ⟨i', _, h5⟩ := (C22_end_other E R _ _ hh' c m.sender).2.1 h2
  rw [h5]
  refine ⟨rfl, rfl, ?_⟩
  simp only [Session.status, lookup_insertKey, if_true, Option.map_some]
  rfl

/-- C84: one of two clients in an OTRv3 session ends it, when it is its turn; the text that the call sends reaches the other client.  Then the
one is in plaintext, and the other learns that the session has ended. -/
theorem C84_end3 (E : Env) (hC : GoodCurve E.curve) (hG : GoodGroup E.dh) (hg : FitsMpi E.dh.p) (A B : Account) (allow : AllowsV3 B)
    (tags : 0x100 ≤ A.tag ∧ 0x100 ≤ B.tag) (hA hB : List Ev) (sA sB : Session) (hhA : Hist E A hA sA) (hhB : Hist E B hB sB)
    (may : MaySend3 E A B (stateOf sA B.tag) (stateOf sB A.tag)) (c c' : Call) (text : Bytes) (e e' : Effect)
    (he : e = (Op.close B.tag).run E A c sA) (he' : e' = (Op.receive text).run E B c' sB) (one : OneText e text) :
    e.result = .ok (.user (.reset B.tag)) ∧ e.after.status B.tag = some .plaintext ∧ Learns E B A.tag e' := by
  obtain ⟨x, m, _, _, sx, _⟩ := id may
  have enc : sA.status B.tag = some .encrypted := status_of_inst (by rw [← stateOf_inst, sx]; rfl) (by decide)
  have h1 := C22_end_encrypted E A hA sA hhA c B.tag enc
  rw [← he] at h1
  rcases h1 with h1 | ⟨i, m, hl, hr, _, hst, hdis, htr⟩
  · exact absurd h1 one.1
  refine ⟨hr, hst, ?_⟩
  have hi : i.state = stateOf sA B.tag := by rw [stateOf_inst, inst_of_lookup hl]
  rw [hi] at hdis htr
  rw [one.2.1] at htr
  have hser := whole_of_one htr
  obtain ⟨hp, hdec⟩ := goodbye3 hC hG hg tags.1 tags.2 may hdis hser one.2.2 c'
  rw [he']
  exact learns hhB (encoded_notFragment hser) hp (.inl ⟨rfl, allow⟩) (tag_ne_zero tags.1) rfl (tag_ne_zero tags.2) hdec

/-- C84: the same for OTRv4, where the clients need not take turns. -/
theorem C84_end4 (E : Env) (hC : GoodCurve E.curve) (hG : GoodGroup E.dh3) (hg : FitsMpi E.dh3.p) (A B : Account) (allow : AllowsV4 B)
    (tags : 0x100 ≤ A.tag ∧ 0x100 ≤ B.tag) (hA hB : List Ev) (sA sB : Session) (hhA : Hist E A hA sA) (hhB : Hist E B hB sB)
    (may : MaySend4 E A B (stateOf sA B.tag) (stateOf sB A.tag)) (c c' : Call) (text : Bytes) (e e' : Effect)
    (he : e = (Op.close B.tag).run E A c sA) (he' : e' = (Op.receive text).run E B c' sB) (one : OneText e text)
    (fresh : FreshGoodbye E (stateOf sA B.tag) text) :
    e.result = .ok (.user (.reset B.tag)) ∧ e.after.status B.tag = some .plaintext ∧ Learns E B A.tag e' := by
  obtain ⟨x, m, _, _, sx, _⟩ := id may
  have enc : sA.status B.tag = some .encrypted := status_of_inst (by rw [← stateOf_inst, sx]; rfl) (by decide)
  have h1 := C22_end_encrypted E A hA sA hhA c B.tag enc
  rw [← he] at h1
  rcases h1 with h1 | ⟨i, m, hl, hr, _, hst, hdis, htr⟩
  · exact absurd h1 one.1
  refine ⟨hr, hst, ?_⟩
  have hi : i.state = stateOf sA B.tag := by rw [stateOf_inst, inst_of_lookup hl]
  rw [hi] at hdis htr
  rw [one.2.1] at htr
  have hser := whole_of_one htr
  obtain ⟨hp, hdec⟩ := goodbye4 hC hG hg tags.1 tags.2 may hdis hser fresh one.2.2 c'
  rw [he']
  exact learns hhB (encoded_notFragment hser) hp (.inr ⟨rfl, allow⟩) (tag_ne_zero tags.1) rfl (tag_ne_zero tags.2) hdec

theorem _root_.Otrr.Spec.InTransit.ne_nil {A : Account} {c : Call} {m : EncodedMessage} {o : List Bytes} (h : InTransit A c m o) : o ≠ [] := by
  rintro rfl
  obtain ⟨t, _, h2⟩ := h
  rcases h2 with ⟨_, h2⟩ | ⟨h2, ident, fs, _, h3, h4⟩
  · cases h2
  · have h5 := fragment_two h3
    rw [← mapM_length h4] at h5
    simp at h5

/-- What is sent for an instance that expires is among what is sent. -/
theorem farewell_of {E : Env} {A : Account} {c : Call} {t : Nat} {l : List (UInt32 × Instance)} {out : List Bytes} (h : Farewells E A c t l out)
    {k : UInt32} {i : Instance} (hm : (k, i) ∈ l) (ho : Old t c.now i) :
    ∃ m o pre post, out = pre ++ o ++ post ∧ Disconnects E c i.state m ∧ InTransit A c ⟨.v4, A.tag, k, m⟩ o := by
  induction h with
  | nil => cases hm
  | young hy _ ih =>
    rcases List.mem_cons.mp hm with hx | hx
    · cases hx; exact absurd ho hy
    · exact ih hx
  | @old k' i' l m' o' out' ho' hd ht _ ih =>
    rcases List.mem_cons.mp hm with hx | hx
    · cases hx
      exact ⟨m', o', [], out', rfl, hd, ht⟩
    · obtain ⟨m, o, pre, post, rfl, h1, h2⟩ := ih hx
      exact ⟨m, o, o' ++ pre, post, by simp, h1, h2⟩

/-- C84: the OTRv4 session of one of two clients expires, as the only one of its client, and the text that the call sends reaches the other
client.  Then the session is finished on both sides. -/
theorem C84_expire4 (E : Env) (hC : GoodCurve E.curve) (hG : GoodGroup E.dh3) (hg : FitsMpi E.dh3.p) (A B : Account) (allow : AllowsV4 B)
    (tags : 0x100 ≤ A.tag ∧ 0x100 ≤ B.tag) (hA hB : List Ev) (sA sB : Session) (hhA : Hist E A hA sA) (hhB : Hist E B hB sB)
    (may : MaySend4 E A B (stateOf sA B.tag) (stateOf sB A.tag)) (c c' : Call) (timeout : Nat) (text : Bytes) (e e' : Effect)
    (old : ∀ i, lookup sA.instances B.tag = some i → Old timeout c.now i)
    (he : e = (Op.expire timeout).run E A c sA) (he' : e' = (Op.receive text).run E B c' sB) (one : OneText e text)
    (fresh : FreshGoodbye E (stateOf sA B.tag) text) :
    e.result = .ok .done ∧ e.after.status B.tag = some .finished ∧ Learns E B A.tag e' := by
  obtain ⟨x, m, _, _, sx, _⟩ := id may
  have enc : sA.status B.tag = some .encrypted := status_of_inst (by rw [← stateOf_inst, sx]; rfl) (by decide)
  obtain ⟨i, hl, _⟩ := status_lookup enc
  have hold := old i hl
  have h1 := C23_expire E A hA sA hhA c timeout
  rw [← he] at h1
  rcases h1 with h1 | ⟨hr, hf, _, hall⟩
  · exact absurd h1 one.1
  have hk := hall B.tag
  rw [hl] at hk
  refine ⟨hr, by simp only [Session.status, hk.1 hold, Option.map_some]; rfl, ?_⟩
  obtain ⟨m, o, pre, post, ho, hdis, htr⟩ := farewell_of hf (lookup_mem hl) hold
  rw [one.2.1] at ho
  obtain rfl : o = [text] := by
    have hn := htr.ne_nil
    have hlen := congrArg List.length ho
    simp only [List.length_cons, List.length_nil, List.length_append] at hlen
    have : 0 < o.length := List.length_pos_iff.mpr hn
    have e1 : pre = [] := List.length_eq_zero_iff.mp (by omega)
    have e2 : post = [] := List.length_eq_zero_iff.mp (by omega)
    rw [e1, e2] at ho
    simpa using ho.symm
  have hi : i.state = stateOf sA B.tag := by rw [stateOf_inst, inst_of_lookup hl]
  rw [hi] at hdis
  have hser := whole_of_one htr
  obtain ⟨hp, hdec⟩ := goodbye4 hC hG hg tags.1 tags.2 may hdis (by rw [sx]; exact hser) fresh one.2.2 c'
  rw [he']
  exact learns hhB (encoded_notFragment hser) hp (.inr ⟨rfl, allow⟩) (tag_ne_zero tags.1) rfl (tag_ne_zero tags.2) hdec

namespace ToyEnd
open ToySession

/-- The toy clients after their conversation. -/
theorem talked : (∃ h, Hist tinyEnv acA h l10.after) ∧ (∃ h, Hist tinyEnv acB h k11.after) ∧
    MaySend4 tinyEnv acB acA (stateOf k11.after acA.tag) (stateOf l10.after acB.tag) := by
  obtain ⟨_, hA⟩ := ToyTalk.histA
  obtain ⟨_, hB⟩ := ToyTalk.histB
  obtain ⟨_, ht, _⟩ := ToyTalk.talk
  obtain ⟨_, hc, ⟨h1, h2⟩, _⟩ := talk4 tinyEnv toy_meet.curve (by constructor <;> decide) toy_meet.group acA acB toy_meet.allow toy_meet.tags _ _ _ _ _ _ _ hA hB
    ToyTalk.connected ht
  exact ⟨h1, h2, (connected_may4 hc).2⟩

/-- The hypotheses of `C84_end4` hold of the toy clients. -/
example : Learns tinyEnv acA acB.tag l13 := by
  obtain ⟨⟨_, hA⟩, ⟨_, hB⟩, may⟩ := talked
  obtain ⟨⟨r, s, l⟩, _, f, _⟩ := runEnd
  exact (C84_end4 tinyEnv toy_meet.curve (by constructor <;> decide) toy_meet.group acB acA toy_meet.allow.1 toy_meet.tags.symm _ _ _ _ hB hA may (meetB 5000 12)
    (meetA 5000 13) (msg k12) k12 l13 (by unfold k12; rfl) (by unfold l13; rfl) ⟨by rw [r]; simp, s, l⟩ (freshGoodbye_of f)).2.2

/-- The hypotheses of `C84_expire4` hold of the toy clients. -/
example : Learns tinyEnv acA acB.tag l15 := by
  obtain ⟨⟨_, hA⟩, ⟨_, hB⟩, may⟩ := talked
  obtain ⟨_, ⟨r, s, l⟩, _, f⟩ := runEnd
  refine (C84_expire4 tinyEnv toy_meet.curve (by constructor <;> decide) toy_meet.group acB acA toy_meet.allow.1 toy_meet.tags.symm _ _ _ _ hB hA may (meetB 5000 14)
    (meetA 5000 15) 0 (msg k14) k14 l15 ?_ (by unfold k14; rfl) (by unfold l15; rfl) ⟨by rw [r]; simp, s, l⟩ (freshGoodbye_of f)).2.2
  intro i hl
  obtain ⟨x, m, _, _, sx, _⟩ := may
  refine ⟨x, m, ?_, by simp⟩
  rw [← sx, stateOf_inst, inst_of_lookup hl]

/-- The hypotheses of `C84_end3` hold of the toy clients. -/
example : Learns tinyEnv acB acA.tag b9 := by
  obtain ⟨_, hA⟩ := hist_a4
  obtain ⟨_, hB⟩ := hist_b5
  obtain ⟨_, _, h, _⟩ := ToyTalk3.acquainted
  obtain ⟨s, l⟩ := runEnd3
  exact (C84_end3 tinyEnv toy_goodCurve toy_meet3.group ⟨1, by decide, by decide +kernel⟩ acA acB toy_meet3.allow.2 toy_meet3.tags _ _ _ _ hA hB h.1 (callA 1000 8)
    (callB 1000 9) (msg a8) a8 b9 (by unfold a8; rfl) (by unfold b9; rfl) ⟨by rw [runC.1]; simp, s, l⟩).2.2

end ToyEnd

end Otrr.Props

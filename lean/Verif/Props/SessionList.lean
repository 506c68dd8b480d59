import Verif.Spec.SessionList
import Verif.Lemmas.SessionCrash
import Verif.Props.SessionIsolation
import Batteries.Data.List.Perm
/-!
# Properties of the list of instances: C89, C90
-/

namespace Otrr
open Spec

namespace Session
open Instance
variable {E : Env} {A : Account} {c : Call}

/-- The session has an instance `k`. -/
def Has (s : Session) (k : UInt32) : Prop := (lookup s.instances k).isSome = true

theorem mem_tags (s : Session) (k : UInt32) : k ∈ s.tags ↔ k ≠ 0 ∧ s.Has k := by
  unfold tags Has
  rw [List.mem_filter, lookup_isSome_iff]
  rw [decide_eq_true_iff]
  exact and_comm

theorem has_entry (j : UInt32) (f : InstM α) (w : World Session) (k : UInt32) :
    (entry j f w).2.st.Has k ↔ w.st.Has k ∨ j = k := by
  unfold Has
  simp only [entry, lookup_insertKey]
  by_cases h : j = k
  · simp [h]
  · simp [h]

/-- The same instances. -/
def SameHas (s s' : Session) : Prop := ∀ k, s'.Has k ↔ s.Has k

theorem sameHas_pre : Pre SameHas := ⟨fun _ _ => Iff.rfl, fun h h' k => (h' k).trans (h k)⟩

theorem sameHas_existing (j : UInt32) (f : InstM α) : Keeps SameHas (existing j f) := by
  intro w k
  unfold existing
  cases hl : lookup w.st.instances j with
  | none => exact Iff.rfl
  | some i =>
    simp only
    rw [has_entry]
    refine ⟨fun h => h.elim id ?_, .inl⟩
    rintro rfl
    unfold Has
    rw [hl]
    rfl

theorem sameHas_query : Keeps SameHas (query A) :=
  have hR := sameHas_pre
  Keeps.ite (.lift hR _) (.bind hR (.lift hR _) fun _ => .emit hR _)

theorem sameHas_reportPlain (content : Bytes) : Keeps SameHas (reportPlain A content) :=
  have hR := sameHas_pre
  .bind hR (.query hR _) fun _ => .ite (.pure hR _) (.pure hR _)

theorem header_of_addressed {text : Bytes} {m : EncodedMessage} (hp : parse E text = .ok (.encoded m)) (ha : Addressed A m) :
    verifyHeader A m = .ok () := by
  obtain ⟨h1, _, h3, h4⟩ := Props.C13_header E text m hp
  have e3 := Props.verifyTag_valid h3
  have e4 := Props.verifyTag_valid h4
  unfold verifyHeader
  obtain ⟨hs, ⟨hn, hr⟩ | ⟨hr, ⟨d, hd⟩ | ⟨d, hd⟩⟩⟩ := ha
  · rcases h1 with h1 | h1 <;>
      simp [h1, e3, e4, Res.mapErr, Res.guard, INSTANCE_ZERO, hs, hn, ← hr]
  · rcases h1 with h1 | h1 <;>
      simp [h1, e3, Res.mapErr, Res.guard, INSTANCE_ZERO, hs, hr, hd, show verifyTag 0 = .ok 0 from rfl]
  · rcases h1 with h1 | h1 <;>
      simp [h1, e3, Res.mapErr, Res.guard, INSTANCE_ZERO, hs, hr, hd, show verifyTag 0 = .ok 0 from rfl]

theorem has_receiveEncoded {m : EncodedMessage} {text : Bytes} {s : Session} {sent : List Bytes} (hi : Inv E s)
    (hp : parse E text = .ok (.encoded m)) (k : UInt32) :
    (receiveEncoded E A c m ⟨s, sent⟩).2.st.Has k ↔ s.Has k ∨ Allows A m.version ∧ Addressed A m ∧ m.sender = k := by
  unfold receiveEncoded
  rw [StM.bind_run, StM.lift]
  rcases Props.verifyHeader_calm A m with hv | ⟨e, hv⟩
  · rw [hv]
    simp only
    have hadd := verifyHeader_addressed hv
    cases hal : allowed A m.version with
    | false =>
      refine ⟨.inl, fun h => h.elim id fun h => ?_⟩
      rw [(Props.allowed_iff h.1).1] at hal
      cases hal
    | true =>
      have hall : Allows A m.version := by
        rcases verifyHeader_version hv with h | h <;> rw [h] at hal ⊢
        · exact .inl ⟨rfl, (Props.allowsV3_iff A).mp hal⟩
        · exact .inr ⟨rfl, (Props.allowsV4_iff A).mp hal⟩
      obtain ⟨h, hh, _⟩ := handOver_ok (sent := sent) hi m
      simp only [Bool.not_true, Bool.false_eq_true, if_false, StM.bind_run, hh]
      rw [has_entry]
      exact ⟨fun x => x.elim .inl fun x => .inr ⟨hall, hadd, x⟩, fun x => x.elim .inl fun x => .inr x.2.2⟩
  · rw [hv]
    refine ⟨.inl, fun h => h.elim id fun h => ?_⟩
    rw [header_of_addressed hp h.2.1] at hv
    cases hv

theorem has_receiveWhole {text : Bytes} {s : Session} {sent : List Bytes} (hi : Inv E s) (k : UInt32) :
    (receiveWhole E A c text ⟨s, sent⟩).2.st.Has k ↔
      s.Has k ∨ ∃ m, parse E text = .ok (.encoded m) ∧ Allows A m.version ∧ Addressed A m ∧ m.sender = k := by
  have hR := sameHas_pre
  have same : ∀ {f : SessM UserMessage}, Keeps SameHas f → (∀ m, parse E text ≠ .ok (.encoded m)) →
      ((f ⟨s, sent⟩).2.st.Has k ↔ s.Has k ∨ ∃ m, parse E text = .ok (.encoded m) ∧ Allows A m.version ∧ Addressed A m ∧ m.sender = k) :=
    fun h hn => (h ⟨s, sent⟩ k).trans ⟨.inl, fun h => h.elim id fun ⟨m, h, _⟩ => absurd h (hn m)⟩
  have offer : ∀ vs, Keeps (fun s s' => Inv E s → SameHas s s') (answerOffer E A c vs) := by
    intro vs w hi j
    unfold answerOffer
    cases selectVersion A.policy vs with
    | none => exact Iff.rfl
    | some v =>
      dsimp only
      rw [StM.bind_run]
      have h2 : ((initiate E A c v INSTANCE_ZERO w).2.st.Has j ↔ w.st.Has j) := by
        unfold initiate
        rw [has_entry]
        refine ⟨fun h => h.elim id ?_, .inl⟩
        rintro rfl
        exact hi.zero
      cases hr : initiate E A c v INSTANCE_ZERO w with
      | mk r w1 =>
        rw [hr] at h2
        cases r <;> exact h2
  have after : ∀ {vs} {f : Unit → SessM UserMessage}, (∀ u, Keeps SameHas (f u)) → (∀ m, parse E text ≠ .ok (.encoded m)) →
      (((answerOffer E A c vs >>= f) ⟨s, sent⟩).2.st.Has k ↔
        s.Has k ∨ ∃ m, parse E text = .ok (.encoded m) ∧ Allows A m.version ∧ Addressed A m ∧ m.sender = k) := by
    intro vs f hf hn
    have h1 := offer vs ⟨s, sent⟩ hi
    rw [StM.bind_run]
    cases hr : answerOffer E A c vs ⟨s, sent⟩ with
    | mk r w1 =>
      rw [hr] at h1
      have h3 : ∀ x : Session, SameHas s x → (x.Has k ↔ s.Has k ∨ ∃ m, parse E text = .ok (.encoded m) ∧ Allows A m.version ∧ Addressed A m ∧ m.sender = k) :=
        fun x h => (h k).trans ⟨.inl, fun h => h.elim id fun ⟨m, h, _⟩ => absurd h (hn m)⟩
      cases r with
      | ok u => exact h3 _ (hR.trans h1 (hf u w1))
      | err e => exact h3 _ h1
      | panic => exact h3 _ h1
  unfold receiveWhole
  rw [StM.bind_run, StM.lift]
  cases hp : parse E text with
  | err e => exact ⟨.inl, fun h => h.elim id nofun⟩
  | panic => exact ⟨.inl, fun h => h.elim id nofun⟩
  | ok t =>
    rw [hp] at same after
    cases t with
    | error e => exact same (.ite (.bind hR sameHas_query fun _ => .pure hR _) (.pure hR _)) nofun
    | plaintext content => exact same (sameHas_reportPlain _) nofun
    | tagged vs content =>
      dsimp only
      split
      · exact after (fun _ => sameHas_reportPlain _) nofun
      · exact same (sameHas_reportPlain _) nofun
    | query vs => exact after (fun _ => .pure hR _) nofun
    | encoded m =>
      dsimp only
      split
      · rename_i h0
        exact ⟨.inl, fun h => h.elim id fun ⟨m', h1, _, h2, _⟩ => by cases h1; exact absurd h0 h2.1⟩
      · rename_i h0
        rw [has_receiveEncoded hi hp]
        exact ⟨fun h => h.elim .inl fun h => .inr ⟨m, rfl, h⟩, fun h => h.elim .inl fun ⟨m', h1, h2⟩ => by cases h1; exact .inr h2⟩

end Session

namespace Props
open Session
variable {E : Env} {A : Account} {c : Call}

theorem hist_i3 : ∃ h, Hist ToySession.tinyEnv ToySession.acA h ToySession.i3.after := by
  have ⟨h, hh⟩ := ToySession.hist_a2
  have he : ToySession.i3 = (Op.initiate .v3 0x103).run ToySession.tinyEnv ToySession.acA (ToySession.callA 1000 9) ToySession.a2.after := by
    unfold ToySession.i3; rfl
  exact ⟨_, .step hh he.symm (by rw [ToySession.isolation_run.1]; nofun)⟩

theorem tags_run : ToySession.a2.after.tags = [0x102] ∧ ToySession.i3.after.tags = [0x102, 0x103] := by decide +kernel

/-- C89: after any history, `instances` lists exactly the instances other than 0 that have a status, each of them once. -/
theorem C89_list {h : List Ev} {s : Session} (hh : Hist E A h s) :
    s.tags.Nodup ∧ ∀ k, k ∈ s.tags ↔ k ≠ 0 ∧ ∃ st, s.status k = some st := by
  refine ⟨(hist_inv hh).nodup.filter _, fun k => ?_⟩
  rw [mem_tags]
  refine and_congr_right fun _ => ?_
  unfold Has Session.status
  rw [Option.isSome_iff_exists]
  constructor
  · rintro ⟨i, hi⟩; exact ⟨_, by rw [hi]; rfl⟩
  · rintro ⟨st, hs⟩
    cases hl : lookup s.instances k with
    | none => rw [hl] at hs; cases hs
    | some i => exact ⟨i, rfl⟩

/-- Non-vacuity: a session that has two instances besides instance 0. -/
example : ∃ h, Hist ToySession.tinyEnv ToySession.acA h ToySession.i3.after ∧ ToySession.i3.after.tags = [0x102, 0x103] :=
  have ⟨h, hh⟩ := hist_i3
  ⟨h, hh, tags_run.2⟩

theorem delivers_reads {s : Session} {payload : Bytes} {m : EncodedMessage} :
    Delivers E A s payload m ↔ ∃ text, Reads E A s payload text ∧ parse E text = .ok (.encoded m) := by
  refine ⟨reads_of_delivers, ?_⟩
  rintro ⟨text, ⟨h1, rfl⟩ | ⟨h1, f, i, a, h2, h3, h4, h5, h6, h7⟩, h⟩
  · exact .inl ⟨h1, h⟩
  · exact .inr ⟨h1, f, i, text, a, h2, h3, h4, h5, h6, h7, h⟩

theorem reads_unique {s : Session} {payload t t' : Bytes} (h : Reads E A s payload t) (h' : Reads E A s payload t') : t = t' := by
  rcases h with ⟨h1, rfl⟩ | ⟨h1, f, i, a, h2, _, _, h5, h6, _⟩ <;>
    rcases h' with ⟨h1', rfl⟩ | ⟨h1', f', i', a', h2', _, _, h5', h6', _⟩
  · rfl
  · rw [h1] at h1'; cases h1'
  · rw [h1] at h1'; cases h1'
  · rw [h2] at h2'
    cases h2'
    have : i = i' := by
      rcases h5 with h5 | ⟨h5, rfl⟩ <;> rcases h5' with h5' | ⟨h5', rfl⟩ <;> rw [h5] at h5' <;> cases h5' <;> rfl
    subst this
    rw [h6] at h6'
    cases h6'
    rfl

/-- C89: a call adds to the list exactly the instances that it makes, and no call removes one, even if it fails. -/
theorem C89_step {h : List Ev} {s : Session} (hh : Hist E A h s) (c : Call) (op : Op) (k : UInt32) :
    k ∈ (op.run E A c s).after.tags ↔ k ∈ s.tags ∨ k ≠ 0 ∧ Makes E A s k op := by
  have hi := hist_inv hh
  rw [mem_tags, mem_tags]
  have goal : k ≠ 0 → ((op.run E A c s).after.Has k ↔ s.Has k ∨ Makes E A s k op) →
      (k ≠ 0 ∧ (op.run E A c s).after.Has k ↔ k ≠ 0 ∧ s.Has k ∨ k ≠ 0 ∧ Makes E A s k op) := by
    intro _ h2
    rw [h2, and_or_left]
  by_cases h0 : k = 0
  · simp [h0]
  refine goal h0 ?_
  have hR := sameHas_pre
  have key : ∀ {α : Type} {f : SessM α} {g : α → Answer}, Keeps SameHas f → ¬ Makes E A s k op →
      ((perform f g s).after.Has k ↔ s.Has k ∨ Makes E A s k op) := by
    intro α f g h hn
    rw [perform_after]
    exact (h ⟨s, []⟩ k).trans ⟨.inl, fun h => h.elim id fun h => absurd h hn⟩
  cases op with
  | receive payload =>
    have iff : ∀ {x : Session} {text : Bytes}, Reads E A s payload text → (∀ f, matchFragment payload = true →
        parseFragment E.nd payload = .ok (some f) → f.sender = k → x.Has k) →
        (x.Has k → s.Has k ∨ Makes E A s k (.receive payload)) → (s.Has k → x.Has k) →
        (x.Has k ∨ (∃ m, parse E text = .ok (.encoded m) ∧ Allows A m.version ∧ Addressed A m ∧ m.sender = k) ↔
          s.Has k ∨ Makes E A s k (.receive payload)) := by
      intro x text hr h1 h2 h3
      constructor
      · rintro (h | ⟨m, hp, ha, hm, hk⟩)
        · exact h2 h
        · exact .inr (.message (delivers_reads.mpr ⟨text, hr, hp⟩) ha hm hk)
      · rintro (h | h)
        · exact .inl (h3 h)
        · cases h with
          | fragment _ hf hp _ _ hk => exact .inl (h1 _ hf hp hk)
          | message hd ha hm hk =>
            obtain ⟨t', hr', hp⟩ := delivers_reads.mp hd
            cases reads_unique hr hr'
            exact .inr ⟨_, hp, ha, hm, hk⟩
    simp only [Op.run]
    rw [perform_after]
    refine receive_split (fun x => x.2.st.Has k ↔ s.Has k ∨ Makes E A s k (.receive payload)) ⟨s, []⟩ payload ?_ ?_ ?_ ?_ ?_ ?_
    · intro hd
      refine ⟨.inl, fun h => h.elim id fun h => ?_⟩
      cases h with
      | fragment hv => exact absurd hv ((disabled_iff A).mp hd)
      | message _ hv =>
        refine absurd ?_ ((disabled_iff A).mp hd)
        exact hv.imp (·.2) (·.2)
    · intro _ hf
      rw [has_receiveWhole hi]
      exact iff (.inl ⟨hf, rfl⟩) (fun f h => by rw [hf] at h; cases h) .inl id
    · intro _ hf hp r _
      refine ⟨.inl, fun h => h.elim id fun h => ?_⟩
      cases h with
      | fragment _ _ h => exact absurd h (hp _)
      | message hd =>
        rcases hd with ⟨h, _⟩ | ⟨_, f, _, _, _, h, _⟩
        · rw [hf] at h; cases h
        · exact absurd h (hp _)
    · intro f _ hf hp hn e
      refine ⟨.inl, fun h => h.elim id fun h => ?_⟩
      cases h with
      | fragment _ _ h h1 h2 =>
        rw [hp] at h
        cases h
        exact absurd ⟨h1, h2⟩ hn
      | message hd =>
        rcases hd with ⟨h, _⟩ | ⟨_, f', _, _, _, h, h1, h2, _⟩
        · rw [hf] at h; cases h
        · rw [hp] at h
          cases h
          exact absurd ⟨h1, h2⟩ hn
    · intro f hd hf hp h1 h2 hn r _
      rw [has_entry]
      refine ⟨fun h => h.imp id fun h => .fragment ?_ hf hp h1 h2 h, fun h => h.imp id fun h => ?_⟩
      · exact Classical.byContradiction fun hv => by rw [(disabled_iff A).mpr hv] at hd; cases hd
      · cases h with
        | fragment _ _ h _ _ hk => rw [hp] at h; cases h; exact hk
        | message hd' =>
          obtain ⟨t, hr, _⟩ := delivers_reads.mp hd'
          exact absurd hr (hn t)
    · intro f text hd hf hp h1 h2 hr
      have he := has_entry f.sender (assemble f) ⟨s, []⟩ k
      have hi' := hi.calm (calm_assemble (E := E) f f.sender ⟨s, []⟩)
      cases hx : entry f.sender (assemble f) ⟨s, []⟩ with
      | mk r w1 =>
        rw [hx] at he hi'
        rw [has_receiveWhole hi']
        refine iff hr (fun f' _ hp' hk => ?_) (fun h => ?_) (fun h => he.mpr (.inl h))
        · rw [hp] at hp'
          cases hp'
          exact he.mpr (.inr hk)
        · refine (he.mp h).imp id fun hk => .fragment ?_ hf hp h1 h2 hk
          exact Classical.byContradiction fun hv => by rw [(disabled_iff A).mpr hv] at hd; cases hd
  | send j content =>
    refine key ?_ nofun
    unfold Session.send
    refine .ite (.pure hR _) (.bind hR (.gets hR _) fun o => ?_)
    cases o with
    | none => exact .lift hR _
    | some st =>
      refine .ite (.bind hR sameHas_query fun _ => .lift hR _) ?_
      refine .bind hR (.gets hR _) fun t => .bind hR (sameHas_existing j _) fun x => ?_
      exact .bind hR (fun w k => Iff.rfl) fun _ => .pure hR _
  | initiate v j =>
    simp only [Op.run]
    rw [perform_after]
    unfold Session.initiate
    rw [has_entry]
    refine ⟨fun h => h.imp id ?_, fun h => h.imp id fun h => ?_⟩
    · rintro rfl
      exact .initiate v
    · cases h
      rfl
  | close j => exact key (sameHas_existing j _) nofun
  | query => exact key sameHas_query nofun
  | startSmp j a b => exact key (sameHas_existing j _) nofun
  | abortSmp j => exact key (sameHas_existing j _) nofun
  | expire t =>
    refine key ?_ nofun
    have all : ∀ ks n, Keeps SameHas (expireAll E A c t n ks) := by
      intro ks
      induction ks with
      | nil => exact fun n => .pure hR _
      | cons k ks ih => exact fun n => .bind hR (sameHas_existing k _) fun _ => ih _
    exact .bind hR (.gets hR _) fun ks => all ks 0

/-- Non-vacuity: the instance that Alice opened is added, and was not listed before. -/
example : (0x103 : UInt32) ∈ ((Op.initiate .v3 0x103).run ToySession.tinyEnv ToySession.acA (ToySession.callA 1000 9) ToySession.a2.after).after.tags ∧
    (0x103 : UInt32) ∉ ToySession.a2.after.tags := by
  have ⟨h, hh⟩ := ToySession.hist_a2
  exact ⟨(C89_step hh _ _ _).mpr (.inr ⟨by decide, .initiate .v3⟩), by rw [tags_run.1]; decide⟩

theorem hist_unique {h : List Ev} {s s' : Session} (hh : Hist E A h s) (hh' : Hist E A h s') : s = s' := by
  induction hh generalizing s' with
  | new =>
    generalize hx : ([] : List Ev) = l at hh'
    cases hh' with
    | new => rfl
    | step => exact absurd hx.symm (by simp)
  | @step h s op c e hh he hp ih =>
    generalize hx : h ++ [⟨op, c, e.result, e.sent⟩] = l at hh'
    cases hh' with
    | new => exact absurd hx (by simp)
    | @step h1 s1 op1 c1 e1 hh1 he1 hp1 =>
      obtain ⟨rfl, h2⟩ := List.append_inj' hx rfl
      have h3 := (List.cons.inj h2).1
      simp only [Ev.mk.injEq] at h3
      obtain ⟨rfl, rfl, _, _⟩ := h3
      cases ih hh1
      rw [← he, ← he1]

theorem parseFragment_tags {payload : Bytes} {f : Fragment} (h : parseFragment E.nd payload = .ok (some f)) :
    ValidTag f.sender ∧ ValidTag f.receiver := by
  have tag : ∀ {t s : UInt32}, verifyTag t = .ok s → ValidTag s := by
    intro t s h
    have : t = s := by
      unfold verifyTag at h
      split at h <;> cases h
      rfl
    subst this
    rcases (verifyTag_ok_iff t).mp h with h | h
    · exact .inl h
    · exact .inr (UInt32.le_iff_toNat_le.mpr h)
  have key : ∀ v cap, fragFromCaptures v cap = .ok (some f) → ValidTag f.sender ∧ ValidTag f.receiver := by
    intro v cap h
    simp only [fragFromCaptures, Res.bind_eq_ok] at h
    obtain ⟨_, _, _, _, h⟩ := h
    split at h
    · rename_i h1 h2
      cases h
      exact ⟨tag h1, tag h2⟩
    · cases h
  unfold parseFragment at h
  split at h
  · exact key _ _ h
  · split at h
    · exact key _ _ h
    · cases h

/-- C89: an instance is listed exactly if some call of the history made it. -/
theorem C89_listed {h : List Ev} {s : Session} (hh : Hist E A h s) (k : UInt32) :
    k ∈ s.tags ↔ k ≠ 0 ∧ ∃ h1 ev h2 s1, h = h1 ++ ev :: h2 ∧ Hist E A h1 s1 ∧ Makes E A s1 k ev.op := by
  induction hh with
  | new =>
    constructor
    · intro h
      exact absurd h (by simp [Session.tags, Session.new])
    · rintro ⟨_, h1, ev, h2, s1, h, _⟩
      cases h1 <;> cases h
  | @step h s op c e hh he hp ih =>
    subst he
    rw [C89_step hh, ih]
    constructor
    · rintro (⟨h0, h1, ev, h2, s1, rfl, hh1, hm⟩ | ⟨h0, hm⟩)
      · exact ⟨h0, h1, ev, h2 ++ [_], s1, by rw [List.append_assoc]; rfl, hh1, hm⟩
      · exact ⟨h0, h, _, [], s, rfl, hh, hm⟩
    · rintro ⟨h0, h1, ev, h2, s1, hx, hh1, hm⟩
      rcases List.eq_nil_or_concat h2 with rfl | ⟨h2', ev', rfl⟩
      · obtain ⟨rfl, hev⟩ := List.append_inj' hx rfl
        cases hev
        cases hist_unique hh hh1
        exact .inr ⟨h0, hm⟩
      · have := hx.trans (show h1 ++ ev :: h2'.concat ev' = (h1 ++ ev :: h2') ++ [ev'] by simp)
        obtain ⟨rfl, _⟩ := List.append_inj' this rfl
        exact .inl ⟨h0, h1, ev, h2', s1, rfl, hh1, hm⟩

/-- C89: unless the user opens a conversation with an illegal tag, only legal tags are listed. -/
theorem C89_legal {h : List Ev} {s : Session} (hh : Hist E A h s) {k : UInt32} (hk : k ∈ s.tags)
    (hu : ∀ ev ∈ h, ∀ v, ev.op ≠ .initiate v k) : 0x100 ≤ k := by
  obtain ⟨h0, h1, ev, h2, s1, rfl, hh1, hm⟩ := (C89_listed hh k).mp hk
  have of : ValidTag k → 0x100 ≤ k := fun h => h.elim (fun h => absurd h h0) id
  generalize hop : ev.op = op at hm
  cases hm with
  | initiate v => exact absurd hop (hu ev (by simp) v)
  | fragment _ _ hp _ _ hk =>
    subst hk
    exact of (parseFragment_tags hp).1
  | message hd _ _ hk =>
    subst hk
    obtain ⟨text, hp⟩ := delivers_parse hd
    exact of (C13_header E text _ hp).2.2.1

/-- Non-vacuity: 0x102 is listed, and was never named by the user. -/
example : ∃ h, Hist ToySession.tinyEnv ToySession.acA h ToySession.a2.after ∧ (0x102 : UInt32) ∈ ToySession.a2.after.tags ∧
    ∀ ev ∈ h, ∀ v, ev.op ≠ .initiate v 0x102 := by
  refine ⟨_, .step .new (op := .receive (ToySession.msg ToySession.b1)) (c := ToySession.callA 1000 2) ?_ ?_, by rw [tags_run.1]; decide, ?_⟩
  · unfold ToySession.a2; rfl
  · rw [ToySession.a2_result]; nofun
  · intro ev hev v h
    cases List.mem_singleton.mp hev
    cases h

/-- C89: a call on an instance that is not listed is refused, and has no effect; there is no SSID for it. -/
theorem C89_unknown {s : Session} (c : Call) {k : UInt32} (h0 : k ≠ 0) (hk : k ∉ s.tags)
    {op : Op} (ho : On k op) (hv : SomeVersion A) :
    op.run E A c s = ⟨.err (.unknownInstance k), s, []⟩ ∧ s.ssid k = .err (.unknownInstance k) := by
  have hl : lookup s.instances k = .none := by
    rw [mem_tags] at hk
    cases hl : lookup s.instances k with
    | none => rfl
    | some i =>
      refine absurd ⟨h0, ?_⟩ hk
      unfold Has
      rw [hl]
      rfl
  refine ⟨?_, by rw [Session.ssid, hl]⟩
  have := not_disabled hv
  cases ho <;>
    simp only [Op.run, perform, Session.send, Session.close, Session.startSmp, Session.abortSmp, existing, hl, this, Session.status,
      Bool.false_eq_true, if_false, StM.bind_run, StM.gets, Option.map_none, StM.lift]

/-- Non-vacuity: nobody with tag 0x103 is known to Alice, who wants to send it a text. -/
example : (0x103 : UInt32) ≠ 0 ∧ (0x103 : UInt32) ∉ ToySession.a2.after.tags ∧ On 0x103 (.send 0x103 [0x68, 0x69]) ∧ SomeVersion ToySession.acA :=
  ⟨by decide, by rw [tags_run.1]; decide, .send _, .inl (by simp only [AllowsV3, PolicyBit, ToySession.acA]; decide)⟩

/-- C90: there are at most twice as many instances as calls that received a text or opened a conversation. -/
theorem C90_partial {h : List Ev} {s : Session} (hh : Hist E A h s) :
    s.tags.length ≤ 2 * (h.filter fun ev => ev.op.opens).length := by
  induction hh with
  | new => exact Nat.zero_le _
  | @step h s op c e hh he hp ih =>
    have hn := (C89_list (Hist.step hh he hp)).1
    subst he
    have two : ∃ a b, ∀ k, Makes E A s k op → k = a ∨ k = b := by
      cases op with
      | receive payload =>
        have hf : ∃ a, ∀ f, parseFragment E.nd payload = .ok (some f) → f.sender = a := by
          by_cases h : ∃ f, parseFragment E.nd payload = .ok (some f)
          · obtain ⟨f, h⟩ := h
            exact ⟨f.sender, fun f' h' => by rw [h] at h'; cases h'; rfl⟩
          · exact ⟨0, fun f h' => absurd ⟨f, h'⟩ h⟩
        have hm : ∃ b, ∀ m, Delivers E A s payload m → m.sender = b := by
          by_cases h : ∃ m, Delivers E A s payload m
          · obtain ⟨m, h⟩ := h
            refine ⟨m.sender, fun m' h' => ?_⟩
            obtain ⟨t, h1, h2⟩ := delivers_reads.mp h
            obtain ⟨t', h1', h2'⟩ := delivers_reads.mp h'
            cases reads_unique h1 h1'
            rw [h2] at h2'
            cases h2'
            rfl
          · exact ⟨0, fun m h' => absurd ⟨m, h'⟩ h⟩
        obtain ⟨a, ha⟩ := hf
        obtain ⟨b, hb⟩ := hm
        refine ⟨a, b, fun k hk => ?_⟩
        cases hk with
        | fragment _ _ hp _ _ hk => exact .inl (hk ▸ ha _ hp)
        | message hd _ _ hk => exact .inr (hk ▸ hb _ hd)
      | initiate v j => exact ⟨j, j, fun k hk => by cases hk; exact .inl rfl⟩
      | _ => exact ⟨0, 0, fun k hk => by cases hk⟩
    have none : op.opens = false → ∀ k, ¬ Makes E A s k op := by
      intro h k hk
      cases hk <;> cases h
    obtain ⟨a, b, hab⟩ := two
    cases ho : op.opens with
    | false =>
      have : (op.run E A c s).after.tags.length ≤ s.tags.length :=
        (List.subperm_of_subset hn fun k hk => ((C89_step hh c op k).mp hk).elim id fun h => absurd h.2 (none ho k)).length_le
      rw [List.filter_append]
      simp only [List.filter_cons, ho, Bool.false_eq_true, if_false, List.filter_nil, List.append_nil]
      omega
    | true =>
      have : (op.run E A c s).after.tags.length ≤ (a :: b :: s.tags).length := by
        refine (List.subperm_of_subset hn fun k hk => ?_).length_le
        rcases (C89_step hh c op k).mp hk with h | h
        · exact .tail _ (.tail _ h)
        · rcases hab k h.2 with rfl | rfl
          · exact .head _
          · exact .tail _ (.head _)
      rw [List.filter_append]
      simp only [List.filter_cons, ho, if_true, List.filter_nil, List.length_append, List.length_cons, List.length_nil] at this ⊢
      omega

/-- The first of two parts, from `k`, for anyone. -/
def stray (k : UInt32) : Fragment := ⟨.v3, [0, 0, 0, 0], k, 0, 1, 2, [0x61]⟩

theorem stray_valid {k : UInt32} (hk : 0x100 ≤ k.toNat) : ValidFragment (stray k) where
  version := .inl ⟨rfl, rfl⟩
  sender := hk
  receiver := .inl rfl
  part := by show 1 ≤ 1; decide
  total := by show 1 ≤ 2; decide
  payload := by simp [stray]
  chars := by
    intro b hb
    cases List.mem_singleton.mp hb
    unfold TextChar
    decide +kernel

theorem stray_run (hv : SomeVersion A) (c : Call) {s : Session} {k : UInt32} (hk : 0x100 ≤ k.toNat) (hn : ¬ s.Has k) :
    ∃ text, text.length = 37 ∧ Makes E A s k (.receive text) ∧ (∀ j, Makes E A s j (.receive text) → j = k) ∧
      ((Op.receive text).run E A c s).result = .ok (.user .none) ∧ ((Op.receive text).run E A c s).sent = [] := by
  have hval := stray_valid hk
  obtain ⟨text, he, hf, hp⟩ := C04_fragment_text_roundtrip E.nd (stray k) hval
  have hver : verifyFragment (stray k) = true := by
    show (!(decide (Version.v3 = Version.v3) && ([0, 0, 0, 0] : Bytes) != [0, 0, 0, 0] || (2 : UInt16) == 0 || (1 : UInt16) == 0 ||
      decide ((1 : UInt16) > 2) || ([0x61] : Bytes) == [] || decide (([0x61] : Bytes).length > MAX_FRAGMENT_SIZE))) = true
    decide +kernel
  have hl : lookup s.instances k = .none := by
    unfold Has at hn
    cases hl : lookup s.instances k with
    | none => rfl
    | some i => rw [hl] at hn; exact absurd rfl hn
  have hasm : ∀ i : Instance, i = .new k →
      i.assembler.assemble (stray k) = (.err .incompleteResult, { i.assembler with inorder := ⟨2, 1, [0x61]⟩ }) := by
    rintro i rfl
    show (match InOrder.assemble (Instance.new k).assembler.inorder (stray k) with
      | (r, i) => (r, { (Instance.new k).assembler with inorder := i })) = _
    have : InOrder.assemble (Instance.new k).assembler.inorder (stray k) = (.err .incompleteResult, ⟨2, 1, [0x61]⟩) := by
      unfold InOrder.assemble
      rw [hver]
      rfl
    rw [this]
  have hrun : (Session.receive E A c text ⟨s, []⟩).1 = .ok .none ∧ (Session.receive E A c text ⟨s, []⟩).2.sent = [] := by
    simp only [Session.receive, not_disabled hv, Bool.false_eq_true, if_false, hf, if_true, receiveFragment, StM.bind_run, StM.lift, hp,
      hver, Res.guard, show ((stray k).receiver == INSTANCE_ZERO || (stray k).receiver == A.tag) = true from rfl]
    have h1 : (entry (stray k).sender (assemble (stray k)) ⟨s, []⟩).1 = .ok (.err .incompleteResult) := by
      show Res.ok ((Option.getD (lookup s.instances k) (.new k)).assembler.assemble (stray k)).1 = _
      rw [hl, Option.getD_none, hasm _ rfl]
    have h2 : (entry (stray k).sender (assemble (stray k)) ⟨s, []⟩).2.sent = [] := rfl
    revert h1 h2
    cases entry (stray k).sender (assemble (stray k)) ⟨s, []⟩ with
    | mk r w1 =>
      rintro rfl h2
      exact ⟨rfl, h2⟩
  refine ⟨text, ?_, .fragment hv hf hp hver (.inl rfl) rfl, ?_, ?_, ?_⟩
  · rw [encodeFragment_valid hval] at he
    cases he
    simp [fragText, stray, OTR_FRAGMENT_V3_PREFIX]
  · intro j hj
    cases hj with
    | fragment _ _ hp' _ _ hk => rw [hp] at hp'; cases hp'; exact hk.symm
    | message hd =>
      rcases hd with ⟨h1, _⟩ | ⟨_, f, i, content, a, h2, _, _, h5, h6, _⟩
      · rw [hf] at h1; cases h1
      · rw [hp] at h2
        cases h2
        rcases h5 with h5 | ⟨_, h5⟩
        · rw [show (stray k).sender = k from rfl, hl] at h5; cases h5
        · rw [hasm i h5] at h6; cases h6
  · simp only [Op.run]
    rw [perform_result, hrun.1]
    rfl
  · simp only [Op.run]
    rw [perform_sent, hrun.2]

/-- C90, why it is partial: for every number up to the number of legal tags, this many short texts, each of which the client ignores,
make it keep this many instances, whatever the policy, as long as it allows some version. -/
theorem C90_violated (E : Env) (A : Account) (hv : SomeVersion A) (c : Call) (n : Nat) (hn : n ≤ 2 ^ 32 - 0x100) :
    ∃ h s, Hist E A h s ∧ h.length = n ∧ OnlyReceives 37 h ∧ (∀ ev ∈ h, ev.result = .ok (.user .none) ∧ ev.sent = []) ∧
      s.tags.length = n := by
  have tag : ∀ i, i < 2 ^ 32 - 0x100 → (UInt32.ofNat (0x100 + i)).toNat = 0x100 + i := fun i hi => by
    rw [UInt32.toNat_ofNat', Nat.mod_eq_of_lt (by omega)]
  have key : ∃ h s, Hist E A h s ∧ h.length = n ∧ OnlyReceives 37 h ∧ (∀ ev ∈ h, ev.result = .ok (.user .none) ∧ ev.sent = []) ∧
      ∀ k, k ∈ s.tags ↔ ∃ i, i < n ∧ k = UInt32.ofNat (0x100 + i) := by
    induction n with
    | zero => exact ⟨[], _, .new, rfl, nofun, nofun, fun k => ⟨fun h => absurd h (by simp [Session.tags, Session.new]), nofun⟩⟩
    | succ n ih =>
      obtain ⟨h, s, hh, hl, ho, hq, ht⟩ := ih (by omega)
      have hk := tag n (by omega)
      have h0 : UInt32.ofNat (0x100 + n) ≠ 0 := fun h => by rw [h] at hk; exact absurd hk (show ¬ 0 = 0x100 + n by omega)
      have hnot : ¬ s.Has (UInt32.ofNat (0x100 + n)) := by
        intro hx
        obtain ⟨i, hi, he⟩ := (ht _).mp ((mem_tags s _).mpr ⟨h0, hx⟩)
        have := congrArg UInt32.toNat he
        rw [hk, tag i (by omega)] at this
        omega
      obtain ⟨text, h1, h2, h3, h4, h5⟩ := stray_run (E := E) hv c (s := s) (by rw [hk]; omega) hnot
      refine ⟨_, _, .step hh rfl (by rw [h4]; nofun), by simp [hl], ?_, ?_, ?_⟩
      · intro ev hev
        rcases List.mem_append.mp hev with hev | hev
        · exact ho ev hev
        · cases List.mem_singleton.mp hev
          exact ⟨text, rfl, Nat.le_of_eq h1⟩
      · intro ev hev
        rcases List.mem_append.mp hev with hev | hev
        · exact hq ev hev
        · cases List.mem_singleton.mp hev
          exact ⟨h4, h5⟩
      · intro k
        rw [C89_step hh, ht]
        constructor
        · rintro (⟨i, hi, rfl⟩ | ⟨_, hm⟩)
          · exact ⟨i, by omega, rfl⟩
          · exact ⟨n, by omega, h3 k hm⟩
        · rintro ⟨i, hi, rfl⟩
          by_cases hin : i = n
          · subst hin
            exact .inr ⟨h0, h2⟩
          · exact .inl ⟨i, by omega, rfl⟩
  obtain ⟨h, s, hh, hl, ho, hq, ht⟩ := key
  refine ⟨h, s, hh, hl, ho, hq, ?_⟩
  have hnd : ((List.range n).map fun i => UInt32.ofNat (0x100 + i)).Nodup := by
    rw [List.nodup_map_iff_inj_on List.nodup_range]
    intro i hi j hj he
    have := congrArg UInt32.toNat he
    rw [tag i (by have := List.mem_range.mp hi; omega), tag j (by have := List.mem_range.mp hj; omega)] at this
    omega
  have hp : s.tags.Perm ((List.range n).map fun i => UInt32.ofNat (0x100 + i)) := by
    refine (List.perm_ext_iff_of_nodup (C89_list hh).1 hnd).mpr fun k => ?_
    rw [ht, List.mem_map]
    exact ⟨fun ⟨i, h1, h2⟩ => ⟨i, List.mem_range.mpr h1, h2.symm⟩, fun ⟨i, h1, h2⟩ => ⟨i, List.mem_range.mp h1, h2.symm⟩⟩
  rw [hp.length_eq, List.length_map, List.length_range]

end Props
end Otrr

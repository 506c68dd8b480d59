import Verif.Spec.SessionInjects
import Verif.Lemmas.SmpSteps
import Verif.Model.Smp4
/-!
# The TLVs that the SMP asks to send

All of them are TLVs of the SMP.
-/

namespace Otrr
open Spec

theorem isSmp_2 (v : Bytes) : IsSmp ⟨2, v⟩ := ⟨by show (2 : UInt16) ≤ 2; decide, by show (2 : UInt16) ≤ 7; decide⟩
theorem isSmp_3 (v : Bytes) : IsSmp ⟨3, v⟩ := ⟨by show (2 : UInt16) ≤ 3; decide, by show (3 : UInt16) ≤ 7; decide⟩
theorem isSmp_4 (v : Bytes) : IsSmp ⟨4, v⟩ := ⟨by show (2 : UInt16) ≤ 4; decide, by show (4 : UInt16) ≤ 7; decide⟩
theorem isSmp_5 (v : Bytes) : IsSmp ⟨5, v⟩ := ⟨by show (2 : UInt16) ≤ 5; decide, by show (5 : UInt16) ≤ 7; decide⟩
theorem isSmp_6 (v : Bytes) : IsSmp ⟨6, v⟩ := ⟨by show (2 : UInt16) ≤ 6; decide, by show (6 : UInt16) ≤ 7; decide⟩
theorem isSmp_7 (v : Bytes) : IsSmp ⟨7, v⟩ := ⟨by show (2 : UInt16) ≤ 7; decide, by show (7 : UInt16) ≤ 7; decide⟩

namespace SMP
variable {E : Env}

/-- The answer in an error, if any, is a TLV of the SMP. -/
def Ends (e : OTRError) : Prop := ∀ r, e = .smpSuccess (some r) ∨ e = .smpFailed (some r) → IsSmp r

/-- The values satisfy `P`, the errors `Ends`. -/
structure Fair (P : α → Prop) (x : Res α) : Prop where
  ok : ∀ a, x = .ok a → P a
  err : ∀ e, x = .err e → Ends e

theorem Ends.plain {e : OTRError} (h : Plain e) : Ends e := by
  rcases h with rfl | rfl | rfl <;> exact fun _ h => by rcases h with h | h <;> cases h

theorem Fair.bind {P : β → Prop} {x : Res α} {f : α → Res β} (hx : Fair (fun _ => True) x) (hf : ∀ a, Fair P (f a)) : Fair P (x >>= f) := by
  cases x with
  | ok a => exact hf a
  | err e => exact ⟨nofun, fun _ h => by cases h; exact hx.err _ rfl⟩
  | panic => exact ⟨nofun, nofun⟩

theorem Fair.check {x : Res Unit} (h : Check x) : Fair (fun _ => True) x := by
  refine ⟨fun _ _ => trivial, fun e he => ?_⟩
  rcases h with h | h <;> rw [h] at he <;> cases he
  exact .plain (.inr (.inr rfl))

theorem Fair.wrong {P : α → Prop} : Fair P (.err .protocolViolation : Res α) := ⟨nofun, fun _ h => by cases h; exact .plain (.inl rfl)⟩

theorem Fair.numbers {t : TLV} (ht : t.typ ≠ 7) (n : Nat) : Fair (fun _ => True) (readNumbers n t) := by
  refine ⟨fun _ _ => trivial, fun e he => ?_⟩
  rcases readNumbers_cases ht n with ⟨_, h, _⟩ | h | h <;> rw [h] at he <;> cases he
  · exact .plain (.inl rfl)
  · exact .plain (.inr (.inl rfl))

theorem Fair.div {G : DHGroup} {a b : Nat} : Fair (fun _ => True) (div G a b) := by
  refine ⟨fun _ _ => trivial, fun e he => ?_⟩
  unfold SMP.div modInv at he
  split at he <;> cases he

theorem Fair.done {r : TLV} (hr : IsSmp r) {p : Prop} [Decidable p] {P : α → Prop} :
    Fair P (if p then .err (.smpSuccess (some r)) else .err (.smpFailed (some r)) : Res α) := by
  split
  · exact ⟨nofun, fun _ h => by cases h; exact fun _ h => by rcases h with h | h <;> cases h; exact hr⟩
  · exact ⟨nofun, fun _ h => by cases h; exact fun _ h => by rcases h with h | h <;> cases h; exact hr⟩

theorem dispatch_fair (E : Env) (host : SMPHost) (t : TLV) (rnd : Rand) (x : SMPContext) :
    Fair (fun r => IsSmp r.1) (dispatch E host t rnd x) := by
  unfold dispatch
  by_cases h1 : t.typ = T1 ∨ t.typ = T1Q
  · rw [if_pos h1]
    rcases handle1_spec E host t rnd x with ⟨e, he, h⟩ | ⟨_, h⟩ | ⟨_, h⟩ | ⟨_, _, _, _, _, _, _, _, h⟩ <;> rw [h]
    · exact ⟨nofun, fun _ h => by cases h; exact .plain he⟩
    · exact ⟨nofun, fun _ h => by cases h; exact fun _ h => by rcases h with h | h <;> cases h⟩
    · exact ⟨nofun, nofun⟩
    · exact ⟨fun _ h => by cases h; exact isSmp_3 _, nofun⟩
  have h7 : t.typ ≠ 7 := fun h => h1 (.inr h)
  rw [if_neg h1]
  by_cases h2 : t.typ = T2
  · rw [if_pos h2, handle2]
    split
    · refine .bind (.numbers h7 _) fun ms => ?_
      split
      · refine .bind (.check (check2_check ..)) fun _ => .bind .div fun _ => .bind .div fun _ => ?_
        exact ⟨fun _ h => by cases h; exact isSmp_4 _, nofun⟩
      · exact .wrong
    · exact .wrong
  rw [if_neg h2]
  by_cases h3 : t.typ = T3
  · rw [if_pos h3, handle3]
    split
    · refine .bind (.numbers h7 _) fun ms => ?_
      split
      · exact .bind (.check (check3_check ..)) fun _ => .bind .div fun _ => .bind (.check (.verify ..)) fun _ => .bind .div fun _ => .done (isSmp_5 _)
      · exact .wrong
    · exact .wrong
  rw [if_neg h3]
  by_cases h4 : t.typ = T4
  · rw [if_pos h4, handle4]
    split
    · refine .bind (.numbers h7 _) fun ms => ?_
      split
      · refine .bind (.check (.exponent ..)) fun _ => .bind (.check (.element ..)) fun _ => .bind (.check (.verify ..)) fun _ => ?_
        split
        · exact ⟨nofun, fun _ h => by cases h; exact fun _ h => by rcases h with h | h <;> cases h⟩
        · exact ⟨nofun, fun _ h => by cases h; exact fun _ h => by rcases h with h | h <;> cases h⟩
      · exact .wrong
    · exact .wrong
  rw [if_neg h4]
  split
  · exact ⟨nofun, fun _ h => by cases h; exact fun _ h => by rcases h with h | h <;> cases h⟩
  · exact ⟨nofun, nofun⟩

theorem handle_isSmp {host : SMPHost} {t r : TLV} {rnd : Rand} {x x' : SMPContext} (h : handle E host t rnd x = (.ok (some r), x')) :
    IsSmp r := by
  have hf := dispatch_fair E host t rnd x
  unfold handle at h
  revert h hf
  cases dispatch E host t rnd x with
  | ok p => rintro h hf; cases h; exact hf.ok _ rfl
  | panic => nofun
  | err e =>
    rintro h hf
    have hf := hf.err _ rfl
    cases e with
    | smpSuccess o => cases h; exact hf _ (.inl rfl)
    | smpFailed o => cases h; exact hf _ (.inr rfl)
    | smpAborted b =>
      cases b
      · cases h
      · cases h; exact isSmp_6 _
    | protocolViolation => cases h; exact isSmp_6 _
    | incompleteMessage => cases h; exact isSmp_6 _
    | cryptographicViolation => cases h; exact isSmp_6 _
    | _ => cases h

theorem start_isSmp {host : SMPHost} {secret question : Bytes} {r : TLV} {rnd : Rand} {x x' : SMPContext}
    (h : start E host secret question rnd x = (.ok r, x')) : IsSmp r := by
  unfold start at h
  split at h
  · split at h
    · cases h
    · have h := congrArg Prod.fst h
      simp only [Res.ok.injEq] at h
      rw [← h]
      split
      · exact isSmp_2 _
      · exact isSmp_7 _
  · cases h

end SMP

namespace SMP4
variable {E : Env}

theorem handle_isSmp {host : SMPHost} {t r : TLV} {rnd : Rand} {x x' : SMP4Context} (h : handle E host t rnd x = (.ok (some r), x')) :
    IsSmp r := by
  have key : ∀ {o y}, dispatch E host t rnd x = .ok (o, y) → ∀ r, o = some r → IsSmp r := by
    intro o y h r ho
    subst ho
    unfold dispatch at h
    dsimp only at h
    split at h
    · cases h; exact isSmp_6 _
    split at h
    · unfold handle1 at h
      dsimp only at h
      split at h
      · simp only [Res.bind_eq_ok] at h
        obtain ⟨_, _, _, _, h⟩ := h
        split at h
        · cases h
        · simp only [Res.bind_eq_ok] at h
          obtain ⟨_, _, _, _, _, _, _, _, h⟩ := h
          cases h; exact isSmp_3 _
      · cases h
    split at h
    · unfold handle2 at h
      dsimp only at h
      split at h
      · simp only [Res.bind_eq_ok] at h
        obtain ⟨_, _, _, _, h⟩ := h
        cases h; exact isSmp_4 _
      · cases h
    split at h
    · unfold handle3 at h
      dsimp only at h
      split at h
      · simp only [Res.bind_eq_ok] at h
        obtain ⟨_, _, _, _, h⟩ := h
        cases h; exact isSmp_5 _
      · cases h
    split at h
    · unfold handle4 at h
      dsimp only at h
      split at h
      · simp only [Res.bind_eq_ok] at h
        obtain ⟨_, _, _, _, _, _, h⟩ := h
        cases h
      · cases h
    · cases h
  unfold handle at h
  revert h key
  cases dispatch E host t rnd x with
  | ok p => obtain ⟨o, y⟩ := p; rintro h key; cases h; exact key rfl _ rfl
  | err e => rintro h _; cases h
  | panic => rintro h _; cases h

theorem start_isSmp {secret question : Bytes} {r : TLV} {rnd : Rand} {x x' : SMP4Context}
    (h : start E secret question rnd x = (.ok r, x')) : IsSmp r := by
  unfold start at h
  split at h
  · cases h
  · dsimp only at h
    split at h
    · cases h; exact isSmp_2 _
    · cases h
    · cases h

end SMP4

end Otrr

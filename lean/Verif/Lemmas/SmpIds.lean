import Verif.Lemmas.SmpSteps
import Verif.Lemmas.Smp4Steps
/-! The SMP never changes the SSID and the fingerprints that its context was made with. -/

namespace Otrr

namespace SMP

/-- The same session and the same peer. -/
def Same (a b : SMPContext) : Prop := b.ssid = a.ssid ∧ b.their = a.their

theorem dispatch_same {E : Env} {host : SMPHost} {t r : TLV} {rnd : Rand} {c c' : SMPContext}
    (h : dispatch E host t rnd c = .ok (r, c')) : Same c c' := by
  unfold dispatch at h
  repeat' split at h
  · unfold handle1 at h
    split at h
    · simp only [Res.bind_eq_ok] at h
      obtain ⟨⟨q, ms⟩, _, h⟩ := h
      dsimp only at h
      split at h
      · simp only [Res.bind_eq_ok] at h
        obtain ⟨_, _, h⟩ := h
        split at h
        · cases h
        · split at h
          · cases h
          · cases h; exact ⟨rfl, rfl⟩
      · cases h
    · cases h
  · unfold handle2 at h
    split at h
    · simp only [Res.bind_eq_ok] at h
      obtain ⟨ms, _, h⟩ := h
      split at h
      · simp only [Res.bind_eq_ok] at h
        obtain ⟨_, _, _, _, _, _, h⟩ := h
        cases h; exact ⟨rfl, rfl⟩
      · cases h
    · cases h
  · unfold handle3 at h
    split at h
    · simp only [Res.bind_eq_ok] at h
      obtain ⟨ms, _, h⟩ := h
      split at h
      · simp only [Res.bind_eq_ok] at h
        obtain ⟨_, _, _, _, _, _, _, _, h⟩ := h
        split at h <;> cases h
      · cases h
    · cases h
  · unfold handle4 at h
    split at h
    · simp only [Res.bind_eq_ok] at h
      obtain ⟨ms, _, h⟩ := h
      split at h
      · simp only [Res.bind_eq_ok] at h
        obtain ⟨_, _, _, _, _, _, h⟩ := h
        split at h <;> cases h
      · cases h
    · cases h
  · cases h
  · cases h

theorem handle_same (E : Env) (host : SMPHost) (t : TLV) (rnd : Rand) (c : SMPContext) : Same c (handle E host t rnd c).2 := by
  unfold handle
  dsimp only
  split <;> first | exact ⟨rfl, rfl⟩ | (rename_i h; exact dispatch_same h)

theorem start_same (E : Env) (host : SMPHost) (sec q : Bytes) (rnd : Rand) (c : SMPContext) : Same c (start E host sec q rnd c).2 := by
  unfold start
  split
  · split <;> exact ⟨rfl, rfl⟩
  · exact ⟨rfl, rfl⟩

end SMP

namespace SMP4

/-- The same session and the same peers. -/
def Same (a b : SMP4Context) : Prop := b.ssid = a.ssid ∧ b.us = a.us ∧ b.them = a.them

theorem dispatch_same {E : Env} {host : SMPHost} {t : TLV} {r : Option TLV} {rnd : Rand} {c c' : SMP4Context}
    (h : dispatch E host t rnd c = .ok (r, c')) : Same c c' := by
  unfold dispatch at h
  repeat' split at h
  · cases h; exact ⟨rfl, rfl, rfl⟩
  · unfold handle1 at h
    dsimp only at h
    split at h
    · simp only [Res.bind_eq_ok] at h
      obtain ⟨_, _, _, _, h⟩ := h
      split at h
      · cases h
      · simp only [Res.bind_eq_ok] at h
        obtain ⟨_, _, _, _, _, _, _, _, h⟩ := h
        cases h; exact ⟨rfl, rfl, rfl⟩
    · cases h
  · unfold handle2 at h
    dsimp only at h
    split at h
    · simp only [Res.bind_eq_ok] at h
      obtain ⟨_, _, _, _, h⟩ := h
      cases h; exact ⟨rfl, rfl, rfl⟩
    · cases h
  · unfold handle3 at h
    dsimp only at h
    split at h
    · simp only [Res.bind_eq_ok] at h
      obtain ⟨_, _, _, _, h⟩ := h
      cases h; exact ⟨rfl, rfl, rfl⟩
    · cases h
  · unfold handle4 at h
    dsimp only at h
    split at h
    · simp only [Res.bind_eq_ok] at h
      obtain ⟨_, _, _, _, _, _, h⟩ := h
      cases h; exact ⟨rfl, rfl, rfl⟩
    · cases h
  all_goals cases h

theorem handle_same (E : Env) (host : SMPHost) (t : TLV) (rnd : Rand) (c : SMP4Context) : Same c (handle E host t rnd c).2 := by
  unfold handle
  split <;> first | exact ⟨rfl, rfl, rfl⟩ | (rename_i h; exact dispatch_same h)

theorem start_same (E : Env) (sec q : Bytes) (rnd : Rand) (c : SMP4Context) : Same c (start E sec q rnd c).2 := by
  unfold start
  split
  · exact ⟨rfl, rfl, rfl⟩
  · dsimp only
    split <;> exact ⟨rfl, rfl, rfl⟩

end SMP4

end Otrr

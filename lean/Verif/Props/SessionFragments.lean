import Mathlib.Data.List.Perm.Basic
import Verif.Lemmas.SessionFragments
import Verif.Lemmas.SessionExchange
import Verif.Lemmas.SessionFragmentToy
/-!
# C78: messages that arrive in fragments
-/

namespace Otrr.Props
open Otrr Otrr.Spec Otrr.Session

theorem text_chars {m : EncodedMessage} {t : Bytes} (h : serialize (.encoded m) = .ok t) : ∀ b ∈ t, TextChar b := by
  simp only [serialize, Res.bind_eq_ok, Res.pure_def, Res.ok.injEq] at h
  obtain ⟨d, _, rfl⟩ := h
  have hp : ∀ b ∈ OTR_ENCODED_PREFIX, TextChar b := by unfold TextChar; decide +kernel
  have hs : ∀ b ∈ OTR_ENCODED_SUFFIX, TextChar b := by unfold TextChar; decide +kernel
  have he : TextChar 0x3d := by unfold TextChar; decide +kernel
  have hc : ∀ v : Fin 64, isPayloadChar (b64Char v.val) = true := by decide +kernel
  intro b hb
  simp only [List.mem_append, b64Encode_eq, List.mem_map] at hb
  rcases hb with (hb | ⟨v, hv, rfl⟩ | hb) | hb
  · exact hp b hb
  · exact (textChar_iff _).mpr (hc ⟨v, b64Sym_lt d v hv⟩)
  · unfold b64Pad at hb
    have : b = 0x3d := by
      repeat' split at hb
      all_goals simp at hb
      all_goals exact hb
    rw [this]; exact he
  · exact hs b hb

/-- The fragments made of a message are fragments for the client they are addressed to. -/
theorem carries_all {E : Env} {A : Account} {ident content : Bytes} {size : Nat} {v : Version} {k r : UInt32} {fs : List Fragment} {out : List Bytes}
    (hv : v = .v3 ∨ v = .v4) (hrnd : ident.length = 4) (hs : headerSize v < size) (hbig : size < content.length)
    (hcount : content.length ≤ 65535 * (size - headerSize v)) (hpiece : size - headerSize v ≤ 250 * 1024)
    (hk : 0x100 ≤ k.toNat) (hr : r = 0 ∨ 0x100 ≤ r.toNat) (hto : r = 0 ∨ r = A.tag)
    (hchars : ∀ b ∈ content, TextChar b) (hf : fragmentContent ident size v k r content = .ok fs)
    (ho : fs.mapM encodeFragment = .ok out) : List.Forall₂ (Carries E A k) out fs := by
  have F := fragmented E.nd hv hrnd hs hbig hcount hk hr hchars hf
  obtain ⟨heq, hlt⟩ := fragmentContent_eq (rnd := ident) (sender := k) (receiver := r) hv hs hbig hcount
  rw [heq, Res.ok.injEq] at hf
  have hkk : 0 < size - headerSize v := by omega
  have hmem := slices_mem hkk content.length content
  have hall : ∀ f ∈ fs, ∀ t, encodeFragment f = .ok t → Carries E A k t f := by
    intro f hfm t ht
    obtain ⟨t', h1, _, h2, h3⟩ := F.fits f hfm
    rw [ht] at h1
    cases h1
    obtain ⟨j, hj⟩ := List.getElem?_of_mem hfm
    obtain ⟨n1, n2⟩ := F.numbered j f hj
    have hjl := (List.getElem?_eq_some_iff.mp hj).1
    have hvi : f.version = v ∧ f.identifier = if v = .v4 then ident else [0, 0, 0, 0] := by
      rw [← hf] at hfm
      exact numberFragments_map _ _ _ _ _ _ _ f hfm
    rw [← hf, numberFragments_getElem?, Option.map_eq_some_iff] at hj
    obtain ⟨p, hp, hpf⟩ := hj
    have hpm := hmem p (List.mem_of_getElem? hp)
    have e1 : f.sender = k := by rw [← hpf]
    have e2 : f.receiver = r := by rw [← hpf]
    have e3 : f.payload = p := by rw [← hpf]
    refine ⟨h2, h3, (wellFormed_iff f).mp ⟨?_, by omega, by omega, by rw [e3]; exact hpm.1, by rw [e3]; omega⟩, by rw [e2]; exact hto, e1⟩
    intro h3
    rw [hvi.1] at h3
    rw [hvi.2, h3, if_neg (by decide)]
  clear hf F
  induction fs generalizing out with
  | nil =>
    simp only [List.mapM_nil, Res.pure_def, Res.ok.injEq] at ho
    rw [← ho]; exact .nil
  | cons f fs ih =>
    simp only [List.mapM_cons, Res.bind_eq_ok, Res.pure_def, Res.ok.injEq] at ho
    obtain ⟨t, h1, ts, h2, rfl⟩ := ho
    exact .cons (hall f (by simp) t h1) (ih h2 fun g hg => hall g (by simp [hg]))

theorem zip_last {α β : Type} {as : List α} {bs : List β} (h : as.length = bs.length) {a : α} (ha : as.getLast? = some a) :
    ∃ init b, as.zip bs = init ++ [(a, b)] ∧ init.length + 1 = bs.length ∧ (init ++ [(a, b)]).map Prod.snd = bs := by
  obtain ⟨as', rfl⟩ := List.getLast?_eq_some_iff.mp ha
  have hb : bs ≠ [] := by rintro rfl; simp at h
  obtain ⟨bs', b, rfl⟩ : ∃ bs' b, bs = bs' ++ [b] := ⟨_, _, (List.dropLast_append_getLast hb).symm⟩
  have hl : as'.length = bs'.length := by simpa using h
  refine ⟨as'.zip bs', b, ?_, ?_, ?_⟩
  · rw [List.zip_append hl]; rfl
  · simp [hl]
  · rw [List.map_append, List.map_snd_zip (by omega)]; rfl

/-- The calls that deliver the fragments do what one call with the whole text does, if the assembler puts them together. -/
theorem as_one {E : Env} {A : Account} {s : Session} (ha : SomeVersion A) {m : EncodedMessage} {text : Bytes}
    (ht : serialize (.encoded m) = .ok text) (hp : parse E text = .ok (.encoded m)) (hs : 0x100 ≤ m.sender.toNat)
    {arrived : List Bytes} {fs : List Fragment} (hc : List.Forall₂ (Carries E A m.sender) arrived fs)
    (hfeed : (feed Assembler.assemble (s.inst m.sender).assembler fs).1 =
      List.replicate (fs.length - 1) (.err .incompleteResult) ++ [.ok text])
    {calls : List Call} {c : Call} (hl : calls.length = arrived.length) (hlast : calls.getLast? = some c) :
    AsOne ((Op.receive text).run E A c s) (receiveAll E A (calls.zip arrived) s) := by
  obtain ⟨init, b, hz, hi, hm⟩ := zip_last hl hlast
  rw [hz]
  have hlen := hc.length_eq
  refine fragments_run (by rintro h; rw [h] at hs; simp at hs) (not_disabled ha) (encoded_notFragment ht) hp rfl init fs s ?_ ?_
  · rw [← List.forall₂_map_left_iff, hm]; exact hc
  · rw [hfeed]
    congr 2
    omega

/-- C78, OTRv3: the fragments of a message that arrive in order, whatever was received before, do together what the
whole message does: the calls before the last give nothing and send nothing, and the last one gives the same result,
sends the same and leaves the same conversations. -/
theorem C78_fragments3 {E : Env} {A : Account} (s : Session) (ha : SomeVersion A) {m : EncodedMessage} {text : Bytes}
    (hv : m.version = .v3) (ht : serialize (.encoded m) = .ok text) (hp : parse E text = .ok (.encoded m))
    (hs : 0x100 ≤ m.sender.toNat) (htag : 0x100 ≤ A.tag.toNat) (hr : m.receiver = 0 ∨ m.receiver = A.tag)
    {ident : Bytes} {size : Nat} (hi : ident.length = 4) (hsize : 36 < size) (hbig : size < text.length)
    (hcount : text.length ≤ 65535 * (size - 36)) (hpiece : size - 36 ≤ 250 * 1024)
    {fs : List Fragment} {out : List Bytes} (hf : fragmentContent ident size m.version m.sender m.receiver text = .ok fs)
    (ho : fs.mapM encodeFragment = .ok out) {calls : List Call} {c : Call} (hl : calls.length = out.length)
    (hlast : calls.getLast? = some c) :
    AsOne ((Op.receive text).run E A c s) (receiveAll E A (calls.zip out) s) := by
  have hr' : m.receiver = 0 ∨ 0x100 ≤ m.receiver.toNat := hr.imp id fun h => by rw [h]; exact htag
  rw [hv] at hf
  have hc := carries_all (E := E) (A := A) (.inl rfl) hi hsize hbig hcount hpiece hs hr' hr (text_chars ht) hf ho
  obtain ⟨fs', h1, _, h2⟩ := C05_fragmentation_v3 E.nd ident text size m.sender m.receiver hi hsize hbig hcount hpiece hs hr' (text_chars ht)
  rw [hf] at h1
  cases h1
  exact as_one ha ht hp hs hc (h2 _) hl hlast

/-- The data message of the toy session, in four fragments: Bob gets the text with the last one. -/
example (c1 c2 c3 : Call) :
    AsOne ToySession.b7 (receiveAll ToySession.tinyEnv ToySession.acB
      ([c1, c2, c3, ToySession.callB 1000 7].zip ToySession.texts3) ToySession.b5.after) := by
  obtain ⟨h1, h2, h3, h4, h5, h6, h7, h8, h9, h10⟩ := ToySession.cut3
  have := C78_fragments3 (A := ToySession.acB) ToySession.b5.after (by simp only [SomeVersion, AllowsV3, AllowsV4, PolicyBit]; decide) h1 h2 h3
    (by rw [h4]; decide) (by decide) (.inr (by rw [h5]; rfl)) (size := 60) rfl (by decide) h6 (by omega) (by decide) h8 h9
    (calls := [c1, c2, c3, ToySession.callB 1000 7]) (by rw [h10]; rfl) rfl
  unfold ToySession.b7
  exact this

theorem perm_indices {α : Type} {g : Nat → α} {n : Nat} {l : List α} (h : l.Perm ((List.range n).map g)) :
    ∃ js : List Nat, js.Perm (List.range n) ∧ l = js.map g := by
  have h2 : List.Forall₂ (fun a j => a = g j) ((List.range n).map g) (List.range n) := by
    rw [List.forall₂_map_left_iff]
    exact List.forall₂_same.mpr fun _ _ => rfl
  obtain ⟨js, h3, h4⟩ := List.perm_comp_forall₂ h h2
  refine ⟨js, h4, ?_⟩
  clear h h2 h4
  induction h3 with
  | nil => rfl
  | cons h _ ih => rw [List.map_cons, h, ih]

theorem stored_inst (s : Session) (k : UInt32) : storedFragments s k = (s.inst k).assembler.unordered := by
  unfold storedFragments Session.inst
  cases lookup s.instances k <;> rfl

/-- C78, OTRv4: the fragments of a message that arrive in any order, at a client that has room for them and holds no
fragments under the same identifier, do together what the whole message does. -/
theorem C78_fragments4 {E : Env} {A : Account} {h : List Ev} {s : Session} (hh : Hist E A h s) (ha : SomeVersion A) {m : EncodedMessage} {text : Bytes}
    (hv : m.version = .v4) (ht : serialize (.encoded m) = .ok text) (hp : parse E text = .ok (.encoded m))
    (hs : 0x100 ≤ m.sender.toNat) (htag : 0x100 ≤ A.tag.toNat) (hr : m.receiver = 0 ∨ m.receiver = A.tag)
    {ident : Bytes} {size : Nat} (hi : ident.length = 4) (hsize : 45 < size) (hbig : size < text.length)
    (hcount : text.length ≤ 65535 * (size - 45)) (hpiece : size - 45 ≤ 250 * 1024) (hmax : text.length ≤ 100 * 1024 * 1024)
    {fs : List Fragment} {out : List Bytes} (hf : fragmentContent ident size m.version m.sender m.receiver text = .ok fs)
    (ho : fs.mapM encodeFragment = .ok out)
    (hroom : (storedFragments s m.sender).store.length < 100)
    (hfresh : ident ∉ (storedFragments s m.sender).store.map Prod.fst)
    (htick : (storedFragments s m.sender).tick.toNat + out.length < 2 ^ 32)
    {arrived : List Bytes} (hperm : arrived.Perm out) {calls : List Call} {c : Call} (hl : calls.length = arrived.length)
    (hlast : calls.getLast? = some c) :
    AsOne ((Op.receive text).run E A c s) (receiveAll E A (calls.zip arrived) s) := by
  have hr' : m.receiver = 0 ∨ 0x100 ≤ m.receiver.toNat := hr.imp id fun h => by rw [h]; exact htag
  rw [hv] at hf
  rw [stored_inst] at hroom hfresh htick
  have hc := carries_all (E := E) (A := A) (.inr rfl) hi hsize hbig hcount hpiece hs hr' hr (text_chars ht) hf ho
  obtain ⟨fs', hc', hpf⟩ := List.perm_comp_forall₂ hperm hc
  have hlen := hc.length_eq
  have hk : 0 < size - 45 := by omega
  have hmem := slices_mem hk text.length text
  have hflat := slices_flatten hk text.length text (Nat.le_refl _)
  obtain ⟨heq, hlt⟩ := fragmentContent_eq (rnd := ident) (sender := m.sender) (receiver := m.receiver) (v := .v4) (.inr rfl) hsize hbig hcount
  simp only [headerSize, if_true] at heq hlt
  rw [heq, Res.ok.injEq] at hf
  have hne : slices (size - 45) text.length text ≠ [] := by
    intro hc
    rw [hc] at hflat
    simp at hflat
    rw [hflat] at hbig
    simp at hbig
  generalize slices (size - 45) text.length text = ps at *
  rw [numberFragments_eq_map] at hf
  rw [← hf] at hpf
  obtain ⟨js, hj, rfl⟩ := perm_indices hpf
  have hpl := hpf.length_eq
  have hid : ∀ f ∈ js.map (fragmentOf ident m.sender m.receiver ps), f.version = .v4 ∧ f.identifier = ident := by
    intro f hfm
    obtain ⟨j, _, rfl⟩ := List.mem_map.mp hfm
    exact ⟨rfl, rfl⟩
  have hfl : fs.length = ps.length := by rw [← hf]; simp
  have key := C06_any_order ident m.sender m.receiver ps js (s.inst m.sender).assembler.unordered
    (js.map (fragmentOf ident m.sender m.receiver ps)) (ident :: (s.inst m.sender).assembler.unordered.store.map Prod.fst)
    (hist_fed hh _) hfresh hlt (fun p hp => (hmem p hp).1) (fun p hp => Nat.le_trans (hmem p hp).2.1 hpiece)
    (by rw [hflat]; exact hmax) hj hne
    (by rw [List.filter_eq_self.mpr]; intro f hfm; simpa using (hid f hfm).2)
    (by simp; omega) (by simp) (fun k hk => by simp [hk]) (fun f hfm => by rw [(hid f hfm).2]; simp)
    (by rw [List.length_map]; simp at hpl; omega)
  have hall : ∀ outs : List AsmRes, outs.length = (js.map (fragmentOf ident m.sender m.receiver ps)).length →
      (((js.map (fragmentOf ident m.sender m.receiver ps)).zip outs).filter fun e => decide (e.1.identifier = ident)).map (·.2) = outs := by
    intro outs hol
    rw [List.filter_eq_self.mpr]
    · exact List.map_snd_zip (by omega)
    · rintro ⟨f, r⟩ hfm
      simpa using (hid f (List.of_mem_zip hfm).1).2
  rw [hall _ (feed_length _ _ _), hflat] at key
  refine as_one ha ht hp hs hc' ?_ hl hlast
  rw [(feed_v4 _ _ fun f hfm => (hid f hfm).1).1, key]
  simp at hpl
  simp [hpl]

/-- The data message of the toy session, in five fragments that arrive in reverse order. -/
example (c1 c2 c3 c4 : Call) :
    AsOne ToySession.c7 (receiveAll ToySession.tinyEnv ToySession.acA
      ([c1, c2, c3, c4, ToySession.callA 1000 7].zip ToySession.texts4.reverse) ToySession.c4.after) := by
  obtain ⟨h1, h2, h3, h4, h5, h6, h7, h8, h9, h10, h11, h12⟩ := ToySession.cut4
  obtain ⟨h, hh⟩ := ToySession.hist_c4
  have := C78_fragments4 (A := ToySession.acA) hh (by simp only [SomeVersion, AllowsV3, AllowsV4, PolicyBit]; decide) h1 h2 h3
    (by rw [h4]; decide) (by decide) (.inr (by rw [h5]; rfl)) (size := 100) rfl (by decide) h6 (by omega) (by decide) (by omega) h8 h9
    (by rw [h4, h11]; decide) (by rw [h4, h11]; simp) (by rw [h4, h12, h10]; decide) (List.reverse_perm _)
    (calls := [c1, c2, c3, c4, ToySession.callA 1000 7]) (by rw [List.length_reverse, h10]; rfl) rfl
  unfold ToySession.c7
  exact this

end Otrr.Props

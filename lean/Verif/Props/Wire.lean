import Verif.Lemmas.Encoding
import Verif.Spec.Wire
/-! C01 and C02 for the wire primitives. -/

namespace Otrr.Props
open Otrr Otrr.Spec

/-- C01: fixed-width integers (8, 16 big and little endian, 32, 64 bits). -/
theorem C01_integers_roundtrip :
    RoundTrip (fun _ => True) wU8 readU8 ∧
    RoundTrip (fun _ => True) wU16 readU16 ∧
    RoundTrip (fun _ => True) wU16LE readU16LE ∧
    RoundTrip (fun _ => True) wU32 readU32 ∧
    RoundTrip (fun _ => True) wI64 readI64 :=
  ⟨fun v _ r => readU8_w v r, fun v _ r => readU16_w v r, fun v _ r => readU16LE_w v r,
   fun v _ r => readU32_w v r, fun v _ r => readI64_w v r⟩

example : readU16 (wU16 0xfffe ++ [1, 2]) = .ok (0xfffe, [1, 2]) :=
  C01_integers_roundtrip.2.1 _ trivial _
example : wU32 0x01020304 = [1, 2, 3, 4] := by decide

/-- C01: the integers are written in network byte order, most significant byte first. -/
theorem C01_big_endian (a b c d : UInt8) :
    wU16 (UInt16.ofNat (a.toNat * 256 + b.toNat)) = [a, b] ∧
    wU32 (UInt32.ofNat (((a.toNat * 256 + b.toNat) * 256 + c.toNat) * 256 + d.toNat)) = [a, b, c, d] := by
  have ha := a.toNat_lt
  have hb := b.toNat_lt
  have hc := c.toNat_lt
  have hd := d.toNat_lt
  constructor
  · unfold wU16
    rw [UInt16.toNat_ofNat_len (by omega)]
    have := beBytes_beNat [a, b]
    simpa [beNat] using this
  · unfold wU32
    rw [UInt32.toNat_ofNat_len (by omega)]
    have := beBytes_beNat [a, b, c, d]
    simpa [beNat] using this

/-- C01: instance tags: every tag that is 0 or at least 0x100. -/
theorem C01_instance_tag_roundtrip :
    RoundTrip (fun t : UInt32 => t = 0 ∨ 0x100 ≤ t) wU32 readInstanceTag := by
  intro t ht rest
  apply readInstanceTag_w
  unfold verifyTag INSTANCE_ZERO INSTANCE_MIN_VALID
  rw [if_neg]
  rintro ⟨h1, h2⟩
  rcases ht with rfl | h
  · exact absurd h1 (by decide)
  · exact absurd (UInt32.lt_of_lt_of_le h2 h) (UInt32.lt_irrefl _)

example : (0x100 : UInt32) = 0 ∨ (0x100 : UInt32) ≤ 0x100 := by decide

/-- C01: length-prefixed data of any length below 2^32. -/
theorem C01_data_roundtrip : RoundTrip (fun d : Bytes => d.length < 2 ^ 32) wData readData := by
  intro d hd rest
  exact readData_w (by simpa [dataOk] using hd) rest

example : readData (wData [7, 0, 9] ++ [1]) = .ok ([7, 0, 9], [1]) :=
  C01_data_roundtrip _ (by decide) _

theorem byteLen_of_bound {v : Nat} (h : FitsMpi v) : byteLen v < 2 ^ 32 := by
  obtain ⟨k, hk, h⟩ := h
  have := byteLen_le_of_lt_pow h
  omega

/-- C01: multi-precision integers of any size that fits the 32-bit length prefix. -/
theorem C01_mpi_roundtrip : RoundTrip (FitsMpi) wMpi readMpi := by
  intro v hv rest
  exact readMpi_w (by simpa [mpiOk] using byteLen_of_bound hv) rest

/-- C01: an MPI is written without leading zero bytes. -/
theorem C01_mpi_minimal (v : Nat) (hv : v ≠ 0) :
    ∃ b bs, wMpi v = wU32 (UInt32.ofNat (bs.length + 1)) ++ b :: bs ∧ b ≠ 0 := by
  obtain ⟨b, bs, h, hb⟩ := natToBE_head hv
  refine ⟨b, bs, ?_, hb⟩
  simp [wMpi, hv, h]

example : readMpi (wMpi 65536 ++ [5]) = .ok (65536, [5]) :=
  C01_mpi_roundtrip _ ⟨3, by decide⟩ _

/-- C01: MPI sequences. -/
theorem C01_mpi_sequence_roundtrip :
    RoundTrip (fun ms : List Nat => ms.length < 2 ^ 32 ∧ ∀ m ∈ ms, FitsMpi m)
      wMpiSequence readMpiSequence := by
  rintro ms ⟨hl, hm⟩ rest
  exact readMpiSequence_w hl (fun m h => by simpa [mpiOk] using byteLen_of_bound (hm m h)) rest

example : readMpiSequence (wMpiSequence [0, 300, 7] ++ [9]) = .ok ([0, 300, 7], [9]) :=
  C01_mpi_sequence_roundtrip _ ⟨by decide, by
    intro m hm
    simp at hm
    rcases hm with rfl | rfl | rfl <;> exact ⟨2, by decide⟩⟩ _

/-- C01: one TLV. -/
theorem C01_tlv_roundtrip : RoundTrip (fun t : TLV => t.value.length < 2 ^ 16) wTlv readTlv := by
  intro t ht rest
  exact readTlv_w (by simpa [tlvOk] using ht) rest

/-- C01: a list of TLVs, which extends to the end of the buffer. -/
theorem C01_tlv_list_roundtrip (ts : List TLV) (h : ∀ t ∈ ts, t.value.length < 2 ^ 16) :
    readTlvs ((ts.map wTlv).flatten) = .ok (ts, []) :=
  readTlvs_w (fun t ht => by simpa [tlvOk] using h t ht)

example : readTlvs (([⟨1, []⟩, ⟨7, [3, 4]⟩].map wTlv).flatten) = .ok ([⟨1, []⟩, ⟨7, [3, 4]⟩], []) :=
  C01_tlv_list_roundtrip _ (by decide)

/-- C01: NUL-terminated text. -/
theorem C01_text_roundtrip :
    RoundTrip (fun d : Bytes => ∀ b ∈ d, b ≠ 0) wNullTerminated readNullTerminated :=
  fun _ h rest => readNullTerminated_w h rest

example : readNullTerminated (wNullTerminated [104, 105] ++ [0, 1]) = .ok ([104, 105], [0, 1]) :=
  C01_text_roundtrip _ (by decide) _

/-- C01: counters, 20-byte MACs and 64-byte MACs are written as they are. -/
theorem C01_fixed_roundtrip :
    RoundTrip (fun d : Bytes => d.length = 8) id readCtr ∧
    RoundTrip (fun d : Bytes => d.length = 20) id readMac ∧
    RoundTrip (fun d : Bytes => d.length = 64) id readMac4 :=
  ⟨fun _ h r => readN_append h r, fun _ h r => readN_append h r, fun _ h r => readN_append h r⟩

example : (List.replicate 8 (3 : UInt8)).length = 8 := by decide

/-- C02: every primitive reader is total and reads only a prefix. -/
theorem C02_primitive_readers_total :
    TotalPrefixReader readU8 ∧ TotalPrefixReader readU16 ∧ TotalPrefixReader readU16LE ∧
    TotalPrefixReader readU32 ∧ TotalPrefixReader readI64 ∧ TotalPrefixReader readInstanceTag ∧
    TotalPrefixReader readData ∧ TotalPrefixReader readMpi ∧ TotalPrefixReader readMpiSequence ∧
    TotalPrefixReader readCtr ∧ TotalPrefixReader readMac ∧ TotalPrefixReader readMac4 ∧
    TotalPrefixReader readTlv :=
  ⟨readU8_safe, readU16_safe, readU16LE_safe, readU32_safe, readI64_safe, readInstanceTag_safe,
   readData_safe, readMpi_safe, readMpiSequence_safe, readCtr_safe, readMac_safe, readMac4_safe,
   readTlv_safe⟩

/-- C02: the two readers that run to the end of the buffer. -/
theorem C02_rest_readers_total : TotalReader readTlvs ∧ TotalReader readNullTerminated := by
  constructor
  · intro s
    obtain ⟨h1, h2⟩ := readTlvsFuel_total s.length s
    refine ⟨h1, fun a s' h => ⟨s, ?_⟩⟩
    rw [h2 a s' h, List.append_nil]
  · intro s
    refine ⟨by simp [readNullTerminated], ?_⟩
    intro a s' h
    simp only [readNullTerminated, Res.ok.injEq, Prod.mk.injEq] at h
    obtain ⟨-, rfl⟩ := h
    refine ⟨s.takeWhile (· != 0) ++ (s.dropWhile (· != 0)).take 1, ?_⟩
    rw [List.append_assoc, List.take_append_drop, List.takeWhile_append_dropWhile]

example : readData [0, 0, 0, 9, 1] = .err .incompleteMessage := by decide
example : readMpi [0, 0, 0, 2, 1, 0, 7] = .ok (256, [7]) := by decide

end Otrr.Props

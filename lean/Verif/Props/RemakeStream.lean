import Verif.Lemmas.Remake
import Verif.Props.Stream
import Verif.Spec.Remake

/-!
# Property C89: stream messages can be made again from what is read from them
-/

namespace Midi
open Spec

attribute [local irreducible] packetOf

theorem eq_packetOf_iff (p : Packet) (l : List Byte) : p = packetOf l ↔ ∀ i, i < 16 → p.byteAt i = l.getD i 0 := by
  constructor
  · rintro rfl i hi; exact byteAt_packetOf l hi
  · intro h; apply Packet.ext_bytes; intro b hb; rw [h b hb, byteAt_packetOf l hb]

theorem eq_and_iff (b m : Byte) : b = b &&& m ↔ b &&& ~~~ m = 0 := by
  constructor
  · intro h; rw [h]; bits
  · intro h
    have e : b = (b &&& m) ||| (b &&& ~~~ m) := by
      refine BitVec.eq_of_getLsbD_eq ?_
      intro i hi
      simp only [BitVec.getLsbD_or, BitVec.getLsbD_and, BitVec.getLsbD_not, hi, decide_true, Bool.true_and]
      cases b.getLsbD i <;> cases m.getLsbD i <;> rfl
    rw [h] at e
    simpa using e

/-- A packet made of the masked bytes of another one. -/
theorem remake_iff {p : Packet} {l m : List Byte} (h : ∀ i, i < 16 → l.getD i 0 = p.byteAt i &&& m.getD i 0) :
    p = packetOf l ↔ OnlyBits m p := by
  rw [eq_packetOf_iff]
  constructor
  · intro k i hi; rw [← eq_and_iff, ← h i hi]; exact k i hi
  · intro k i hi; rw [h i hi, eq_and_iff]; exact k i hi

theorem stream_size {p : Packet} {s : Byte} (h : IsStream p s) : p.size = 4 := by
  rw [Packet.size, type_div, h.1]; rfl

theorem and_F0 {b : Byte} (h : b.toNat / 16 = 15) : b &&& 0xF0 = 0xF0 := by revert h; revert b; decide +kernel

theorem and_FF (b : Byte) : b = b &&& 0xFF := by bits

theorem and_none (b : Byte) : b &&& 0 = 0 := by bits

theorem stat {p : Packet} {s : Byte} (h : IsStream p s) : s = p.byteAt 1 &&& 0xFF := by rw [h.2]; exact and_FF s

/-- The bytes of the factories beyond the ones given are zero. -/
theorem masks_tail {p : Packet} {l m : List Byte} {n : Nat} (hl : l.length ≤ n) (hm : m.length ≤ n)
    (h : ∀ i, i < n → l.getD i 0 = p.byteAt i &&& m.getD i 0) : ∀ i, i < 16 → l.getD i 0 = p.byteAt i &&& m.getD i 0 := by
  intro i _
  by_cases hi : i < n
  · exact h i hi
  · simp only [List.getD_eq_getElem?_getD, List.getElem?_eq_none (show l.length ≤ i by omega),
      List.getElem?_eq_none (show m.length ≤ i by omega), Option.getD_none]
    exact (and_none _).symm

/-- C89: an Endpoint Discovery message. -/
theorem C89_endpoint_discovery (p : Packet) (h : IsStream p 0x00) :
    ∃ q, makeEndpointDiscovery (EndpointDiscoveryView.filter p) (EndpointDiscoveryView.umpVersionMajor p)
        (EndpointDiscoveryView.umpVersionMinor p) = .ok q ∧
      (p.eqv q = true ↔ OnlyBits [0xF0, 0xFF, 0xFF, 0xFF, 0, 0, 0, 0x1F] p) := by
  have hf : EndpointDiscoveryView.filter p = p.byteAt 7 &&& 0x1F := by
    show _ = byteOf p.w1 3 &&& 0x1F
    rw [EndpointDiscoveryView.filter, byteOf]; generalize p.w1 = w; bits
  have hlt : EndpointDiscoveryView.filter p < 32 := by
    rw [hf]; generalize p.byteAt 7 = b; revert b; decide +kernel
  obtain ⟨q, h1, h2, -⟩ := C45_endpoint_discovery _ (EndpointDiscoveryView.umpVersionMajor p)
    (EndpointDiscoveryView.umpVersionMinor p) hlt
  refine ⟨q, h1, ?_⟩
  rw [eqv_four_words (stream_size h), h2]
  apply remake_iff
  refine masks_tail (n := 8) (by simp) (by simp) ?_
  intro i hi
  rw [hf, EndpointDiscoveryView.umpVersionMajor, EndpointDiscoveryView.umpVersionMinor, Packet.byte3_eq, Packet.byte4_eq]
  interval_cases i
  exacts [(and_F0 h.1).symm, (stat h), and_FF _, and_FF _, (and_none _).symm, (and_none _).symm, (and_none _).symm, rfl]

example : IsStream ⟨0xF0000101, 0x1F, 0, 0⟩ 0x00 ∧
    OnlyBits [0xF0, 0xFF, 0xFF, 0xFF, 0, 0, 0, 0x1F] ⟨0xF0000101, 0x1F, 0, 0⟩ := by decide
example : IsStream ⟨0xF0000101, 0x2F, 0, 0⟩ 0x00 ∧
    ¬ OnlyBits [0xF0, 0xFF, 0xFF, 0xFF, 0, 0, 0, 0x1F] ⟨0xF0000101, 0x2F, 0, 0⟩ := by decide

/-- C89: an Endpoint Info message. -/
theorem C89_endpoint_info (p : Packet) (h : IsStream p 0x01) :
    ∃ n fixed protocols extensions q, EndpointInfoView.numFunctionBlocks p = .ok n ∧
      EndpointInfoView.staticFunctionBlocks p = .ok fixed ∧ EndpointInfoView.protocols p = .ok protocols ∧
      EndpointInfoView.extensions p = .ok extensions ∧
      makeEndpointInfo n fixed protocols extensions (EndpointInfoView.umpVersionMajor p) (EndpointInfoView.umpVersionMinor p) =
        .ok q ∧
      (p.eqv q = true ↔ OnlyBits [0xF0, 0xFF, 0xFF, 0xFF, 0xFF, 0, 0x03, 0x03] p) := by
  have l3 : ∀ b : Byte, b &&& 0b11 < 4 := by decide +kernel
  obtain ⟨q, h1, h2, -⟩ := C45_endpoint_info (p.byteAt 4 &&& 0x7F) (p.byteAt 4 &&& 0x80 != 0) (p.byteAt 6 &&& 0b11)
    (p.byteAt 7 &&& 0b11) (EndpointInfoView.umpVersionMajor p) (EndpointInfoView.umpVersionMinor p) (and7F_lt _) (l3 _) (l3 _)
  refine ⟨_, _, _, _, q, ?_, ?_, ?_, ?_, h1, ?_⟩
  · rw [EndpointInfoView.numFunctionBlocks, Packet.getByte, if_pos (by omega)]; rfl
  · rw [EndpointInfoView.staticFunctionBlocks, Packet.getByte, if_pos (by omega)]; rfl
  · rw [EndpointInfoView.protocols, Packet.getByte, if_pos (by omega)]; rfl
  · rw [EndpointInfoView.extensions, Packet.getByte, if_pos (by omega)]; rfl
  rw [eqv_four_words (stream_size h), h2]
  apply remake_iff
  refine masks_tail (n := 8) (by simp) (by simp) ?_
  intro i hi
  rw [EndpointInfoView.umpVersionMajor, EndpointInfoView.umpVersionMinor, Packet.byte3_eq, Packet.byte4_eq]
  have h4 : (if p.byteAt 4 &&& 0x80 != 0 then (0x80 : Byte) else 0) + (p.byteAt 4 &&& 0x7F) = p.byteAt 4 &&& 0xFF := by
    generalize p.byteAt 4 = b; revert b; decide +kernel
  interval_cases i
  exacts [(and_F0 h.1).symm, (stat h), and_FF _, and_FF _, h4, (and_none _).symm, rfl, rfl]

example : IsStream ⟨0xF0010101, 0x88000303, 0, 0⟩ 0x01 ∧
    OnlyBits [0xF0, 0xFF, 0xFF, 0xFF, 0xFF, 0, 0x03, 0x03] ⟨0xF0010101, 0x88000303, 0, 0⟩ := by decide

/-- C89: a Device Identity message. -/
theorem C89_device_identity (p : Packet) (h : IsStream p 0x02) :
    p.eqv (makeDeviceIdentityMessage (deviceIdentityViewIdentity p)) = true ↔
      OnlyBits ([0xF0, 0xFF, 0, 0, 0] ++ List.replicate 11 0x7F) p := by
  have e : makeDeviceIdentityMessage (deviceIdentityViewIdentity p) =
      packetOf ([0xF0, 0x02, 0, 0, 0] ++ (List.range 11).map fun i => p.byteAt (5 + i) &&& 0x7F) := by
    apply Packet.ext_bytes
    intro b hb
    rw [byteAt_packetOf _ hb]
    have w1 : (makeDeviceIdentityMessage (deviceIdentityViewIdentity p)).w1 =
        wordOf 0 (p.byteAt 5 &&& 0x7F) (p.byteAt 6 &&& 0x7F) (p.byteAt 7 &&& 0x7F) := by
      show p.w1 &&& 0x007F7F7F = wordOf 0 (byteOf p.w1 1 &&& 0x7F) (byteOf p.w1 2 &&& 0x7F) (byteOf p.w1 3 &&& 0x7F)
      simp only [byteOf]; generalize p.w1 = w; unfold wordOf; bits
    have w2 : (makeDeviceIdentityMessage (deviceIdentityViewIdentity p)).w2 =
        wordOf (p.byteAt 8 &&& 0x7F) (p.byteAt 9 &&& 0x7F) (p.byteAt 10 &&& 0x7F) (p.byteAt 11 &&& 0x7F) := by
      show (makeDeviceIdentityMessage (deviceIdentityViewIdentity p)).w2 = wordOf (byteOf p.w2 0 &&& 0x7F)
        (byteOf p.w2 1 &&& 0x7F) (byteOf p.w2 2 &&& 0x7F) (byteOf p.w2 3 &&& 0x7F)
      simp only [byteOf, makeDeviceIdentityMessage, deviceIdentityViewIdentity]; generalize p.w2 = w; unfold wordOf; bits
    have w3 : (makeDeviceIdentityMessage (deviceIdentityViewIdentity p)).w3 =
        wordOf (p.byteAt 12 &&& 0x7F) (p.byteAt 13 &&& 0x7F) (p.byteAt 14 &&& 0x7F) (p.byteAt 15 &&& 0x7F) := by
      show (makeDeviceIdentityMessage (deviceIdentityViewIdentity p)).w3 = wordOf (byteOf p.w3 0 &&& 0x7F)
        (byteOf p.w3 1 &&& 0x7F) (byteOf p.w3 2 &&& 0x7F) (byteOf p.w3 3 &&& 0x7F)
      simp only [byteOf, makeDeviceIdentityMessage, deviceIdentityViewIdentity]; generalize p.w3 = w; unfold wordOf; bits
    have w0 : (makeDeviceIdentityMessage (deviceIdentityViewIdentity p)).w0 = wordOf 0xF0 0x02 0 0 := rfl
    rw [Packet.byteAt_eq]
    interval_cases b
    · show byteOf (Packet.w0 _) 0 = _; rw [w0]; rfl
    · show byteOf (Packet.w0 _) 1 = _; rw [w0]; rfl
    · show byteOf (Packet.w0 _) 2 = _; rw [w0]; rfl
    · show byteOf (Packet.w0 _) 3 = _; rw [w0]; rfl
    · show byteOf (Packet.w1 _) 0 = _; rw [w1, byteOf_wordOf_0]; rfl
    · show byteOf (Packet.w1 _) 1 = _; rw [w1, byteOf_wordOf_1]; rfl
    · show byteOf (Packet.w1 _) 2 = _; rw [w1, byteOf_wordOf_2]; rfl
    · show byteOf (Packet.w1 _) 3 = _; rw [w1, byteOf_wordOf_3]; rfl
    · show byteOf (Packet.w2 _) 0 = _; rw [w2, byteOf_wordOf_0]; rfl
    · show byteOf (Packet.w2 _) 1 = _; rw [w2, byteOf_wordOf_1]; rfl
    · show byteOf (Packet.w2 _) 2 = _; rw [w2, byteOf_wordOf_2]; rfl
    · show byteOf (Packet.w2 _) 3 = _; rw [w2, byteOf_wordOf_3]; rfl
    · show byteOf (Packet.w3 _) 0 = _; rw [w3, byteOf_wordOf_0]; rfl
    · show byteOf (Packet.w3 _) 1 = _; rw [w3, byteOf_wordOf_1]; rfl
    · show byteOf (Packet.w3 _) 2 = _; rw [w3, byteOf_wordOf_2]; rfl
    · show byteOf (Packet.w3 _) 3 = _; rw [w3, byteOf_wordOf_3]; rfl
  rw [eqv_four_words (stream_size h), e]
  apply remake_iff
  intro i hi
  interval_cases i
  exacts [(and_F0 h.1).symm, (stat h), (and_none _).symm, (and_none _).symm, (and_none _).symm,
    rfl, rfl, rfl, rfl, rfl, rfl, rfl, rfl, rfl, rfl, rfl]

example : IsStream ⟨0xF0020000, 0x00002109, 0x30170A20, 0x01020304⟩ 0x02 ∧
    OnlyBits ([0xF0, 0xFF, 0, 0, 0] ++ List.replicate 11 0x7F) ⟨0xF0020000, 0x00002109, 0x30170A20, 0x01020304⟩ := by decide

/-- C89: Stream Configuration Request and Notification. The factories accept the protocols 1 and 2 only. -/
theorem C89_stream_configuration (p : Packet) :
    (IsStream p 0x05 →
      ((∃ q, makeStreamConfigurationRequest (StreamConfigurationView.protocol p) (StreamConfigurationView.extensions p) = .ok q ∧
        p.eqv q = true) ↔
        OnlyBits [0xF0, 0xFF, 0x03, 0x03] p ∧
          (StreamConfigurationView.protocol p = 1 ∨ StreamConfigurationView.protocol p = 2))) ∧
    (IsStream p 0x06 →
      ((∃ q, makeStreamConfigurationNotification (StreamConfigurationView.protocol p) (StreamConfigurationView.extensions p) =
          .ok q ∧ p.eqv q = true) ↔
        OnlyBits [0xF0, 0xFF, 0x03, 0x03] p ∧
          (StreamConfigurationView.protocol p = 1 ∨ StreamConfigurationView.protocol p = 2))) := by
  have l3 : ∀ b : Byte, b &&& 0b11 < 4 := by decide +kernel
  obtain ⟨k1, k2⟩ := C45_stream_configuration (StreamConfigurationView.protocol p) (StreamConfigurationView.extensions p) (l3 _)
  have key : ∀ s, IsStream p s → (p = packetOf [0xF0, s, StreamConfigurationView.protocol p, StreamConfigurationView.extensions p] ↔
      OnlyBits [0xF0, 0xFF, 0x03, 0x03] p) := by
    intro s h
    apply remake_iff
    refine masks_tail (n := 4) (by simp) (by simp) ?_
    intro i hi
    rw [StreamConfigurationView.protocol, StreamConfigurationView.extensions, Packet.byte3_eq, Packet.byte4_eq]
    interval_cases i
    exacts [(and_F0 h.1).symm, (stat h), rfl, rfl]
  by_cases hp : StreamConfigurationView.protocol p = 1 ∨ StreamConfigurationView.protocol p = 2
  · obtain ⟨q, r, e1, e2, e3, e4, -⟩ := k1 hp
    refine ⟨fun h => ?_, fun h => ?_⟩
    · rw [e1, ← key _ h, ← e3, ← eqv_four_words (stream_size h)]
      exact ⟨fun ⟨x, hx, hy⟩ => by cases hx; exact ⟨hy, hp⟩, fun hy => ⟨q, rfl, hy.1⟩⟩
    · rw [e2, ← key _ h, ← e4, ← eqv_four_words (stream_size h)]
      exact ⟨fun ⟨x, hx, hy⟩ => by cases hx; exact ⟨hy, hp⟩, fun hy => ⟨r, rfl, hy.1⟩⟩
  · rw [(k2 hp).1, (k2 hp).2]
    exact ⟨fun _ => ⟨fun ⟨_, hx, _⟩ => (by cases hx), fun hy => absurd hy.2 hp⟩,
      fun _ => ⟨fun ⟨_, hx, _⟩ => (by cases hx), fun hy => absurd hy.2 hp⟩⟩

example : IsStream ⟨0xF0050203, 0, 0, 0⟩ 0x05 ∧ OnlyBits [0xF0, 0xFF, 0x03, 0x03] ⟨0xF0050203, 0, 0, 0⟩ ∧
    StreamConfigurationView.protocol ⟨0xF0050203, 0, 0, 0⟩ = 2 := by decide

/-- C89: a Function Block Discovery message. The factory accepts the blocks 0 to 31 and 255 (all blocks). -/
theorem C89_function_block_discovery (p : Packet) (h : IsStream p 0x10) :
    (∃ q, makeFunctionBlockDiscovery (FunctionBlockDiscoveryView.functionBlock p) (FunctionBlockDiscoveryView.filter p) = .ok q ∧
      p.eqv q = true) ↔ OnlyBits [0xF0, 0xFF, 0xFF, 0x0F] p ∧ (p.byteAt 2 < 32 ∨ p.byteAt 2 = 0xFF) := by
  have hb : FunctionBlockDiscoveryView.functionBlock p = p.byteAt 2 := Packet.byte3_eq p
  have hf : FunctionBlockDiscoveryView.filter p = p.byteAt 3 &&& 0x0F := by
    rw [FunctionBlockDiscoveryView.filter, Packet.byte4_eq]
  rw [hb, hf]
  by_cases hv : p.byteAt 2 < 32 ∨ p.byteAt 2 = 0xFF
  · obtain ⟨q, e1, e2, -⟩ := C45_function_block_discovery (p.byteAt 2) (p.byteAt 3 &&& 0x0F) hv (and0F_lt _)
    have key : p = packetOf [0xF0, 0x10, p.byteAt 2, p.byteAt 3 &&& 0x0F] ↔ OnlyBits [0xF0, 0xFF, 0xFF, 0x0F] p := by
      apply remake_iff
      refine masks_tail (n := 4) (by simp) (by simp) ?_
      intro i hi
      interval_cases i
      exacts [(and_F0 h.1).symm, (stat h), and_FF _, rfl]
    rw [e1, ← key, ← e2, ← eqv_four_words (stream_size h)]
    exact ⟨fun ⟨x, hx, hy⟩ => by cases hx; exact ⟨hy, hv⟩, fun hy => ⟨q, rfl, hy.1⟩⟩
  · have e : makeFunctionBlockDiscovery (p.byteAt 2) (p.byteAt 3 &&& 0x0F) = .error .assertFailed := by
      have hv' : (decide (p.byteAt 2 = 0xFF) || decide (p.byteAt 2 < 32)) = false := by
        rw [Bool.or_eq_false_iff, decide_eq_false_iff_not, decide_eq_false_iff_not]
        exact ⟨fun k => hv (.inr k), fun k => hv (.inl k)⟩
      rw [makeFunctionBlockDiscovery, hv']; rfl
    rw [e]
    exact ⟨fun ⟨_, hx, _⟩ => (by cases hx), fun hy => absurd hy.2 hv⟩

example : IsStream ⟨0xF010FF03, 0, 0, 0⟩ 0x10 ∧ OnlyBits [0xF0, 0xFF, 0xFF, 0x0F] ⟨0xF010FF03, 0, 0, 0⟩ ∧
    (⟨0xF010FF03, 0, 0, 0⟩ : Packet).byteAt 2 = 0xFF := by decide

theorem functionBlockInfo_accepts {block : Byte} {o : FunctionBlockOptions} {g n : Byte} {q : Packet}
    (h : makeFunctionBlockInfoWith block o g n = .ok q) : block < 32 ∧ ValidOptions o := by
  unfold makeFunctionBlockInfoWith at h
  by_cases h1 : decide (block < 32) = true
  · rw [h1] at h
    by_cases h2 : (decide (o.direction > 0) && decide (o.direction < 4)) = true
    · rw [h2] at h
      by_cases h3 : decide (o.midi1 < 3) = true
      · rw [h3] at h
        by_cases h4 : decide (o.uiHint < 4) = true
        · rw [h4] at h
          by_cases h5 : (decide (o.uiHint = 0) || o.direction &&& o.uiHint != 0) = true
          · refine ⟨of_decide_eq_true h1, ?_⟩
            obtain ⟨act, dir, m1, hint, ci, mx⟩ := o
            have hd : ∀ d : Byte, (decide (d > 0) && decide (d < 4)) = true → d = 1 ∨ d = 2 ∨ d = 3 := by decide +kernel
            have hm : ∀ d : Byte, decide (d < 3) = true → d = 0 ∨ d = 1 ∨ d = 2 := by decide +kernel
            have hh : ∀ d : Byte, decide (d < 4) = true → d = 0 ∨ d = 1 ∨ d = 2 ∨ d = 3 := by decide +kernel
            refine ⟨hd _ h2, hm _ h3, ?_⟩
            have k2 := hd _ h2
            have k4 := hh _ h4
            have k5 : hint = 0 ∨ dir &&& hint ≠ 0 := by
              rw [Bool.or_eq_true, decide_eq_true_eq, bne_iff_ne] at h5
              exact h5
            clear h h1 h2 h3 h4 h5
            simp only at k2 k4 ⊢
            rcases k2 with rfl | rfl | rfl <;> rcases k4 with rfl | rfl | rfl | rfl <;>
              (revert k5; decide)
          · rw [Bool.not_eq_true] at h5; rw [h5] at h; cases h
        · rw [Bool.not_eq_true] at h4; rw [h4] at h; cases h
      · rw [Bool.not_eq_true] at h3; rw [h3] at h; cases h
    · rw [Bool.not_eq_true] at h2; rw [h2] at h; cases h
  · rw [Bool.not_eq_true] at h1; rw [h1] at h; cases h

/-- C89: a Function Block Info message can be made again from what is read exactly if its reserved bits are clear, the first
group and the number of groups have four bits, the direction and the MIDI 1 mode are valid, and a user interface hint is
present and compatible with the direction. Partial: messages without a hint, and blocks spanning all 16 groups, are valid
but can not be made again, see `C89_function_block_info_lost`. -/
theorem C89_function_block_info_partial (p : Packet) (h : IsStream p 0x11) :
    ∃ block first groups version streams, FunctionBlockInfoView.functionBlock p = .ok block ∧
      FunctionBlockInfoView.firstGroup p = .ok first ∧ FunctionBlockInfoView.numGroupsSpanned p = .ok groups ∧
      FunctionBlockInfoView.ciMessageVersion p = .ok version ∧ FunctionBlockInfoView.maxNumSysex8Streams p = .ok streams ∧
      ((∃ q, makeFunctionBlockInfoWith block ⟨FunctionBlockInfoView.active p, FunctionBlockInfoView.direction p,
          FunctionBlockInfoView.midi1 p, FunctionBlockInfoView.uiHint p, version, streams⟩ first groups = .ok q ∧
          p.eqv q = true) ↔
        OnlyBits [0xF0, 0xFF, 0x9F, 0x3F, 0x0F, 0x0F, 0xFF, 0xFF] p ∧
          FunctionBlockInfoView.direction p ≠ 0 ∧ FunctionBlockInfoView.midi1 p ≠ 3 ∧
          FunctionBlockInfoView.direction p &&& FunctionBlockInfoView.uiHint p ≠ 0) := by
  refine ⟨p.byteAt 2 &&& 0x7F, p.byteAt 4, p.byteAt 5, p.byteAt 6, p.byteAt 7, ?_, ?_, ?_, ?_, ?_, ?_⟩
  · rw [FunctionBlockInfoView.functionBlock, Packet.getByte7, Packet.getByte, if_pos (by omega)]; rfl
  · rw [FunctionBlockInfoView.firstGroup, Packet.getByte, if_pos (by omega)]
  · rw [FunctionBlockInfoView.numGroupsSpanned, Packet.getByte, if_pos (by omega)]
  · rw [FunctionBlockInfoView.ciMessageVersion, Packet.getByte, if_pos (by omega)]
  · rw [FunctionBlockInfoView.maxNumSysex8Streams, Packet.getByte, if_pos (by omega)]
  have hp : p = packetOf (p.byteAt 0 :: p.byteAt 1 :: p.byteAt 2 :: p.byteAt 3 :: (List.range 12).map fun i => p.byteAt (4 + i)) := by
    rw [eq_packetOf_iff]
    intro i hi
    interval_cases i <;> rfl
  have hr := fb_bits ((List.range 12).map fun i => p.byteAt (4 + i)) (p.byteAt 0) (p.byteAt 1) (p.byteAt 2) (p.byteAt 3)
  rw [← hp] at hr
  obtain ⟨r1, r2, r3, r4⟩ := hr
  rw [r1, r2, r3, r4]
  have hm : ∀ x : Byte, x % 16 < 16 ∧ x &&& 0xF = (x % 16) &&& 0xF ∧ x % 16 = x &&& 0x0F := by decide +kernel
  -- what the factory makes
  have make : ∀ (o : FunctionBlockOptions), o = ⟨p.byteAt 2 &&& 0x80 != 0, p.byteAt 3 &&& 3, (p.byteAt 3 >>> 2) &&& 3,
        (p.byteAt 3 >>> 4) &&& 3, p.byteAt 6, p.byteAt 7⟩ → p.byteAt 2 &&& 0x7F < 32 → ValidOptions o →
      ∃ q, makeFunctionBlockInfoWith (p.byteAt 2 &&& 0x7F) o (p.byteAt 4) (p.byteAt 5) = .ok q ∧
        FunctionBlockInfoView.uiHint q = (if o.uiHint = 0 then o.direction else o.uiHint) ∧
        (o.uiHint ≠ 0 → (p = q ↔ OnlyBits [0xF0, 0xFF, 0x9F, 0x3F, 0x0F, 0x0F, 0xFF, 0xFF] p)) := by
    intro o ho hb hv
    obtain ⟨q, e1, e2, -, -, -, -, -, e3, -⟩ := C45_function_block_info_partial (p.byteAt 2 &&& 0x7F) o (p.byteAt 4 % 16)
      (p.byteAt 5 % 16) hb hv (hm _).1 (hm _).1
    refine ⟨q, ?_, e3, ?_⟩
    · rw [← e1]
      unfold makeFunctionBlockInfoWith
      rw [(hm (p.byteAt 4)).2.1, (hm (p.byteAt 5)).2.1]
    · intro h0
      rw [e2, if_neg h0, ho]
      apply remake_iff
      refine masks_tail (n := 8) (by simp) (by simp) ?_
      intro i hi
      have h2 : (if p.byteAt 2 &&& 0x80 != 0 then (0x80 : Byte) else 0) + (p.byteAt 2 &&& 0x7F) = p.byteAt 2 &&& 0x9F := by
        revert hb; generalize p.byteAt 2 = b; revert b; decide +kernel
      have h3 : ((p.byteAt 3 >>> 4) &&& 3) * 16 + ((p.byteAt 3 >>> 2) &&& 3) * 4 + (p.byteAt 3 &&& 3) = p.byteAt 3 &&& 0x3F := by
        generalize p.byteAt 3 = b; revert b; decide +kernel
      interval_cases i
      exacts [(and_F0 h.1).symm, (stat h), h2, h3, (hm _).2.2, (hm _).2.2, and_FF _, and_FF _]
  have hvalid : ∀ b : Byte, ((b &&& 3 = 1 ∨ b &&& 3 = 2 ∨ b &&& 3 = 3) ∧
      ((b >>> 2) &&& 3 = 0 ∨ (b >>> 2) &&& 3 = 1 ∨ (b >>> 2) &&& 3 = 2) ∧
      ((b >>> 4) &&& 3 = 0 ∨ (b >>> 4) &&& 3 = b &&& 3 ∨ b &&& 3 = 3 ∧ ((b >>> 4) &&& 3 = 1 ∨ (b >>> 4) &&& 3 = 2) ∨
        (b >>> 4) &&& 3 = 3)) ∧ (b >>> 4) &&& 3 ≠ 0 ↔
      b &&& 3 ≠ 0 ∧ (b >>> 2) &&& 3 ≠ 3 ∧ (b &&& 3) &&& ((b >>> 4) &&& 3) ≠ 0 := by decide +kernel
  constructor
  · rintro ⟨q, hq, he⟩
    obtain ⟨hb, hv⟩ := functionBlockInfo_accepts hq
    obtain ⟨q', e1, e2, e3⟩ := make _ rfl hb hv
    rw [e1] at hq
    cases hq
    rw [eqv_four_words (stream_size h)] at he
    have h0 : (p.byteAt 3 >>> 4) &&& 3 ≠ 0 := by
      intro k
      rw [← he, r4] at e2
      simp only [k, if_true] at e2
      have := hv.1
      simp only [← e2] at this
      revert this; decide
    exact ⟨(e3 h0).1 he, (hvalid _).1 ⟨hv, h0⟩⟩
  · rintro ⟨ho, hc⟩
    obtain ⟨hv, h0⟩ := (hvalid _).2 hc
    have hb : p.byteAt 2 &&& 0x7F < 32 := by
      have := ho 2 (by omega)
      change p.byteAt 2 &&& ~~~ (0x9F : Byte) = 0 at this
      revert this; generalize p.byteAt 2 = b; revert b; decide +kernel
    obtain ⟨q', e1, -, e3⟩ := make _ rfl hb hv
    exact ⟨q', e1, by rw [eqv_four_words (stream_size h)]; exact (e3 h0).2 ho⟩

example : IsStream ⟨0xF0118323, 0x02040100, 0, 0⟩ 0x11 ∧
    OnlyBits [0xF0, 0xFF, 0x9F, 0x3F, 0x0F, 0x0F, 0xFF, 0xFF] ⟨0xF0118323, 0x02040100, 0, 0⟩ ∧
    FunctionBlockInfoView.direction ⟨0xF0118323, 0x02040100, 0, 0⟩ = 3 ∧ FunctionBlockInfoView.midi1 ⟨0xF0118323, 0x02040100, 0, 0⟩ = 0 ∧
    FunctionBlockInfoView.uiHint ⟨0xF0118323, 0x02040100, 0, 0⟩ = 2 := by decide

/-- C89, where it fails: a function block which declares no user interface hint, and one which spans all sixteen groups. Both
are read without loss, and the factory accepts what was read but makes another message. -/
theorem C89_function_block_info_lost :
    (∃ p q : Packet, IsStream p 0x11 ∧ FunctionBlockInfoView.uiHint p = 0 ∧ FunctionBlockInfoView.functionBlock p = .ok 3 ∧
      FunctionBlockInfoView.firstGroup p = .ok 2 ∧ FunctionBlockInfoView.numGroupsSpanned p = .ok 4 ∧
      FunctionBlockInfoView.ciMessageVersion p = .ok 1 ∧ FunctionBlockInfoView.maxNumSysex8Streams p = .ok 0 ∧
      makeFunctionBlockInfoWith 3 ⟨FunctionBlockInfoView.active p, FunctionBlockInfoView.direction p,
        FunctionBlockInfoView.midi1 p, FunctionBlockInfoView.uiHint p, 1, 0⟩ 2 4 = .ok q ∧ p.eqv q = false ∧
      FunctionBlockInfoView.uiHint q = 3) ∧
    (∃ p q : Packet, IsStream p 0x11 ∧ FunctionBlockInfoView.uiHint p = 3 ∧ FunctionBlockInfoView.functionBlock p = .ok 0 ∧
      FunctionBlockInfoView.firstGroup p = .ok 0 ∧ FunctionBlockInfoView.numGroupsSpanned p = .ok 16 ∧
      FunctionBlockInfoView.ciMessageVersion p = .ok 1 ∧ FunctionBlockInfoView.maxNumSysex8Streams p = .ok 0 ∧
      makeFunctionBlockInfoWith 0 ⟨FunctionBlockInfoView.active p, FunctionBlockInfoView.direction p,
        FunctionBlockInfoView.midi1 p, FunctionBlockInfoView.uiHint p, 1, 0⟩ 0 16 = .ok q ∧ p.eqv q = false ∧
      FunctionBlockInfoView.numGroupsSpanned q = .ok 0) :=
  ⟨⟨⟨0xF0118303, 0x02040100, 0, 0⟩, ⟨0xF0118333, 0x02040100, 0, 0⟩, by decide, by decide, rfl, rfl, rfl, rfl, rfl, rfl, by decide, rfl⟩,
   ⟨⟨0xF0118033, 0x00100100, 0, 0⟩, ⟨0xF0118033, 0x00000100, 0, 0⟩, by decide, by decide, rfl, rfl, rfl, rfl, rfl, rfl, by decide, rfl⟩⟩

/-! ## Text -/

/-- The text read, stored again. -/
theorem readText_again {get : Packet → Nat → Except Fault Byte} {m : Byte → Byte}
    (hget : ∀ (p : Packet) (i : Nat), i < 16 → get p i = .ok (m (p.byteAt i))) (h0 : m 0 = 0) (p : Packet) :
    ∀ k, k ≤ 16 → ∃ t, readText get p k = .ok t ∧ t.length ≤ k ∧ (∀ b ∈ t, ∃ x, b = m x) ∧
      ((∀ j, j < k → p.byteAt (16 - k + j) = t.getD j 0) ↔
        (∀ j, j < k → m (p.byteAt (16 - k + j)) = p.byteAt (16 - k + j)) ∧ ZeroPadded (16 - k) p) := by
  intro k
  induction k with
  | zero =>
    intro _
    refine ⟨[], rfl, by simp, by simp, ?_⟩
    simp only [Nat.not_lt_zero, false_imp_iff, implies_true, true_iff, true_and]
    intro i h1 h2; omega
  | succ k ih =>
    intro hk
    obtain ⟨t, h1, h2, h3, h4⟩ := ih (by omega)
    have e0 : 16 - (k + 1) + 1 = 16 - k := by omega
    have ej : ∀ j, 16 - (k + 1) + (j + 1) = 16 - k + j := fun j => by omega
    rw [readText, hget _ _ (by omega), ok_bind]
    by_cases hc : m (p.byteAt (16 - (k + 1))) ≠ 0
    · rw [if_pos hc, h1]
      refine ⟨m (p.byteAt (16 - (k + 1))) :: t, rfl, by simp; omega, ?_, ?_⟩
      · intro b hb
        rcases List.mem_cons.1 hb with rfl | hb
        · exact ⟨_, rfl⟩
        · exact h3 b hb
      constructor
      · intro hj
        have a0 : p.byteAt (16 - (k + 1)) = m (p.byteAt (16 - (k + 1))) := hj 0 (by omega)
        have ar := h4.1 (fun j hj' => by rw [← ej, hj (j + 1) (by omega)]; rfl)
        refine ⟨fun j hj' => ?_, fun i hi hn hz => ?_⟩
        · rcases j with _ | j
          · exact a0.symm
          · rw [ej]; exact ar.1 j (by omega)
        · by_cases hi' : i = 16 - (k + 1)
          · rw [hi'] at hz; rw [hz, h0] at hc; exact absurd rfl hc
          · exact ar.2 i hi (by omega) hz
      · rintro ⟨ha, hz⟩ j hj
        rcases j with _ | j
        · exact (ha 0 (by omega)).symm
        · rw [ej]
          exact h4.2 ⟨fun j hj' => by rw [← ej]; exact ha (j + 1) (by omega), fun i hi hn => hz i hi (by omega)⟩ j (by omega)
    · rw [if_neg hc]
      have hc' : m (p.byteAt (16 - (k + 1))) = 0 := by simpa using hc
      refine ⟨[], rfl, by simp, by simp, ?_⟩
      constructor
      · intro hj
        have hz : ∀ j, j < k + 1 → p.byteAt (16 - (k + 1) + j) = 0 := fun j hj' => by rw [hj j hj']; rfl
        refine ⟨fun j hj' => by rw [hz j hj', h0], fun i hi hn _ => ?_⟩
        have := hz (i + 1 - (16 - (k + 1))) (by omega)
        rwa [show 16 - (k + 1) + (i + 1 - (16 - (k + 1))) = i + 1 by omega] at this
      · rintro ⟨ha, hz⟩
        intro j
        induction j with
        | zero => intro _; rw [← ha 0 (by omega)]; exact hc'
        | succ j ihj =>
          intro hj
          have := ihj (by omega)
          rw [← Nat.add_assoc, hz (16 - (k + 1) + j) (by omega) (by omega) (by simpa using this)]
          rfl

theorem getByte7_eq (p : Packet) (i : Nat) (h : i < 16) : p.getByte7 i = .ok (p.byteAt i &&& 0x7F) := by
  rw [Packet.getByte7, Packet.getByte, if_pos h]; rfl

theorem streamFormat_code (p : Packet) : (0xF0 + 4 * (streamFormat p).code : Byte) = 0xF0 ||| (p.byteAt 0 &&& 0x0C) := by
  have e : ((p.w0 >>> 26) &&& 0x03).setWidth 8 = (p.byteAt 0 >>> 2) &&& 0x03 := by
    show _ = (byteOf p.w0 0 >>> 2) &&& 0x03
    rw [byteOf]; generalize p.w0 = w; bits
  rw [streamFormat, e]
  generalize p.byteAt 0 = b
  revert b; decide +kernel

/-- The text of a stream message from byte `n` on. -/
theorem stream_text (p : Packet) (n : Nat) (hn : n ≤ 16) (hd m : List Byte) (hl : hd.length = n) (hm : m.length = n)
    (hh : ∀ i, i < n → hd.getD i 0 = p.byteAt i &&& m.getD i 0) :
    ∃ t, streamPayloadAsString p n = .ok t ∧ t.length ≤ 16 - n ∧ t.map (· &&& 0x7F) = t ∧
      (p = packetOf (hd ++ t) ↔ OnlyBits (m ++ List.replicate (16 - n) 0x7F) p ∧ ZeroPadded n p) := by
  obtain ⟨t, h1, h2, h3, h4⟩ := readText_again (get := Packet.getByte7) (m := (· &&& 0x7F)) getByte7_eq (by decide) p (16 - n)
    (by omega)
  have e16 : 16 - (16 - n) = n := by omega
  rw [e16] at h4
  refine ⟨t, by rw [streamPayloadAsString, if_neg (by omega), h1], h2, ?_, ?_⟩
  · rw [← List.map_id t, List.map_map]
    apply List.map_congr_left
    intro b hb
    obtain ⟨x, rfl⟩ := h3 b hb
    show x &&& 0x7F &&& 0x7F = x &&& 0x7F
    exact and7F_and7F x
  · rw [eq_packetOf_iff]
    have split : (∀ i, i < 16 → p.byteAt i = (hd ++ t).getD i 0) ↔
        (∀ i, i < n → p.byteAt i = hd.getD i 0) ∧ ∀ j, j < 16 - n → p.byteAt (n + j) = t.getD j 0 := by
      have ea : ∀ i, i < n → (hd ++ t).getD i 0 = hd.getD i 0 := by
        intro i hi
        rw [List.getD_eq_getElem?_getD, List.getD_eq_getElem?_getD, List.getElem?_append_left (by omega)]
      have eb : ∀ j, (hd ++ t).getD (n + j) 0 = t.getD j 0 := by
        intro j
        rw [List.getD_eq_getElem?_getD, List.getD_eq_getElem?_getD, List.getElem?_append_right (by omega), hl,
          Nat.add_sub_cancel_left]
      constructor
      · intro k
        exact ⟨fun i hi => by rw [k i (by omega), ea i hi], fun j hj => by rw [k _ (by omega), eb]⟩
      · rintro ⟨k1, k2⟩ i hi
        by_cases hin : i < n
        · rw [ea i hin]; exact k1 i hin
        · obtain ⟨j, rfl⟩ : ∃ j, i = n + j := ⟨i - n, by omega⟩
          rw [eb]; exact k2 j (by omega)
    have split2 : OnlyBits (m ++ List.replicate (16 - n) 0x7F) p ↔
        (∀ i, i < n → p.byteAt i = hd.getD i 0) ∧ ∀ j, j < 16 - n → p.byteAt (n + j) &&& 0x7F = p.byteAt (n + j) := by
      have ea : ∀ i, i < n → (m ++ List.replicate (16 - n) (0x7F : Byte)).getD i 0 = m.getD i 0 := by
        intro i hi
        rw [List.getD_eq_getElem?_getD, List.getD_eq_getElem?_getD, List.getElem?_append_left (by omega)]
      have eb : ∀ j, j < 16 - n → (m ++ List.replicate (16 - n) (0x7F : Byte)).getD (n + j) 0 = 0x7F := by
        intro j hj
        rw [List.getD_eq_getElem?_getD, List.getElem?_append_right (by omega), hm, Nat.add_sub_cancel_left,
          List.getElem?_replicate, if_pos hj]
        rfl
      constructor
      · intro k
        refine ⟨fun i hi => ?_, fun j hj => ?_⟩
        · rw [hh i hi, eq_and_iff, ← ea i hi]; exact k i (by omega)
        · have := k (n + j) (by omega)
          rw [eb j hj, ← eq_and_iff] at this
          exact this.symm
      · rintro ⟨k1, k2⟩ i hi
        by_cases hin : i < n
        · rw [ea i hin, ← eq_and_iff, ← hh i hin]; exact k1 i hin
        · obtain ⟨j, rfl⟩ : ∃ j, i = n + j := ⟨i - n, by omega⟩
          rw [eb j (by omega), ← eq_and_iff]; exact (k2 j (by omega)).symm
    rw [split, split2, h4, and_assoc]

/-- C89: Endpoint Name, Product Instance Id and Function Block Name messages can be made again from the format, function
block and text read exactly if the reserved bits are clear, all characters are ASCII characters, and no character follows
a zero. Partial: text is UTF-8, but characters which are not ASCII are lost; and the factory for product instance ids
accepts no continue messages. -/
theorem C89_names_partial (p : Packet) :
    (IsStream p 0x03 → ∃ t q, endpointNamePayload p = .ok t ∧ makeEndpointName (streamFormat p) t = .ok q ∧
      (p.eqv q = true ↔ OnlyBits ([0xFC, 0xFF] ++ List.replicate 14 0x7F) p ∧ ZeroPadded 2 p)) ∧
    (IsStream p 0x04 → ∃ t, productInstanceIdPayload p = .ok t ∧
      ((∃ q, makeProductInstanceId (streamFormat p) t = .ok q ∧ p.eqv q = true) ↔
        OnlyBits ([0xFC, 0xFF] ++ List.replicate 14 0x7F) p ∧ ZeroPadded 2 p ∧ streamFormat p ≠ .cont)) ∧
    (IsStream p 0x12 → ∃ t q, functionBlockNamePayload p = .ok t ∧
      makeFunctionBlockName (streamFormat p) (functionBlockNameBlock p) t = .ok q ∧
      (p.eqv q = true ↔ OnlyBits ([0xFC, 0xFF, 0x7F] ++ List.replicate 13 0x7F) p ∧ ZeroPadded 3 p)) := by
  have h0 : ∀ s, IsStream p s → (0xF0 + 4 * (streamFormat p).code : Byte) = p.byteAt 0 &&& 0xFC := by
    intro s h
    rw [streamFormat_code]
    have := h.1
    revert this; generalize p.byteAt 0 = b; revert b; decide +kernel
  refine ⟨fun h => ?_, fun h => ?_, fun h => ?_⟩
  · obtain ⟨t, h1, h2, -, h4⟩ := stream_text p 2 (by omega) [0xF0 + 4 * (streamFormat p).code, 0x03] [0xFC, 0xFF] rfl rfl
      (by intro i hi; interval_cases i; exacts [h0 _ h, stat h])
    exact ⟨t, _, h1, makeEndpointName_eq _ t h2, by rw [eqv_four_words (stream_size h)]; exact h4⟩
  · obtain ⟨t, h1, h2, h3, h4⟩ := stream_text p 2 (by omega) [0xF0 + 4 * (streamFormat p).code, 0x04] [0xFC, 0xFF] rfl rfl
      (by intro i hi; interval_cases i; exacts [h0 _ h, stat h])
    refine ⟨t, h1, ?_⟩
    by_cases hf : streamFormat p = .cont
    · have e : makeProductInstanceId (streamFormat p) t = .error .assertFailed := by
        rw [makeProductInstanceId, decide_eq_true h2, hf]; rfl
      rw [e]
      exact ⟨fun ⟨_, hx, _⟩ => (by cases hx), fun hy => absurd hf hy.2.2⟩
    · rw [makeProductInstanceId_eq _ hf t h2, h3]
      constructor
      · rintro ⟨q, hx, hy⟩
        cases hx
        rw [eqv_four_words (stream_size h)] at hy
        exact ⟨(h4.1 hy).1, (h4.1 hy).2, hf⟩
      · rintro ⟨k1, k2, -⟩
        exact ⟨_, rfl, by rw [eqv_four_words (stream_size h)]; exact h4.2 ⟨k1, k2⟩⟩
  · obtain ⟨t, h1, h2, -, h4⟩ := stream_text p 3 (by omega)
      [0xF0 + 4 * (streamFormat p).code, 0x12, functionBlockNameBlock p] [0xFC, 0xFF, 0x7F] rfl rfl
      (by intro i hi; interval_cases i; exacts [h0 _ h, stat h, by rw [functionBlockNameBlock, Packet.byte3_eq]; rfl])
    exact ⟨t, _, h1, makeFunctionBlockName_eq _ _ t h2, by rw [eqv_four_words (stream_size h)]; exact h4⟩

example : IsStream ⟨0xF4034162, 0x63000000, 0, 0⟩ 0x03 ∧
    OnlyBits ([0xFC, 0xFF] ++ List.replicate 14 0x7F) ⟨0xF4034162, 0x63000000, 0, 0⟩ ∧ ZeroPadded 2 ⟨0xF4034162, 0x63000000, 0, 0⟩ ∧
    ¬ ZeroPadded 2 ⟨0xF4034162, 0x63000001, 0, 0⟩ := by decide

/-- C89, where it fails: an endpoint name with the character `ä`. -/
theorem C89_name_lost : ∃ p q : Packet, makeEndpointName .complete [0xC3, 0xA4] = .ok p ∧
    endpointNamePayload p = .ok [0x43, 0x24] ∧ makeEndpointName (streamFormat p) [0x43, 0x24] = .ok q ∧ p.eqv q = false :=
  ⟨_, _, rfl, rfl, rfl, by decide⟩

end Midi

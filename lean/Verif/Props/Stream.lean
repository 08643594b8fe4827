import Verif.Lemmas.NameText
import Verif.Props.SysexHelpers

/-!
# C44, C45: UMP stream messages
-/

namespace Midi
open Spec

attribute [local irreducible] packetOf

/-- A stream message (packet type 15) with a status. -/
def Spec.IsStream (p : Packet) (status : Byte) : Prop := (p.byteAt 0).toNat / 16 = 15 ∧ p.byteAt 1 = status

instance (p : Packet) (s : Byte) : Decidable (IsStream p s) := inferInstanceAs (Decidable (_ ∧ _))

theorem type_div (p : Packet) : p.type.toNat = (p.byteAt 0).toNat / 16 := by
  rw [Packet.type_eq]; generalize p.byteAt 0 = b; revert b; decide +kernel

theorem type_beq_iff (p : Packet) (t : Byte) : (p.type == t) = true ↔ (p.byteAt 0).toNat / 16 = t.toNat := by
  rw [← type_div, beq_iff_eq]
  exact ⟨fun h => by rw [h], fun h => BitVec.eq_of_toNat_eq h⟩

theorem isStream_iff (p : Packet) (s : Byte) : (isStreamMessage p && p.status == s) = true ↔ IsStream p s := by
  rw [Bool.and_eq_true, isStreamMessage, type_beq_iff, beq_iff_eq, Packet.status_eq]; rfl

theorem streamView_ok {p : Packet} {s : Byte} (h : IsStream p s) : some <$> streamView s p = .ok (some p) := by
  have h1 : (p.type == PacketType.stream) = true := (type_beq_iff p _).2 h.1
  have h2 : (p.status == s) = true := by rw [beq_iff_eq, Packet.status_eq]; exact h.2
  rw [streamView, h1, h2]; rfl

theorem as_stream (p : Packet) (s : Byte) :
    (if isStreamMessage p && p.status == s then some <$> streamView s p else .ok none) =
      (.ok (if IsStream p s then some p else none) : Except Fault (Option Packet)) := by
  by_cases h : IsStream p s
  · rw [if_pos ((isStream_iff p s).2 h), if_pos h, streamView_ok h]
  · rw [if_neg (fun h' => h ((isStream_iff p s).1 h')), if_neg h]

/-! ## C45 -/

/-- C45: for every packet, the `as_*_view` functions never fail, and give a view exactly for stream messages with the
status of the view. So no packet is accepted by two of them. -/
theorem C45_views (p : Packet) :
    asEndpointDiscovery p = .ok (if IsStream p 0x00 then some p else none) ∧
    asEndpointInfo p = .ok (if IsStream p 0x01 then some p else none) ∧
    asDeviceIdentity p = .ok (if IsStream p 0x02 then some p else none) ∧
    asEndpointName p = .ok (if IsStream p 0x03 then some p else none) ∧
    asProductInstanceId p = .ok (if IsStream p 0x04 then some p else none) ∧
    asStreamConfiguration p = .ok (if IsStream p 0x05 ∨ IsStream p 0x06 then some p else none) ∧
    asFunctionBlockDiscovery p = .ok (if IsStream p 0x10 then some p else none) ∧
    asFunctionBlockInfo p = .ok (if IsStream p 0x11 then some p else none) ∧
    asFunctionBlockName p = .ok (if IsStream p 0x12 then some p else none) := by
  refine ⟨as_stream p _, as_stream p _, as_stream p _, as_stream p _, as_stream p _, ?_, as_stream p _, as_stream p _,
    as_stream p _⟩
  have hb : (isStreamMessage p && (p.status == StreamStatus.streamConfigurationRequest ||
      p.status == StreamStatus.streamConfigurationNotify)) = true ↔ IsStream p 0x05 ∨ IsStream p 0x06 := by
    rw [Bool.and_or_distrib_left, Bool.or_eq_true, isStream_iff, isStream_iff]; rfl
  unfold asStreamConfiguration
  by_cases h : IsStream p 0x05 ∨ IsStream p 0x06
  · rw [if_pos (hb.2 h), if_pos h]
    have := hb.2 h
    rw [Bool.and_eq_true] at this
    rw [streamConfigurationView, this.2, show (p.type == PacketType.stream) = true from this.1]; rfl
  · rw [if_neg (fun h' => h (hb.1 h')), if_neg h]

/-- C45: a packet is accepted by at most one of these functions. -/
theorem C45_exclusive (p : Packet) (s t : Byte) (hs : IsStream p s) (ht : IsStream p t) : s = t := hs.2.symm.trans ht.2

example := C45_exclusive ⟨0xF0050000, 0, 0, 0⟩ 5 5 (by decide) (by decide)

theorem isStream_packetOf (f : Format) (s : Byte) (l : List Byte) : IsStream (packetOf ((0xF0 + 4 * f.code) :: s :: l)) s := by
  constructor
  · rw [byteAt_packetOf _ (by omega)]
    show (0xF0 + 4 * f.code).toNat / 16 = 15
    cases f <;> rfl
  · rw [byteAt_packetOf _ (by omega)]; rfl

theorem isStream_F0 (s : Byte) (l : List Byte) : IsStream (packetOf (0xF0 :: s :: l)) s := isStream_packetOf .complete s l

theorem join16 (a b : Byte) : (((wordOf 0 0 a b &&& 0xFFFF).setWidth 16 : U16)).toNat = a.toNat * 256 + b.toNat := by
  have e : ((wordOf 0 0 a b &&& 0xFFFF).setWidth 16 : U16) = (wordOf 0 0 a b).setWidth 16 := by unfold wordOf; bits
  rw [e, BitVec.toNat_setWidth, toNat_wordOf]
  have := a.isLt; have := b.isLt
  have h0 : (0 : Byte).toNat = 0 := rfl
  omega

theorem version_packetOf (l : List Byte) (a b c d : Byte) :
    (((packetOf (a :: b :: c :: d :: l)).w0 &&& 0xFFFF).setWidth 16 : U16).toNat = c.toNat * 256 + d.toNat := by
  have e : ((wordOf a b c d &&& 0xFFFF).setWidth 16 : U16) = (wordOf 0 0 c d &&& 0xFFFF).setWidth 16 := by
    unfold wordOf; bits
  have e2 : (packetOf (a :: b :: c :: d :: l)).w0 = wordOf a b c d := w0_packetOf _
  rw [e2, e, join16]

theorem low_bits (l : List Byte) (a b c d e f g h : Byte) :
    ((packetOf (a :: b :: c :: d :: e :: f :: g :: h :: l)).w1 &&& 0b11111).setWidth 8 = h &&& 0b11111 := by
  rw [w1_packetOf]
  show ((wordOf e f g h &&& 0b11111).setWidth 8 : Byte) = _
  unfold wordOf; bits

theorem and1F {b : Byte} (h : b < 32) : b &&& 0b11111 = b := by revert h; revert b; decide +kernel
theorem and0F {b : Byte} (h : b < 16) : b &&& 0b1111 = b := by revert h; revert b; decide +kernel
theorem and3 {b : Byte} (h : b < 4) : b &&& 0b11 = b := by revert h; revert b; decide +kernel

theorem flag_bits (b : Byte) : (b &&& 0b00001 != 0) = b.toNat.testBit 0 ∧ (b &&& 0b00010 != 0) = b.toNat.testBit 1 ∧
    (b &&& 0b00100 != 0) = b.toNat.testBit 2 ∧ (b &&& 0b01000 != 0) = b.toNat.testBit 3 ∧
    (b &&& 0b10000 != 0) = b.toNat.testBit 4 := by
  revert b; decide +kernel

/-- C45: endpoint discovery messages. -/
theorem C45_endpoint_discovery (filter major minor : Byte) (hf : filter < 32) :
    ∃ p, makeEndpointDiscovery filter major minor = .ok p ∧ p = packetOf [0xF0, 0x00, major, minor, 0, 0, 0, filter] ∧
      IsStream p 0x00 ∧ EndpointDiscoveryView.umpVersionMajor p = major ∧ EndpointDiscoveryView.umpVersionMinor p = minor ∧
      (EndpointDiscoveryView.umpVersion p).toNat = major.toNat * 256 + minor.toNat ∧ EndpointDiscoveryView.filter p = filter ∧
      EndpointDiscoveryView.requestsInfo p = filter.toNat.testBit 0 ∧
      EndpointDiscoveryView.requestsDeviceIdentity p = filter.toNat.testBit 1 ∧
      EndpointDiscoveryView.requestsName p = filter.toNat.testBit 2 ∧
      EndpointDiscoveryView.requestsProductInstanceId p = filter.toNat.testBit 3 ∧
      EndpointDiscoveryView.requestsStreamConfiguration p = filter.toNat.testBit 4 := by
  have e : makeEndpointDiscovery filter major minor = .ok (packetOf [0xF0, 0x00, major, minor, 0, 0, 0, filter]) := by
    unfold makeEndpointDiscovery
    simp only [streamMessage_eq]
    rw [setByte_packetOf _ 2 _ (by omega) (by simp), ok_bind, setByte_packetOf _ 3 _ (by omega) (by simp),
      ok_bind]
    have : { packetOf [0xF0, 0x00, major, minor] with w1 := filter.setWidth 32 } =
        packetOf [0xF0, 0x00, major, minor, 0, 0, 0, filter] := by
      unfold packetOf
      simp only [wordOfBytes_eq]
      congr 1
      show _ = wordOf 0 0 0 filter
      unfold wordOf; bits
    exact congrArg Except.ok this
  have hfl : EndpointDiscoveryView.filter (packetOf [0xF0, 0x00, major, minor, 0, 0, 0, filter]) = filter :=
    (low_bits [] _ _ _ _ _ _ _ _).trans (and1F hf)
  obtain ⟨t0, t1, t2, t3, t4⟩ := flag_bits filter
  refine ⟨_, e, rfl, isStream_F0 _ _, byte3_packetOf _, byte4_packetOf _, version_packetOf _ _ _ _ _, hfl, ?_, ?_, ?_, ?_, ?_⟩
  · rw [EndpointDiscoveryView.requestsInfo, hfl, t0]
  · rw [EndpointDiscoveryView.requestsDeviceIdentity, hfl, t1]
  · rw [EndpointDiscoveryView.requestsName, hfl, t2]
  · rw [EndpointDiscoveryView.requestsProductInstanceId, hfl, t3]
  · rw [EndpointDiscoveryView.requestsStreamConfiguration, hfl, t4]

example := C45_endpoint_discovery 0x1F 1 1 (by decide)

/-- C45: endpoint info messages. -/
theorem C45_endpoint_info (n : Byte) (fixed : Bool) (protocols extensions major minor : Byte) (hn : n < 128)
    (hp : protocols < 4) (he : extensions < 4) :
    ∃ p, makeEndpointInfo n fixed protocols extensions major minor = .ok p ∧
      p = packetOf [0xF0, 0x01, major, minor, (if fixed then 0x80 else 0) + n, 0, protocols, extensions] ∧
      IsStream p 0x01 ∧ EndpointInfoView.umpVersionMajor p = major ∧ EndpointInfoView.umpVersionMinor p = minor ∧
      (EndpointInfoView.umpVersion p).toNat = major.toNat * 256 + minor.toNat ∧
      EndpointInfoView.numFunctionBlocks p = .ok n ∧ EndpointInfoView.staticFunctionBlocks p = .ok fixed ∧
      EndpointInfoView.protocols p = .ok protocols ∧ EndpointInfoView.extensions p = .ok extensions := by
  have hb : ((if fixed then 0x80 else 0x00) ||| n) = (if fixed then 0x80 else 0) + n ∧
      ((if fixed then 0x80 else 0) + n) &&& 0x7F = n ∧ (((if fixed then 0x80 else 0) + n) &&& 0x80 != 0) = fixed := by
    clear hp he; revert hn; revert n; revert fixed; decide +kernel
  obtain ⟨h1, h2, h3⟩ := hb
  generalize (if fixed then 0x80 else 0) + n = x at *
  have e : makeEndpointInfo n fixed protocols extensions major minor =
      .ok (packetOf [0xF0, 0x01, major, minor, x, 0, protocols, extensions]) := by
    unfold makeEndpointInfo
    simp only [streamMessage_eq]
    rw [setByte_packetOf _ 2 _ (by omega) (by simp), ok_bind, setByte_packetOf _ 3 _ (by omega) (by simp),
      ok_bind, setByte_packetOf _ 4 _ (by omega) (by simp), ok_bind, setByte_packetOf _ 6 _ (by omega) (by simp), ok_bind,
      setByte_packetOf _ 7 _ (by omega) (by simp), h1]
    simp only [List.cons_append, List.nil_append, List.length_cons, List.length_nil, Nat.reduceAdd, Nat.reduceSub,
      List.replicate, Format.code]
    rfl
  refine ⟨_, e, rfl, isStream_F0 _ _, byte3_packetOf _, byte4_packetOf _, version_packetOf _ _ _ _ _, ?_, ?_, ?_, ?_⟩
  · rw [EndpointInfoView.numFunctionBlocks, getByte_packetOf _ (by omega)]
    exact congrArg Except.ok h2
  · rw [EndpointInfoView.staticFunctionBlocks, getByte_packetOf _ (by omega)]
    exact congrArg Except.ok h3
  · rw [EndpointInfoView.protocols, getByte_packetOf _ (by omega)]
    exact congrArg Except.ok (and3 hp)
  · rw [EndpointInfoView.extensions, getByte_packetOf _ (by omega)]
    exact congrArg Except.ok (and3 he)

example := C45_endpoint_info 5 true 3 2 1 1 (by decide) (by decide) (by decide)

theorem mask_id {m : Word} (h1 : m.toNat / 65536 < 128) (h2 : m.toNat / 256 % 256 < 128) (h3 : m.toNat % 256 < 128) :
    m &&& 0x007F7F7F = m := by
  have b0 : ∀ b : Byte, (b.toNat < 128 → b &&& 0x7F = b) ∧ (b.toNat = 0 → b &&& 0x00 = b) := by decide +kernel
  have e : m &&& (0x007F7F7F : Word) = wordOf (byteOf m 0 &&& 0x00) (byteOf m 1 &&& 0x7F) (byteOf m 2 &&& 0x7F)
      (byteOf m 3 &&& 0x7F) := by unfold wordOf byteOf; bits
  have := m.isLt
  rw [e, (b0 _).2 (by rw [toNat_byteOf]; omega), (b0 _).1 (by rw [toNat_byteOf]; omega),
    (b0 _).1 (by rw [toNat_byteOf]; omega), (b0 _).1 (by rw [toNat_byteOf]; omega)]
  unfold wordOf byteOf; bits

/-- C45: device identity messages carry the eleven bytes `add_device_identity` adds to a sysex message (C38) from byte 5 on. -/
theorem C45_device_identity_bytes (i : DeviceIdentity) (h : ValidIdentity i) :
    ∃ bytes, (∀ s : Sysex, s.addDeviceIdentity i = .ok { s with data := s.data ++ bytes }) ∧
      makeDeviceIdentityMessage i = packetOf ([0xF0, 0x02, 0, 0, 0] ++ bytes) := by
  refine ⟨_, fun s => addDeviceIdentity_eq s i h, ?_⟩
  obtain ⟨m, f, d, r⟩ := i
  obtain ⟨h1, h2, h3, -, -, -⟩ := h
  simp only at h1 h2 h3
  have em := mask_id h1 h2 h3
  unfold packetOf makeDeviceIdentityMessage
  simp only [wordOfBytes_eq, List.cons_append, List.nil_append, List.getD_cons_succ, List.getD_cons_zero]
  rw [Packet.mk.injEq]
  refine ⟨rfl, ?_, ?_, ?_⟩
  · conv => lhs; rw [← em]
    clear em; unfold wordOf; bits
  · clear em; unfold wordOf; bits
  · clear em; unfold wordOf; bits

example := C45_device_identity_bytes ⟨0x002109, 0x1730, 0x2A01, 0x0102030⟩ (by decide)

/-- C45: device identity messages. -/
theorem C45_device_identity (i : DeviceIdentity) (h : ValidIdentity i) :
    IsStream (makeDeviceIdentityMessage i) 0x02 ∧ deviceIdentityViewIdentity (makeDeviceIdentityMessage i) = i := by
  obtain ⟨m, f, d, r⟩ := i
  obtain ⟨h1, h2, h3, h4, h5, h6⟩ := h
  simp only at h1 h2 h3 h4 h5 h6
  constructor
  · constructor
    · rw [Packet.byteAt_eq, show (makeDeviceIdentityMessage ⟨m, f, d, r⟩).word (0 / 4) = 0xF0020000 from rfl]; rfl
    · rw [Packet.byteAt_eq, show (makeDeviceIdentityMessage ⟨m, f, d, r⟩).word (1 / 4) = 0xF0020000 from rfl]; rfl
  · unfold deviceIdentityViewIdentity makeDeviceIdentityMessage
    have em := mask_id h1 h2 h3
    have hf : f[14] = false ∧ f[15] = false := by
      constructor <;> (rw [← BitVec.getLsbD_eq_getElem, ← BitVec.testBit_toNat]; apply Nat.testBit_lt_two_pow; omega)
    have hd : d[14] = false ∧ d[15] = false := by
      constructor <;> (rw [← BitVec.getLsbD_eq_getElem, ← BitVec.testBit_toNat]; apply Nat.testBit_lt_two_pow; omega)
    have hr : r[28] = false ∧ r[29] = false ∧ r[30] = false ∧ r[31] = false := by
      refine ⟨?_, ?_, ?_, ?_⟩ <;>
        (rw [← BitVec.getLsbD_eq_getElem, ← BitVec.testBit_toNat]; apply Nat.testBit_lt_two_pow; omega)
    obtain ⟨f1, f2⟩ := hf
    obtain ⟨d1, d2⟩ := hd
    obtain ⟨r1, r2, r3, r4⟩ := hr
    rw [DeviceIdentity.mk.injEq]
    refine ⟨em, ?_, ?_, ?_⟩
    · clear em; bits [f1, f2]
    · clear em; bits [d1, d2]
    · clear em; bits [r1, r2, r3, r4]

example := C45_device_identity ⟨0x002109, 0x1730, 0x2A01, 0x0102030⟩ (by decide)

/-- C45: stream configuration requests and notifications, for the two protocols; others fail the assertion. -/
theorem C45_stream_configuration (protocol extensions : Byte) (he : extensions < 4) :
    (protocol = 1 ∨ protocol = 2 → ∃ p q, makeStreamConfigurationRequest protocol extensions = .ok p ∧
      makeStreamConfigurationNotification protocol extensions = .ok q ∧
      p = packetOf [0xF0, 0x05, protocol, extensions] ∧ q = packetOf [0xF0, 0x06, protocol, extensions] ∧
      IsStream p 0x05 ∧ IsStream q 0x06 ∧
      StreamConfigurationView.protocol p = protocol ∧ StreamConfigurationView.extensions p = extensions ∧
      StreamConfigurationView.protocol q = protocol ∧ StreamConfigurationView.extensions q = extensions) ∧
    (¬ (protocol = 1 ∨ protocol = 2) → makeStreamConfigurationRequest protocol extensions = .error .assertFailed ∧
      makeStreamConfigurationNotification protocol extensions = .error .assertFailed) := by
  have hc : (decide (protocol ≠ 0) && decide (protocol < 3)) = decide (protocol = 1 ∨ protocol = 2) := by
    revert protocol; decide +kernel
  constructor
  · intro h
    have hp : protocol < 4 := by rcases h with rfl | rfl <;> decide
    have ea : (decide (protocol ≠ 0) && decide (protocol < 3)) = true := by rw [hc]; exact decide_eq_true h
    have e1 : makeStreamConfigurationRequest protocol extensions = .ok (packetOf [0xF0, 0x05, protocol, extensions]) := by
      unfold makeStreamConfigurationRequest
      rw [ea, streamMessage_eq]
      simp only [assert_ok, ok_bind]
      rw [setByte_packetOf _ 2 _ (by omega) (by simp), ok_bind, setByte_packetOf _ 3 _ (by omega) (by simp)]
      rfl
    have e2 : makeStreamConfigurationNotification protocol extensions = .ok (packetOf [0xF0, 0x06, protocol, extensions]) := by
      unfold makeStreamConfigurationNotification
      rw [ea, streamMessage_eq]
      simp only [assert_ok, ok_bind]
      rw [setByte_packetOf _ 2 _ (by omega) (by simp), ok_bind, setByte_packetOf _ 3 _ (by omega) (by simp)]
      rfl
    refine ⟨_, _, e1, e2, rfl, rfl, isStream_F0 _ _, isStream_F0 _ _, ?_, ?_, ?_, ?_⟩
    · rw [StreamConfigurationView.protocol, byte3_packetOf]; exact and3 hp
    · rw [StreamConfigurationView.extensions, byte4_packetOf]; exact and3 he
    · rw [StreamConfigurationView.protocol, byte3_packetOf]; exact and3 hp
    · rw [StreamConfigurationView.extensions, byte4_packetOf]; exact and3 he
  · intro h
    have ea : (decide (protocol ≠ 0) && decide (protocol < 3)) = false := by rw [hc]; exact decide_eq_false h
    unfold makeStreamConfigurationRequest makeStreamConfigurationNotification
    rw [ea]
    exact ⟨rfl, rfl⟩

example := C45_stream_configuration 2 3 (by decide)

/-- C45: function block discovery messages, for one block or for all (255). -/
theorem C45_function_block_discovery (block filter : Byte) (hb : block < 32 ∨ block = 0xFF) (hf : filter < 16) :
    ∃ p, makeFunctionBlockDiscovery block filter = .ok p ∧ p = packetOf [0xF0, 0x10, block, filter] ∧ IsStream p 0x10 ∧
      FunctionBlockDiscoveryView.functionBlock p = block ∧ FunctionBlockDiscoveryView.filter p = filter ∧
      (∀ b, FunctionBlockDiscoveryView.requestsFunctionBlock p b = true ↔ block = 0xFF ∨ b = block) ∧
      FunctionBlockDiscoveryView.requestsInfo p = filter.toNat.testBit 0 ∧
      FunctionBlockDiscoveryView.requestsName p = filter.toNat.testBit 1 := by
  have ea : (decide (block = 0xFF) || decide (block < 32)) = true := by
    rw [Bool.or_eq_true, decide_eq_true_eq, decide_eq_true_eq]; exact hb.symm
  have e : makeFunctionBlockDiscovery block filter = .ok (packetOf [0xF0, 0x10, block, filter]) := by
    unfold makeFunctionBlockDiscovery
    rw [ea, streamMessage_eq]
    simp only [assert_ok, ok_bind]
    rw [setByte_packetOf _ 2 _ (by omega) (by simp), ok_bind, setByte_packetOf _ 3 _ (by omega) (by simp)]
    rfl
  have h1 : FunctionBlockDiscoveryView.functionBlock (packetOf [0xF0, 0x10, block, filter]) = block := byte3_packetOf _
  have h2 : FunctionBlockDiscoveryView.filter (packetOf [0xF0, 0x10, block, filter]) = filter := by
    rw [FunctionBlockDiscoveryView.filter, byte4_packetOf]; exact and0F hf
  obtain ⟨t0, t1, _⟩ := flag_bits filter
  refine ⟨_, e, rfl, isStream_F0 _ _, h1, h2, fun b => ?_, ?_, ?_⟩
  · rw [FunctionBlockDiscoveryView.requestsFunctionBlock, h1, Bool.or_eq_true, beq_iff_eq, beq_iff_eq]
    exact or_congr Iff.rfl eq_comm
  · rw [FunctionBlockDiscoveryView.requestsInfo, h2]; exact t0
  · rw [FunctionBlockDiscoveryView.requestsName, h2]; exact t1

example := C45_function_block_discovery 0xFF 0xF (by decide) (by decide)

/-- The options `make_function_block_info_message` accepts: a direction, one of three MIDI 1 modes, and no user interface
hint or one that is compatible with the direction. -/
def Spec.ValidOptions (o : FunctionBlockOptions) : Prop :=
  (o.direction = 1 ∨ o.direction = 2 ∨ o.direction = 3) ∧ (o.midi1 = 0 ∨ o.midi1 = 1 ∨ o.midi1 = 2) ∧
    (o.uiHint = 0 ∨ o.uiHint = o.direction ∨ o.direction = 3 ∧ (o.uiHint = 1 ∨ o.uiHint = 2) ∨
      o.uiHint = 3)

instance (o : FunctionBlockOptions) : Decidable (ValidOptions o) := inferInstanceAs (Decidable (_ ∧ _))

theorem fb_bits (l : List Byte) (a b c d : Byte) :
    FunctionBlockInfoView.active (packetOf (a :: b :: c :: d :: l)) = (c &&& 0x80 != 0) ∧
    FunctionBlockInfoView.direction (packetOf (a :: b :: c :: d :: l)) = d &&& 3 ∧
    FunctionBlockInfoView.midi1 (packetOf (a :: b :: c :: d :: l)) = (d >>> 2) &&& 3 ∧
    FunctionBlockInfoView.uiHint (packetOf (a :: b :: c :: d :: l)) = (d >>> 4) &&& 3 := by
  have e : (packetOf (a :: b :: c :: d :: l)).w0 = wordOf a b c d := w0_packetOf _
  refine ⟨?_, ?_, ?_, ?_⟩
  · rw [FunctionBlockInfoView.active, e]
    have e2 : wordOf a b c d &&& 0x00008000 = wordOf 0 0 (c &&& 0x80) 0 := by unfold wordOf; bits
    rw [e2, bne, bne]
    congr 1
    rw [Bool.eq_iff_iff, beq_iff_eq, beq_iff_eq, show (0 : Word) = wordOf 0 0 0 0 by rfl, wordOf_inj]
    exact ⟨fun h => h.2.2.1, fun h => ⟨rfl, rfl, h, rfl⟩⟩
  · rw [FunctionBlockInfoView.direction, e]; unfold wordOf; bits
  · rw [FunctionBlockInfoView.midi1, e]; unfold wordOf; bits
  · rw [FunctionBlockInfoView.uiHint, e]; unfold wordOf; bits

theorem fb_index (x : Byte) (b : Byte) (hb : b < 32) (hx : x = 0x80 ∨ x = 0) :
    x ||| (b &&& 0x1F) = x + b ∧ (x + b) &&& 0x7F = b ∧ ((x + b) &&& 0x80 != 0) = decide (x = 0x80) := by
  rcases hx with rfl | rfl <;> (revert hb; revert b; decide +kernel)

/-- C45: function block info messages with options. Partial: a missing user interface hint reads back as the direction, and a
block that spans all 16 groups is excluded, see `C45_sixteen_groups`. -/
theorem C45_function_block_info_partial (block : Byte) (o : FunctionBlockOptions) (group n : Byte) (hb : block < 32)
    (ho : ValidOptions o) (hg : group < 16) (hn : n < 16) :
    ∃ p, makeFunctionBlockInfoWith block o group n = .ok p ∧
      p = packetOf [0xF0, 0x11, (if o.active then 0x80 else 0) + block,
        (if o.uiHint = 0 then o.direction else o.uiHint) * 16 + o.midi1 * 4 + o.direction, group, n, o.ciMessageVersion,
        o.maxNumSysex8Streams] ∧ IsStream p 0x11 ∧
      FunctionBlockInfoView.active p = o.active ∧ FunctionBlockInfoView.functionBlock p = .ok block ∧
      FunctionBlockInfoView.direction p = o.direction ∧ FunctionBlockInfoView.midi1 p = o.midi1 ∧
      FunctionBlockInfoView.uiHint p = (if o.uiHint = 0 then o.direction else o.uiHint) ∧
      FunctionBlockInfoView.firstGroup p = .ok group ∧ FunctionBlockInfoView.numGroupsSpanned p = .ok n ∧
      FunctionBlockInfoView.ciMessageVersion p = .ok o.ciMessageVersion ∧
      FunctionBlockInfoView.maxNumSysex8Streams p = .ok o.maxNumSysex8Streams := by
  obtain ⟨act, dir, m1, hint, ci, mx⟩ := o
  obtain ⟨hd, hm, hu⟩ := ho
  simp only at hd hm hu ⊢
  have hx : (if act then (0x80 : Byte) else 0) = 0x80 ∨ (if act then (0x80 : Byte) else 0) = 0 := by cases act <;> simp
  obtain ⟨k1, k2, k3⟩ := fb_index _ block hb hx
  have k4 : decide ((if act then (0x80 : Byte) else 0) = 0x80) = act := by cases act <;> rfl
  have hint3 : hint = 0 ∨ hint = 1 ∨ hint = 2 ∨ hint = 3 := by
    rcases hu with h | h | ⟨_, h | h⟩ | h
    · exact Or.inl h
    · rw [h]; exact Or.inr hd
    · exact Or.inr (Or.inl h)
    · exact Or.inr (Or.inr (Or.inl h))
    · exact Or.inr (Or.inr (Or.inr h))
  have asserts : (decide (dir > 0) && decide (dir < 4)) = true ∧ decide (m1 < 3) = true ∧ decide (hint < 4) = true ∧
      (decide (hint = 0) || (dir &&& hint != 0)) = true := by
    refine ⟨?_, ?_, ?_, ?_⟩
    · rcases hd with rfl | rfl | rfl <;> rfl
    · rcases hm with rfl | rfl | rfl <;> rfl
    · rcases hint3 with rfl | rfl | rfl | rfl <;> rfl
    · rcases hu with rfl | rfl | ⟨rfl, rfl | rfl⟩ | rfl
      · rfl
      · rcases hd with rfl | rfl | rfl <;> rfl
      · rfl
      · rfl
      · rcases hd with rfl | rfl | rfl <;> rfl
  obtain ⟨a1, a2, a3, a4⟩ := asserts
  have bytes : ((((if hint ≠ 0 then hint else dir) &&& 0x03) <<< 4) ||| ((m1 &&& 0x03) <<< 2) ||| (dir &&& 0x03)) =
      (if hint = 0 then dir else hint) * 16 + m1 * 4 + dir ∧
      ((if hint = 0 then dir else hint) * 16 + m1 * 4 + dir) &&& 3 = dir ∧
      (((if hint = 0 then dir else hint) * 16 + m1 * 4 + dir) >>> 2) &&& 3 = m1 ∧
      (((if hint = 0 then dir else hint) * 16 + m1 * 4 + dir) >>> 4) &&& 3 = (if hint = 0 then dir else hint) := by
    rcases hd with rfl | rfl | rfl <;> rcases hm with rfl | rfl | rfl <;> rcases hint3 with rfl | rfl | rfl | rfl <;>
      exact ⟨rfl, rfl, rfl, rfl⟩
  obtain ⟨b1, b2, b3, b4⟩ := bytes
  generalize (if hint = 0 then dir else hint) * 16 + m1 * 4 + dir = x at *
  have e : makeFunctionBlockInfoWith block ⟨act, dir, m1, hint, ci, mx⟩ group n =
      .ok (packetOf [0xF0, 0x11, (if act then 0x80 else 0) + block, x, group, n, ci, mx]) := by
    unfold makeFunctionBlockInfoWith
    simp only [a1, a2, a3, a4, decide_eq_true hb, assert_ok, ok_bind]
    rw [streamMessage_eq, setByte_packetOf _ 2 _ (by omega) (by simp), ok_bind, setByte_packetOf _ 3 _ (by omega) (by simp),
      ok_bind, setByte_packetOf _ 4 _ (by omega) (by simp), ok_bind, setByte_packetOf _ 5 _ (by omega) (by simp), ok_bind,
      setByte_packetOf _ 6 _ (by omega) (by simp), ok_bind, setByte_packetOf _ 7 _ (by omega) (by simp), k1, b1, and0F hg,
      and0F hn]
    simp only [List.cons_append, List.nil_append, List.length_cons, List.length_nil, Nat.reduceAdd, Nat.reduceSub,
      List.replicate, Format.code]
    rfl
  obtain ⟨v1, v2, v3, v4⟩ := fb_bits [group, n, ci, mx] 0xF0 0x11 ((if act then 0x80 else 0) + block) x
  refine ⟨_, e, rfl, isStream_F0 _ _, by rw [v1, k3, k4], ?_, by rw [v2, b2], by rw [v3, b3], by rw [v4, b4],
    getByte_packetOf _ (by omega), getByte_packetOf _ (by omega), getByte_packetOf _ (by omega),
    getByte_packetOf _ (by omega)⟩
  rw [FunctionBlockInfoView.functionBlock, Packet.getByte7, getByte_packetOf _ (by omega)]
  exact congrArg Except.ok k2

example := C45_function_block_info_partial 5 { direction := 2, midi1 := 1, uiHint := 2 } 3 4 (by decide) (by decide) (by decide) (by decide)

/-- C45: function block info messages with a direction are those with the default options and that direction. -/
theorem C45_function_block_info_direction (block direction group n : Byte) (hb : block < 32)
    (hd : direction = 1 ∨ direction = 2 ∨ direction = 3) :
    makeFunctionBlockInfo block direction group n = makeFunctionBlockInfoWith block { direction := direction } group n := by
  have a1 : (decide (direction > 0) && decide (direction < 4)) = true := by rcases hd with rfl | rfl | rfl <;> rfl
  unfold makeFunctionBlockInfo makeFunctionBlockInfoWith
  have h6 : ∀ a b c d e f : Byte, packetOf ([a, b, c, d, e, f] ++ (List.replicate 0 0 ++ [0]) ++ (List.replicate 0 0 ++ [0])) =
      packetOf [a, b, c, d, e, f] := by
    intro a b c d e f
    apply packetOf_congr
    intro i hi
    have : i = 0 ∨ i = 1 ∨ i = 2 ∨ i = 3 ∨ i = 4 ∨ i = 5 ∨ i = 6 ∨ i = 7 ∨ 8 ≤ i := by omega
    rcases this with rfl | rfl | rfl | rfl | rfl | rfl | rfl | rfl | h
    all_goals first | rfl | skip
    rw [List.getD_eq_getElem?_getD, List.getD_eq_getElem?_getD, List.getElem?_eq_none (by simp; omega),
      List.getElem?_eq_none (by simp; omega)]
  simp only [a1, decide_eq_true hb, assert_ok, ok_bind]
  rw [streamMessage_eq, setByte_packetOf _ 2 _ (by omega) (by simp), ok_bind, setByte_packetOf _ 3 _ (by omega) (by simp),
    ok_bind, setByte_packetOf _ 4 _ (by omega) (by simp), ok_bind, setByte_packetOf _ 5 _ (by omega) (by simp)]
  show _ = (Except.ok () >>= fun _ => Except.ok () >>= fun _ => Except.ok () >>= fun _ => _)
  simp only [ok_bind]
  rw [setByte_packetOf _ 2 _ (by omega) (by simp), ok_bind, setByte_packetOf _ 3 _ (by omega) (by simp),
    ok_bind, setByte_packetOf _ 4 _ (by omega) (by simp), ok_bind, setByte_packetOf _ 5 _ (by omega) (by simp), ok_bind,
    setByte_packetOf _ 6 _ (by omega) (by simp), ok_bind, setByte_packetOf _ 7 _ (by omega) (by simp)]
  have e0 : ((direction &&& 0x03) <<< 4) ||| (((0 : Byte) &&& 0x03) <<< 2) ||| (direction &&& (0x03 : Byte)) =
      ((direction &&& 0x03) <<< 4) ||| (direction &&& 0x03) := by rcases hd with rfl | rfl | rfl <;> rfl
  simp only [ne_eq, not_true_eq_false, if_false, if_true]
  rw [e0]
  simp only [List.cons_append, List.nil_append, List.length_cons, List.length_nil, Nat.reduceAdd, Nat.reduceSub,
    List.replicate]
  have := h6 (0xF0 + 4 * Format.complete.code) StreamStatus.functionBlockInfo (0x80 ||| (block &&& 0x1F))
    (((direction &&& 0x03) <<< 4) ||| (direction &&& 0x03)) (group &&& 0xF) (n &&& 0xF)
  simp only [List.cons_append, List.nil_append, List.replicate] at this
  rw [this]

example := C45_function_block_info_direction 5 2 3 4 (by decide) (by decide)

/-- C45, exactly what reads back of a function block info message, for any group and number of groups: both are reduced to
four bits, and a missing user interface hint reads back as the direction. Everything else reads back as it was passed. -/
theorem C45_function_block_info_exact (block : Byte) (o : FunctionBlockOptions) (group n : Byte) (hb : block < 32)
    (ho : ValidOptions o) :
    ∃ p, makeFunctionBlockInfoWith block o group n = .ok p ∧ IsStream p 0x11 ∧
      FunctionBlockInfoView.active p = o.active ∧ FunctionBlockInfoView.functionBlock p = .ok block ∧
      FunctionBlockInfoView.direction p = o.direction ∧ FunctionBlockInfoView.midi1 p = o.midi1 ∧
      FunctionBlockInfoView.uiHint p = (if o.uiHint = 0 then o.direction else o.uiHint) ∧
      FunctionBlockInfoView.firstGroup p = .ok (group % 16) ∧ FunctionBlockInfoView.numGroupsSpanned p = .ok (n % 16) ∧
      FunctionBlockInfoView.ciMessageVersion p = .ok o.ciMessageVersion ∧
      FunctionBlockInfoView.maxNumSysex8Streams p = .ok o.maxNumSysex8Streams := by
  have hm : ∀ x : Byte, x % 16 < 16 ∧ x &&& 0xF = (x % 16) &&& 0xF := by decide +kernel
  obtain ⟨p, h1, -, h2⟩ := C45_function_block_info_partial block o (group % 16) (n % 16) hb ho (hm group).1 (hm n).1
  refine ⟨p, ?_, h2⟩
  rw [← h1]
  unfold makeFunctionBlockInfoWith
  rw [(hm group).2, (hm n).2]

example := C45_function_block_info_exact 5 { direction := 2, midi1 := 1, uiHint := 2 } 0x13 0x14 (by decide) (by decide)

/-- C45, exact condition: group, number of groups and user interface hint read back as they were passed if and only if they
are less than 16 and a hint was passed. -/
theorem C45_function_block_info_iff (block : Byte) (o : FunctionBlockOptions) (group n : Byte) (hb : block < 32)
    (ho : ValidOptions o) :
    ∃ p, makeFunctionBlockInfoWith block o group n = .ok p ∧
      ((FunctionBlockInfoView.firstGroup p = .ok group ∧ FunctionBlockInfoView.numGroupsSpanned p = .ok n ∧
        FunctionBlockInfoView.uiHint p = o.uiHint) ↔ group < 16 ∧ n < 16 ∧ o.uiHint ≠ 0) := by
  obtain ⟨p, h1, -, -, -, -, -, h2, h3, h4, -⟩ := C45_function_block_info_exact block o group n hb ho
  refine ⟨p, h1, ?_⟩
  have hm : ∀ x : Byte, x % 16 = x ↔ x < 16 := by decide +kernel
  have hd : o.direction ≠ 0 := by
    intro h
    have := ho.1
    rw [h] at this
    revert this
    decide
  rw [h2, h3, h4, Except.ok.injEq, Except.ok.injEq, hm, hm]
  refine and_congr_right fun _ => and_congr_right fun _ => ?_
  by_cases h0 : o.uiHint = 0
  · rw [if_pos h0, h0]; exact ⟨fun h => absurd h hd, fun h => absurd rfl h⟩
  · rw [if_neg h0]; exact ⟨fun _ => h0, fun _ => rfl⟩

example := C45_function_block_info_iff 5 { direction := 2, midi1 := 1, uiHint := 2 } 0x13 0x14 (by decide) (by decide)

/-- C45: spanning all 16 groups cannot be expressed: the number of groups reads back as zero. -/
theorem C45_sixteen_groups : ∃ p, makeFunctionBlockInfo 0 3 0 16 = .ok p ∧
    FunctionBlockInfoView.numGroupsSpanned p = .ok 0 := ⟨_, rfl, rfl⟩

/-- C45: 128 or more function blocks set the flag for static function blocks. -/
theorem C45_too_many_blocks : ∃ p, makeEndpointInfo 128 false 2 0 1 1 = .ok p ∧
    EndpointInfoView.numFunctionBlocks p = .ok 0 ∧ EndpointInfoView.staticFunctionBlocks p = .ok true := ⟨_, rfl, rfl, rfl⟩

/-- C45: satisfying the hypotheses. -/
example : ValidOptions {} ∧ ValidOptions { active := false, direction := 3, midi1 := 2, uiHint := 1 } ∧
    ValidOptions { direction := 1, midi1 := 1, uiHint := 1 } ∧ ¬ ValidOptions { direction := 1, uiHint := 2 } ∧
    ValidIdentity ⟨0x002109, 0x1730, 0x2A01, 0x0102030⟩ := by decide

/-! ## C44 -/

theorem mapM_ok {α β : Type} {f : α → Except Fault β} {g : α → β} : ∀ {l : List α}, (∀ a ∈ l, f a = .ok (g a)) →
    l.mapM f = .ok (l.map g)
  | [], _ => rfl
  | a :: l, h => by
    rw [List.mapM_cons, h a (by simp), ok_bind, mapM_ok (fun b hb => h b (by simp [hb]))]; rfl

/-- The messages a name is split into: one complete message, or a start, continue and an end message. -/
def nameChunks (n : Nat) (name : List Byte) : List Chunk :=
  if name.length ≤ n then [(.complete, name)] else chunks n id .start [] name

theorem nameChunks_facts {n : Nat} (hn : 0 < n) (name : List Byte) :
    Framed ((nameChunks n name).map (·.1.code.toNat)) ∧ (nameChunks n name).flatMap (·.2) = name ∧
    (∀ c ∈ (nameChunks n name).dropLast, c.2.length = n) ∧ (∀ c ∈ nameChunks n name, c.2.length ≤ n) := by
  unfold nameChunks
  by_cases h : name.length ≤ n
  · rw [if_pos h]
    exact ⟨Or.inl rfl, by simp, by simp, by simpa using h⟩
  · rw [if_neg h]
    obtain ⟨⟨k, h1⟩, h2, h3, h4⟩ := chunks_framed (N := n) id _ .start [] name rfl (by simpa using hn) (by simp; omega)
    exact ⟨Or.inr ⟨k, h1⟩, by simpa using h2, h3, fun c hc => (h4 c hc).2⟩

theorem sendNameRest_eq (make : Format → List Byte → Except Fault Packet) {n : Nat} (hn : 0 < n) : ∀ (fuel : Nat) (name : List Byte),
    name.length ≤ fuel → name ≠ [] →
    sendNameRest make n fuel name = (chunks n id (if name.length ≤ n then .fin else .cont) [] name).mapM fun c => make c.1 c.2
  | 0, name, h, h0 => absurd (List.length_eq_zero_iff.1 (by omega)) h0
  | fuel + 1, name, h, h0 => by
    have hpos : 0 < name.length := List.length_pos_iff.2 h0
    rw [sendNameRest]
    by_cases hl : name.length ≤ n
    · rw [if_neg (by omega), if_pos hl, chunks_one _ _ _ _ (by simpa using hn) (by simp; omega) (by simpa using hl)]
      simp only [List.nil_append, List.map_id, List.mapM_cons, List.mapM_nil]
      cases make .fin name <;> rfl
    · rw [if_pos (by omega), if_neg hl, chunks_more _ _ _ _ (by simpa using hn) (by simp; omega),
        sendNameRest_eq make hn fuel (name.drop n) (by simp; omega) (by
          intro e; have := congrArg List.length e; simp at this; omega)]
      simp only [List.nil_append, List.map_id, List.mapM_cons, List.length_nil, Nat.sub_zero]

theorem sendName_eq (make : Format → List Byte → Except Fault Packet) {n : Nat} (hn : 0 < n) (name : List Byte) :
    (if name.length ≤ n then (do let p ← make .complete name; return [p])
      else do
        let p ← make .start (name.take n)
        let ps ← sendNameRest make n name.length (name.drop n)
        return p :: ps) = (nameChunks n name).mapM fun c => make c.1 c.2 := by
  unfold nameChunks
  by_cases h : name.length ≤ n
  · rw [if_pos h, if_pos h]
    simp only [List.mapM_cons, List.mapM_nil]
    cases make .complete name <;> rfl
  · rw [if_neg h, if_neg h, chunks_more _ _ _ _ (by simpa using hn) (by simp; omega),
      sendNameRest_eq make hn _ (name.drop n) (by simp) (by
          intro e; have := congrArg List.length e; simp at this; omega)]
    simp only [List.nil_append, List.map_id, List.mapM_cons, List.length_nil, Nat.sub_zero]

theorem makeEndpointName_eq (f : Format) (n : List Byte) (h : n.length ≤ 14) :
    makeEndpointName f n = .ok (packetOf ([0xF0 + 4 * f.code, 0x03] ++ n)) := by
  unfold makeEndpointName
  rw [decide_eq_true h]
  simp only [assert_ok, ok_bind]
  rw [streamMessage_eq]
  exact storeText8 n [_, _] (by simp; omega)

theorem makeFunctionBlockName_eq (f : Format) (b : Byte) (n : List Byte) (h : n.length ≤ 13) :
    makeFunctionBlockName f b n = .ok (packetOf ([0xF0 + 4 * f.code, 0x12, b] ++ n)) := by
  unfold makeFunctionBlockName
  rw [decide_eq_true h]
  simp only [assert_ok, ok_bind]
  rw [streamMessage_eq, setByte_packetOf _ 2 _ (by omega) (by simp), ok_bind]
  exact storeText8 n [_, _, _] (by simp; omega)

theorem makeProductInstanceId_eq (f : Format) (hf : f ≠ .cont) (n : List Byte) (h : n.length ≤ 14) :
    makeProductInstanceId f n = .ok (packetOf ([0xF0 + 4 * f.code, 0x04] ++ n.map (· &&& 0x7F))) := by
  unfold makeProductInstanceId
  rw [decide_eq_true h, decide_eq_true hf]
  simp only [assert_ok, ok_bind]
  rw [streamMessage_eq]
  exact storeText7 n [_, _] (by simp; omega)

/-- The characters of a packet from a byte on, zeros at the end included. -/
def Spec.textBytes (start : Nat) (p : Packet) : List Byte := (List.range (16 - start)).map fun i => p.byteAt (start + i)

theorem textBytes_packetOf (hd text : List Byte) (h : hd.length + text.length ≤ 16) :
    textBytes hd.length (packetOf (hd ++ text)) = text ++ List.replicate (16 - hd.length - text.length) 0 := by
  unfold textBytes
  apply List.ext_getElem?
  intro i
  rw [List.getElem?_map]
  by_cases hi : i < 16 - hd.length
  · rw [List.getElem?_range hi, Option.map_some, byteAt_packetOf _ (by omega), List.getD_eq_getElem?_getD,
      List.getElem?_append_right (by omega), Nat.add_sub_cancel_left]
    by_cases h2 : i < text.length
    · rw [List.getElem?_append_left h2, List.getElem?_eq_getElem h2]; rfl
    · rw [List.getElem?_append_right (by omega), List.getElem?_eq_none (by omega), List.getElem?_replicate, if_pos (by omega)]
      rfl
  · rw [List.getElem?_eq_none (by simp; omega), List.getElem?_eq_none (by simp; omega)]; rfl

/-- What the packets of a name have in common. -/
theorem name_packets {n : Nat} (hn : 0 < n) (name : List Byte) (pk : Chunk → Packet)
    (get : Packet → Except Fault (List Byte)) (s : Byte)
    (h : ∀ c ∈ nameChunks n name, IsStream (pk c) s ∧ streamFormat (pk c) = c.1 ∧
      ((∀ b ∈ name, b &&& 0x7F ≠ 0) → get (pk c) = .ok (c.2.map (· &&& 0x7F))) ∧
      textBytes (16 - n) (pk c) = c.2 ++ List.replicate (n - c.2.length) 0) :
    (∀ p ∈ (nameChunks n name).map pk, IsStream p s) ∧
    Framed (((nameChunks n name).map pk).map fun p => (streamFormat p).code.toNat) ∧
    ((∀ b ∈ name, b &&& 0x7F ≠ 0) → ∃ ts, ((nameChunks n name).map pk).mapM get = .ok ts ∧
      ts.flatten = name.map (· &&& 0x7F) ∧ ∀ t ∈ ts.dropLast, t.length = n) ∧
    (∃ k ≤ n, ((nameChunks n name).map pk).flatMap (textBytes (16 - n)) = name ++ List.replicate k 0) := by
  obtain ⟨f1, f2, f3, f4⟩ := nameChunks_facts hn name
  refine ⟨?_, ?_, ?_, ?_⟩
  · intro p hp
    obtain ⟨c, hc, rfl⟩ := List.mem_map.1 hp
    exact (h c hc).1
  · have e : ((nameChunks n name).map pk).map (fun p => (streamFormat p).code.toNat) =
        (nameChunks n name).map (·.1.code.toNat) := by
      rw [List.map_map]
      refine List.map_congr_left fun c hc => ?_
      show (streamFormat (pk c)).code.toNat = _
      rw [(h c hc).2.1]
    rw [e]; exact f1
  · intro hname
    refine ⟨(nameChunks n name).map (·.2.map (· &&& 0x7F)), ?_, ?_, ?_⟩
    · rw [List.mapM_map]
      exact mapM_ok fun c hc => (h c hc).2.2.1 hname
    · rw [← List.flatMap_def, ← List.map_flatMap, f2]
    · intro t ht
      rw [← List.map_dropLast] at ht
      obtain ⟨c, hc, rfl⟩ := List.mem_map.1 ht
      rw [List.length_map]
      exact f3 c hc
  · rw [List.flatMap_map]
    have key : ∀ cs : List Chunk, (∀ c ∈ cs, c.2.length ≤ n ∧ textBytes (16 - n) (pk c) = c.2 ++ List.replicate (n - c.2.length) 0) →
        (∀ c ∈ cs.dropLast, c.2.length = n) →
        ∃ k ≤ n, (cs.flatMap fun a => textBytes (16 - n) (pk a)) = cs.flatMap (·.2) ++ List.replicate k 0 := by
      intro cs
      induction cs with
      | nil => intro _ _; exact ⟨0, by omega, rfl⟩
      | cons c cs ih =>
        intro h1 h2
        cases cs with
        | nil =>
          refine ⟨n - c.2.length, by omega, ?_⟩
          rw [List.flatMap_cons, List.flatMap_nil, List.flatMap_cons, List.flatMap_nil, (h1 c (by simp)).2]
          simp
        | cons c' cs =>
          rw [List.dropLast_cons_of_ne_nil (by simp)] at h2
          obtain ⟨k, hk, e⟩ := ih (fun x hx => h1 x (by simp [hx])) (fun x hx => h2 x (by simp [hx]))
          refine ⟨k, hk, ?_⟩
          rw [List.flatMap_cons, e, (h1 c (by simp)).2, h2 c (by simp), Nat.sub_self, List.flatMap_cons]
          simp
    obtain ⟨k, hk, e⟩ := key (nameChunks n name) (fun c hc => ⟨f4 c hc, (h c hc).2.2.2⟩) f3
    exact ⟨k, hk, by rw [e, f2]⟩

theorem ascii_facts {b : Byte} (h : b ≠ 0 ∧ b < 0x80) : b &&& 0x7F ≠ 0 ∧ b &&& 0x7F = b := by revert b; decide +kernel

theorem ascii_map {l : List Byte} (h : ∀ b ∈ l, b ≠ 0 ∧ b < 0x80) : l.map (· &&& 0x7F) = l := by
  conv => rhs; rw [← List.map_id l]
  exact List.map_congr_left fun b hb => (ascii_facts (h b hb)).2

theorem mem_name {n : Nat} (hn : 0 < n) {name : List Byte} {c : Chunk} (hc : c ∈ nameChunks n name) {b : Byte}
    (hb : b ∈ c.2) : b ∈ name := by
  rw [← (nameChunks_facts hn name).2.1]
  exact List.mem_flatMap.2 ⟨c, hc, hb⟩

/-- C44: an endpoint name of any length, made of any bytes, is sent in endpoint name messages: a complete one, or a start
message, continue messages and an end message. The characters in the packets are the name, filled up with at most 14 zeros.
The strings returned by the views of the packets add up to the name reduced to seven bit (unless this gives a NUL), and all
but the last have 14 characters. -/
theorem C44_endpoint_name (name : List Byte) :
    ∃ ps, sendEndpointName name = .ok ps ∧ (∀ p ∈ ps, IsStream p 0x03) ∧
      Framed (ps.map fun p => (streamFormat p).code.toNat) ∧
      ((∀ b ∈ name, b &&& 0x7F ≠ 0) → ∃ ts, ps.mapM endpointNamePayload = .ok ts ∧
        ts.flatten = name.map (· &&& 0x7F) ∧ ∀ t ∈ ts.dropLast, t.length = 14) ∧
      (∃ k ≤ 14, ps.flatMap (textBytes 2) = name ++ List.replicate k 0) := by
  obtain ⟨_, _, _, f4⟩ := nameChunks_facts (show 0 < 14 by omega) name
  have e : sendEndpointName name =
      .ok ((nameChunks 14 name).map fun c => packetOf ([0xF0 + 4 * c.1.code, 0x03] ++ c.2)) := by
    unfold sendEndpointName
    rw [sendName_eq _ (by omega)]
    exact mapM_ok fun c hc => makeEndpointName_eq c.1 c.2 (f4 c hc)
  refine ⟨_, e, name_packets (by omega) name _ endpointNamePayload 0x03 fun c hc => ⟨?_, ?_, ?_, ?_⟩⟩
  · exact isStream_packetOf _ _ _
  · exact streamFormat_packetOf _ _ _
  · intro hname
    exact readText7 14 [0xF0 + 4 * c.1.code, 0x03] c.2 rfl (f4 c hc) fun b hb => hname b (mem_name (by omega) hc hb)
  · exact textBytes_packetOf [_, _] c.2 (by have := f4 c hc; simp; omega)

/-- C44: a function block name of any length is sent in function block name messages of that function block. -/
theorem C44_function_block_name (block : Byte) (name : List Byte) :
    ∃ ps, sendFunctionBlockName block name = .ok ps ∧ (∀ p ∈ ps, IsStream p 0x12) ∧
      (block < 128 → ∀ p ∈ ps, functionBlockNameBlock p = block) ∧
      Framed (ps.map fun p => (streamFormat p).code.toNat) ∧
      ((∀ b ∈ name, b &&& 0x7F ≠ 0) → ∃ ts, ps.mapM functionBlockNamePayload = .ok ts ∧
        ts.flatten = name.map (· &&& 0x7F) ∧ ∀ t ∈ ts.dropLast, t.length = 13) ∧
      (∃ k ≤ 13, ps.flatMap (textBytes 3) = name ++ List.replicate k 0) := by
  obtain ⟨_, _, _, f4⟩ := nameChunks_facts (show 0 < 13 by omega) name
  have e : sendFunctionBlockName block name =
      .ok ((nameChunks 13 name).map fun c => packetOf ([0xF0 + 4 * c.1.code, 0x12, block] ++ c.2)) := by
    unfold sendFunctionBlockName
    rw [sendName_eq (fun f n => makeFunctionBlockName f block n) (by omega)]
    exact mapM_ok fun c hc => makeFunctionBlockName_eq c.1 block c.2 (f4 c hc)
  obtain ⟨n1, n2, n3, n4⟩ := name_packets (by omega) name
    (fun c => packetOf ([0xF0 + 4 * c.1.code, 0x12, block] ++ c.2)) functionBlockNamePayload 0x12 (n := 13) fun c hc => by
      refine ⟨isStream_packetOf _ _ _, streamFormat_packetOf _ _ _, ?_, ?_⟩
      · intro hname
        exact readText7 13 [0xF0 + 4 * c.1.code, 0x12, block] c.2 rfl (f4 c hc) fun b hb =>
          hname b (mem_name (by omega) hc hb)
      · exact textBytes_packetOf [_, _, _] c.2 (by have := f4 c hc; simp; omega)
  refine ⟨_, e, n1, ?_, n2, n3, n4⟩
  intro hb p hp
  obtain ⟨c, _, rfl⟩ := List.mem_map.1 hp
  rw [functionBlockNameBlock, byte3_packetOf]
  show block &&& 0x7F = block
  clear n1 n2 n3 n4 e f4 hp
  revert hb; revert block; decide +kernel

/-- Reducing to seven bit changes exactly the characters that are not ASCII. -/
theorem map_and7F_iff (l : List Byte) : l.map (· &&& 0x7F) = l ↔ ∀ b ∈ l, b < 0x80 := by
  have e : ∀ b : Byte, b &&& 0x7F = b ↔ b < 0x80 := by decide +kernel
  induction l with
  | nil => simp
  | cons b l ih =>
    rw [List.map_cons, List.cons.injEq, List.forall_mem_cons]
    exact and_congr (e b) ih

/-- C44: the packets of a name made of ASCII characters other than NUL are read back as the name, for endpoint names and for
function block names. Partial: names with other characters are not, see `C44_not_ascii_differs`. -/
theorem C44_read_back_partial (block : Byte) (name : List Byte) (h : ∀ b ∈ name, b ≠ 0 ∧ b < 0x80) :
    (∃ ps ts, sendEndpointName name = .ok ps ∧ ps.mapM endpointNamePayload = .ok ts ∧ ts.flatten = name) ∧
    (∃ ps ts, sendFunctionBlockName block name = .ok ps ∧ ps.mapM functionBlockNamePayload = .ok ts ∧ ts.flatten = name) := by
  have h1 : ∀ b ∈ name, b &&& 0x7F ≠ 0 := fun b hb => (ascii_facts (h b hb)).1
  obtain ⟨ps, a1, _, _, a2, _⟩ := C44_endpoint_name name
  obtain ⟨ts, a3, a4, _⟩ := a2 h1
  obtain ⟨qs, b1, _, _, _, b2, _⟩ := C44_function_block_name block name
  obtain ⟨us, b3, b4, _⟩ := b2 h1
  rw [ascii_map h] at a4 b4
  exact ⟨⟨ps, ts, a1, a3, a4⟩, ⟨qs, us, b1, b3, b4⟩⟩

example := C44_read_back_partial 5 (List.replicate 20 0x41) (by decide)

/-- C44 is false for every name with characters that are not ASCII (and that stay visible when reduced to seven bit). -/
theorem C44_not_ascii_differs (name : List Byte) (h : ∀ b ∈ name, b &&& 0x7F ≠ 0) (hn : ∃ b ∈ name, ¬ b < 0x80) :
    ∃ ps ts, sendEndpointName name = .ok ps ∧ ps.mapM endpointNamePayload = .ok ts ∧ ts.flatten ≠ name := by
  obtain ⟨ps, a1, _, _, a2, _⟩ := C44_endpoint_name name
  obtain ⟨ts, a3, a4, _⟩ := a2 h
  refine ⟨ps, ts, a1, a3, ?_⟩
  rw [a4]
  intro e
  obtain ⟨b, hb, hc⟩ := hn
  exact hc ((map_and7F_iff name).1 e b hb)

/-- Texts read from stream messages consist of ASCII characters other than zero, whatever the packets contain. -/
theorem payloadAsString_ascii (p : Packet) (offset : Nat) (ho : offset ≤ 16) :
    ∃ t, streamPayloadAsString p offset = .ok t ∧ ∀ b ∈ t, b ≠ 0 ∧ b < 0x80 := by
  have key : ∀ n ≤ 16, ∃ t, readText Packet.getByte7 p n = .ok t ∧ ∀ b ∈ t, b ≠ 0 ∧ b < 0x80 := by
    intro n
    induction n with
    | zero => intro _; exact ⟨[], rfl, by simp⟩
    | succ n ih =>
      intro hn
      obtain ⟨t, h1, h2⟩ := ih (by omega)
      have hg : p.getByte7 (16 - (n + 1)) = .ok (p.byteAt (16 - (n + 1)) &&& 0x7F) := by
        rw [Packet.getByte7, Packet.getByte, if_pos (by omega)]; rfl
      rw [readText, hg, ok_bind]
      by_cases hc : p.byteAt (16 - (n + 1)) &&& 0x7F ≠ 0
      · rw [if_pos hc, h1]
        refine ⟨_, rfl, ?_⟩
        intro b hb
        rcases List.mem_cons.1 hb with rfl | hb
        · refine ⟨hc, ?_⟩
          generalize p.byteAt (16 - (n + 1)) = x
          revert x; decide +kernel
        · exact h2 b hb
      · rw [if_neg hc]; exact ⟨[], rfl, by simp⟩
  rw [streamPayloadAsString, if_neg (by omega)]
  exact key _ (by omega)

/-- C44: text can be read from every position of every packet up to its end, whatever it contains: the ASCII characters up to the first
zero. For positions beyond the end an exception is thrown. -/
theorem C44_text_from (p : Packet) (offset : Nat) :
    (offset ≤ 16 → ∃ t, streamPayloadAsString p offset = .ok t ∧ t.length ≤ 16 - offset ∧
      (∀ i (h : i < t.length), t[i] = p.byteAt (offset + i) &&& 0x7F ∧ t[i] ≠ 0) ∧
      (t.length < 16 - offset → p.byteAt (offset + t.length) &&& 0x7F = 0)) ∧
    (16 < offset → streamPayloadAsString p offset = .error .lengthError) := by
  have key : ∀ n ≤ 16, ∃ t, readText Packet.getByte7 p n = .ok t ∧ t.length ≤ n ∧
      (∀ i (h : i < t.length), t[i] = p.byteAt (16 - n + i) &&& 0x7F ∧ t[i] ≠ 0) ∧
      (t.length < n → p.byteAt (16 - n + t.length) &&& 0x7F = 0) := by
    intro n
    induction n with
    | zero => intro _; exact ⟨[], rfl, by simp, by simp, by simp⟩
    | succ n ih =>
      intro hn
      obtain ⟨t, h1, h2, h3, h4⟩ := ih (by omega)
      have hg : p.getByte7 (16 - (n + 1)) = .ok (p.byteAt (16 - (n + 1)) &&& 0x7F) := by
        rw [Packet.getByte7, Packet.getByte, if_pos (by omega)]; rfl
      have hs : ∀ i, 16 - n + i = 16 - (n + 1) + (i + 1) := by intro i; omega
      rw [readText, hg, ok_bind]
      by_cases hc : p.byteAt (16 - (n + 1)) &&& 0x7F ≠ 0
      · rw [if_pos hc, h1]
        refine ⟨_, rfl, by simpa using h2, ?_, ?_⟩
        · intro i hi
          cases i with
          | zero => exact ⟨rfl, hc⟩
          | succ i => rw [← hs]; exact h3 i (by simpa using hi)
        · intro hl
          rw [List.length_cons, ← hs]
          exact h4 (by simpa using hl)
      · rw [if_neg hc]
        exact ⟨[], rfl, by simp, by simp, fun _ => by simpa using hc⟩
  constructor
  · intro ho
    obtain ⟨t, h1, h2, h3, h4⟩ := key (16 - offset) (by omega)
    rw [show 16 - (16 - offset) = offset by omega] at h3 h4
    exact ⟨t, by rw [streamPayloadAsString, if_neg (by omega), h1], h2, h3, h4⟩
  · intro ho
    rw [streamPayloadAsString, if_pos ho]

example : streamPayloadAsString ⟨0xF0030041, 0xC2004300, 0, 0⟩ 3 = .ok [0x41, 0x42] := rfl

theorem payloads_ascii (offset : Nat) (ho : offset ≤ 16) (ps : List Packet) :
    ∃ ts, ps.mapM (streamPayloadAsString · offset) = .ok ts ∧ ∀ b ∈ ts.flatten, b ≠ 0 ∧ b < 0x80 := by
  induction ps with
  | nil => exact ⟨[], rfl, by simp⟩
  | cons p ps ih =>
    obtain ⟨ts, h1, h2⟩ := ih
    obtain ⟨t, h3, h4⟩ := payloadAsString_ascii p offset ho
    refine ⟨t :: ts, by rw [List.mapM_cons, h3, ok_bind, h1]; rfl, ?_⟩
    intro b hb
    rw [List.flatten_cons, List.mem_append] at hb
    exact hb.elim (h4 b) (h2 b)

/-- C44, exact condition: a name reads back from the messages that were sent if and only if it consists of ASCII characters
other than zero. -/
theorem C44_read_back_iff (block : Byte) (name : List Byte) :
    (∃ ps ts, sendEndpointName name = .ok ps ∧ ps.mapM endpointNamePayload = .ok ts ∧
      (ts.flatten = name ↔ ∀ b ∈ name, b ≠ 0 ∧ b < 0x80)) ∧
    (∃ ps ts, sendFunctionBlockName block name = .ok ps ∧ ps.mapM functionBlockNamePayload = .ok ts ∧
      (ts.flatten = name ↔ ∀ b ∈ name, b ≠ 0 ∧ b < 0x80)) := by
  obtain ⟨ps, a1, _⟩ := C44_endpoint_name name
  obtain ⟨qs, b1, _⟩ := C44_function_block_name block name
  obtain ⟨ts, a2, a3⟩ := payloads_ascii 2 (by decide) ps
  obtain ⟨us, b2, b3⟩ := payloads_ascii 3 (by decide) qs
  refine ⟨⟨ps, ts, a1, a2, ?_, ?_⟩, ⟨qs, us, b1, b2, ?_, ?_⟩⟩
  · intro h; rw [← h]; exact a3
  · intro h
    obtain ⟨ps', ts', c1, c2, c3⟩ := (C44_read_back_partial block name h).1
    rw [a1] at c1
    obtain rfl := Except.ok.inj c1
    rw [show ps.mapM endpointNamePayload = .ok ts from a2] at c2
    obtain rfl := Except.ok.inj c2
    exact c3
  · intro h; rw [← h]; exact b3
  · intro h
    obtain ⟨ps', ts', c1, c2, c3⟩ := (C44_read_back_partial block name h).2
    rw [b1] at c1
    obtain rfl := Except.ok.inj c1
    rw [show qs.mapM functionBlockNamePayload = .ok us from b2] at c2
    obtain rfl := Except.ok.inj c2
    exact c3

/-- C44: a product instance id of at most 16 ASCII characters is sent in one complete or in a start and an end message; longer
ones fail the assertion. -/
theorem C44_product_instance_id (id : List Byte) :
    (id.length ≤ 16 → ∃ ps, sendProductInstanceId id = .ok ps ∧ (∀ p ∈ ps, IsStream p 0x04) ∧
      Framed (ps.map fun p => (streamFormat p).code.toNat) ∧
      ((∀ b ∈ id, b ≠ 0 ∧ b < 0x80) → ∃ ts, ps.mapM productInstanceIdPayload = .ok ts ∧ ts.flatten = id)) ∧
    (16 < id.length → sendProductInstanceId id = .error .assertFailed) := by
  constructor
  · intro hl
    have hr : ∀ (f : Format) (n : List Byte), n.length ≤ 14 → (∀ b ∈ n, b ≠ 0 ∧ b < 0x80) →
        productInstanceIdPayload (packetOf ([0xF0 + 4 * f.code, 0x04] ++ n.map (· &&& 0x7F))) = .ok n := by
      intro f n hn hc
      have := readText7 14 [0xF0 + 4 * f.code, 0x04] n rfl hn (fun b hb => (ascii_facts (hc b hb)).1)
      rw [ascii_map hc] at this ⊢
      exact this
    unfold sendProductInstanceId
    rw [decide_eq_true hl]
    simp only [assert_ok, ok_bind]
    by_cases h : id.length ≤ 14
    · rw [if_pos h, makeProductInstanceId_eq _ (by decide) _ h]
      refine ⟨[packetOf ([0xF0 + 4 * Format.complete.code, 0x04] ++ id.map (· &&& 0x7F))], rfl, ?_, ?_, ?_⟩
      · simpa using isStream_packetOf .complete 0x04 (id.map (· &&& 0x7F))
      · left
        rw [List.map_cons, List.map_nil, List.cons_append, List.cons_append, streamFormat_packetOf]; rfl
      · intro hc
        refine ⟨[id], ?_, by simp⟩
        rw [List.mapM_cons, hr .complete id h hc]; rfl
    · rw [if_neg h, makeProductInstanceId_eq _ (by decide) _ (by simp), ok_bind,
        makeProductInstanceId_eq _ (by decide) _ (by simp)]
      have ht : (id.drop 14).take 2 = id.drop 14 := List.take_of_length_le (by simp; omega)
      rw [ht]
      refine ⟨[packetOf ([0xF0 + 4 * Format.start.code, 0x04] ++ (id.take 14).map (· &&& 0x7F)),
        packetOf ([0xF0 + 4 * Format.fin.code, 0x04] ++ (id.drop 14).map (· &&& 0x7F))], rfl, ?_, ?_, ?_⟩
      · intro p hp
        simp only [List.mem_cons, List.not_mem_nil, or_false] at hp
        rcases hp with rfl | rfl
        · exact isStream_packetOf .start _ _
        · exact isStream_packetOf .fin _ _
      · right
        refine ⟨0, ?_⟩
        rw [List.map_cons, List.map_cons, List.map_nil, List.cons_append, List.cons_append, streamFormat_packetOf,
          List.cons_append, List.cons_append, streamFormat_packetOf]; rfl
      · intro hc
        refine ⟨[id.take 14, id.drop 14], ?_, by simp⟩
        rw [List.mapM_cons, hr .start _ (by simp) (fun b hb => hc b (List.mem_of_mem_take hb)), ok_bind, List.mapM_cons,
          hr .fin _ (by simp; omega) (fun b hb => hc b (List.mem_of_mem_drop hb))]
        rfl
  · intro h
    unfold sendProductInstanceId
    rw [decide_eq_false (by omega)]; rfl

/-- C44, exact condition: a product instance id of at most 16 characters reads back if and only if it consists of ASCII
characters other than zero. -/
theorem C44_product_instance_id_iff (id : List Byte) (hl : id.length ≤ 16) :
    ∃ ps ts, sendProductInstanceId id = .ok ps ∧ ps.mapM productInstanceIdPayload = .ok ts ∧
      (ts.flatten = id ↔ ∀ b ∈ id, b ≠ 0 ∧ b < 0x80) := by
  obtain ⟨ps, a1, _, _, a4⟩ := (C44_product_instance_id id).1 hl
  obtain ⟨ts, a2, a3⟩ := payloads_ascii 2 (by decide) ps
  refine ⟨ps, ts, a1, a2, ?_, ?_⟩
  · intro h; rw [← h]; exact a3
  · intro h
    obtain ⟨ts', c2, c3⟩ := a4 h
    rw [show ps.mapM productInstanceIdPayload = .ok ts from a2] at c2
    obtain rfl := Except.ok.inj c2
    exact c3

/-- C44: characters beyond ASCII are sent, but the views return only seven bits of them: "ä" in UTF-8. -/
theorem C44_utf8_differs : ∃ p, sendEndpointName [0xC3, 0xA4] = .ok [p] ∧ textBytes 2 p = [0xC3, 0xA4] ++ List.replicate 12 0 ∧
    endpointNamePayload p = .ok [0x43, 0x24] := ⟨⟨0xF003C3A4, 0, 0, 0⟩, rfl, by decide, rfl⟩

/-- C44: a name with 17 characters. -/
example : sendEndpointName [65, 66, 67, 68, 69, 70, 71, 72, 73, 74, 75, 76, 77, 78, 79, 80, 81] =
    .ok [⟨0xF4034142, 0x43444546, 0x4748494A, 0x4B4C4D4E⟩, ⟨0xFC034F50, 0x51000000, 0, 0⟩] := rfl

end Midi

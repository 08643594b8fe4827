import Verif.Conformance.SysexTestData
import Verif.Model.ByteStream
import Verif.Model.Stream
import Verif.Model.TextFormat
import Verif.Model.Types

/-!
Unit tests of the project that tools/conformance does not translate, because they use lambdas, string streams or control
flow: written by hand after /repo/tests. Like the generated files these are tests of the model and no theorems about it.
-/

namespace Midi.Conformance

open Midi

/-- `{ w0, w1 }` as an argument of `feed`. -/
abbrev pk (ws : List Word) : Packet := Packet.ofWords ws

/-! ### tests/sysex7_collector_tests.cpp -/

-- set_callback: lines 47-59
example : holds (do return (← collected7 [← makeSysex7 .complete 0]).length == 1) = true := by decide +kernel
-- exceptional_collect: lines 116-125
example : holds (do return (← collected7 [← sysex7AddPayloadByte (← makeSysex7 .fin 0) 11]) == []) = true := by decide +kernel
-- lines 127-140
example : holds (do
    return (← collected7 [← sysex7AddPayloadByte (← makeSysex7 .cont 0) 10, ← makeSysex7 .fin 0]) == []) = true := by
  decide +kernel
-- lines 142-162
example : holds (do
    return (← collected7 [pk [0x31441234, 0], pk [0x31060F1E, 0x2D3C4B5A]]) ==
      [⟨0x0F0000, [0x1E, 0x2D, 0x3C, 0x4B, 0x5A]⟩]) = true := by decide +kernel
-- lines 164-186
example : holds (do
    return (← collected7 [pk [0x35160F1E, 0x2D3C4B5A], pk [0x35226978, 0], pk [0x35017D00, 0]]) == [⟨0x7D0000, []⟩]) = true := by
  decide +kernel
-- lines 188-210
example : holds (do
    return (← collected7 [pk [0x3E167E12, 0x34567809], pk [0x3E261A2B, 0x3C4D5E6F], pk [0x3E300000, 0]]) ==
      [⟨0x7E0000, [0x12, 0x34, 0x56, 0x78, 0x09, 0x1A, 0x2B, 0x3C, 0x4D, 0x5E, 0x6F]⟩]) = true := by decide +kernel
-- limited_data_size_collect: lines 219-239
example : holds (do
    let r ← (Collector7.setMaxSize {} 256).feedAll
      [pk [0x30167E12, 0x34567809], pk [0x30261A2B, 0x3C4D5E6F], pk [0x30340000, 0]]
    return r.2.map (·.data.length) == [15]) = true := by decide +kernel
-- lines 241-258
example : holds (do
    let r ← (Collector7.setMaxSize {} 12).feedAll
      [pk [0x30167E12, 0x34567809], pk [0x30261A2B, 0x3C4D5E6F], pk [0x30320000, 0]]
    return r.2 == []) = true := by decide +kernel
-- lines 260-280
example : holds (do
    let r ← (Collector7.setMaxSize {} 12).feedAll
      [pk [0x30167E12, 0x34567809], pk [0x30261A2B, 0x3C4D5E6F], pk [0x30310000, 0]]
    return r.2.map (·.data.length) == [12]) = true := by decide +kernel

/-! ### tests/sysex8_collector_tests.cpp -/

-- set_callback: lines 75-87
example : holds (do return (← collected8 [makeSysex8 .complete 0 0]).length == 1) = true := by decide +kernel

/-- `manufacturer_id_test_case` (lines 39-61): packets and manufacturer id. -/
def manufacturerCases : List (Word × List Packet) := [
  -- one_byte_manufacturer_id: lines 91-108
  (0x7E0000, [pk [0x55030F00, 0x7E000000]]),
  (0x7E0000, [pk [0x55120F00, 0], pk [0x55320F7E, 0]]),
  (0x7F0000, [pk [0x55030F00, 0x7F000000]]),
  (0x290000, [pk [0x55030F00, 0x29000000]]),
  -- three_byte_manufacturer_id: lines 112-126
  (0x00003B, [pk [0x55030F80, 0x3B000000]]),
  (0x000066, [pk [0x55120F80, 0], pk [0x55320F66, 0]]),
  (0x00010A, [pk [0x55030F81, 0x0A000000]]),
  (0x00020D, [pk [0x55030F82, 0x0D000000]]),
  (0x002109, [pk [0x55030FA1, 0x09000000]]),
  -- invalid_manufacturer_id: lines 130-145
  (0x000000, [pk [0x50014482, 0x23000000]]),
  (0x000000, [pk [0x55030F39, 0x5B000000]]),
  (0x000000, [pk [0x55030F80, 0]]),
  (0x000000, [pk [0x55030F00, 0]]),
  (0x7B0000, [pk [0x55030F00, 0xFB000000]]),
  (0x00147B, [pk [0x55030F94, 0xFB000000]])]

example : manufacturerCases.all (fun c => holds do
    return (← collected8 c.2).map (·.1.manufacturerID) == [c.1]) = true := by decide +kernel

/-- `stream_id()` after the packets. -/
def streamAfter (ps : List Packet) : Except Fault Byte := do return (← Collector8.feedAll {} ps).1.streamId

-- stream_id: lines 149-183
example : holds (do return (← streamAfter []) == 0) = true := by decide +kernel
example : holds (do return (← streamAfter [pk [0x55030F80, 0x3B000000]]) == 0) = true := by decide +kernel
example : holds (do return (← streamAfter [pk [0x5512AC80, 0]]) == 0xAC) = true := by decide +kernel
example : holds (do return (← streamAfter [pk [0x55230FA1, 0x09000000]]) == 0) = true := by decide +kernel
example : holds (do return (← streamAfter [pk [0x55230FA1, 0x09000000], pk [0x55339FA1, 0x09000000]]) == 0) = true := by
  decide +kernel
-- stream_id_switch: lines 187-218
example : holds (do
    let p1 := pk [0x55130F80, 0x3B000000]
    let p2 := pk [0x55310F44, 0]
    let p3 := pk [0x59149A81, 0x3B440000]
    return (← streamAfter [p1]) == 0x0F && (← collected8 [p1, p2]).length == 1 && (← streamAfter [p1, p2, p3]) == 0x9A) = true := by
  decide +kernel
example : holds (do
    let p1 := pk [0x5512AC80, 0]
    let p2 := pk [0x59123F80, 0]
    return (← streamAfter [p1]) == 0xAC && (← streamAfter [p1, p2]) == 0x3F && (← collected8 [p1, p2]) == []) = true := by
  decide +kernel
-- other_stream_id_ignored: lines 222-246
example : holds (do
    let p1 := pk [0x5515AC92, 0x34AABB00]
    let p2 := pk [0x55243F12, 0x23560000]
    let p3 := pk [0x5532ACCC, 0]
    return (← streamAfter [p1]) == 0xAC && (← streamAfter [p1, p2]) == 0xAC && (← collected8 [p1, p2]) == [] &&
      (← streamAfter [p1, p2, p3]) == 0 &&
      (← collected8 [p1, p2, p3]).map (·.1) == [⟨0x001234, [0xAA, 0xBB, 0xCC]⟩]) = true := by decide +kernel
-- exceptional_collect: lines 301-403
example : holds (do return (← collected8 [← sysex8AddPayloadByte (makeSysex8 .fin 0 0) 11]) == []) = true := by decide +kernel
example : holds (do
    return (← collected8 [← sysex8AddPayloadByte (makeSysex8 .cont 0 0) 10, makeSysex8 .fin 0 0]) == []) = true := by
  decide +kernel
example : holds (do
    return (← collected8 [pk [0x51441234, 0], pk [0x5107018F, 0x1E2D3C4B, 0x5A000000]]) ==
      [(⟨0x000F1E, [0x2D, 0x3C, 0x4B, 0x5A]⟩, 1)]) = true := by decide +kernel
example : holds (do
    return (← collected8 [pk [0x55160F1E, 0x2D3C4B5A], pk [0x55220F78, 0], pk [0x55033100, 0x7D000000]]) ==
      [(⟨0x7D0000, []⟩, 0x31)]) = true := by decide +kernel
example : holds (do
    return (← collected8
        [pk [0x5E197C00, 0x7E123456, 0x789ABC00], pk [0x5E267CDE, 0xFEDCBA98], pk [0x5E317C00, 0]]) ==
      [(⟨0x7E0000, [0x12, 0x34, 0x56, 0x78, 0x9A, 0xBC, 0xDE, 0xFE, 0xDC, 0xBA, 0x98]⟩, 0x7C)]) = true := by decide +kernel
-- limited_data_size_collect: lines 407-474
example : holds (do
    let r ← (Collector8.setMaxSize {} 256).feedAll
      [pk [0x50182382, 0x54567809], pk [0x5026232B, 0x5C4D5E6F], pk [0x50342300, 0]]
    return r.2.map (·.1.data.length) == [13]) = true := by decide +kernel
example : holds (do
    let r ← (Collector8.setMaxSize {} 11).feedAll
      [pk [0x50192382, 0x54567809, 0x54567809], pk [0x5026232B, 0x5C4D5E6F], pk [0x50322300, 0]]
    return r.2 == []) = true := by decide +kernel
example : holds (do
    let r ← (Collector8.setMaxSize {} 12).feedAll
      [pk [0x50182382, 0x54567809, 0x54567809], pk [0x5027232B, 0x5C4D5E6F], pk [0x50312300, 0]]
    return r.2.map (·.1.data.length) == [11]) = true := by decide +kernel

/-! ### tests/midi1_byte_stream_tests.cpp -/

-- parser_constructors: lines 49-83
example : (Parser.new 0 false true).invokeCallbacks = true := rfl
example : (Parser.new 0 true true).invokeCallbacks = true := rfl
example : (Parser.new 0 true false).invokeCallbacks = false := rfl

/-- The groups of the packets which the callback receives, and the number of messages. -/
def groups (es : List Event) : List (Option Byte) :=
  es.map fun | .packet p => some p.group | .sysex _ => none

example : holds (do return groups (← (Parser.new 5 false true).feedAll [0x91, 0x39, 100]).2 == [some 5]) = true := by decide +kernel
-- parser_group: lines 87-106
example : (Parser.new 0 false true).group = 0 ∧ ((Parser.new 0 false true).setGroup 9).group = 9 := ⟨rfl, rfl⟩
example : holds (do return groups (← ((Parser.new 0 false true).setGroup 9).feedAll [0xFA]).2 == [some 9]) = true := by
  decide +kernel
-- parser_enable_callbacks: lines 110-132
example : holds (do
    let (s, e1) ← (Parser.new 0 false true).feed 0xF8
    let s := s.enableCallbacks false
    let off := s.invokeCallbacks
    let (s, e2) ← s.feed 0xF9
    let s := s.enableCallbacks true
    let on := s.invokeCallbacks
    let (_, e3) ← s.feed 0xFA
    return e1.length == 1 && !off && e2.length == 0 && on && e3.length == 1) = true := by decide +kernel

/-! ### tests/stream_message_tests.cpp -/

/-- `run_test`: the number of packets, if the concatenated texts are the name. -/
def nameTest (send : List Byte → Except Fault (List Packet)) (asView : Packet → Except Fault (Option Packet))
    (payload : Packet → Except Fault (List Byte)) (name : List Byte) : Except Fault Nat := do
  let ps ← send name
  let texts ← ps.mapM fun p => do payload (← valueOf (← asView p))
  if texts.flatten == name then return ps.length else .error .assertFailed

/-- The characters of a literal that has ASCII characters only. -/
def ascii (s : String) : List Byte := s.toList.map fun c => BitVec.ofNat 8 c.toNat

-- send_endpoint_name: lines 694-719
example : [("short name", 1), ("A reasonably long name", 2), ("A pretty long name that needs 3 packets", 3),
    ("An even longer name that needs four packets", 4)].all (fun c => holds do
      return (← nameTest sendEndpointName asEndpointName endpointNamePayload (ascii c.1)) == c.2) = true := by decide +kernel
-- send_product_instance_id: lines 804-829
example : [("ABCDE", 1), ("14AD4C5HE5EA9F", 1), ("14AD4C5HE5EA9F0", 2), ("14AD4C5HE5EA9F01", 2)].all (fun c => holds do
      return (← nameTest sendProductInstanceId asProductInstanceId productInstanceIdPayload (ascii c.1)) == c.2) = true := by
  decide +kernel
-- send_function_block_name: lines 1484-1514
example : [((0 : Byte), "short name", 1), (4, "short name ?!", 1), (7, "short name ?!?", 2), (31, "A reasonably long name", 2),
    (9, "A pretty long name that needs 3 packets", 3), (14, "An even longer name that needs four packets", 4)].all
    (fun c => holds do
      let n ← nameTest (sendFunctionBlockName c.1) asFunctionBlockName functionBlockNamePayload (ascii c.2.1)
      let blocks := (← sendFunctionBlockName c.1 (ascii c.2.1)).map functionBlockNameBlock
      return n == c.2.2 && blocks.all (· == c.1)) = true := by decide +kernel

/-! ### tests/universal_packet_tests.cpp -/

/-- `is_midi1_protocol_message` as expected by lines 539-575. -/
def expectMidi1 (t s : Nat) : Bool :=
  if t = 1 then decide (s > 0xF0) && !([0xF4, 0xF5, 0xF7, 0xF9, 0xFD].contains s)
  else if t = 2 then decide (s ≥ 0x80 ∧ s < 0xF0)
  else false

-- is_midi1_protocol_message: lines 529-579
example : (List.range 16).all (fun t => (List.range 255).all fun s =>
    (pk [BitVec.ofNat 32 (t * 2 ^ 28 + s * 2 ^ 16)]).isMidi1Protocol == expectMidi1 t s) = true := by decide +kernel

/-- The packet of the test (line 587). -/
def textPacket : Packet := pk [0x50123456, 0x789ABCDE, 0xFEDCBA98, 0x76543210]

-- stream_operators: lines 589-597
example : (let (s, _, o) := readPacketF {} { rest := (OStream.putPacket {} textPacket).out ++ ['\n'] } {}
    (o, s.good)) = (textPacket, true) := by decide +kernel
-- lines 599-609
example : (OStream.putPacket {} textPacket).out = "50123456 789abcde fedcba98 76543210".toList := by decide +kernel
-- lines 611-619
example : (let (s, _, o) := readPacketF {} { rest := "invaliddata".toList } {}
    (o, s.good)) = ({}, false) := by decide +kernel
-- lines 621-629
example : (let (s, _, o) := readPacketF {} { rest := "50123456p1".toList } {}
    (o, s.good)) = (pk [0x50123456], false) := by decide +kernel

/-! ### tests/channel_voice_message_tests.cpp -/

-- Lines 840, 977-981 and 1108-1110 of the unit tests pass `uint14_t{ 0xAFED }`, which has more than 14 bits:
-- `upsample_14_to_32bit` (inc/midi/types.h 467-478) then shifts an `int` beyond its range, undefined behaviour in C++17.
example : pitchBendOf14 0xAFED = .error .badShift := by decide +kernel

end Midi.Conformance

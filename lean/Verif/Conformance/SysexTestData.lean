import Verif.Conformance.Prelude
import Verif.Model.Collector
import Verif.Model.Senders
import Verif.Model.SysexPackets
import Verif.Model.Defaults

/-!
The collectors and the senders of system exclusive messages on the test data of tests/sysex7_test_data.cpp and
tests/sysex8_test_data.cpp. The data is generated by tools/conformance, the statements follow sysex7_collector_tests.cpp,
sysex8_collector_tests.cpp and sysex_tests.cpp 590-650.
-/

namespace Midi.Conformance

open Midi

/-- tests/sysex7_test_data.cpp: packets and the message they carry. -/
def sysex7Cases : List (List Packet × Sysex) := [
  -- empty sysex
  ([Packet.ofWords [0x30010000, 0x00000000]], ⟨0x000000, []⟩),
  -- one byte manufacturer only
  ([Packet.ofWords [0x31010400, 0x00000000]], ⟨0x040000, []⟩),
  -- three byte manufacturer only
  ([Packet.ofWords [0x35030021, 0x09000000]], ⟨0x002109, []⟩),
  -- three byte manufacturer, complete message
  ([Packet.ofWords [0x31050002, 0x0D152600]], ⟨0x00020D, [0x15, 0x26]⟩),
  -- one byte manufacturer, complete message
  ([Packet.ofWords [0x3F060905, 0x04030201]], ⟨0x090000, [0x05, 0x04, 0x03, 0x02, 0x01]⟩),
  -- two messages
  ([Packet.ofWords [0x3A164E09, 0x08070605], Packet.ofWords [0x3A340403, 0x02010000]], ⟨0x4E0000, [0x09, 0x08, 0x07,
    0x06, 0x05, 0x04, 0x03, 0x02, 0x01]⟩),
  -- three messages
  ([Packet.ofWords [0x36160021, 0x1D112233], Packet.ofWords [0x36264455, 0x66771829], Packet.ofWords [0x36353A4B,
    0x5C6D7C00]], ⟨0x00211D, [0x11, 0x22, 0x33, 0x44, 0x55, 0x66, 0x77, 0x18, 0x29, 0x3A, 0x4B, 0x5C, 0x6D, 0x7C]⟩),
  -- four messages
  ([Packet.ofWords [0x31160020, 0x6B112233], Packet.ofWords [0x31264455, 0x66771829], Packet.ofWords [0x31263A4B,
    0x5C6D7C0F], Packet.ofWords [0x31311000, 0x00000000]], ⟨0x00206B, [0x11, 0x22, 0x33, 0x44, 0x55, 0x66, 0x77,
    0x18, 0x29, 0x3A, 0x4B, 0x5C, 0x6D, 0x7C, 0x0F, 0x10]⟩)]

/-- tests/sysex8_test_data.cpp: packets, stream and the message they carry. -/
def sysex8Cases : List (List Packet × Byte × Sysex) := [
  -- empty sysex
  ([Packet.ofWords [0x50034400, 0x00000000]], 0x44, ⟨0x000000, []⟩),
  -- one byte manufacturer only
  ([Packet.ofWords [0x51033400, 0x04000000]], 0x34, ⟨0x040000, []⟩),
  -- three byte manufacturer only
  ([Packet.ofWords [0x550300A1, 0x09000000]], 0x00, ⟨0x002109, []⟩),
  -- three byte manufacturer, complete packet
  ([Packet.ofWords [0x5106AA82, 0x0D85A600]], 0xAA, ⟨0x00020D, [0x85, 0xA6, 0x00]⟩),
  -- one byte manufacturer, complete packet
  ([Packet.ofWords [0x5F089300, 0x09F5E4D3, 0xC2B10000]], 0x93, ⟨0x090000, [0xF5, 0xE4, 0xD3, 0xC2, 0xB1]⟩),
  -- two packets
  ([Packet.ofWords [0x5A1E3900, 0x4E090807, 0x06050403, 0x020100FF], Packet.ofWords [0x5A3639EE, 0xDDCCBBAA]], 0x39,
    ⟨0x4E0000, [0x09, 0x08, 0x07, 0x06, 0x05, 0x04, 0x03, 0x02, 0x01, 0x00, 0xFF, 0xEE, 0xDD, 0xCC, 0xBB, 0xAA]⟩),
  -- three packets
  ([Packet.ofWords [0x561EC3A1, 0x1D112233, 0x44556677, 0x18293A4B], Packet.ofWords [0x562EC35C, 0x6D7C8B9A,
    0xA9B8C7D6, 0xE5F40312], Packet.ofWords [0x5632C331, 0x00000000]], 0xC3, ⟨0x00211D, [0x11, 0x22, 0x33, 0x44,
    0x55, 0x66, 0x77, 0x18, 0x29, 0x3A, 0x4B, 0x5C, 0x6D, 0x7C, 0x8B, 0x9A, 0xA9, 0xB8, 0xC7, 0xD6, 0xE5, 0xF4,
    0x03, 0x12, 0x31]⟩),
  -- lots of data
  ([Packet.ofWords [0x511E83A1, 0x09112233, 0x44556677, 0x8899AABB], Packet.ofWords [0x512E83CC, 0xDDEEFF18,
    0x293A4B5C, 0x6D7E8F90], Packet.ofWords [0x512E83A1, 0xB2C3D4E5, 0xF6E7D8F0, 0xE1D2C3B4], Packet.ofWords
    [0x512E83A5, 0x96877869, 0x5A4B3C2D, 0x1E0F420F], Packet.ofWords [0x51328310, 0x00000000]], 0x83, ⟨0x002109,
    [0x11, 0x22, 0x33, 0x44, 0x55, 0x66, 0x77, 0x88, 0x99, 0xAA, 0xBB, 0xCC, 0xDD, 0xEE, 0xFF, 0x18, 0x29, 0x3A,
    0x4B, 0x5C, 0x6D, 0x7E, 0x8F, 0x90, 0xA1, 0xB2, 0xC3, 0xD4, 0xE5, 0xF6, 0xE7, 0xD8, 0xF0, 0xE1, 0xD2, 0xC3,
    0xB4, 0xA5, 0x96, 0x87, 0x78, 0x69, 0x5A, 0x4B, 0x3C, 0x2D, 0x1E, 0x0F, 0x42, 0x0F, 0x10]⟩)]

/-- What the callback of a fresh collector receives. -/
def collected7 (ps : List Packet) : Except Fault (List Sysex) := do return (← Collector7.feedAll {} ps).2
/-- What the callback of a fresh collector receives. -/
def collected8 (ps : List Packet) : Except Fault (List (Sysex × Byte)) := do return (← Collector8.feedAll {} ps).2

-- sysex7_collector, regular_collect: lines 67-84
example : sysex7Cases.all (fun c => holds do return (← collected7 c.1) == [c.2]) = true := by decide +kernel

-- sysex7_collector, regular_collect: lines 86-108, one collector for all cases
example : holds (do return (← collected7 (sysex7Cases.flatMap (·.1))) == sysex7Cases.map (·.2)) = true := by decide +kernel

-- sysex, as_sysex7_packets: lines 607-616 (also what send_sysex7 sends, lines 591-603)
example : sysex7Cases.all (fun c => holds do return (← asSysex7Packets c.2 (c.1.getD 0 {}).group) == c.1) = true := by
  decide +kernel

-- sysex8_collector, regular_collect: lines 254-272
example : sysex8Cases.all (fun c => holds do return (← collected8 c.1) == [(c.2.2, c.2.1)]) = true := by decide +kernel

-- sysex8_collector, regular_collect: lines 274-297, one collector for all cases
example : holds (do
    return (← collected8 (sysex8Cases.flatMap (·.1))) == sysex8Cases.map (fun c => (c.2.2, c.2.1))) = true := by
  decide +kernel

-- sysex, as_sysex8_packets: lines 637-648 (also what send_sysex8 sends, lines 620-633)
example : sysex8Cases.all (fun c => holds do
    return (← asSysex8Packets c.2.2 (c.1.getD 0 {}).byte3 (c.1.getD 0 {}).group) == c.1) = true := by decide +kernel

end Midi.Conformance

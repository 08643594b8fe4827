import Verif.Conformance.Prelude
import Verif.Model.ByteStream
import Verif.Model.CapabilityInquiry
import Verif.Model.Collector
import Verif.Model.Defaults
import Verif.Model.FlexData
import Verif.Model.Jitter
import Verif.Model.PitchTypes
import Verif.Model.Senders
import Verif.Model.Stream
import Verif.Model.Sysex
import Verif.Model.SysexPackets
import Verif.Model.TextFormat
import Verif.Model.Types
import Verif.Model.UniversalSysex
import Verif.Model.Reentrant

/-!
The expectations of tests/midi1_byte_stream_tests.cpp about the model. Generated by tools/conformance.
-/

namespace Midi.Conformance

open Midi

-- midi1_byte_stream,parser_system_messages: line 191
example : holds (do
  let x1 := Parser.new 0 true true
  let x2 := makeSystem 0 248 0 0
  let x3 := makeSystem 0 241 9 0
  let x4 := makeSystem 0 250 0 0
  let x5 := makeSystem 0 242 17 68
  let x6 := makeSystem 0 251 0 0
  let x7 := makeSystem 0 243 117 0
  let x8 := makeSystem 0 252 0 0
  let x9 := makeSystem 0 254 0 0
  let x10 := makeSystem 0 246 0 0
  let x11 := makeSystem 0 255 0 0
  let x12 ← Parser.feedAll x1 [248]
  let x13 ← Parser.feedAll x12.1 [249]
  let x14 ← Parser.feedAll x13.1 [241]
  let x15 ← Parser.feedAll x14.1 [9]
  let x16 ← Parser.feedAll x15.1 [250]
  let x17 ← Parser.feedAll x16.1 [242]
  let x18 ← Parser.feedAll x17.1 [17]
  let x19 ← Parser.feedAll x18.1 [68]
  let x20 ← Parser.feedAll x19.1 [251]
  let x21 ← Parser.feedAll x20.1 [243]
  let x22 ← Parser.feedAll x21.1 [117]
  let x23 ← Parser.feedAll x22.1 [252]
  let x24 ← Parser.feedAll x23.1 [244]
  let x25 ← Parser.feedAll x24.1 [2]
  let x26 ← Parser.feedAll x25.1 [253]
  let x27 ← Parser.feedAll x26.1 [245]
  let x28 ← Parser.feedAll x27.1 [39]
  let x29 ← Parser.feedAll x28.1 [254]
  let x30 ← Parser.feedAll x29.1 [246]
  let x31 ← Parser.feedAll x30.1 [255]
  let x32 ← Parser.feedAll x31.1 [51]
  let x33 ← Parser.feedAll x32.1 [250]
  let x34 ← Parser.feedAll x33.1 [254]
  let x35 ← Parser.feedAll x34.1 (List.take 23 [248, 249, 241, 9, 250, 242, 17, 68, 251, 243, 117, 252, 244, 2, 253,
    245, 39, 254, 246, 255, 51, 250, 254])
  let x36 ← Parser.feedAll x35.1 (List.take 23 [248, 249, 241, 9, 250, 242, 17, 68, 251, 243, 117, 252, 244, 2, 253,
    245, 39, 254, 246, 255, 51, 250, 254])
  return decide (x12.2 ++ x13.2 ++ x14.2 ++ x15.2 ++ x16.2 ++ x17.2 ++ x18.2 ++ x19.2 ++ x20.2 ++ x21.2 ++ x22.2 ++
    x23.2 ++ x24.2 ++ x25.2 ++ x26.2 ++ x27.2 ++ x28.2 ++ x29.2 ++ x30.2 ++ x31.2 ++ x32.2 ++ x33.2 ++ x34.2 ++ x35.2
    ++ x36.2 = [Event.packet x2, Event.packet x3, Event.packet x4, Event.packet x5, Event.packet x6, Event.packet x7,
    Event.packet x8, Event.packet x9, Event.packet x10, Event.packet x11, Event.packet x4, Event.packet x9,
    Event.packet x2, Event.packet x3, Event.packet x4, Event.packet x5, Event.packet x6, Event.packet x7, Event.packet
    x8, Event.packet x9, Event.packet x10, Event.packet x11, Event.packet x4, Event.packet x9, Event.packet x2,
    Event.packet x3, Event.packet x4, Event.packet x5, Event.packet x6, Event.packet x7, Event.packet x8, Event.packet
    x9, Event.packet x10, Event.packet x11, Event.packet x4, Event.packet x9])) = true := by decide +kernel

-- midi1_byte_stream,parser_channel_voice_messages: line 250
example : holds (do
  let x1 := Parser.new 0 true true
  let x2 := makeMidi1 0 128 3 69 110
  let x3 := makeMidi1 0 144 14 48 127
  let x4 := makeMidi1 0 160 10 68 3
  let x5 := makeMidi1 0 176 0 7 112
  let x6 := makeMidi1 0 192 5 17 0
  let x7 := makeMidi1 0 208 11 20 0
  let x8 := makeMidi1 0 224 5 3 114
  let x9 ← Parser.feedAll x1 [131]
  let x10 ← Parser.feedAll x9.1 [69]
  let x11 ← Parser.feedAll x10.1 [110]
  let x12 ← Parser.feedAll x11.1 [158]
  let x13 ← Parser.feedAll x12.1 [48]
  let x14 ← Parser.feedAll x13.1 [127]
  let x15 ← Parser.feedAll x14.1 [170]
  let x16 ← Parser.feedAll x15.1 [68]
  let x17 ← Parser.feedAll x16.1 [3]
  let x18 ← Parser.feedAll x17.1 [119]
  let x19 ← Parser.feedAll x18.1 [176]
  let x20 ← Parser.feedAll x19.1 [7]
  let x21 ← Parser.feedAll x20.1 [112]
  let x22 ← Parser.feedAll x21.1 [197]
  let x23 ← Parser.feedAll x22.1 [17]
  let x24 ← Parser.feedAll x23.1 [219]
  let x25 ← Parser.feedAll x24.1 [20]
  let x26 ← Parser.feedAll x25.1 [229]
  let x27 ← Parser.feedAll x26.1 [3]
  let x28 ← Parser.feedAll x27.1 [114]
  let x29 ← Parser.feedAll x28.1 (List.take 20 [131, 69, 110, 158, 48, 127, 170, 68, 3, 119, 176, 7, 112, 197, 17,
    219, 20, 229, 3, 114])
  let x30 ← Parser.feedAll x29.1 (List.take 20 [131, 69, 110, 158, 48, 127, 170, 68, 3, 119, 176, 7, 112, 197, 17,
    219, 20, 229, 3, 114])
  return decide (x9.2 ++ x10.2 ++ x11.2 ++ x12.2 ++ x13.2 ++ x14.2 ++ x15.2 ++ x16.2 ++ x17.2 ++ x18.2 ++ x19.2 ++
    x20.2 ++ x21.2 ++ x22.2 ++ x23.2 ++ x24.2 ++ x25.2 ++ x26.2 ++ x27.2 ++ x28.2 ++ x29.2 ++ x30.2 = [Event.packet
    x2, Event.packet x3, Event.packet x4, Event.packet x5, Event.packet x6, Event.packet x7, Event.packet x8,
    Event.packet x2, Event.packet x3, Event.packet x4, Event.packet x5, Event.packet x6, Event.packet x7, Event.packet
    x8, Event.packet x2, Event.packet x3, Event.packet x4, Event.packet x5, Event.packet x6, Event.packet x7,
    Event.packet x8])) = true := by decide +kernel

-- midi1_byte_stream,parser_running_status: line 312
example : holds (do
  let x1 := Parser.new 0 true true
  let x2 := makeMidi1 0 160 5 68 3
  let x3 := makeMidi1 0 160 5 68 119
  let x4 := makeMidi1 0 176 8 7 112
  let x5 := makeMidi1 0 176 8 114 121
  let x6 := makeMidi1 0 192 6 17 0
  let x7 := makeMidi1 0 192 6 18 0
  let x8 := makeMidi1 0 208 2 20 0
  let x9 := makeMidi1 0 208 2 100 0
  let x10 := makeMidi1 0 224 5 3 114
  let x11 := makeMidi1 0 224 5 8 116
  let x12 ← Parser.feedAll x1 [165]
  let x13 ← Parser.feedAll x12.1 [68]
  let x14 ← Parser.feedAll x13.1 [3]
  let x15 ← Parser.feedAll x14.1 [68]
  let x16 ← Parser.feedAll x15.1 [119]
  let x17 ← Parser.feedAll x16.1 [184]
  let x18 ← Parser.feedAll x17.1 [7]
  let x19 ← Parser.feedAll x18.1 [112]
  let x20 ← Parser.feedAll x19.1 [114]
  let x21 ← Parser.feedAll x20.1 [121]
  let x22 ← Parser.feedAll x21.1 [122]
  let x23 ← Parser.feedAll x22.1 [198]
  let x24 ← Parser.feedAll x23.1 [17]
  let x25 ← Parser.feedAll x24.1 [18]
  let x26 ← Parser.feedAll x25.1 [210]
  let x27 ← Parser.feedAll x26.1 [20]
  let x28 ← Parser.feedAll x27.1 [100]
  let x29 ← Parser.feedAll x28.1 [229]
  let x30 ← Parser.feedAll x29.1 [3]
  let x31 ← Parser.feedAll x30.1 [114]
  let x32 ← Parser.feedAll x31.1 [8]
  let x33 ← Parser.feedAll x32.1 [116]
  let x34 ← Parser.feedAll x33.1 (List.take 22 [165, 68, 3, 68, 119, 184, 7, 112, 114, 121, 122, 198, 17, 18, 210, 20,
    100, 229, 3, 114, 8, 116])
  let x35 ← Parser.feedAll x34.1 (List.take 22 [165, 68, 3, 68, 119, 184, 7, 112, 114, 121, 122, 198, 17, 18, 210, 20,
    100, 229, 3, 114, 8, 116])
  return decide (x12.2 ++ x13.2 ++ x14.2 ++ x15.2 ++ x16.2 ++ x17.2 ++ x18.2 ++ x19.2 ++ x20.2 ++ x21.2 ++ x22.2 ++
    x23.2 ++ x24.2 ++ x25.2 ++ x26.2 ++ x27.2 ++ x28.2 ++ x29.2 ++ x30.2 ++ x31.2 ++ x32.2 ++ x33.2 ++ x34.2 ++ x35.2
    = [Event.packet x2, Event.packet x3, Event.packet x4, Event.packet x5, Event.packet x6, Event.packet x7,
    Event.packet x8, Event.packet x9, Event.packet x10, Event.packet x11, Event.packet x2, Event.packet x3,
    Event.packet x4, Event.packet x5, Event.packet x6, Event.packet x7, Event.packet x8, Event.packet x9, Event.packet
    x10, Event.packet x11, Event.packet x2, Event.packet x3, Event.packet x4, Event.packet x5, Event.packet x6,
    Event.packet x7, Event.packet x8, Event.packet x9, Event.packet x10, Event.packet x11])) = true := by decide +kernel

-- midi1_byte_stream,parser_system_common_cancels_running_status: line 369
example : holds (do
  let x1 := Parser.new 0 true true
  let x2 := makeMidi1 0 192 6 17 0
  let x3 := makeMidi1 0 192 6 18 0
  let x4 := makeMidi1 0 208 2 20 0
  let x5 := makeMidi1 0 208 2 100 0
  let x6 := makeSystem 0 246 0 0
  let x7 := makeMidi1 0 224 5 3 114
  let x8 ← Parser.feedAll x1 [198]
  let x9 ← Parser.feedAll x8.1 [17]
  let x10 ← Parser.feedAll x9.1 [18]
  let x11 ← Parser.feedAll x10.1 [210]
  let x12 ← Parser.feedAll x11.1 [20]
  let x13 ← Parser.feedAll x12.1 [100]
  let x14 ← Parser.feedAll x13.1 [246]
  let x15 ← Parser.feedAll x14.1 [0]
  let x16 ← Parser.feedAll x15.1 [229]
  let x17 ← Parser.feedAll x16.1 [3]
  let x18 ← Parser.feedAll x17.1 [114]
  let x19 ← Parser.feedAll x18.1 (List.take 11 [198, 17, 18, 210, 20, 100, 246, 0, 229, 3, 114])
  let x20 ← Parser.feedAll x19.1 (List.take 11 [198, 17, 18, 210, 20, 100, 246, 0, 229, 3, 114])
  return decide (x8.2 ++ x9.2 ++ x10.2 ++ x11.2 ++ x12.2 ++ x13.2 ++ x14.2 ++ x15.2 ++ x16.2 ++ x17.2 ++ x18.2 ++
    x19.2 ++ x20.2 = [Event.packet x2, Event.packet x3, Event.packet x4, Event.packet x5, Event.packet x6,
    Event.packet x7, Event.packet x2, Event.packet x3, Event.packet x4, Event.packet x5, Event.packet x6, Event.packet
    x7, Event.packet x2, Event.packet x3, Event.packet x4, Event.packet x5, Event.packet x6, Event.packet x7])) = true := by decide +kernel

-- midi1_byte_stream,parser_system_realtime_intersperes_running_status: line 436
example : holds (do
  let x1 := Parser.new 0 true true
  let x2 := makeMidi1 0 160 5 68 3
  let x3 := makeSystem 0 250 0 0
  let x4 := makeMidi1 0 160 5 68 119
  let x5 := makeMidi1 0 176 8 7 112
  let x6 := makeSystem 0 251 0 0
  let x7 := makeMidi1 0 176 8 114 121
  let x8 := makeMidi1 0 192 6 17 0
  let x9 := makeMidi1 0 192 6 18 0
  let x10 := makeSystem 0 254 0 0
  let x11 := makeMidi1 0 208 2 20 0
  let x12 := makeMidi1 0 208 2 100 0
  let x13 := makeSystem 0 255 0 0
  let x14 := makeMidi1 0 224 5 3 114
  let x15 := makeMidi1 0 224 5 8 116
  let x16 ← Parser.feedAll x1 [165]
  let x17 ← Parser.feedAll x16.1 [68]
  let x18 ← Parser.feedAll x17.1 [3]
  let x19 ← Parser.feedAll x18.1 [68]
  let x20 ← Parser.feedAll x19.1 [250]
  let x21 ← Parser.feedAll x20.1 [119]
  let x22 ← Parser.feedAll x21.1 [184]
  let x23 ← Parser.feedAll x22.1 [7]
  let x24 ← Parser.feedAll x23.1 [112]
  let x25 ← Parser.feedAll x24.1 [251]
  let x26 ← Parser.feedAll x25.1 [114]
  let x27 ← Parser.feedAll x26.1 [121]
  let x28 ← Parser.feedAll x27.1 [122]
  let x29 ← Parser.feedAll x28.1 [198]
  let x30 ← Parser.feedAll x29.1 [17]
  let x31 ← Parser.feedAll x30.1 [18]
  let x32 ← Parser.feedAll x31.1 [210]
  let x33 ← Parser.feedAll x32.1 [254]
  let x34 ← Parser.feedAll x33.1 [20]
  let x35 ← Parser.feedAll x34.1 [100]
  let x36 ← Parser.feedAll x35.1 [229]
  let x37 ← Parser.feedAll x36.1 [3]
  let x38 ← Parser.feedAll x37.1 [255]
  let x39 ← Parser.feedAll x38.1 [114]
  let x40 ← Parser.feedAll x39.1 [8]
  let x41 ← Parser.feedAll x40.1 [116]
  let x42 ← Parser.feedAll x41.1 (List.take 26 [165, 68, 3, 68, 250, 119, 184, 7, 112, 251, 114, 121, 122, 198, 17,
    18, 210, 254, 20, 100, 229, 3, 255, 114, 8, 116])
  let x43 ← Parser.feedAll x42.1 (List.take 26 [165, 68, 3, 68, 250, 119, 184, 7, 112, 251, 114, 121, 122, 198, 17,
    18, 210, 254, 20, 100, 229, 3, 255, 114, 8, 116])
  return decide (x16.2 ++ x17.2 ++ x18.2 ++ x19.2 ++ x20.2 ++ x21.2 ++ x22.2 ++ x23.2 ++ x24.2 ++ x25.2 ++ x26.2 ++
    x27.2 ++ x28.2 ++ x29.2 ++ x30.2 ++ x31.2 ++ x32.2 ++ x33.2 ++ x34.2 ++ x35.2 ++ x36.2 ++ x37.2 ++ x38.2 ++ x39.2
    ++ x40.2 ++ x41.2 ++ x42.2 ++ x43.2 = [Event.packet x2, Event.packet x3, Event.packet x4, Event.packet x5,
    Event.packet x6, Event.packet x7, Event.packet x8, Event.packet x9, Event.packet x10, Event.packet x11,
    Event.packet x12, Event.packet x13, Event.packet x14, Event.packet x15, Event.packet x2, Event.packet x3,
    Event.packet x4, Event.packet x5, Event.packet x6, Event.packet x7, Event.packet x8, Event.packet x9, Event.packet
    x10, Event.packet x11, Event.packet x12, Event.packet x13, Event.packet x14, Event.packet x15, Event.packet x2,
    Event.packet x3, Event.packet x4, Event.packet x5, Event.packet x6, Event.packet x7, Event.packet x8, Event.packet
    x9, Event.packet x10, Event.packet x11, Event.packet x12, Event.packet x13, Event.packet x14, Event.packet x15])) = true := by decide +kernel

-- midi1_byte_stream,parser_sysex_callback: line 490
example : holds (do
  let x1 := Parser.new 0 true true
  let x2 := (⟨8192000, (List.take 3 [37, 80, 68, 247, 240, 0, 33, 9, 68, 3, 68, 119, 7, 112, 114, 121, 247, 240, 0, 2,
    11, 17, 18, 20, 100, 3, 114, 8, 116, 34, 247])⟩ : Sysex)
  let x3 := (⟨8457, (List.take 8 [68, 3, 68, 119, 7, 112, 114, 121, 247, 240, 0, 2, 11, 17, 18, 20, 100, 3, 114, 8,
    116, 34, 247])⟩ : Sysex)
  let x4 := (⟨523, (List.take 9 [17, 18, 20, 100, 3, 114, 8, 116, 34, 247])⟩ : Sysex)
  let x5 ← Parser.feedAll x1 [240]
  let x6 ← Parser.feedAll x5.1 [125]
  let x7 ← Parser.feedAll x6.1 [37]
  let x8 ← Parser.feedAll x7.1 [80]
  let x9 ← Parser.feedAll x8.1 [68]
  let x10 ← Parser.feedAll x9.1 [247]
  let x11 ← Parser.feedAll x10.1 [240]
  let x12 ← Parser.feedAll x11.1 [0]
  let x13 ← Parser.feedAll x12.1 [33]
  let x14 ← Parser.feedAll x13.1 [9]
  let x15 ← Parser.feedAll x14.1 [68]
  let x16 ← Parser.feedAll x15.1 [3]
  let x17 ← Parser.feedAll x16.1 [68]
  let x18 ← Parser.feedAll x17.1 [119]
  let x19 ← Parser.feedAll x18.1 [7]
  let x20 ← Parser.feedAll x19.1 [112]
  let x21 ← Parser.feedAll x20.1 [114]
  let x22 ← Parser.feedAll x21.1 [121]
  let x23 ← Parser.feedAll x22.1 [247]
  let x24 ← Parser.feedAll x23.1 [240]
  let x25 ← Parser.feedAll x24.1 [0]
  let x26 ← Parser.feedAll x25.1 [2]
  let x27 ← Parser.feedAll x26.1 [11]
  let x28 ← Parser.feedAll x27.1 [17]
  let x29 ← Parser.feedAll x28.1 [18]
  let x30 ← Parser.feedAll x29.1 [20]
  let x31 ← Parser.feedAll x30.1 [100]
  let x32 ← Parser.feedAll x31.1 [3]
  let x33 ← Parser.feedAll x32.1 [114]
  let x34 ← Parser.feedAll x33.1 [8]
  let x35 ← Parser.feedAll x34.1 [116]
  let x36 ← Parser.feedAll x35.1 [34]
  let x37 ← Parser.feedAll x36.1 [247]
  let x38 ← Parser.feedAll x37.1 (List.take 33 [240, 125, 37, 80, 68, 247, 240, 0, 33, 9, 68, 3, 68, 119, 7, 112, 114,
    121, 247, 240, 0, 2, 11, 17, 18, 20, 100, 3, 114, 8, 116, 34, 247])
  let x39 ← Parser.feedAll x38.1 (List.take 33 [240, 125, 37, 80, 68, 247, 240, 0, 33, 9, 68, 3, 68, 119, 7, 112, 114,
    121, 247, 240, 0, 2, 11, 17, 18, 20, 100, 3, 114, 8, 116, 34, 247])
  return decide (x5.2 ++ x6.2 ++ x7.2 ++ x8.2 ++ x9.2 ++ x10.2 ++ x11.2 ++ x12.2 ++ x13.2 ++ x14.2 ++ x15.2 ++ x16.2
    ++ x17.2 ++ x18.2 ++ x19.2 ++ x20.2 ++ x21.2 ++ x22.2 ++ x23.2 ++ x24.2 ++ x25.2 ++ x26.2 ++ x27.2 ++ x28.2 ++
    x29.2 ++ x30.2 ++ x31.2 ++ x32.2 ++ x33.2 ++ x34.2 ++ x35.2 ++ x36.2 ++ x37.2 ++ x38.2 ++ x39.2 = [Event.sysex x2,
    Event.sysex x3, Event.sysex x4, Event.sysex x2, Event.sysex x3, Event.sysex x4, Event.sysex x2, Event.sysex x3,
    Event.sysex x4])) = true := by decide +kernel

-- midi1_byte_stream,parser_sysex_packets: line 546
example : holds (do
  let x1 := Parser.new 0 false true
  let x2 := Packet.ofWords [805600549, 1346633728]
  let x3 := Packet.ofWords [806748193, 155452228]
  let x4 := Packet.ofWords [808810247, 1886550272]
  let x5 := Packet.ofWords [806748162, 185668116]
  let x6 := Packet.ofWords [807822339, 1913156642]
  let x7 := Packet.ofWords [808662909, 973078528]
  let x8 ← Parser.feedAll x1 [240]
  let x9 ← Parser.feedAll x8.1 [125]
  let x10 ← Parser.feedAll x9.1 [37]
  let x11 ← Parser.feedAll x10.1 [80]
  let x12 ← Parser.feedAll x11.1 [68]
  let x13 ← Parser.feedAll x12.1 [247]
  let x14 ← Parser.feedAll x13.1 [240]
  let x15 ← Parser.feedAll x14.1 [0]
  let x16 ← Parser.feedAll x15.1 [33]
  let x17 ← Parser.feedAll x16.1 [9]
  let x18 ← Parser.feedAll x17.1 [68]
  let x19 ← Parser.feedAll x18.1 [3]
  let x20 ← Parser.feedAll x19.1 [68]
  let x21 ← Parser.feedAll x20.1 [119]
  let x22 ← Parser.feedAll x21.1 [7]
  let x23 ← Parser.feedAll x22.1 [112]
  let x24 ← Parser.feedAll x23.1 [114]
  let x25 ← Parser.feedAll x24.1 [121]
  let x26 ← Parser.feedAll x25.1 [247]
  let x27 ← Parser.feedAll x26.1 [240]
  let x28 ← Parser.feedAll x27.1 [0]
  let x29 ← Parser.feedAll x28.1 [2]
  let x30 ← Parser.feedAll x29.1 [11]
  let x31 ← Parser.feedAll x30.1 [17]
  let x32 ← Parser.feedAll x31.1 [18]
  let x33 ← Parser.feedAll x32.1 [20]
  let x34 ← Parser.feedAll x33.1 [100]
  let x35 ← Parser.feedAll x34.1 [3]
  let x36 ← Parser.feedAll x35.1 [114]
  let x37 ← Parser.feedAll x36.1 [8]
  let x38 ← Parser.feedAll x37.1 [116]
  let x39 ← Parser.feedAll x38.1 [34]
  let x40 ← Parser.feedAll x39.1 [55]
  let x41 ← Parser.feedAll x40.1 [125]
  let x42 ← Parser.feedAll x41.1 [58]
  let x43 ← Parser.feedAll x42.1 [247]
  let x44 ← Parser.feedAll x43.1 (List.take 36 [240, 125, 37, 80, 68, 247, 240, 0, 33, 9, 68, 3, 68, 119, 7, 112, 114,
    121, 247, 240, 0, 2, 11, 17, 18, 20, 100, 3, 114, 8, 116, 34, 55, 125, 58, 247])
  let x45 ← Parser.feedAll x44.1 (List.take 36 [240, 125, 37, 80, 68, 247, 240, 0, 33, 9, 68, 3, 68, 119, 7, 112, 114,
    121, 247, 240, 0, 2, 11, 17, 18, 20, 100, 3, 114, 8, 116, 34, 55, 125, 58, 247])
  return decide (x8.2 ++ x9.2 ++ x10.2 ++ x11.2 ++ x12.2 ++ x13.2 ++ x14.2 ++ x15.2 ++ x16.2 ++ x17.2 ++ x18.2 ++
    x19.2 ++ x20.2 ++ x21.2 ++ x22.2 ++ x23.2 ++ x24.2 ++ x25.2 ++ x26.2 ++ x27.2 ++ x28.2 ++ x29.2 ++ x30.2 ++ x31.2
    ++ x32.2 ++ x33.2 ++ x34.2 ++ x35.2 ++ x36.2 ++ x37.2 ++ x38.2 ++ x39.2 ++ x40.2 ++ x41.2 ++ x42.2 ++ x43.2 ++
    x44.2 ++ x45.2 = [Event.packet x2, Event.packet x3, Event.packet x4, Event.packet x5, Event.packet x6,
    Event.packet x7, Event.packet x2, Event.packet x3, Event.packet x4, Event.packet x5, Event.packet x6, Event.packet
    x7, Event.packet x2, Event.packet x3, Event.packet x4, Event.packet x5, Event.packet x6, Event.packet x7])) = true := by decide +kernel

-- midi1_byte_stream,parser_sysex_intersperse_system_realtime_callback: line 590
example : holds (do
  let x1 := Parser.new 0 true true
  let x2 := (⟨8192000, [37, 80, 68]⟩ : Sysex)
  let x3 := (⟨8457, [68, 3, 68, 119, 7, 112, 114, 121]⟩ : Sysex)
  let x4 := (⟨523, [17, 18, 20, 100, 3, 114, 8, 116, 34]⟩ : Sysex)
  let x5 := makeSystem 0 248 0 0
  let x6 := makeSystem 0 250 0 0
  let x7 := makeSystem 0 251 0 0
  let x8 := makeSystem 0 252 0 0
  let x9 := makeSystem 0 254 0 0
  let x10 := makeSystem 0 255 0 0
  let x11 ← Parser.feedAll x1 (List.take 39 [240, 125, 248, 37, 80, 68, 247, 240, 0, 250, 33, 9, 68, 3, 251, 68, 119,
    7, 112, 114, 121, 247, 240, 0, 2, 11, 252, 17, 18, 20, 254, 100, 3, 114, 8, 116, 34, 247, 255])
  return decide (x11.2 = [Event.packet x5, Event.sysex x2, Event.packet x6, Event.packet x7, Event.sysex x3,
    Event.packet x8, Event.packet x9, Event.sysex x4, Event.packet x10])) = true := by decide +kernel

-- midi1_byte_stream,parser_sysex_intersperse_system_realtime_packets: line 630
example : holds (do
  let x1 := Parser.new 0 false true
  let x2 := makeSystem 0 248 0 0
  let x3 := makeSystem 0 250 0 0
  let x4 := makeSystem 0 251 0 0
  let x5 := makeSystem 0 252 0 0
  let x6 := makeSystem 0 254 0 0
  let x7 := makeSystem 0 255 0 0
  let x8 := Packet.ofWords [805600549, 1346633728]
  let x9 := Packet.ofWords [806748193, 155452228]
  let x10 := Packet.ofWords [808810247, 1886550272]
  let x11 := Packet.ofWords [806748162, 185668116]
  let x12 := Packet.ofWords [807822339, 1913156642]
  let x13 := Packet.ofWords [808452096, 0]
  let x14 ← Parser.feedAll x1 [240]
  let x15 ← Parser.feedAll x14.1 [125]
  let x16 ← Parser.feedAll x15.1 [248]
  let x17 ← Parser.feedAll x16.1 [37]
  let x18 ← Parser.feedAll x17.1 [80]
  let x19 ← Parser.feedAll x18.1 [68]
  let x20 ← Parser.feedAll x19.1 [247]
  let x21 ← Parser.feedAll x20.1 [240]
  let x22 ← Parser.feedAll x21.1 [0]
  let x23 ← Parser.feedAll x22.1 [250]
  let x24 ← Parser.feedAll x23.1 [33]
  let x25 ← Parser.feedAll x24.1 [9]
  let x26 ← Parser.feedAll x25.1 [68]
  let x27 ← Parser.feedAll x26.1 [3]
  let x28 ← Parser.feedAll x27.1 [251]
  let x29 ← Parser.feedAll x28.1 [68]
  let x30 ← Parser.feedAll x29.1 [119]
  let x31 ← Parser.feedAll x30.1 [7]
  let x32 ← Parser.feedAll x31.1 [112]
  let x33 ← Parser.feedAll x32.1 [114]
  let x34 ← Parser.feedAll x33.1 [121]
  let x35 ← Parser.feedAll x34.1 [247]
  let x36 ← Parser.feedAll x35.1 [240]
  let x37 ← Parser.feedAll x36.1 [0]
  let x38 ← Parser.feedAll x37.1 [2]
  let x39 ← Parser.feedAll x38.1 [11]
  let x40 ← Parser.feedAll x39.1 [252]
  let x41 ← Parser.feedAll x40.1 [17]
  let x42 ← Parser.feedAll x41.1 [18]
  let x43 ← Parser.feedAll x42.1 [20]
  let x44 ← Parser.feedAll x43.1 [254]
  let x45 ← Parser.feedAll x44.1 [100]
  let x46 ← Parser.feedAll x45.1 [3]
  let x47 ← Parser.feedAll x46.1 [114]
  let x48 ← Parser.feedAll x47.1 [8]
  let x49 ← Parser.feedAll x48.1 [116]
  let x50 ← Parser.feedAll x49.1 [34]
  let x51 ← Parser.feedAll x50.1 [247]
  let x52 ← Parser.feedAll x51.1 [255]
  return decide (x14.2 ++ x15.2 ++ x16.2 ++ x17.2 ++ x18.2 ++ x19.2 ++ x20.2 ++ x21.2 ++ x22.2 ++ x23.2 ++ x24.2 ++
    x25.2 ++ x26.2 ++ x27.2 ++ x28.2 ++ x29.2 ++ x30.2 ++ x31.2 ++ x32.2 ++ x33.2 ++ x34.2 ++ x35.2 ++ x36.2 ++ x37.2
    ++ x38.2 ++ x39.2 ++ x40.2 ++ x41.2 ++ x42.2 ++ x43.2 ++ x44.2 ++ x45.2 ++ x46.2 ++ x47.2 ++ x48.2 ++ x49.2 ++
    x50.2 ++ x51.2 ++ x52.2 = [Event.packet x2, Event.packet x8, Event.packet x3, Event.packet x4, Event.packet x9,
    Event.packet x10, Event.packet x5, Event.packet x11, Event.packet x6, Event.packet x12, Event.packet x13,
    Event.packet x7])) = true := by decide +kernel

-- midi1_byte_stream,parser_sysex_intersperse_other_callback: line 665
example : holds (do
  let x1 := Parser.new 0 true true
  let x2 := (⟨523, [17, 18, 20, 100, 3, 114, 8, 116, 34]⟩ : Sysex)
  let x3 := makeSystem 0 242 68 17
  let x4 := makeMidi1 0 144 12 7 112
  let x5 := makeMidi1 0 144 12 114 121
  let x6 ← Parser.feedAll x1 (List.take 36 [240, 125, 37, 80, 242, 68, 17, 247, 240, 0, 33, 9, 68, 3, 68, 119, 156, 7,
    112, 114, 121, 247, 240, 0, 2, 11, 17, 18, 20, 100, 3, 114, 8, 116, 34, 247])
  return decide (x6.2 = [Event.packet x3, Event.packet x4, Event.packet x5, Event.sysex x2])) = true := by decide +kernel

-- midi1_byte_stream,parser_sysex_intersperse_other_packets: line 696
example : holds (do
  let x1 := Parser.new 0 false true
  let x2 := makeSystem 0 242 68 17
  let x3 := makeMidi1 0 144 12 7 112
  let x4 := makeMidi1 0 144 12 114 121
  let x5 := Packet.ofWords [806748193, 155452228]
  let x6 := Packet.ofWords [806748162, 185668116]
  let x7 := Packet.ofWords [807822339, 1913156642]
  let x8 := Packet.ofWords [808452096, 0]
  let x9 ← Parser.feedAll x1 (List.take 36 [240, 125, 37, 80, 242, 68, 17, 247, 240, 0, 33, 9, 68, 3, 68, 119, 156, 7,
    112, 114, 121, 247, 240, 0, 2, 11, 17, 18, 20, 100, 3, 114, 8, 116, 34, 247])
  return decide (x9.2 = [Event.packet x2, Event.packet x5, Event.packet x3, Event.packet x4, Event.packet x6,
    Event.packet x7, Event.packet x8])) = true := by decide +kernel

-- midi1_byte_stream,parser_real_world_stream_callback: line 749
example : holds (do
  let x1 := Parser.new 0 true true
  let x2 := (⟨8192000, [37, 80, 68]⟩ : Sysex)
  let x3 := (⟨8457, [68, 3, 68, 119, 7, 112, 114, 121]⟩ : Sysex)
  let x4 := (⟨523, [17, 18, 20, 100, 3, 114, 8, 116, 34]⟩ : Sysex)
  let x5 := makeSystem 0 248 0 0
  let x6 := makeMidi1 0 128 4 51 116
  let x7 := makeMidi1 0 128 4 34 86
  let x8 := makeSystem 0 250 0 0
  let x9 := makeSystem 0 251 0 0
  let x10 := makeSystem 0 241 108 0
  let x11 := makeSystem 0 252 0 0
  let x12 := makeSystem 0 254 0 0
  let x13 := makeSystem 0 255 0 0
  let x14 := makeMidi1 0 176 4 7 16
  let x15 ← Parser.feedAll x1 (List.take 49 [240, 125, 248, 37, 80, 68, 247, 132, 51, 116, 34, 86, 240, 0, 250, 33, 9,
    68, 3, 251, 68, 119, 7, 112, 114, 121, 247, 241, 108, 240, 0, 2, 11, 252, 17, 18, 20, 254, 100, 3, 114, 8, 116,
    34, 247, 255, 180, 7, 16])
  return decide (x15.2 = [Event.packet x5, Event.sysex x2, Event.packet x6, Event.packet x7, Event.packet x8,
    Event.packet x9, Event.sysex x3, Event.packet x10, Event.packet x11, Event.packet x12, Event.sysex x4,
    Event.packet x13, Event.packet x14])) = true := by decide +kernel

-- midi1_byte_stream,parser_real_world_stream_packets: line 797
example : holds (do
  let x1 := Parser.new 0 false true
  let x2 := makeSystem 0 248 0 0
  let x3 := makeMidi1 0 128 4 51 116
  let x4 := makeMidi1 0 128 4 34 86
  let x5 := makeSystem 0 250 0 0
  let x6 := makeSystem 0 251 0 0
  let x7 := makeSystem 0 241 108 0
  let x8 := makeSystem 0 252 0 0
  let x9 := makeSystem 0 254 0 0
  let x10 := makeSystem 0 255 0 0
  let x11 := makeMidi1 0 176 4 7 16
  let x12 := Packet.ofWords [805600549, 1346633728]
  let x13 := Packet.ofWords [806748193, 155452228]
  let x14 := Packet.ofWords [808810247, 1886550272]
  let x15 := Packet.ofWords [806748162, 185668116]
  let x16 := Packet.ofWords [807822339, 1913156642]
  let x17 := Packet.ofWords [808530688, 0]
  let x18 ← Parser.feedAll x1 (List.take 50 [240, 125, 248, 37, 80, 68, 247, 132, 51, 116, 34, 86, 240, 0, 250, 33, 9,
    68, 3, 251, 68, 119, 7, 112, 114, 121, 247, 241, 108, 240, 0, 2, 11, 252, 17, 18, 20, 254, 100, 3, 114, 8, 116,
    34, 51, 247, 255, 180, 7, 16])
  return decide (x18.2 = [Event.packet x2, Event.packet x12, Event.packet x3, Event.packet x4, Event.packet x5,
    Event.packet x6, Event.packet x13, Event.packet x14, Event.packet x7, Event.packet x8, Event.packet x15,
    Event.packet x9, Event.packet x16, Event.packet x17, Event.packet x10, Event.packet x11])) = true := by decide +kernel

-- midi1_byte_stream,parser_invalid_sysex: line 824
example : holds (do
  let x1 := Parser.new 0 true true
  let x2 := (⟨8192000, []⟩ : Sysex)
  let x3 := (⟨8457, []⟩ : Sysex)
  let x4 ← Parser.feedAll x1 (List.take 17 [240, 247, 240, 0, 247, 240, 0, 17, 247, 240, 125, 247, 240, 0, 33, 9,
    247])
  return decide (x4.2 = [Event.sysex x2, Event.sysex x3])) = true := by decide +kernel

-- midi1_byte_stream,parser_reset: line 0
example : holds (do
  let x1 := Parser.new 0 true true
  let x2 ← Parser.feedAll x1 (List.take 3 [240, 0, 17])
  let x3 := (Parser.reset x2.1)
  let x4 ← Parser.feedAll x3 (List.take 2 [17, 247])
  return decide (x2.2 ++ x4.2 = [])) = true := by decide +kernel

-- midi1_byte_stream,parser_no_sysex_callback: line 872
example : holds (do
  let x1 := Parser.new 0 false true
  let x2 := makeMidi1 0 128 3 69 110
  let x3 ← makeSysex7 .complete 0
  let x4 ← sysex7AddPayloadByte x3 1
  let x5 ← sysex7AddPayloadByte x4 2
  let x6 := makeMidi1 0 144 14 48 127
  let x7 ← Parser.feedAll x1 [131]
  let x8 ← Parser.feedAll x7.1 [69]
  let x9 ← Parser.feedAll x8.1 [110]
  let x10 ← Parser.feedAll x9.1 [240]
  let x11 ← Parser.feedAll x10.1 [1]
  let x12 ← Parser.feedAll x11.1 [2]
  let x13 ← Parser.feedAll x12.1 [247]
  let x14 ← Parser.feedAll x13.1 [158]
  let x15 ← Parser.feedAll x14.1 [48]
  let x16 ← Parser.feedAll x15.1 [127]
  let x17 ← Parser.feedAll x16.1 [240]
  let x18 ← Parser.feedAll x17.1 [247]
  return decide (x7.2 ++ x8.2 ++ x9.2 ++ x10.2 ++ x11.2 ++ x12.2 ++ x13.2 ++ x14.2 ++ x15.2 ++ x16.2 ++ x17.2 ++ x18.2
    = [Event.packet x2, Event.packet x5, Event.packet x6])) = true := by decide +kernel

-- midi1_byte_stream,parser_large_sysex: line 897
example : holds (do
  let x1 := Parser.new 0 true true
  let x2 := (⟨1048576, []⟩ : Sysex)
  let x3 := { x2 with data := (x2.data ++ [0]) }
  let x4 := { x3 with data := (x3.data ++ [112]) }
  let x5 := { x4 with data := (x4.data ++ [96]) }
  let x6 := { x5 with data := (x5.data ++ [80]) }
  let x7 := { x6 with data := (x6.data ++ [64]) }
  let x8 := { x7 with data := (x7.data ++ [48]) }
  let x9 := { x8 with data := (x8.data ++ [32]) }
  let x10 := { x9 with data := (x9.data ++ [16]) }
  let x11 := { x10 with data := (x10.data ++ [0]) }
  let x12 := { x11 with data := (x11.data ++ [112]) }
  let x13 := { x12 with data := (x12.data ++ [96]) }
  let x14 := { x13 with data := (x13.data ++ [81]) }
  let x15 ← Parser.feedAll x1 [240]
  let x16 ← Parser.feedAll x15.1 [16]
  let x17 ← Parser.feedAll x16.1 (List.take x14.data.length x14.data)
  let x18 ← Parser.feedAll x17.1 [247]
  return decide (x15.2 ++ x16.2 ++ x17.2 ++ x18.2 = [Event.sysex x14])) = true := by decide +kernel

-- midi1_byte_stream,size_utility_messages: line 912
example : holds (do
  let x1 := Packet.ofWords [0]
  let x2 := Packet.ofWords [1507328]
  let x3 := Packet.ofWords [3014656]
  let x4 := Packet.ofWords [4521984]
  let x5 := Packet.ofWords [6029312]
  let x6 := Packet.ofWords [7536640]
  return decide (0 = ((midi1ByteStreamSize x1) : Int)) && decide (0 = ((midi1ByteStreamSize x2) : Int)) && decide (0 =
    ((midi1ByteStreamSize x3) : Int)) && decide (0 = ((midi1ByteStreamSize x4) : Int)) && decide (0 =
    ((midi1ByteStreamSize x5) : Int)) && decide (0 = ((midi1ByteStreamSize x6) : Int))) = true := by decide +kernel

-- midi1_byte_stream,size_system_messages: line 934
example : holds (do
  let x1 := Packet.ofWords [268510021]
  let x2 := Packet.ofWords [319890245]
  let x3 := Packet.ofWords [438650401]
  let x4 := Packet.ofWords [372319045]
  let x5 := Packet.ofWords [390144837]
  let x6 := Packet.ofWords [424747845]
  return decide (0 = ((midi1ByteStreamSize x1) : Int)) && decide (0 = ((midi1ByteStreamSize x2) : Int)) && decide (0 =
    ((midi1ByteStreamSize x3) : Int)) && decide (0 = ((midi1ByteStreamSize x4) : Int)) && decide (0 =
    ((midi1ByteStreamSize x5) : Int)) && decide (0 = ((midi1ByteStreamSize x6) : Int))) = true := by decide +kernel

-- midi1_byte_stream,size_channel_voice_messages: line 955
example : holds (do
  let x1 := Packet.ofWords [536945477]
  let x2 := Packet.ofWords [588325701]
  let x3 := Packet.ofWords [707085857]
  let x4 := Packet.ofWords [640754501]
  let x5 := Packet.ofWords [658580293]
  let x6 := Packet.ofWords [693183301]
  return decide (0 = ((midi1ByteStreamSize x1) : Int)) && decide (0 = ((midi1ByteStreamSize x2) : Int)) && decide (0 =
    ((midi1ByteStreamSize x3) : Int)) && decide (0 = ((midi1ByteStreamSize x4) : Int)) && decide (0 =
    ((midi1ByteStreamSize x5) : Int)) && decide (0 = ((midi1ByteStreamSize x6) : Int))) = true := by decide +kernel

-- midi1_byte_stream,size_data_messages: lines 992-998
example : holds (do
  let x1 := Packet.ofWords [805315397]
  let x2 := Packet.ofWords [855712581]
  let x3 := Packet.ofWords [973227553]
  let x4 := Packet.ofWords [906175301]
  let x5 := Packet.ofWords [923018053]
  let x6 := Packet.ofWords [956638021]
  let x7 := Packet.ofWords [809500672]
  let x8 := Packet.ofWords [810614784]
  return decide (0 = ((midi1ByteStreamSize x1) : Int)) && decide (1 = ((midi1ByteStreamSize x2) : Int)) && decide (2 =
    ((midi1ByteStreamSize x3) : Int)) && decide (3 = ((midi1ByteStreamSize x4) : Int)) && decide (4 =
    ((midi1ByteStreamSize x5) : Int)) && decide (5 = ((midi1ByteStreamSize x6) : Int)) && decide (0 =
    ((midi1ByteStreamSize x7) : Int)) && decide (0 = ((midi1ByteStreamSize x8) : Int))) = true := by decide +kernel

-- midi1_byte_stream,size_data_messages: line 998
example : holds (do
  let x1 := Packet.ofWords [811728896]
  let x2 := Packet.ofWords [812908544]
  let x3 := Packet.ofWords [814022656]
  let x4 := Packet.ofWords [815136768]
  return decide (0 = ((midi1ByteStreamSize x1) : Int)) && decide (0 = ((midi1ByteStreamSize x2) : Int)) && decide (0 =
    ((midi1ByteStreamSize x3) : Int)) && decide (0 = ((midi1ByteStreamSize x4) : Int))) = true := by decide +kernel

-- midi1_byte_stream,size_other_messages: line 1011
example : holds (do
  let x1 := Packet.ofWords [1]
  return decide (0 = ((midi1ByteStreamSize x1) : Int))) = true := by decide +kernel

-- midi1_byte_stream,from_system_messages: line 1046
example : holds (do
  let x1 := Packet.ofWords []
  let x2 := Packet.ofWords [284242962]
  let x3 := Packet.ofWords [284303683]
  let x4 := Packet.ofWords [284376363]
  let x5 := fromMidi1ByteStream 240 118 104
  let x6 := fromMidi1ByteStream 241 52 18
  let x7 := fromMidi1ByteStream 242 33 67
  let x8 := fromMidi1ByteStream 243 61 43
  let x9 := fromMidi1ByteStream 244 106 124
  let x10 := fromMidi1ByteStream 245 23 113
  return (x1.eqv x5) && (x2.eqv x6) && (x3.eqv x7) && (x4.eqv x8) && (x1.eqv x9) && (x1.eqv x10)) = true := by decide +kernel

-- midi1_byte_stream,from_channel_voice_messages: line 1068
example : holds (do
  let x1 := Packet.ofWords [545486440]
  let x2 := Packet.ofWords [547238930]
  let x3 := Packet.ofWords [547627331]
  let x4 := Packet.ofWords [549010731]
  let x5 := Packet.ofWords [550267516]
  let x6 := Packet.ofWords [550836081]
  let x7 := fromMidi1ByteStream 131 118 104
  let x8 := fromMidi1ByteStream 158 52 18
  let x9 := fromMidi1ByteStream 164 33 67
  let x10 := fromMidi1ByteStream 185 61 43
  let x11 := fromMidi1ByteStream 204 106 124
  let x12 := fromMidi1ByteStream 213 23 113
  return (x1.eqv x7) && (x2.eqv x8) && (x3.eqv x9) && (x4.eqv x10) && (x5.eqv x11) && (x6.eqv x12)) = true := by decide +kernel

-- midi1_byte_stream,from_invalid_data: line 1082
example : holds (do
  let x1 := Packet.ofWords [0]
  let x2 := fromMidi1ByteStream 0 0 0
  let x3 := fromMidi1ByteStream 11 0 0
  let x4 := fromMidi1ByteStream 23 0 0
  let x5 := fromMidi1ByteStream 34 0 0
  let x6 := fromMidi1ByteStream 46 0 0
  let x7 := fromMidi1ByteStream 57 0 0
  return (x1.eqv x2) && (x1.eqv x3) && (x1.eqv x4) && (x1.eqv x5) && (x1.eqv x6) && (x1.eqv x7)) = true := by decide +kernel

-- midi1_byte_stream,to_midi1_byte_stream_system: lines 1094-1122
example : holds (do
  let x1 := makeSystem 0 240 0 0
  let x2 ← toMidi1ByteStream x1
  let x3 := makeSystem 0 241 53 0
  let x4 ← toMidi1ByteStream x3
  let x5 := makeSystem 0 242 55 106
  let x6 ← toMidi1ByteStream x5
  let x7 := makeSystem 0 243 54 0
  let x8 ← toMidi1ByteStream x7
  let x9 := makeSystem 0 244 0 0
  let x10 ← toMidi1ByteStream x9
  return decide (0 = (x2.length : Int)) && decide ((x4.length : Int) = 2) && decide (0 = (if List.take x4.length [241,
    53] = List.take x4.length x4 then 0 else 1)) && decide ((x6.length : Int) = 3) && decide (0 = (if List.take
    x6.length [242, 55, 106] = List.take x6.length x6 then 0 else 1)) && decide ((x8.length : Int) = 2) && decide (0 =
    (if List.take x8.length [243, 54] = List.take x8.length x8 then 0 else 1)) && decide (0 = (x10.length : Int))) = true := by decide +kernel

-- midi1_byte_stream,to_midi1_byte_stream_system: lines 1123-1149
example : holds (do
  let x1 := makeSystem 0 245 0 0
  let x2 ← toMidi1ByteStream x1
  let x3 := makeSystem 0 246 0 0
  let x4 ← toMidi1ByteStream x3
  let x5 := makeSystem 0 247 0 0
  let x6 ← toMidi1ByteStream x5
  let x7 := makeSystem 0 248 0 0
  let x8 ← toMidi1ByteStream x7
  let x9 := makeSystem 0 249 0 0
  let x10 ← toMidi1ByteStream x9
  let x11 := makeSystem 0 250 0 0
  let x12 ← toMidi1ByteStream x11
  return decide (0 = (x2.length : Int)) && decide ((x4.length : Int) = 1) && decide (0 = (if List.take x4.length [246]
    = List.take x4.length x4 then 0 else 1)) && decide (0 = (x6.length : Int)) && decide ((x8.length : Int) = 1) &&
    decide (0 = (if List.take x8.length [248] = List.take x8.length x8 then 0 else 1)) && decide (0 = (x10.length :
    Int)) && decide ((x12.length : Int) = 1)) = true := by decide +kernel

-- midi1_byte_stream,to_midi1_byte_stream_system: lines 1150-1176
example : holds (do
  let x1 := makeSystem 0 250 0 0
  let x2 ← toMidi1ByteStream x1
  let x3 := makeSystem 0 251 0 0
  let x4 ← toMidi1ByteStream x3
  let x5 := makeSystem 0 252 0 0
  let x6 ← toMidi1ByteStream x5
  let x7 := makeSystem 0 253 0 0
  let x8 ← toMidi1ByteStream x7
  let x9 := makeSystem 0 254 0 0
  let x10 ← toMidi1ByteStream x9
  return decide (0 = (if List.take x2.length [250] = List.take x2.length x2 then 0 else 1)) && decide ((x4.length :
    Int) = 1) && decide (0 = (if List.take x4.length [251] = List.take x4.length x4 then 0 else 1)) && decide
    ((x6.length : Int) = 1) && decide (0 = (if List.take x6.length [252] = List.take x6.length x6 then 0 else 1)) &&
    decide (0 = (x8.length : Int)) && decide ((x10.length : Int) = 1) && decide (0 = (if List.take x10.length [254] =
    List.take x10.length x10 then 0 else 1))) = true := by decide +kernel

-- midi1_byte_stream,to_midi1_byte_stream_system: lines 1183-1184
example : holds (do
  let x1 := makeSystem 0 255 0 0
  let x2 ← toMidi1ByteStream x1
  return decide ((x2.length : Int) = 1) && decide (0 = (if List.take x2.length [255] = List.take x2.length x2 then 0
    else 1))) = true := by decide +kernel

-- midi1_byte_stream,to_midi1_byte_stream_midi1_channel_voice: lines 1199-1208
example : holds (do
  let x1 := makeMidi1 0 0 1 2 0
  let x2 ← toMidi1ByteStream x1
  let x3 := makeMidi1 0 16 1 2 0
  let x4 ← toMidi1ByteStream x3
  let x5 := makeMidi1 0 32 1 2 0
  let x6 ← toMidi1ByteStream x5
  let x7 := makeMidi1 0 48 1 2 0
  let x8 ← toMidi1ByteStream x7
  let x9 := makeMidi1 0 64 1 2 0
  let x10 ← toMidi1ByteStream x9
  let x11 := makeMidi1 0 80 1 2 0
  let x12 ← toMidi1ByteStream x11
  let x13 := makeMidi1NoteOff 0 10 110 (velocityOf7 100)
  let x14 ← toMidi1ByteStream x13
  return decide (0 = (x2.length : Int)) && decide (0 = (x4.length : Int)) && decide (0 = (x6.length : Int)) && decide
    (0 = (x8.length : Int)) && decide (0 = (x10.length : Int)) && decide (0 = (x12.length : Int)) && decide
    ((x14.length : Int) = 3) && decide (0 = (if List.take x14.length [138, 110, 100] = List.take x14.length x14 then 0
    else 1))) = true := by decide +kernel

-- midi1_byte_stream,to_midi1_byte_stream_midi1_channel_voice: lines 1216-1243
example : holds (do
  let x1 := makeMidi1NoteOn 0 8 88 (velocityOf7 37)
  let x2 ← toMidi1ByteStream x1
  let x3 := makeMidi1PolyPressure 7 10 18 (controllerOf7 73)
  let x4 ← toMidi1ByteStream x3
  let x5 := makeMidi1ProgramChange 4 5 6
  let x6 ← toMidi1ByteStream x5
  let x7 := makeMidi1ChannelPressure 14 12 (controllerOf7 10)
  let x8 ← toMidi1ByteStream x7
  return decide ((x2.length : Int) = 3) && decide (0 = (if List.take x2.length [152, 88, 37] = List.take x2.length x2
    then 0 else 1)) && decide ((x4.length : Int) = 3) && decide (0 = (if List.take x4.length [170, 18, 73] = List.take
    x4.length x4 then 0 else 1)) && decide ((x6.length : Int) = 2) && decide (0 = (if List.take x6.length [197, 6] =
    List.take x6.length x6 then 0 else 1)) && decide ((x8.length : Int) = 2) && decide (0 = (if List.take x8.length
    [220, 10] = List.take x8.length x8 then 0 else 1))) = true := by decide +kernel

-- midi1_byte_stream,to_midi1_byte_stream_midi1_channel_voice: lines 1250-1257
example : holds (do
  let x1 := makeMidi1PitchBend 4 6 (defaultPitchBend)
  let x2 ← toMidi1ByteStream x1
  let x3 := makeMidi1 0 240 1 2 0
  let x4 ← toMidi1ByteStream x3
  let x5 := makeMidi1 0 241 1 2 0
  let x6 ← toMidi1ByteStream x5
  let x7 := makeMidi1 0 242 1 2 0
  let x8 ← toMidi1ByteStream x7
  let x9 := makeMidi1 0 243 1 2 0
  let x10 ← toMidi1ByteStream x9
  let x11 := makeMidi1 0 245 1 2 0
  let x12 ← toMidi1ByteStream x11
  let x13 := makeMidi1 0 246 1 2 0
  let x14 ← toMidi1ByteStream x13
  return decide ((x2.length : Int) = 3) && decide (0 = (if List.take x2.length [230, 0, 64] = List.take x2.length x2
    then 0 else 1)) && decide (0 = (x4.length : Int)) && decide (0 = (x6.length : Int)) && decide (0 = (x8.length :
    Int)) && decide (0 = (x10.length : Int)) && decide (0 = (x12.length : Int)) && decide (0 = (x14.length : Int))) = true := by decide +kernel

-- midi1_byte_stream,to_midi1_byte_stream_data: lines 1275-1297
example : holds (do
  let x1 := Packet.ofWords [872743170, 50595078]
  let x2 ← toMidi1ByteStream x1
  let x3 := Packet.ofWords [872808706, 50595078]
  let x4 ← toMidi1ByteStream x3
  let x5 := Packet.ofWords [872415490, 50595078]
  let x6 ← toMidi1ByteStream x5
  let x7 := Packet.ofWords [956760322]
  let x8 ← toMidi1ByteStream x7
  let x9 := Packet.ofWords [956825858]
  let x10 ← toMidi1ByteStream x9
  return decide ((x2.length : Int) = 7) && decide (0 = (if List.take x2.length [240, 1, 2, 3, 4, 5, 247] = List.take
    x2.length x2 then 0 else 1)) && decide ((x4.length : Int) = 8) && decide (0 = (if List.take x4.length [240, 1, 2,
    3, 4, 5, 6, 247] = List.take x4.length x4 then 0 else 1)) && decide ((x6.length : Int) = 2) && decide (0 = (if
    List.take x6.length [240, 247] = List.take x6.length x6 then 0 else 1)) && decide (0 = (x8.length : Int)) &&
    decide (0 = (x10.length : Int))) = true := by decide +kernel

-- midi1_byte_stream,to_midi1_byte_stream_data: lines 1297-1315
example : holds (do
  let x1 := Packet.ofWords [956891394]
  let x2 ← toMidi1ByteStream x1
  let x3 := Packet.ofWords [956956930]
  let x4 ← toMidi1ByteStream x3
  let x5 := Packet.ofWords [957022466]
  let x6 ← toMidi1ByteStream x5
  let x7 := Packet.ofWords [957088002]
  let x8 ← toMidi1ByteStream x7
  let x9 := Packet.ofWords [873529602, 50595078]
  let x10 ← toMidi1ByteStream x9
  let x11 := Packet.ofWords [873857282, 50595078]
  let x12 ← toMidi1ByteStream x11
  return decide (0 = (x2.length : Int)) && decide (0 = (x4.length : Int)) && decide (0 = (x6.length : Int)) && decide
    (0 = (x8.length : Int)) && decide ((x10.length : Int) = 2) && decide (0 = (if List.take x10.length [240, 1] =
    List.take x10.length x10 then 0 else 1)) && decide ((x12.length : Int) = 7) && decide (0 = (if List.take
    x12.length [240, 1, 2, 3, 4, 5, 6] = List.take x12.length x12 then 0 else 1))) = true := by decide +kernel

-- midi1_byte_stream,to_midi1_byte_stream_data: lines 1322-1328
example : holds (do
  let x1 := Packet.ofWords [873464066, 50595078]
  let x2 ← toMidi1ByteStream x1
  let x3 := Packet.ofWords [957808898]
  let x4 ← toMidi1ByteStream x3
  let x5 := Packet.ofWords [957874434]
  let x6 ← toMidi1ByteStream x5
  let x7 := Packet.ofWords [957939970]
  let x8 ← toMidi1ByteStream x7
  let x9 := Packet.ofWords [958005506]
  let x10 ← toMidi1ByteStream x9
  let x11 := Packet.ofWords [958071042]
  let x12 ← toMidi1ByteStream x11
  let x13 := Packet.ofWords [958136578]
  let x14 ← toMidi1ByteStream x13
  return decide ((x2.length : Int) = 1) && decide (0 = (if List.take x2.length [240] = List.take x2.length x2 then 0
    else 1)) && decide (0 = (x4.length : Int)) && decide (0 = (x6.length : Int)) && decide (0 = (x8.length : Int)) &&
    decide (0 = (x10.length : Int)) && decide (0 = (x12.length : Int)) && decide (0 = (x14.length : Int))) = true := by decide +kernel

-- midi1_byte_stream,to_midi1_byte_stream_data: lines 1337-1353
example : holds (do
  let x1 := Packet.ofWords [874774786, 50595078]
  let x2 ← toMidi1ByteStream x1
  let x3 := Packet.ofWords [874905858, 50595078]
  let x4 ← toMidi1ByteStream x3
  let x5 := Packet.ofWords [874512642, 50595078]
  let x6 ← toMidi1ByteStream x5
  let x7 := Packet.ofWords [958857474]
  let x8 ← toMidi1ByteStream x7
  let x9 := Packet.ofWords [958923010]
  let x10 ← toMidi1ByteStream x9
  let x11 := Packet.ofWords [958988546]
  let x12 ← toMidi1ByteStream x11
  return decide ((x2.length : Int) = 4) && decide (0 = (if List.take x2.length [1, 2, 3, 4] = List.take x2.length x2
    then 0 else 1)) && decide ((x4.length : Int) = 6) && decide (0 = (if List.take x4.length [1, 2, 3, 4, 5, 6] =
    List.take x4.length x4 then 0 else 1)) && decide (0 = (x6.length : Int)) && decide (0 = (x8.length : Int)) &&
    decide (0 = (x10.length : Int)) && decide (0 = (x12.length : Int))) = true := by decide +kernel

-- midi1_byte_stream,to_midi1_byte_stream_data: lines 1353-1378
example : holds (do
  let x1 := Packet.ofWords [959054082]
  let x2 ← toMidi1ByteStream x1
  let x3 := Packet.ofWords [959119618]
  let x4 ← toMidi1ByteStream x3
  let x5 := Packet.ofWords [959185154]
  let x6 ← toMidi1ByteStream x5
  let x7 := Packet.ofWords [875757826, 50595078]
  let x8 ← toMidi1ByteStream x7
  let x9 := Packet.ofWords [875954434, 50595078]
  let x10 ← toMidi1ByteStream x9
  let x11 := Packet.ofWords [875561218, 50595078]
  let x12 ← toMidi1ByteStream x11
  return decide (0 = (x2.length : Int)) && decide (0 = (x4.length : Int)) && decide (0 = (x6.length : Int)) && decide
    ((x8.length : Int) = 4) && decide (0 = (if List.take x8.length [1, 2, 3, 247] = List.take x8.length x8 then 0 else
    1)) && decide ((x10.length : Int) = 7) && decide (0 = (if List.take x10.length [1, 2, 3, 4, 5, 6, 247] = List.take
    x10.length x10 then 0 else 1)) && decide ((x12.length : Int) = 1)) = true := by decide +kernel

-- midi1_byte_stream,to_midi1_byte_stream_data: lines 1379-1385
example : holds (do
  let x1 := Packet.ofWords [875561218, 50595078]
  let x2 ← toMidi1ByteStream x1
  let x3 := Packet.ofWords [959906050]
  let x4 ← toMidi1ByteStream x3
  let x5 := Packet.ofWords [961085698]
  let x6 ← toMidi1ByteStream x5
  let x7 := Packet.ofWords [962265346]
  let x8 ← toMidi1ByteStream x7
  let x9 := Packet.ofWords [963444994]
  let x10 ← toMidi1ByteStream x9
  let x11 := Packet.ofWords [964624642]
  let x12 ← toMidi1ByteStream x11
  let x13 := Packet.ofWords [965804290]
  let x14 ← toMidi1ByteStream x13
  return decide (0 = (if List.take x2.length [247] = List.take x2.length x2 then 0 else 1)) && decide (0 = (x4.length
    : Int)) && decide (0 = (x6.length : Int)) && decide (0 = (x8.length : Int)) && decide (0 = (x10.length : Int)) &&
    decide (0 = (x12.length : Int)) && decide (0 = (x14.length : Int))) = true := by decide +kernel

end Midi.Conformance

import Verif.Model.FlexData
import Verif.Model.Messages

/-!
# Default constructed messages and the constructors of packets

The default constructors that are not in the files of the message classes.
-/

namespace Midi

/-- `universal_packet(w)` and the constructors with two to four words (inc/midi/universal_packet.h 355-375): words that
are not given keep their default value 0. A fifth word does not exist; the model ignores it. -/
def Packet.ofWords : List Word → Packet
  | [] => {}
  | [a] => { w0 := a }
  | [a, b] => { w0 := a, w1 := b }
  | [a, b, c] => { w0 := a, w1 := b, w2 := c }
  | a :: b :: c :: d :: _ => { w0 := a, w1 := b, w2 := c, w3 := d }

/-- `utility_message()`, which is defaulted (inc/midi/utility_message.h 42). -/
def utilityDefault : Packet := {}

/-- `system_message()` (inc/midi/system_message.h 86-89). -/
def systemDefault : Packet := { w0 := 0x10000000 }

/-- `midi1_channel_voice_message()`, which is defaulted (inc/midi/midi1_channel_voice_message.h 41). -/
def midi1CVDefault : Packet := {}

/-- `midi2_channel_voice_message()`, which is defaulted (inc/midi/midi2_channel_voice_message.h 41). -/
def midi2CVDefault : Packet := {}

/-- `data_message()`, and `sysex7_packet()`, which is defaulted (inc/midi/data_message.h 103-106, 50). -/
def dataDefault : Packet := { w0 := 0x30000000 }

/-- `extended_data_message()` (inc/midi/extended_data_message.h 110-113). -/
def extendedDataDefault : Packet := { w0 := 0x50000000 }

end Midi

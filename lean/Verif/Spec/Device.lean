import Verif.Model.CapabilityInquiry

/-!
# A device that takes part in MIDI-CI

What an application does with the messages it receives, written with the library's views and factory functions only: it
answers discovery inquiries, and it rejects messages it does not know.
-/

namespace Midi.Spec
open CI

/-- What the application knows about its own device: MUID, identity, categories supported, maximum message size, function
block, and the subtypes of the MIDI-CI messages it handles elsewhere or ignores. -/
structure Device where
  muid : Word
  identity : DeviceIdentity
  categories : Byte
  maxSize : Word
  functionBlock : Byte
  known : List Byte

/-- The answer to a message.

* Messages that are no MIDI-CI messages and messages for somebody else are ignored (`as<capability_inquiry_view>`,
  `destination_muid()`).
* A discovery inquiry (`as<discovery_inquiry_view>`) is answered with `make_discovery_reply`, which goes to the source of the
  inquiry and repeats its output path id.
* Any other message for this device in particular, unless its subtype is one the device knows, is answered with
  `make_nak_message`: status code 01 (message not supported), no details and no text. -/
def Device.answer (d : Device) (m : Sysex) : Except Fault (Option Sysex) := do
  match ← asView View.validate m with
  | none => return none
  | some v =>
    let to ← View.destinationMuid v
    if to = d.muid ∨ to = 0x0FFFFFFF then
      match ← asView DiscoveryInquiryView.validate v with
      | some i =>
        let source ← View.sourceMuid i
        let path ← Discovery.outputPathId i
        return some (← makeDiscoveryReply d.muid source d.identity d.categories d.maxSize path d.functionBlock)
      | none =>
        let subtype ← UniversalSysex.View.subtype v
        if to = d.muid ∧ subtype ∉ d.known then
          return some (← makeNakFor v 0x01 0 ⟨0, 0, 0, 0, 0⟩ [])
        else return none
    else return none

end Midi.Spec

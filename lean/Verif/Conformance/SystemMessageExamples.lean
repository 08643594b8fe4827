import Verif.Conformance.Prelude
import Verif.Model.ByteStream
import Verif.Model.CapabilityInquiry
import Verif.Model.Collector
import Verif.Model.Defaults
import Verif.Model.FlexData
import Verif.Model.Jitter
import Verif.Model.PitchTypes
import Verif.Model.Senders
import Verif.Model.Stream
import Verif.Model.Sysex
import Verif.Model.SysexPackets
import Verif.Model.TextFormat
import Verif.Model.Types
import Verif.Model.UniversalSysex
import Verif.Model.Reentrant

/-!
The assertions in docs/system_message.examples.cpp about the model. Generated by tools/conformance.
-/

namespace Midi.Conformance

open Midi

-- docs,system_message_examples: lines 8-25
example : holds (do
  let x1 := makeSystem 0 248 0 0
  let x2 := makeSystem 0 243 44 0
  let x3 ← asSystemView x2
  let x4 := makeSongPosition 0 4660
  let x5 ← asSystemView x4
  return (isSystemMessage x1) && x3.isSome && x5.isSome) = true := by decide +kernel

end Midi.Conformance

import Verif.Conformance.Prelude
import Verif.Model.ByteStream
import Verif.Model.CapabilityInquiry
import Verif.Model.Collector
import Verif.Model.Defaults
import Verif.Model.FlexData
import Verif.Model.Jitter
import Verif.Model.PitchTypes
import Verif.Model.Senders
import Verif.Model.Stream
import Verif.Model.Sysex
import Verif.Model.SysexPackets
import Verif.Model.TextFormat
import Verif.Model.Types
import Verif.Model.UniversalSysex
import Verif.Model.Reentrant

/-!
The assertions in docs/sysex.examples.cpp about the model. Generated by tools/conformance.
-/

namespace Midi.Conformance

open Midi

-- docs,sysex_examples: lines 10-27
example : holds (do
  let x1 := (⟨8457, [1, 2, 3, 4, 5, 6, 7, 8, 9]⟩ : Sysex)
  let x2 := (⟨8457, [1, 2, 3, 4, 5, 6, 7, 8, 9, 136]⟩ : Sysex)
  let x3 := (⟨8457, [1, 2]⟩ : Sysex)
  return (Sysex.is7bit x1) && (Sysex.isValid x1) && decide ((x1.data.length : Int) = 9) && (!(Sysex.is7bit x2)) &&
    (Sysex.is8bit x2) && decide ((x2.data.length : Int) = 10) && (Sysex.is7bit x3) && (!(Sysex.is8bit x3))) = true := by decide +kernel

-- docs,sysex_examples: lines 28-55
example : holds (do
  let x1 := (⟨8457, [1, 2]⟩ : Sysex)
  let x2 := (⟨0, []⟩ : Sysex)
  let x3 := { x2 with manufacturerID := 8192000 }
  let x4 ← Sysex.addUint7 x3 42
  let x5 ← Sysex.addUint28 x4 10
  let x6 ← Sysex.addData x5 (List.take 4 [1, 2, 3, 4])
  let x7 ← Sysex.addDeviceIdentity x6 (⟨8457, 5936, 49, 65541⟩ : DeviceIdentity)
  let x8 ← Sysex.makeUint28 x7 1
  let x9 ← Sysex.makeDeviceIdentity x7 9
  return decide ((x1.data.length : Int) = 2) && (Sysex.is7bit x6) && decide ((x6.data.length : Int) = 9) &&
    (Sysex.is7bit x7) && decide ((x7.data.length : Int) = 20) && decide ((x8.toNat : Int) = 10) && decide
    ((x9.manufacturer.toNat : Int) = ((⟨8457, 5936, 49, 65541⟩ : DeviceIdentity).manufacturer.toNat : Int)) && decide
    ((x9.family.toNat : Int) = ((⟨8457, 5936, 49, 65541⟩ : DeviceIdentity).family.toNat : Int))) = true := by decide +kernel

-- docs,sysex_examples: lines 56-57
example : holds (do
  let x1 := (⟨0, []⟩ : Sysex)
  let x2 := { x1 with manufacturerID := 8192000 }
  let x3 ← Sysex.addUint7 x2 42
  let x4 ← Sysex.addUint28 x3 10
  let x5 ← Sysex.addData x4 (List.take 4 [1, 2, 3, 4])
  let x6 ← Sysex.addDeviceIdentity x5 (⟨8457, 5936, 49, 65541⟩ : DeviceIdentity)
  let x7 ← Sysex.makeDeviceIdentity x6 9
  return decide ((x7.model.toNat : Int) = ((⟨8457, 5936, 49, 65541⟩ : DeviceIdentity).model.toNat : Int)) && decide
    ((x7.revision.toNat : Int) = ((⟨8457, 5936, 49, 65541⟩ : DeviceIdentity).revision.toNat : Int))) = true := by decide +kernel

end Midi.Conformance

import Verif.Model.Messages

/-!
# The message processor of the documentation

docs/channel_voice_message.examples.cpp shows how channel voice messages are to be treated, and docs/midi1_byte_stream.examples.cpp
a byte stream parser with this processor as packet callback.
-/

namespace Midi

/-- What the processor in the documentation does with a message: the functions it calls
(docs/channel_voice_message.examples.cpp 153-159), and nothing. -/
inductive Action where
  | allocateVoice (note : Byte) (velocity pitch : U16)
  | releaseVoice (note : Byte) (velocity : U16)
  | voicePressure (note : Byte) (value : Word)
  | voiceController (note index : Byte) (value : Word)
  | voicePitchBend (note : Byte) (value : Word)
  | channelController (controller : Byte) (value : Word)
  | channelPitchBend (value : Word)
  | none
deriving DecidableEq, Repr

/-- `channel_voice_message_processor` (docs/channel_voice_message.examples.cpp 149-189). -/
def processor (p : Packet) : Except Fault Action := do
  if isNoteOn p then return .allocateVoice (noteNr p) (noteVelocity p) (notePitch p)
  else if isNoteOff p then return .releaseVoice (noteNr p) (noteVelocity p)
  else if isPolyPressure p then return .voicePressure (noteNr p) (controllerValue p)
  else if isRegisteredPerNote p then return .voiceController (noteNr p) (perNoteControllerIndex p) (controllerValue p)
  else if isPerNotePitchBend p then return .voicePitchBend (noteNr p) (perNotePitchBendValue p)
  else if isControlChange p then return .channelController (controllerNr p) (controllerValue p)
  else if isPitchBend p then return .channelPitchBend (← pitchBendValue p)
  else return .none

end Midi

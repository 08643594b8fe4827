import Verif.Props.ReentrantAfter
import Verif.Spec.Exceptions

/-!
# Helper lemmas: exceptions and the byte stream parser
-/

namespace Midi
open Spec

/-- What becomes of a byte, with a callback that does `r`, or with one that throws. -/
inductive Shape (f : Parser.Reaction → Except Fault (Parser × List Event)) (g : Except Fault (Parser × List Event × Bool))
    (throws : Bool) : Prop where
  /-- There is no callback. -/
  | silent (x : Except Fault Parser) (hf : ∀ r, f r = x.map fun q => (q, [])) (hg : g = x.map fun q => (q, [], false))
  /-- There is a callback, in the state `d`. -/
  | call (d : Parser) (e : Event) (post : Parser → Except Fault Parser)
      (hf : ∀ r, f r = r d >>= fun y => (post y.1).map fun q => (q, e :: y.2))
      (hg : g = if throws then .ok (d, [e], true) else (post d).map fun q => (q, [e], false))

open Parser

theorem tryCall_on {s : Parser} (h : s.invokeCallbacks = true) (e : Event) (t : Trouble) : s.tryCall e t = ([e], t.callback) := by
  unfold Parser.tryCall; rw [if_pos h]

theorem tryCall_off {s : Parser} (h : s.invokeCallbacks = false) (e : Event) (t : Trouble) : s.tryCall e t = ([], false) := by
  unfold Parser.tryCall; rw [if_neg (by simp [h])]

theorem bind_shape (x : Except Fault (Parser × List Event)) (e : Event) (f : Parser → Parser) :
    (x >>= fun y => (Except.ok (f y.1) : Except Fault Parser).map fun q => (q, e :: y.2)) = x.map fun y => (f y.1, e :: y.2) := by
  cases x <;> rfl

theorem shape_realtime (s : Parser) (b : Byte) (t : Trouble) :
    Shape (s.systemRealtimeR b) (.ok (s.trySystemRealtime b t)) t.callback := by
  by_cases h : b = 0xF9 ∨ b = 0xFD
  · exact .silent (.ok s) (fun r => by unfold systemRealtimeR; rw [if_pos h]; rfl) (by unfold trySystemRealtime; rw [if_pos h]; rfl)
  · rcases (Bool.eq_false_or_eq_true s.invokeCallbacks).symm with hi | hi
    · exact .silent (.ok s) (fun r => by unfold systemRealtimeR; rw [if_neg h, call_off hi]; rfl)
        (by unfold trySystemRealtime; rw [if_neg h, tryCall_off hi]; rfl)
    · refine .call s (.packet (makeSystem s.group b 0 0)) .ok (fun r => ?_) ?_
      · unfold systemRealtimeR; rw [if_neg h, call_on hi]; cases r s <;> rfl
      · unfold trySystemRealtime; rw [if_neg h, tryCall_on hi]; cases t.callback <;> rfl

theorem shape_common' (s : Parser) (t : Trouble) :
    Shape (fun r => do
        if s.packet.status = SystemStatus.mtcQuarterFrame ∨ s.packet.status = SystemStatus.songSelect then
          return ({ s with missing := 1 }, [])
        else if s.packet.status = SystemStatus.songPosition then return ({ s with missing := 2 }, [])
        else if s.packet.status = SystemStatus.tuneRequest then
          let (s, es) ← s.call (.packet s.packet) r
          return ({ s with packet := {} }, es)
        else return ({ s with packet := {} }, []))
      (.ok (if s.packet.status = SystemStatus.mtcQuarterFrame ∨ s.packet.status = SystemStatus.songSelect then
          ({ s with missing := 1 }, [], false)
        else if s.packet.status = SystemStatus.songPosition then ({ s with missing := 2 }, [], false)
        else if s.packet.status = SystemStatus.tuneRequest then
          (if (s.tryCall (.packet s.packet) t).2 then s else { s with packet := {} }, s.tryCall (.packet s.packet) t)
        else ({ s with packet := {} }, [], false))) t.callback := by
  by_cases h1 : s.packet.status = SystemStatus.mtcQuarterFrame ∨ s.packet.status = SystemStatus.songSelect
  · simp only [if_pos h1]
    exact .silent (.ok { s with missing := 1 }) (fun r => rfl) rfl
  · simp only [if_neg h1]
    by_cases h2 : s.packet.status = SystemStatus.songPosition
    · simp only [if_pos h2]
      exact .silent (.ok { s with missing := 2 }) (fun r => rfl) rfl
    · simp only [if_neg h2]
      by_cases h3 : s.packet.status = SystemStatus.tuneRequest
      · simp only [if_pos h3]
        rcases (Bool.eq_false_or_eq_true s.invokeCallbacks).symm with hi | hi
        · refine .silent (.ok { s with packet := {} }) (fun r => ?_) ?_
          · rw [call_off hi]; rfl
          · rw [tryCall_off hi]; rfl
        · refine .call s (.packet s.packet) (fun q => .ok { q with packet := {} }) (fun r => ?_) ?_
          · rw [call_on hi]; cases r s <;> rfl
          · rw [tryCall_on hi]; cases t.callback <;> rfl
      · simp only [if_neg h3]
        exact .silent (.ok { s with packet := {} }) (fun r => rfl) rfl

theorem shape_common (s : Parser) (b : Byte) (t : Trouble) :
    Shape (s.systemCommonR b) (.ok (s.trySystemCommon b t)) t.callback :=
  shape_common' { s with packet := makeSystem s.group b 0 0, packetByte := 2, missing := 0 } t

theorem shape_voice' (s : Parser) (st : Byte) (t : Trouble) :
    Shape (fun r =>
        if st = CVStatus.noteOff ∨ st = CVStatus.noteOn ∨ st = CVStatus.polyPressure
          ∨ st = CVStatus.controlChange ∨ st = CVStatus.pitchBend then return ({ s with missing := 2 }, [])
        else if st = CVStatus.programChange ∨ st = CVStatus.channelPressure then return ({ s with missing := 1 }, [])
        else s.call (.packet s.packet) r)
      (.ok (if st = CVStatus.noteOff ∨ st = CVStatus.noteOn ∨ st = CVStatus.polyPressure
          ∨ st = CVStatus.controlChange ∨ st = CVStatus.pitchBend then ({ s with missing := 2 }, [], false)
        else if st = CVStatus.programChange ∨ st = CVStatus.channelPressure then ({ s with missing := 1 }, [], false)
        else (s, s.tryCall (.packet s.packet) t))) t.callback := by
  by_cases h1 : st = CVStatus.noteOff ∨ st = CVStatus.noteOn ∨ st = CVStatus.polyPressure ∨ st = CVStatus.controlChange ∨
      st = CVStatus.pitchBend
  · simp only [if_pos h1]
    exact .silent (.ok { s with missing := 2 }) (fun r => rfl) rfl
  · simp only [if_neg h1]
    by_cases h2 : st = CVStatus.programChange ∨ st = CVStatus.channelPressure
    · simp only [if_pos h2]
      exact .silent (.ok { s with missing := 1 }) (fun r => rfl) rfl
    · simp only [if_neg h2]
      rcases (Bool.eq_false_or_eq_true s.invokeCallbacks).symm with hi | hi
      · refine .silent (.ok s) (fun r => ?_) ?_
        · rw [call_off hi]; rfl
        · rw [tryCall_off hi]; rfl
      · refine .call s (.packet s.packet) .ok (fun r => ?_) ?_
        · rw [call_on hi]; cases r s <;> rfl
        · rw [tryCall_on hi]; cases t.callback <;> rfl

theorem shape_voice (s : Parser) (b : Byte) (t : Trouble) :
    Shape (s.channelVoiceR b) (.ok (s.tryChannelVoice b t)) t.callback :=
  shape_voice' { s with packet := midi1Message s.group b 0 0, packetByte := 2, missing := 0 }
    ((midi1Message s.group b 0 0).status &&& 0xF0) t

theorem shape_endCallback (s : Parser) (t : Trouble) : Shape s.sysexEndCallbackR (.ok (s.trySysexEndCallback t)) t.callback := by
  unfold trySysexEndCallback
  dsimp only
  by_cases h1 : s.sysex.manufacturerID &&& 0xFF0000 = 0 ∧ s.packetByte < 5
  · rw [if_pos h1]
    exact .silent (.ok _) (fun r => by unfold sysexEndCallbackR; dsimp only; rw [if_pos h1]; rfl) rfl
  · rw [if_neg h1]
    rcases (Bool.eq_false_or_eq_true s.invokeCallbacks).symm with hi | hi
    · refine .silent (.ok { s with packet := {}, sysex := s.sysex.clear }) (fun r => ?_) ?_
      · unfold sysexEndCallbackR; dsimp only; rw [if_neg h1, call_off (s := { s with packet := {} }) hi]; rfl
      · rw [tryCall_off (s := { s with packet := {} }) hi]; rfl
    · refine .call { s with packet := {} } (.sysex s.sysex) (fun q => .ok { q with sysex := q.sysex.clear }) (fun r => ?_) ?_
      · unfold sysexEndCallbackR; dsimp only; rw [if_neg h1, call_on (s := { s with packet := {} }) hi]
        cases r { s with packet := {} } <;> rfl
      · rw [tryCall_on (s := { s with packet := {} }) hi]; cases t.callback <;> rfl

theorem shape_continuePacket (s : Parser) (b : Byte) (t : Trouble) :
    Shape (s.sysexContinuePacketR b) (s.trySysexContinuePacket b t) t.callback := by
  unfold trySysexContinuePacket
  cases hp : s.packet.setByte s.packetByte.toNat b with
  | error f => exact .silent (.error f) (fun r => by unfold sysexContinuePacketR; rw [hp]; rfl) rfl
  | ok p =>
    rw [ok_bind]
    dsimp only
    by_cases h8 : s.packetByte + 1 = 8
    · rw [if_pos h8]
      rcases (Bool.eq_false_or_eq_true s.invokeCallbacks).symm with hi | hi
      · rw [if_neg (by simp [hi]), pure_eq_ok, ok_bind]
        dsimp only
        rw [if_neg (by simp)]
        refine .silent ((makeSysex7 .cont s.group).map fun c => { s with packet := c, packetByte := 2 }) (fun r => ?_) ?_
        · unfold sysexContinuePacketR
          rw [hp, ok_bind]
          dsimp only
          rw [if_pos h8, if_neg (by simp [hi]), pure_eq_ok, ok_bind]
          dsimp only
          cases makeSysex7 .cont s.group <;> rfl
        · cases makeSysex7 .cont s.group <;> rfl
      · rw [if_pos hi]
        cases hq : p.setByte 1 ((p.status &&& 0xF0) + 6) with
        | error f =>
          refine .silent (.error f) (fun r => ?_) rfl
          unfold sysexContinuePacketR
          rw [hp, ok_bind]
          dsimp only
          rw [if_pos h8, if_pos hi, hq]; rfl
        | ok q =>
          rw [ok_bind, pure_eq_ok, ok_bind, tryCall_on (s := { s with packet := q, packetByte := s.packetByte + 1 }) hi]
          dsimp only
          refine .call { s with packet := q, packetByte := s.packetByte + 1 } (.packet q)
            (fun x => (makeSysex7 .cont x.group).map fun c => { x with packet := c, packetByte := 2 }) (fun r => ?_) ?_
          · unfold sysexContinuePacketR
            rw [hp, ok_bind]
            dsimp only
            rw [if_pos h8, if_pos hi, hq, ok_bind, call_on (s := { s with packet := q, packetByte := s.packetByte + 1 }) hi]
            cases r { s with packet := q, packetByte := s.packetByte + 1 } with
            | error f => rfl
            | ok y =>
              show ((makeSysex7 Format.cont y.1.group).bind fun c => .ok (({ y.1 with packet := c, packetByte := 2 } : Parser),
                Event.packet q :: y.2)) = _
              rw [ok_bind]
              cases makeSysex7 Format.cont y.1.group <;> rfl
          · cases t.callback
            · cases makeSysex7 Format.cont s.group <;> rfl
            · rfl
    · rw [if_neg h8]
      refine .silent (.ok { s with packet := p, packetByte := s.packetByte + 1 }) (fun r => ?_) rfl
      unfold sysexContinuePacketR
      rw [hp, ok_bind]
      dsimp only
      rw [if_neg h8]; rfl

theorem shape_endPacket (s : Parser) (t : Trouble) : Shape s.sysexEndPacketR (s.trySysexEndPacket t) t.callback := by
  unfold trySysexEndPacket
  dsimp only
  by_cases h1 : s.packet.status &&& 0xF0 = Format.start.status ∧ s.packetByte < 3
  · rw [if_pos h1]
    exact .silent (.ok { s with packet := {} }) (fun r => by unfold sysexEndPacketR; dsimp only; rw [if_pos h1]; rfl) rfl
  · rw [if_neg h1]
    cases hq : s.packet.setByte 1 ((if s.packet.status &&& 0xF0 = Format.start.status then Format.complete.status else
      Format.fin.status) + ((s.packetByte - 2) &&& 0x0F)) with
    | error f =>
      refine .silent (.error f) (fun r => ?_) rfl
      unfold sysexEndPacketR; dsimp only; rw [if_neg h1, hq]; rfl
    | ok q =>
      rw [ok_bind]
      rcases (Bool.eq_false_or_eq_true s.invokeCallbacks).symm with hi | hi
      · rw [tryCall_off (s := { s with packet := q }) hi]
        refine .silent (.ok { s with packet := {}, packetByte := 2 }) (fun r => ?_) rfl
        unfold sysexEndPacketR; dsimp only; rw [if_neg h1, hq, ok_bind, call_off (s := { s with packet := q }) hi]; rfl
      · rw [tryCall_on (s := { s with packet := q }) hi]
        refine .call { s with packet := q } (.packet q) (fun x => .ok { x with packet := {}, packetByte := 2 }) (fun r => ?_) ?_
        · unfold sysexEndPacketR; dsimp only; rw [if_neg h1, hq, ok_bind, call_on (s := { s with packet := q }) hi]
          cases r { s with packet := q } <;> rfl
        · cases t.callback <;> rfl

theorem shape_data (s : Parser) (b : Byte) (t : Trouble) : Shape (s.dataByteR b) (s.tryDataByte b t) t.callback := by
  unfold tryDataByte
  by_cases h1 : s.packet.status ≠ 0 ∧ s.missing ≠ 0 ∧ s.packetByte < 4
  · rw [if_pos h1]
    cases hp : s.packet.setByte s.packetByte.toNat b with
    | error f => exact .silent (.error f) (fun r => by unfold dataByteR; rw [if_pos h1, hp]; rfl) rfl
    | ok p =>
      rw [ok_bind]
      dsimp only
      by_cases h0 : s.missing - 1 = 0
      · rw [if_pos h0]
        generalize hs : (if p.status < 0xF0 then
          ({ s with packet := p, missing := s.packetByte - 1, packetByte := 2 } : Parser)
          else { s with packet := p, missing := s.missing - 1 }) = s1
        have hR : ∀ r, s.dataByteR b r = (s1.call (.packet s1.packet) r >>= fun y =>
            .ok (if y.1.packet.status ≥ 0xF0 then { y.1 with packet := {} } else y.1, y.2)) := by
          intro r
          unfold dataByteR
          rw [if_pos h1, hp, ok_bind]
          dsimp only
          rw [if_pos h0, hs]; rfl
        rcases (Bool.eq_false_or_eq_true s1.invokeCallbacks).symm with hi | hi
        · rw [tryCall_off hi]
          refine .silent (.ok (if s1.packet.status ≥ 0xF0 then { s1 with packet := {} } else s1)) (fun r => ?_) rfl
          rw [hR, call_off hi]; rfl
        · rw [tryCall_on hi]
          refine .call s1 (.packet s1.packet) (fun x => .ok (if x.packet.status ≥ 0xF0 then { x with packet := {} } else x)) (fun r => ?_) ?_
          · rw [hR, call_on hi]; cases r s1 <;> rfl
          · cases t.callback <;> rfl
      · rw [if_neg h0]
        refine .silent (.ok { s with packet := p, missing := s.missing - 1, packetByte := s.packetByte + 1 }) (fun r => ?_) rfl
        unfold dataByteR
        rw [if_pos h1, hp, ok_bind]
        dsimp only
        rw [if_neg h0]; rfl
  · rw [if_neg h1]
    exact .silent (.ok s) (fun r => by unfold dataByteR; rw [if_neg h1]; rfl) rfl

theorem trySysexStart_calm (s : Parser) (t : Trouble) (h : t.memory = false) :
    s.trySysexStart t = s.sysexStart.map fun x => (x.1, x.2, false) := by
  unfold trySysexStart sysexStart
  cases makeSysex7 .start s.group with
  | error f => rfl
  | ok p =>
    simp only [ok_bind]
    cases s.hasSysexCallback
    · rfl
    · simp only [if_true, h, Bool.false_eq_true, if_false]; rfl

theorem sysexStart_silent (s : Parser) : s.sysexStart = (s.sysexStart.map Prod.fst).map fun q => (q, []) := by
  unfold sysexStart
  cases makeSysex7 .start s.group with
  | error f => rfl
  | ok p =>
    simp only [ok_bind]
    cases s.hasSysexCallback <;> rfl

theorem shape_status (s : Parser) (b : Byte) (t : Trouble) (h : t.memory = false) :
    Shape (s.feedStatusR b) (s.tryFeedStatus b t) t.callback := by
  unfold tryFeedStatus
  by_cases h1 : b = 0xF0
  · rw [if_pos h1]
    refine .silent (s.sysexStart.map Prod.fst) (fun r => ?_) ?_
    · unfold feedStatusR; rw [if_pos h1]; exact sysexStart_silent s
    · rw [trySysexStart_calm s t h]
      rw [sysexStart_silent s]
      cases s.sysexStart <;> rfl
  · rw [if_neg h1]
    by_cases h2 : b > 0xF0
    · rw [if_pos h2, show s.feedStatusR b = s.systemCommonR b by funext r; unfold feedStatusR; rw [if_neg h1, if_pos h2]]
      exact shape_common s b t
    · rw [if_neg h2]
      by_cases h3 : b ≥ 0x80
      · rw [if_pos h3, show s.feedStatusR b = s.channelVoiceR b by
          funext r; unfold feedStatusR; rw [if_neg h1, if_neg h2, if_pos h3]]
        exact shape_voice s b t
      · rw [if_neg h3, show s.feedStatusR b = s.dataByteR b by
          funext r; unfold feedStatusR; rw [if_neg h1, if_neg h2, if_neg h3]]
        exact shape_data s b t

theorem continueCallback_calm (s : Parser) (b : Byte) (t : Trouble) (h : t.memory = false) :
    s.trySysexContinueCallback b t = (s.sysexContinueCallback b, false) := by
  unfold trySysexContinueCallback sysexContinueCallback
  simp only [h, Bool.false_eq_true, if_false]
  repeat' split
  all_goals rfl

/-- One byte, if there is memory. -/
theorem shape_feed (s : Parser) (b : Byte) (t : Trouble) (h : t.memory = false) : Shape (s.feedR b) (s.tryFeed b t) t.callback := by
  unfold tryFeed
  by_cases h1 : b ≥ SystemStatus.clock
  · rw [if_pos h1, show s.feedR b = s.systemRealtimeR b by funext r; unfold feedR; rw [if_pos h1]]
    exact shape_realtime s b t
  · rw [if_neg h1]
    by_cases h2 : s.packet.type = PacketType.data
    · rw [if_pos h2]
      by_cases h3 : b < 0x80
      · rw [if_pos h3]
        by_cases h4 : s.hasSysexCallback = true
        · rw [if_pos h4, continueCallback_calm s b t h]
          exact .silent (.ok (s.sysexContinueCallback b))
            (fun r => by unfold feedR; rw [if_neg h1, if_pos h2, if_pos h3, if_pos h4]; rfl) rfl
        · rw [if_neg h4, show s.feedR b = s.sysexContinuePacketR b by
            funext r; unfold feedR; rw [if_neg h1, if_pos h2, if_pos h3, if_neg h4]]
          exact shape_continuePacket s b t
      · rw [if_neg h3]
        by_cases h4 : b ≠ 0xF7
        · rw [if_pos h4, show s.feedR b = feedStatusR { s with packet := {} } b by
            funext r; unfold feedR; rw [if_neg h1, if_pos h2, if_neg h3, if_pos h4]]
          exact shape_status _ b t h
        · rw [if_neg h4]
          by_cases h5 : s.hasSysexCallback = true
          · rw [if_pos h5, show s.feedR b = s.sysexEndCallbackR by
              funext r; unfold feedR; rw [if_neg h1, if_pos h2, if_neg h3, if_neg h4, if_pos h5]]
            exact shape_endCallback s t
          · rw [if_neg h5, show s.feedR b = s.sysexEndPacketR by
              funext r; unfold feedR; rw [if_neg h1, if_pos h2, if_neg h3, if_neg h4, if_neg h5]]
            exact shape_endPacket s t
    · rw [if_neg h2, show s.feedR b = s.feedStatusR b by funext r; unfold feedR; rw [if_neg h1, if_neg h2]]
      exact shape_status s b t h

/-! ## The parser does what the reference machine says -/

/-- A byte behind the manufacturer id of a sysex message is added to the data; otherwise no memory is needed. -/
theorem continueCallback_memory (s : Parser) (b : Byte) (t : Trouble) (d : List Byte) (h1 : s.packetByte = BitVec.ofNat 8 (idPos d))
    (h2 : s.sysex = message7 d) : s.trySysexContinueCallback b t =
      if HasId d ∧ t.memory = true then (s, true) else (s.sysexContinueCallback b, false) := by
  have hok : (∀ t : Trouble, s.trySysexContinueCallback b t = s.trySysexContinueCallback b {}) →
      s.trySysexContinueCallback b t = (s.sysexContinueCallback b, false) := by
    intro ha
    rw [ha t, continueCallback_calm _ _ _ rfl]
  have hmem : (∀ t : Trouble, s.trySysexContinueCallback b t = if t.memory then (s, true) else
      ({ s with sysex := { s.sysex with data := s.sysex.data ++ [b] } }, false)) →
      s.trySysexContinueCallback b t = if t.memory = true then (s, true) else (s.sysexContinueCallback b, false) := by
    intro ha
    rw [ha t]
    have := ha {}
    rw [continueCallback_calm _ _ _ rfl] at this
    rw [this]; rfl
  match d with
  | [] =>
    rw [if_neg (by simp [HasId])]
    refine hok fun t => ?_
    unfold trySysexContinueCallback
    rw [h1, if_neg (by decide), if_pos (by decide), if_neg (by decide), if_pos (by decide)]
  | a :: l =>
    by_cases ha : a = 0
    · subst ha
      have hid := (message7_id_hi 0 l).2 rfl
      match l with
      | [] =>
        rw [if_neg (by simp [HasId])]
        refine hok fun t => ?_
        unfold trySysexContinueCallback
        rw [h1, h2, if_neg (by decide), if_neg (by decide), if_pos ⟨by decide, hid⟩, if_neg (by decide), if_neg (by decide), if_pos ⟨by decide, hid⟩]
      | [x] =>
        rw [if_neg (by simp [HasId])]
        refine hok fun t => ?_
        unfold trySysexContinueCallback
        have e : idPos [0, x] = 4 := rfl
        rw [h1, h2, e, if_neg (by decide), if_neg (by decide), if_pos ⟨by decide, hid⟩, if_neg (by decide), if_neg (by decide), if_pos ⟨by decide, hid⟩]
      | x :: y :: l =>
        have hh : HasId (0 :: x :: y :: l) := by right; simp
        simp only [hh, true_and]
        refine hmem fun t => ?_
        unfold trySysexContinueCallback
        have e : idPos (0 :: x :: y :: l) = 5 := by simp [idPos]
        rw [h1, e, if_neg (by decide), if_neg (by decide), if_neg (by intro h; exact absurd h.1 (by decide))]
    · have ha' : ¬ a = 0#8 := ha
      have hid : ¬ ((message7 (a :: l)).manufacturerID &&& 0xFF0000 = 0) := fun h => ha ((message7_id_hi a l).1 h)
      have e : idPos (a :: l) = 3 := by simp [idPos, ha']
      have hh : HasId (a :: l) := by left; simpa using ha'
      simp only [hh, true_and]
      refine hmem fun t => ?_
      unfold trySysexContinueCallback
      rw [h1, e, if_neg (by decide), if_neg (by decide), if_neg (by rw [h2]; exact fun h => hid h.2)]

theorem continueCallback_skip (s : Parser) (b : Byte) (t : Trouble) (h : s.packetByte = 0) :
    s.trySysexContinueCallback b t = (s.sysexContinueCallback b, false) := by
  unfold trySysexContinueCallback sysexContinueCallback
  rw [if_pos (Or.inl h), if_pos (Or.inl h)]

/-- Status bytes cancel anything before. -/
theorem tryFeedStatus_packet (p : Parser) (q : Packet) {b : Byte} (h2 : ¬ b < 0x80) (t : Trouble) :
    tryFeedStatus { p with packet := q } b t = p.tryFeedStatus b t := by
  unfold tryFeedStatus
  split
  · rfl
  · split
    · rfl
    · split
      · rfl
      · next h => exact absurd (by simpa using h2) h

theorem tryFeed_status (p : Parser) {b : Byte} (h1 : ¬ b ≥ 0xF8) (h2 : ¬ b < 0x80) (h7 : b ≠ 0xF7) (t : Trouble) :
    p.tryFeed b t = p.tryFeedStatus b t := by
  unfold tryFeed
  rw [if_neg (show ¬ b ≥ SystemStatus.clock from h1)]
  split
  · first
    | rw [if_neg h2, if_pos h7, tryFeedStatus_packet _ _ h2]
    | exact tryFeedStatus_packet p {} h2 t
  · rfl

theorem InnerRel.cb {c : Settings} {st : InnerState} {p : Parser} (h : InnerRel c st p) : p.hasSysexCallback = c.sysexCallback :=
  h.forget.cb

/-- If no memory is needed, it does not matter whether there is any. -/
theorem memory_irrelevant {c : Settings} {st : StreamState} {p : Parser} (h : InnerRel c (.plain st) p) {b : Byte}
    (h1 : ¬ b ≥ 0xF8) (hm : memoryFails c st b = none) (t : Trouble) : p.tryFeed b t = p.tryFeed b { t with memory := false } := by
  have hcb := h.cb
  have status : ∀ q : Parser, q.hasSysexCallback = c.sysexCallback → q.tryFeedStatus b t = q.tryFeedStatus b { t with memory := false } := by
    intro q hq
    unfold tryFeedStatus
    by_cases hF : b = 0xF0
    · have hc : q.hasSysexCallback = false := by
        rw [hq]
        unfold memoryFails at hm
        by_contra hc
        rw [if_pos (by simpa using hc), if_pos hF] at hm
        cases hm
      rw [if_pos hF, if_pos hF]
      unfold trySysexStart
      cases makeSysex7 .start q.group with
      | error f => rfl
      | ok x => simp [ok_bind, hc]
    · rw [if_neg hF, if_neg hF]; rfl
  have h1s : ¬ b ≥ SystemStatus.clock := h1
  unfold tryFeed
  rw [if_neg h1s, if_neg h1s]
  by_cases hd : p.packet.type = PacketType.data
  · rw [if_pos hd, if_pos hd]
    by_cases h2 : b < 0x80
    · rw [if_pos h2, if_pos h2]
      by_cases hc : p.hasSysexCallback = true
      · rw [if_pos hc, if_pos hc]
        have hc' : c.sysexCallback = true := by rw [← hcb]; exact hc
        rcases h with h | h
        · match st with
          | .idle => exact absurd hd (h.type_ne (by simp))
          | .message g s d => exact absurd hd (h.type_ne (by simp))
          | .sysex g w d =>
            have hs := h.state
            dsimp only at hs
            rw [if_pos hc'] at hs
            cases w with
            | false =>
              simp only [Bool.false_eq_true, if_false] at hs
              rw [continueCallback_skip _ _ _ hs.2.2.1, continueCallback_skip _ _ _ hs.2.2.1]
            | true =>
              simp only [if_true] at hs
              have hid : ¬ HasId d := by
                intro hid
                unfold memoryFails at hm
                rw [if_pos hc', if_neg (by rintro rfl; revert h2; decide)] at hm
                dsimp only at hm
                rw [if_pos ⟨h2, rfl, hid⟩] at hm
                cases hm
              rw [continueCallback_memory _ _ _ d hs.2.2.1 hs.2.2.2, if_neg (by tauto),
                continueCallback_memory _ _ _ d hs.2.2.1 hs.2.2.2, if_neg (by tauto)]
        · exact absurd hd h.2.1
      · rw [if_neg hc, if_neg hc]; rfl
    · rw [if_neg h2, if_neg h2]
      by_cases h7 : b ≠ 0xF7
      · rw [if_pos h7, if_pos h7]; exact status { p with packet := {} } hcb
      · rw [if_neg h7, if_neg h7]; rfl
  · rw [if_neg hd, if_neg hd]; exact status p hcb

/-- What happens if memory is needed and cannot be had. -/
theorem memory_fails {c : Settings} {st st' : StreamState} {p : Parser} (h : InnerRel c (.plain st) p) {b : Byte}
    (h1 : ¬ b ≥ 0xF8) (hm : memoryFails c st b = some st') (t : Trouble) (ht : t.memory = true) :
    ∃ p', p.tryFeed b t = .ok (p', [], true) ∧ InnerRel c (.plain st') p' := by
  have hcb := h.cb
  unfold memoryFails at hm
  by_cases hc : c.sysexCallback = true
  · rw [if_pos hc] at hm
    split at hm
    · next hF =>
      subst hF
      cases hm
      have hf := h.forget
      rw [tryFeed_status _ (by decide) (by decide) (by decide)]
      unfold tryFeedStatus
      rw [if_pos rfl]
      unfold trySysexStart
      rw [show p.group = c.group from hf.group, makeSysex7_eq _ hf.lt, ok_bind]
      dsimp only
      rw [if_pos (by rw [hcb]; exact hc), if_pos ht]
      refine ⟨_, rfl, Or.inl ⟨rfl, hf.cb, hf.on, hf.lt, hf.lt, ?_⟩⟩
      rw [if_pos hc]
      exact ⟨rfl, rfl, rfl⟩
    · split at hm
      · next g w d =>
        split at hm
        · next hw =>
          cases hm
          obtain ⟨h2, rfl, hid⟩ := hw
          rcases h with h | h
          · have hs := h.state
            dsimp only at hs
            rw [if_pos hc] at hs
            simp only [if_true] at hs
            refine ⟨p, ?_, Or.inl h⟩
            unfold tryFeed
            rw [if_neg (show ¬ b ≥ SystemStatus.clock from h1), if_pos h.type_sysex, if_pos h2, if_pos (by rw [hcb]; exact hc),
              continueCallback_memory _ _ _ d hs.2.2.1 hs.2.2.2, if_pos ⟨hid, ht⟩]
          · exact absurd h.1 (by simp)
        · cases hm
      · cases hm
  · rw [if_neg hc] at hm; cases hm

/-- A byte without callback. -/
theorem tryFeed_silent {p : Parser} {b : Byte} {t : Trouble} (ht : t.memory = false) {y : Except Fault Parser}
    (h : ∀ rp, p.feedR b rp = y.map fun q => (q, [])) : p.tryFeed b t = y.map fun q => (q, [], false) := by
  rcases shape_feed p b t ht with ⟨x, hf, hg⟩ | ⟨d, e, post, hf, -⟩
  · have := hf leave
    rw [h] at this
    rw [hg]
    cases x <;> cases y <;> cases this <;> rfl
  · exfalso
    have h1 := hf (fun _ => .error .assertFailed)
    have h2 := hf (fun _ => .error .outOfBounds)
    rw [h] at h1 h2
    rw [h1] at h2
    cases h2

/-- A byte with callback. -/
theorem tryFeed_call {p : Parser} {b : Byte} {t : Trouble} (ht : t.memory = false) {m p3 : Parser} {e : Event}
    {post : Parser → Except Fault Parser} (h : ∀ rp : Reaction, p.feedR b rp = rp m >>= fun x => (post x.1).map fun q => (q, e :: x.2))
    (hp : post m = .ok p3) : p.tryFeed b t = .ok (if t.callback then m else p3, [e], t.callback) := by
  rcases shape_feed p b t ht with ⟨x, hf, -⟩ | ⟨q, e', post', hf, hg⟩
  · exfalso
    have h1 := hf (fun _ => .error .assertFailed)
    have h2 := hf (fun _ => .error .outOfBounds)
    rw [h] at h1 h2
    have h1 : (Except.error .assertFailed : Except Fault (Parser × List Event)) = _ := h1
    have h2 : (Except.error .outOfBounds : Except Fault (Parser × List Event)) = _ := h2
    rw [← h1] at h2
    cases h2
  · have hqm : m = q := by
      by_contra hn
      classical
      have h1 := hf (fun x => if x = q then .error .assertFailed else .error .outOfBounds)
      rw [h, if_neg hn, if_pos rfl] at h1
      cases h1
    subst hqm
    have h1 := hf leave
    rw [h] at h1
    have h1 : (post m).map (fun q => (q, [e])) = (post' m).map (fun q => (q, [e'])) := h1
    rw [hp] at h1
    rw [hg]
    cases hp' : post' m with
    | error f => rw [hp'] at h1; cases h1
    | ok q =>
      rw [hp'] at h1
      have := Except.ok.inj h1
      simp only [Prod.mk.injEq, List.cons.injEq, and_true] at this
      obtain ⟨rfl, rfl⟩ := this
      cases t.callback <;> rfl

/-- A byte below F8 in a state of the grammar, or with a message left that is not used any more. -/
theorem plain_shape {c : Settings} {st : StreamState} {p : Parser} (h : InnerRel c (.plain st) p) {b : Byte} (h1 : ¬ b ≥ 0xF8) :
    ((stepByte c st b).2 = [] ∧ ∃ p1, InnerRel c (.plain (byteEvents c st b).1) p1 ∧ ∀ rp, p.feedR b rp = .ok (p1, [])) ∨
    ∃ e rest m post, (stepByte c st b).2 = e :: rest ∧
      CallsBack c p b e (during c st b (byteEvents c st b).1) m post (fun c2 st2 => resumed c st b (byteEvents c st b).1 c2 st2) := by
  have h1s : ¬ b ≥ SystemStatus.clock := h1
  rcases h with h | ⟨rfl, ht, hs, hm, h⟩
  · rcases innerStep_shape h h1 with ⟨a, p1, r, f⟩ | x
    · exact Or.inl ⟨a, p1, Or.inl r, f⟩
    · exact Or.inr x
  · by_cases h2 : b < 0x80
    · left
      have hnext : (byteEvents c .idle b).1 = .idle := congrArg Prod.fst (step_idle c h2)
      rw [hnext, step_idle c h2]
      refine ⟨rfl, p, Or.inr ⟨rfl, ht, hs, hm, h⟩, fun rp => ?_⟩
      unfold feedR
      rw [if_neg h1s, if_neg ht]
      unfold feedStatusR
      have hn : b ≠ 0xF0 ∧ ¬ b > 0xF0 ∧ ¬ b ≥ 0x80 := by
        clear * - h2; revert h2; revert b; decide +kernel
      rw [if_neg hn.1, if_neg hn.2.1, if_neg hn.2.2]
      unfold dataByteR
      rw [if_neg (by intro hh; exact hh.2.1 hm)]
    · have e : ∀ rp, p.feedR b rp = { p with packet := {} }.feedR b rp := by
        intro rp
        have e1 : { p with packet := {} }.feedR b rp = { p with packet := {} }.feedStatusR b rp := by
          unfold feedR
          rw [if_neg h1s, if_neg (show ¬ ({} : Packet).type = PacketType.data from type_empty)]
        have e2 : p.feedR b rp = p.feedStatusR b rp := by
          unfold feedR
          rw [if_neg h1s, if_neg ht]
        rw [e1, e2, feedStatusR_packet p {} h2]
      rcases innerStep_shape h h1 with ⟨a, p1, r, f⟩ | ⟨ev, rest, m, post, a, x⟩
      · exact Or.inl ⟨a, p1, Or.inl r, fun rp => by rw [e]; exact f rp⟩
      · exact Or.inr ⟨ev, rest, m, post, a, x.inside, fun rp => by rw [e]; exact x.run rp, x.back⟩

/-- A byte that is not a real time byte, fed to a parser in a state of the grammar. -/
theorem tryStep_rel {c : Settings} {st : StreamState} {p : Parser} {G : List Byte} (hc : c.group ∈ G) (hst : GoodState G st)
    (h : InnerRel c (.plain st) p) {b : Byte} (h1 : ¬ b ≥ 0xF8) (t : Trouble) :
    ∃ p', p.tryFeed b t = .ok (p', (tryStep c st b t).2) ∧ InnerRel c (tryStep c st b t).1 p' := by
  unfold tryStep
  cases hm : (if t.memory then memoryFails c st b else none) with
  | some st' =>
    split at hm
    · next ht => exact memory_fails h h1 hm t ht
    · cases hm
  | none =>
    dsimp only
    have e : p.tryFeed b t = p.tryFeed b { t with memory := false } := by
      split at hm
      · exact memory_irrelevant h h1 hm t
      · next ht =>
        obtain ⟨cb, m⟩ := t
        simp only [Bool.not_eq_true] at ht
        rw [ht]
    rw [e]
    rcases plain_shape h h1 with ⟨hev, p1, r, f⟩ | ⟨ev, rest, m, post, hev, x⟩
    · rw [hev, if_neg (by simp), tryFeed_silent (y := .ok p1) rfl f]
      exact ⟨p1, rfl, r⟩
    · obtain ⟨p1, e1, r1⟩ := h.feedAll hc hst [b]
      have es1 : (stepBytes c st [b]) = stepByte c st b := by simp [stepBytes]
      rw [es1] at e1 r1
      have e2 : p.feedR b leave = .ok (p1, (stepByte c st b).2) := by
        rw [feedR_leave, ← e1]
        simp only [feedAll]
        cases p.feed b with
        | error f => rfl
        | ok x => simp [ok_bind]
      rw [x.run] at e2
      have e2 : (post m).map (fun q => (q, [ev])) = .ok (p1, (stepByte c st b).2) := e2
      cases hp : post m with
      | error f => rw [hp] at e2; cases e2
      | ok p3 =>
        rw [hp] at e2
        obtain ⟨rfl, e3⟩ := Prod.mk.inj (Except.ok.inj e2)
        rw [tryFeed_call (t := { t with memory := false }) rfl x.run hp, ← e3]
        by_cases ht : t.callback = true
        · rw [if_pos (show t.callback = true ∧ [ev] ≠ [] from ⟨ht, by simp⟩)]
          exact ⟨m, by dsimp only; rw [ht]; rfl, x.inside⟩
        · rw [if_neg (show ¬ (t.callback = true ∧ [ev] ≠ []) by tauto)]
          exact ⟨p3, by dsimp only; simp only [Bool.not_eq_true] at ht; rw [ht]; rfl, r1⟩

/-- A data byte or F7 behind an exception from the callback for a sysex packet. -/
theorem trySent_rel {c : Settings} {g : Byte} {f : Nat} {d : List Byte} {p : Parser} (h : SentRel c g f d p) {b : Byte}
    (hb : b < 0x80 ∨ b = 0xF7) (t : Trouble) :
    (∀ st' es threw, trySent c g f d b t = some (st', es, threw) → ∃ p', p.tryFeed b t = .ok (p', es, threw) ∧ InnerRel c st' p') ∧
    (trySent c g f d b t = none → p.tryFeed b t = .error .assertFailed) := by
  have hcb : ¬ p.hasSysexCallback = true := by rw [show p.hasSysexCallback = c.sysexCallback from h.rest.cb, h.cb]; simp
  have hm : p.tryFeed b t = p.tryFeed b { t with memory := false } := by
    have h1s : ¬ b ≥ SystemStatus.clock := by
      rcases hb with hb | hb
      · clear * - hb; revert hb; revert b; decide +kernel
      · subst hb; decide
    unfold tryFeed
    rw [if_neg h1s, if_neg h1s, if_pos h.type, if_pos h.type]
    by_cases h2 : b < 0x80
    · rw [if_pos h2, if_pos h2, if_neg hcb, if_neg hcb]; rfl
    · have h7 : ¬ b ≠ 0xF7 := by simpa using hb.resolve_left h2
      rw [if_neg h2, if_neg h2, if_neg h7, if_neg h7, if_neg hcb, if_neg hcb]; rfl
  rw [hm]
  have some_iff : ∀ {y : InnerState × List Event × Bool} {x : Except Fault (Parser × List Event × Bool)},
      (∃ p', x = .ok (p', y.2) ∧ InnerRel c y.1 p') →
      (∀ st' es threw, some y = some (st', es, threw) → ∃ p', x = .ok (p', es, threw) ∧ InnerRel c st' p') ∧
      (some y = none → x = .error .assertFailed) := by
    rintro y x hx
    refine ⟨fun st' es threw he => ?_, fun he => by cases he⟩
    cases he
    exact hx
  unfold trySent
  rcases sent_shape h hb with ⟨h7, hen, m, post, hcall⟩ | ⟨h7, hen, p1, r1, hf⟩ | ⟨h7, h14, hf⟩ | ⟨h7, h6, hen, m, post, hcall⟩ |
    ⟨h7, h6, hen, p1, r1, hf⟩ | ⟨h7, h14, h6, p1, r1, hf⟩
  · rw [if_pos h7]
    dsimp only
    rw [if_pos hen]
    refine some_iff ?_
    obtain ⟨p3, e3, r3, -⟩ := hcall.back c _ m hcall.inside rfl id
    rw [tryFeed_call (t := { t with memory := false }) rfl hcall.run e3]
    by_cases ht : t.callback = true
    · simp only [ht, if_true]; exact ⟨m, rfl, hcall.inside⟩
    · simp only [Bool.not_eq_true] at ht
      simp only [ht, Bool.false_eq_true, if_false]; exact ⟨p3, rfl, r3⟩
  · rw [if_pos h7]
    dsimp only
    rw [if_neg (by simp [hen])]
    refine some_iff ⟨p1, ?_, Or.inl r1⟩
    rw [tryFeed_silent (t := { t with memory := false }) (y := .ok p1) rfl hf]; rfl
  · rw [if_neg h7, if_pos h14]
    refine ⟨fun st' es threw he => (by cases he), fun _ => ?_⟩
    rw [tryFeed_silent (t := { t with memory := false }) (y := .error .assertFailed) rfl hf]; rfl
  · rw [if_neg h7, if_neg (by omega), if_pos h6]
    dsimp only
    rw [if_pos hen]
    refine some_iff ?_
    obtain ⟨p3, e3, r3, -⟩ := hcall.back c _ m hcall.inside rfl id
    rw [tryFeed_call (t := { t with memory := false }) rfl hcall.run e3]
    by_cases ht : t.callback = true
    · simp only [ht, if_true]; exact ⟨m, rfl, hcall.inside⟩
    · simp only [Bool.not_eq_true] at ht
      simp only [ht, Bool.false_eq_true, if_false]; exact ⟨p3, rfl, r3⟩
  · rw [if_neg h7, if_neg (by omega), if_pos h6]
    dsimp only
    rw [if_neg (by simp [hen])]
    refine some_iff ⟨p1, ?_, Or.inl r1⟩
    rw [tryFeed_silent (t := { t with memory := false }) (y := .ok p1) rfl hf]; rfl
  · rw [if_neg h7, if_neg (by omega), if_neg h6]
    refine some_iff ⟨p1, ?_, r1⟩
    rw [tryFeed_silent (t := { t with memory := false }) (y := .ok p1) rfl hf]; rfl

/-- A byte. -/
theorem tryByte_rel {c : Settings} {st : InnerState} {p : Parser} {G : List Byte} (hc : c.group ∈ G)
    (hst : ∀ s, st = .plain s → GoodState G s) (h : InnerRel c st p) (b : Byte) (t : Trouble) :
    (∀ st' es threw, tryByte c st b t = some (st', es, threw) → ∃ p', p.tryFeed b t = .ok (p', es, threw) ∧ InnerRel c st' p') ∧
    (tryByte c st b t = none → p.tryFeed b t = .error .assertFailed) := by
  have some_iff : ∀ {y : InnerState × List Event × Bool} {x : Except Fault (Parser × List Event × Bool)},
      (∃ p', x = .ok (p', y.2) ∧ InnerRel c y.1 p') →
      (∀ st' es threw, some y = some (st', es, threw) → ∃ p', x = .ok (p', es, threw) ∧ InnerRel c st' p') ∧
      (some y = none → x = .error .assertFailed) := by
    rintro y x hx
    refine ⟨fun st' es threw he => ?_, fun he => by cases he⟩
    cases he
    exact hx
  unfold tryByte
  by_cases h1 : b ≥ 0xF8
  · rw [if_pos h1]
    have hf := h.forget
    have hF : ¬ b < 0xF0 := by clear * - h1; revert h1; revert b; decide +kernel
    unfold tryFeed
    rw [if_pos (show b ≥ SystemStatus.clock from h1)]
    unfold trySystemRealtime
    by_cases hu : b = 0xF9 ∨ b = 0xFD
    · rw [if_neg (show ¬ (c.enabled = true ∧ b ≠ 0xF9 ∧ b ≠ 0xFD) by tauto), if_pos hu]
      exact some_iff ⟨p, rfl, h⟩
    · rw [if_neg hu]
      by_cases hon : c.enabled = true
      · rw [if_pos (show c.enabled = true ∧ b ≠ 0xF9 ∧ b ≠ 0xFD by tauto)]
        refine some_iff ⟨p, ?_, h⟩
        rw [tryCall_on (show p.invokeCallbacks = true by rw [show p.invokeCallbacks = c.enabled from hf.on]; exact hon),
          show p.group = c.group from hf.group, makeSystem_short hf.lt hF, shortMessage_nil]
      · rw [if_neg (show ¬ (c.enabled = true ∧ b ≠ 0xF9 ∧ b ≠ 0xFD) by tauto)]
        refine some_iff ⟨p, ?_, h⟩
        rw [tryCall_off]
        rw [show p.invokeCallbacks = c.enabled from hf.on]; simpa using hon
  · rw [if_neg h1]
    match st with
    | .plain st => exact some_iff (tryStep_rel hc (hst st rfl) h h1 t)
    | .sent g f d =>
      dsimp only
      by_cases hm : b < 0x80 ∨ b = 0xF7
      · rw [if_pos hm]; exact trySent_rel h hm t
      · rw [if_neg hm]
        have hi : InnerRel c (.plain .idle) { p with packet := {} } := Or.inl h.rest
        obtain ⟨p', e, r⟩ := tryStep_rel (G := G) (st := .idle) hc trivial hi h1 t
        refine some_iff ⟨p', ?_, r⟩
        have h2 : ¬ b < 0x80 := by tauto
        rw [tryFeed_status _ h1 h2 (by tauto)] at e ⊢
        exact (tryFeedStatus_packet p {} h2 t).symm.trans e

end Midi

import Verif.Spec.Senders
import Verif.Props.SysexAnyId
import Verif.Props.Stream

/-!
# C73: sending to callbacks with any effect
-/

namespace Midi
open Spec

variable {m : Type → Type} [Monad m] [LawfulMonad m]

theorem raise_ok_bind {α β : Type} (a : α) (f : α → ExceptT Fault m β) : (raise (.ok a) >>= f) = f a := by
  apply ExceptT.ext
  simp [raise, ExceptT.run_bind]

theorem callSender_bind {β : Type} (sender : Packet → m Unit) (p : Packet) (f : Unit → ExceptT Fault m β) :
    (callSender sender p >>= f).run = (do sender p; (f ()).run) := by
  simp [callSender, ExceptT.run_bind]

theorem callSender_run (sender : Packet → m Unit) (p : Packet) :
    (callSender sender p).run = (do sender p; pure (.ok ())) := by
  simp [callSender]

theorem forEach_append (sender : Packet → m Unit) (ps qs : List Packet) :
    forEach sender (ps ++ qs) = (do forEach sender ps; forEach sender qs) := by
  induction ps with
  | nil => simp [forEach]
  | cons p ps ih => simp [forEach, ih]

/-! ## Sysex -/

theorem sendSysex7LoopTo_eq (sender : Packet → m Unit) (g : Byte) : ∀ (bs : List Byte) (p : Packet) (left : Nat) (out : List Packet) (r : Packet),
    sendSysex7Loop g p left bs = .ok (out, r) →
    (sendSysex7LoopTo sender g p left bs).run = (do forEach sender out; pure (.ok r)) := by
  intro bs
  induction bs with
  | nil => intro p left out r h; cases h; simp [sendSysex7LoopTo, raise, forEach]
  | cons b bs ih =>
    intro p left out r h
    unfold sendSysex7Loop at h
    unfold sendSysex7LoopTo
    cases hp : sysex7AddPayloadByte p b with
    | error f => rw [hp] at h; cases h
    | ok p' =>
      rw [hp, ok_bind] at h
      rw [raise_ok_bind]
      dsimp only at h ⊢
      split at h
      · rw [if_pos (by assumption)]
        cases hq : makeSysex7 (if left - 1 ≤ 6 then .fin else .cont) g with
        | error f => rw [hq] at h; cases h
        | ok q =>
          rw [hq, ok_bind] at h
          cases hl : sendSysex7Loop g q (left - 1) bs with
          | error f => rw [hl] at h; cases h
          | ok x =>
            obtain ⟨out', r'⟩ := x
            rw [hl] at h
            cases h
            rw [callSender_bind, raise_ok_bind, ih q _ _ _ hl]
            simp [forEach]
      · rw [if_neg (by assumption)]
        exact ih _ _ _ _ h

theorem sendSysex7To_eq (sender : Packet → m Unit) {s : Sysex} {g : Byte} {ps : List Packet} (h : sendSysex7 s g = .ok ps) :
    (sendSysex7To s g sender).run = (do forEach sender ps; pure (.ok ())) := by
  unfold sendSysex7 at h
  unfold sendSysex7To
  cases h1 : makeSysex7 (if s.totalDataSize ≤ 6 then .complete else .start) g with
  | error f => rw [h1] at h; cases h
  | ok p1 =>
    rw [h1, ok_bind] at h
    rw [raise_ok_bind]
    cases h2 : sysex7AddPayloadByte p1 (((s.manufacturerID >>> 16) &&& 0x7F).setWidth 8) with
    | error f => rw [h2] at h; cases h
    | ok p2 =>
      rw [h2, ok_bind] at h
      rw [raise_ok_bind]
      generalize (if s.manufacturerID &&& 0x00FFFF ≠ 0 then (do
          let p ← sysex7AddPayloadByte p2 (((s.manufacturerID >>> 8) &&& 0x7F).setWidth 8)
          sysex7AddPayloadByte p ((s.manufacturerID &&& 0x7F).setWidth 8))
        else .ok p2) = x at h ⊢
      cases x with
      | error f => cases h
      | ok p3 =>
        rw [ok_bind] at h
        rw [raise_ok_bind]
        cases h4 : sendSysex7Loop g p3 s.data.length s.data with
        | error f => rw [h4] at h; cases h
        | ok x =>
          obtain ⟨out, r⟩ := x
          rw [h4, ok_bind] at h
          rw [ExceptT.run_bind, sendSysex7LoopTo_eq sender g _ _ _ _ _ h4]
          cases h
          by_cases hz : sysex7PayloadSize r = 0
          · simp [hz, raise]
          · simp [hz, forEach_append, forEach, callSender_run]

theorem sendSysex8LoopTo_eq (sender : Packet → m Unit) (i g : Byte) : ∀ (bs : List Byte) (p : Packet) (left : Nat) (out : List Packet) (r : Packet),
    sendSysex8Loop i g p left bs = .ok (out, r) →
    (sendSysex8LoopTo sender i g p left bs).run = (do forEach sender out; pure (.ok r)) := by
  intro bs
  induction bs with
  | nil => intro p left out r h; cases h; simp [sendSysex8LoopTo, raise, forEach]
  | cons b bs ih =>
    intro p left out r h
    unfold sendSysex8Loop at h
    unfold sendSysex8LoopTo
    cases hp : sysex8AddPayloadByte p b with
    | error f => rw [hp] at h; cases h
    | ok p' =>
      rw [hp, ok_bind] at h
      rw [raise_ok_bind]
      dsimp only at h ⊢
      split at h
      · rw [if_pos (by assumption)]
        cases hl : sendSysex8Loop i g (makeSysex8 (if left - 1 ≤ 13 then .fin else .cont) i g) (left - 1) bs with
        | error f => rw [hl] at h; cases h
        | ok x =>
          obtain ⟨out', r'⟩ := x
          rw [hl] at h
          cases h
          rw [callSender_bind, ih _ _ _ _ hl]
          simp [forEach]
      · rw [if_neg (by assumption)]
        exact ih _ _ _ _ h

theorem sendSysex8To_eq (sender : Packet → m Unit) {s : Sysex} {i g : Byte} {ps : List Packet} (h : sendSysex8 s i g = .ok ps) :
    (sendSysex8To s i g sender).run = (do forEach sender ps; pure (.ok ())) := by
  unfold sendSysex8 at h
  unfold sendSysex8To
  dsimp only at h ⊢
  generalize (if s.manufacturerID &&& 0x00FFFF ≠ 0 then (do
      let p ← sysex8AddPayloadByte (makeSysex8 (if s.totalDataSize ≤ 13 then .complete else .start) i g)
        ((0x80 : Byte) + ((s.manufacturerID >>> 8) &&& 0x7F).setWidth 8)
      sysex8AddPayloadByte p ((s.manufacturerID &&& 0x7F).setWidth 8))
    else do
      let p ← sysex8AddPayloadByte (makeSysex8 (if s.totalDataSize ≤ 13 then .complete else .start) i g) 0
      sysex8AddPayloadByte p (((s.manufacturerID >>> 16) &&& 0x7F).setWidth 8)) = x at h ⊢
  cases x with
  | error f => cases h
  | ok p3 =>
    rw [ok_bind] at h
    rw [raise_ok_bind]
    cases h4 : sendSysex8Loop i g p3 s.data.length s.data with
    | error f => rw [h4] at h; cases h
    | ok x =>
      obtain ⟨out, r⟩ := x
      rw [h4, ok_bind] at h
      rw [ExceptT.run_bind, sendSysex8LoopTo_eq sender i g _ _ _ _ _ h4]
      cases h
      by_cases hz : sysex8PayloadSize r = 0
      · simp [hz, raise]
      · simp [hz, forEach_append, forEach, callSender_run]

/-- C73: `send_sysex7` calls the callback once for each packet, in order, whatever the callback does, and does nothing else. The
packets are those of C17. With a group above 15 the callback is not called at all. -/
theorem C73_send_sysex7 (s : Sysex) (g : Byte) (sender : Packet → m Unit) :
    (g < 16 → ∃ ps, sendSysex7 s g = .ok ps ∧ (sendSysex7To s g sender).run = (do forEach sender ps; pure (.ok ()))) ∧
    (¬ g < 16 → (sendSysex7To s g sender).run = pure (.error .assertFailed)) := by
  refine ⟨fun hg => ?_, fun hg => ?_⟩
  · obtain ⟨ps, h, -⟩ := C17_any_id s g hg
    exact ⟨ps, h, sendSysex7To_eq sender h⟩
  · unfold sendSysex7To
    rw [makeSysex7_fail _ hg]
    simp [raise, ExceptT.run_bind]

/-- C73 for `send_sysex8`. -/
theorem C73_send_sysex8 (s : Sysex) (i g : Byte) (hg : g < 16) (sender : Packet → m Unit) :
    ∃ ps, sendSysex8 s i g = .ok ps ∧ (sendSysex8To s i g sender).run = (do forEach sender ps; pure (.ok ())) := by
  obtain ⟨ps, h, -⟩ := C19_any_id s i g hg
  exact ⟨ps, h, sendSysex8To_eq sender h⟩

example := C73_send_sysex8 (m := StateM (List Packet)) ⟨0x7E0000, [0x7F, 0x0D, 0x20, 2, 1, 2, 3, 4, 5, 6, 7, 8]⟩ 1 5 (by decide) (fun p => modify (p :: ·))

/-! ## Names -/

theorem sendNameRestTo_eq (sender : Packet → m Unit) (make : Format → List Byte → Except Fault Packet) (n : Nat) :
    ∀ (fuel : Nat) (name : List Byte) (ps : List Packet), sendNameRest make n fuel name = .ok ps →
    (sendNameRestTo sender make n fuel name).run = (do forEach sender ps; pure (.ok ())) := by
  intro fuel
  induction fuel with
  | zero =>
    intro name ps h
    unfold sendNameRest at h
    unfold sendNameRestTo
    cases hp : make .fin name with
    | error f => rw [hp] at h; cases h
    | ok p =>
      rw [hp] at h
      cases h
      rw [raise_ok_bind, callSender_run]
      simp [forEach]
  | succ fuel ih =>
    intro name ps h
    unfold sendNameRest at h
    unfold sendNameRestTo
    split at h
    · rw [if_pos (by assumption)]
      cases hp : make .cont (name.take n) with
      | error f => rw [hp] at h; cases h
      | ok p =>
        rw [hp, ok_bind] at h
        cases hr : sendNameRest make n fuel (name.drop n) with
        | error f => rw [hr] at h; cases h
        | ok qs =>
          rw [hr] at h
          cases h
          rw [raise_ok_bind, callSender_bind, ih _ _ hr]
          simp [forEach]
    · rw [if_neg (by assumption)]
      cases hp : make .fin name with
      | error f => rw [hp] at h; cases h
      | ok p =>
        rw [hp] at h
        cases h
        rw [raise_ok_bind, callSender_run]
        simp [forEach]

/-- The two functions for names of any length only differ in the message. -/
theorem sendNameTo_eq (sender : Packet → m Unit) (make : Format → List Byte → Except Fault Packet) (n : Nat) (name : List Byte) (ps : List Packet)
    (h : (if name.length ≤ n then (do let p ← make .complete name; return [p]) else (do
      let p ← make .start (name.take n)
      let ps ← sendNameRest make n name.length (name.drop n)
      return p :: ps)) = .ok ps) :
    (if name.length ≤ n then (do let p ← raise (make .complete name); callSender sender p) else (do
      let p ← raise (make .start (name.take n))
      callSender sender p
      sendNameRestTo sender make n name.length (name.drop n))).run = (do forEach sender ps; pure (.ok ())) := by
  split at h
  · rw [if_pos (by assumption)]
    cases hp : make .complete name with
    | error f => rw [hp] at h; cases h
    | ok p =>
      rw [hp] at h
      cases h
      rw [raise_ok_bind, callSender_run]
      simp [forEach]
  · rw [if_neg (by assumption)]
    cases hp : make .start (name.take n) with
    | error f => rw [hp] at h; cases h
    | ok p =>
      rw [hp, ok_bind] at h
      cases hr : sendNameRest make n name.length (name.drop n) with
      | error f => rw [hr] at h; cases h
      | ok qs =>
        rw [hr] at h
        cases h
        rw [raise_ok_bind, callSender_bind, sendNameRestTo_eq sender make n _ _ _ hr]
        simp [forEach]

/-- C73 for the functions that send names: the packets are those of C44. -/
theorem C73_send_names (block : Byte) (name : List Byte) (sender : Packet → m Unit) :
    (∃ ps, sendEndpointName name = .ok ps ∧ (sendEndpointNameTo name sender).run = (do forEach sender ps; pure (.ok ()))) ∧
    (∃ ps, sendFunctionBlockName block name = .ok ps ∧
      (sendFunctionBlockNameTo block name sender).run = (do forEach sender ps; pure (.ok ()))) := by
  obtain ⟨ps, h, -⟩ := C44_endpoint_name name
  obtain ⟨qs, k, -⟩ := C44_function_block_name block name
  exact ⟨⟨ps, h, sendNameTo_eq sender makeEndpointName 14 name ps h⟩,
    ⟨qs, k, sendNameTo_eq sender (fun f n => makeFunctionBlockName f block n) 13 name qs k⟩⟩

/-- C73 for product instance ids; with more than 16 characters the callback is not called at all. -/
theorem C73_send_product_instance_id (id : List Byte) (sender : Packet → m Unit) :
    (id.length ≤ 16 → ∃ ps, sendProductInstanceId id = .ok ps ∧
      (sendProductInstanceIdTo id sender).run = (do forEach sender ps; pure (.ok ()))) ∧
    (16 < id.length → (sendProductInstanceIdTo id sender).run = pure (.error .assertFailed)) := by
  refine ⟨fun hl => ?_, fun hl => ?_⟩
  · obtain ⟨ps, h, -⟩ := (C44_product_instance_id id).1 hl
    refine ⟨ps, h, ?_⟩
    unfold sendProductInstanceId at h
    unfold sendProductInstanceIdTo
    rw [assert_ok (by simpa using hl)] at h ⊢
    rw [ok_bind] at h
    rw [raise_ok_bind]
    split at h
    · rw [if_pos (by assumption)]
      cases hp : makeProductInstanceId .complete id with
      | error f => rw [hp] at h; cases h
      | ok p =>
        rw [hp] at h
        cases h
        rw [raise_ok_bind, callSender_run]
        simp [forEach]
    · rw [if_neg (by assumption)]
      cases hp : makeProductInstanceId .start (id.take 14) with
      | error f => rw [hp] at h; cases h
      | ok p =>
        rw [hp, ok_bind] at h
        cases hq : makeProductInstanceId .fin ((id.drop 14).take 2) with
        | error f => rw [hq] at h; cases h
        | ok q =>
          rw [hq] at h
          cases h
          rw [raise_ok_bind, callSender_bind, raise_ok_bind, callSender_run]
          simp [forEach]
  · unfold sendProductInstanceIdTo
    rw [assert_fail (by simpa using hl)]
    simp [raise, ExceptT.run_bind]

/-! ## Two kinds of callbacks -/

theorem forEach_recorder (throws : Packet → Bool) : ∀ (ps l : List Packet),
    StateT.run (ExceptT.run (forEach (recorder throws) ps)) l =
      (if ps.any throws then .error () else .ok (), l ++ upTo throws ps) := by
  intro ps
  induction ps with
  | nil => intro l; simp [forEach, upTo]; rfl
  | cons p ps ih =>
    intro l
    cases hp : throws p
    · have : StateT.run (ExceptT.run (forEach (recorder throws) (p :: ps))) l =
          StateT.run (ExceptT.run (forEach (recorder throws) ps)) (l ++ [p]) := by
        simp only [forEach, recorder, hp]; rfl
      rw [this, ih]
      simp [upTo, hp]
    · have : StateT.run (ExceptT.run (forEach (recorder throws) (p :: ps))) l = (.error (), l ++ [p]) := by
        simp only [forEach, recorder, hp]; rfl
      rw [this]
      simp [upTo, hp]

/-- C73: an exception from the callback ends `send_sysex7` at once: the packets up to the one for which it was thrown have been
passed, no others, and the exception arrives at the caller. -/
theorem C73_exception (s : Sysex) (g : Byte) (hg : g < 16) (throws : Packet → Bool) :
    ∃ ps, sendSysex7 s g = .ok ps ∧
      StateT.run (ExceptT.run (sendSysex7To s g (recorder throws)).run) [] =
        (if ps.any throws then .error () else .ok (.ok ()), upTo throws ps) := by
  obtain ⟨ps, h, e⟩ := (C73_send_sysex7 s g (recorder throws)).1 hg
  refine ⟨ps, h, ?_⟩
  rw [e]
  have := forEach_recorder throws ps []
  rw [ExceptT.run_bind, StateT.run_bind, this]
  cases ps.any throws <;> simp <;> rfl

theorem forEach_collecting : ∀ (ps : List Packet) (c c' : Collector7) (out ms : List Sysex), c.feedAll ps = .ok (c', ms) →
    (forEach collecting ps).run (c, out) = .ok ((), c', out ++ ms) := by
  intro ps
  induction ps with
  | nil => intro c c' out ms h; cases h; simp [forEach]; rfl
  | cons p ps ih =>
    intro c c' out ms h
    unfold Collector7.feedAll at h
    cases hf : c.feed p with
    | error f => rw [hf] at h; cases h
    | ok x =>
      obtain ⟨c1, o1⟩ := x
      rw [hf, ok_bind] at h
      cases hr : c1.feedAll ps with
      | error f => simp only [hr] at h; cases h
      | ok y =>
        obtain ⟨c2, o2⟩ := y
        simp only [hr] at h
        cases h
        have := ih c1 c2 (out ++ o1) o2 hr
        have e : (forEach collecting (p :: ps)).run (c, out) = (forEach collecting ps).run (c1, out ++ o1) := by
          show ((collecting p (c, out)) >>= _) = _
          simp only [collecting, hf]
          rfl
        rw [e, this, List.append_assoc]


/-- C73, C18: sending directly to a collector, in whatever state, by a callback that feeds it, delivers the message. -/
theorem C73_into_collector (hist : List Packet) (s : Sysex) (g : Byte) (hs : Sendable7 (s, g)) :
    ∃ c before c', ({} : Collector7).feedAll hist = .ok (c, before) ∧
      StateT.run (ExceptT.run (sendSysex7To s g collecting)) (c, []) = .ok (.ok (), c', [s]) := by
  obtain ⟨ps, h, e⟩ := (C73_send_sysex7 (m := StateT (Collector7 × List Sysex) (Except Fault)) s g collecting).1 hs.2.2
  obtain ⟨sent, h1, h2⟩ := C18_send_succeeds [(s, g)] (by simpa using hs)
  obtain rfl : sent = [ps] := by
    simp [h] at h1
    exact h1.symm
  obtain ⟨c, before, c', e1, e2⟩ := C18_sysex7_round_trip hist [(s, g)] (by simpa using hs) [ps] h1 _ h2
  refine ⟨c, before, c', e1, ?_⟩
  rw [e, StateT.run_bind, forEach_collecting _ _ _ [] _ (by simpa using e2)]
  rfl

example : Sendable7 (⟨0x7D0000, List.replicate 20 1⟩, 3) := by decide

end Midi

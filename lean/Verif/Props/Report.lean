import Verif.Spec.Report
import Verif.Props.Panel
import Verif.Props.Transfer

/-!
# C112: a device reports what it is set to
-/

namespace Midi
open Spec Packet CI

/-! ## Messages that turn a knob -/

theorem lt16_and {b : Byte} (h : b < 16) : b &&& 0x0F = b := by
  have : ∀ b : Byte, b < 16 → b &&& 0x0F = b := by decide +kernel
  exact this b h

theorem opcode_or {o c : Byte} (ho : o ∈ [0xA0, 0xB0, 0xC0, 0xD0, (0xE0 : Byte)]) (hc : c < 16) :
    (o ||| c).toNat / 16 = o.toNat / 16 ∧ (o ||| c).toNat % 16 = c.toNat ∧ (o &&& 0xF0) = o := by
  have : ∀ o ∈ [0xA0, 0xB0, 0xC0, 0xD0, (0xE0 : Byte)], ∀ c : Byte, c < 16 →
      (o ||| c).toNat / 16 = o.toNat / 16 ∧ (o ||| c).toNat % 16 = c.toNat ∧ (o &&& 0xF0) = o := by decide +kernel
  exact this o ho c hc

theorem turned_midi2 (s : Panel) {g c o : Byte} (hg : g < 16) (hc : c < 16) (ho : o ∈ [0xA0, 0xB0, 0xC0, 0xD0, (0xE0 : Byte)]) (a b : Byte) (d : Word)
    {k : Knob} {v : Nat} (h : knobOf 4 (o.toNat / 16) a.toNat b.toNat d.toNat = some (k, v)) :
    turned s (midi2Message g o c a b d) = s.turn g.toNat c.toNat k v := by
  obtain ⟨h1, h2, h3⟩ := opcode_or ho hc
  unfold turned
  rw [type_midi2Message, group_midi2Message, status_midi2Message, byte3_midi2Message, byte4_midi2Message, w1_midi2Message, lt16_and hg, lt16_and hc,
    h3, h1, h2]
  rw [show (4 : Byte).toNat = 4 from rfl, h]

theorem turned_midi1 (s : Panel) {g c o : Byte} (hg : g < 16) (hc : c < 16) (ho : o ∈ [0xA0, 0xB0, 0xC0, 0xD0, (0xE0 : Byte)]) (a b : Byte)
    {k : Knob} {v : Nat} (h : ∀ d, knobOf 2 (o.toNat / 16) (a &&& 0x7F).toNat (b &&& 0x7F).toNat d = some (k, v)) :
    turned s (makeMidi1 g o c a b) = s.turn g.toNat c.toNat k v := by
  obtain ⟨h1, h2, h3⟩ := opcode_or ho hc
  unfold turned makeMidi1
  rw [type_midi1Message, group_midi1Message, status_midi1Message, byte3_midi1Message, byte4_midi1Message, lt16_and hg, lt16_and hc,
    h1, h2]
  rw [show (2 : Byte).toNat = 2 from rfl, h]

theorem and7F (b : Byte) : (b &&& 0x7F).toNat = b.toNat % 128 := by
  have : ∀ b : Byte, (b &&& 0x7F).toNat = b.toNat % 128 := by decide +kernel
  exact this b

theorem as7_toNat {v : Nat} (h : v < 2 ^ 32) : (controllerAs7 (BitVec.ofNat 32 v)).toNat = v / 2 ^ 25 := by
  unfold controllerAs7 downsample32to7
  rw [BitVec.toNat_setWidth, BitVec.toNat_ushiftRight, BitVec.toNat_ofNat, Nat.shiftRight_eq_div_pow]
  omega

theorem as14_toNat {v : Nat} (h : v < 2 ^ 32) : (pitchBendAs14 (BitVec.ofNat 32 v)).toNat = v / 2 ^ 18 := by
  unfold pitchBendAs14 downsample32to14
  rw [BitVec.toNat_setWidth, BitVec.toNat_ushiftRight, BitVec.toNat_ofNat, Nat.shiftRight_eq_div_pow]
  omega

theorem low7 (v : U16) : ((v &&& 0x7F).setWidth 8).toNat = v.toNat % 128 := by
  rw [BitVec.toNat_setWidth, BitVec.toNat_and, show (0x7F : U16).toNat = 2 ^ 7 - 1 from rfl, Nat.and_two_pow_sub_one_eq_mod]
  omega

theorem high7 (v : U16) : (((v >>> 7) &&& 0x7F).setWidth 8).toNat = v.toNat / 128 % 128 := by
  rw [low7, BitVec.toNat_ushiftRight, Nat.shiftRight_eq_div_pow]

theorem turned_knob (pr : Protocol) (s : Panel) (g c : Byte) (hg : g < 16) (hc : c < 16) (k : Knob) (v : Nat) (h : k.Ok v) :
    turned s (knobMessage pr g c k v) = s.turn g.toNat c.toNat k (pr.learned k v) := by
  have hv : k ≠ .program → (BitVec.ofNat 32 v).toNat = v := by
    intro hk
    rw [BitVec.toNat_ofNat]
    cases k <;> first | exact absurd rfl hk | (simp only [Knob.Ok] at h; omega)
  cases pr with
  | midi1 =>
    cases k with
    | controller nr =>
      obtain ⟨h1, h2⟩ := h
      refine turned_midi1 s hg hc (by decide) _ _ fun d => ?_
      rw [and7F, and7F, as7_toNat h2, BitVec.toNat_ofNat, show nr % 2 ^ 8 % 128 = nr by omega, show v / 2 ^ 25 % 128 = v / 2 ^ 25 by omega]
      show some (Knob.controller (nr % 128), up7to32 (v / 2 ^ 25 % 128)) = some (Knob.controller nr, up7to32 (v / 2 ^ 25))
      rw [Nat.mod_eq_of_lt h1, show v / 2 ^ 25 % 128 = v / 2 ^ 25 by omega]
    | pressureOf note =>
      obtain ⟨h1, h2⟩ := h
      refine turned_midi1 s hg hc (by decide) _ _ fun d => ?_
      rw [and7F, and7F, as7_toNat h2, BitVec.toNat_ofNat, show note % 2 ^ 8 % 128 = note by omega, show v / 2 ^ 25 % 128 = v / 2 ^ 25 by omega]
      show some (Knob.pressureOf (note % 128), up7to32 (v / 2 ^ 25 % 128)) = some (Knob.pressureOf note, up7to32 (v / 2 ^ 25))
      rw [Nat.mod_eq_of_lt h1, show v / 2 ^ 25 % 128 = v / 2 ^ 25 by omega]
    | program =>
      have h : v < 128 := h
      refine turned_midi1 s hg hc (by decide) _ _ fun d => ?_
      rw [and7F, BitVec.toNat_ofNat, show v % 2 ^ 8 % 128 = v by omega]
      show some (Knob.program, v % 128) = some (Knob.program, v)
      rw [Nat.mod_eq_of_lt h]
    | pressure =>
      have h : v < 2 ^ 32 := h
      refine turned_midi1 s hg hc (by decide) _ _ fun d => ?_
      rw [and7F, as7_toNat h, show v / 2 ^ 25 % 128 = v / 2 ^ 25 by omega]
      show some (Knob.pressure, up7to32 (v / 2 ^ 25 % 128)) = some (Knob.pressure, up7to32 (v / 2 ^ 25))
      rw [show v / 2 ^ 25 % 128 = v / 2 ^ 25 by omega]
    | bend =>
      have h : v < 2 ^ 32 := h
      refine turned_midi1 s hg hc (by decide) _ _ fun d => ?_
      rw [and7F, and7F, low7, high7, as14_toNat h]
      show some (Knob.bend, up14to32 (v / 2 ^ 18 % 128 % 128 + 128 * (v / 2 ^ 18 / 128 % 128 % 128))) = some (Knob.bend, up14to32 (v / 2 ^ 18))
      rw [show v / 2 ^ 18 % 128 % 128 + 128 * (v / 2 ^ 18 / 128 % 128 % 128) = v / 2 ^ 18 by omega]
  | midi2 =>
    cases k with
    | controller nr =>
      obtain ⟨h1, h2⟩ := h
      refine turned_midi2 s hg hc (by decide) _ _ _ ?_
      rw [and7F, hv (by simp), BitVec.toNat_ofNat, show nr % 2 ^ 8 % 128 = nr by omega]
      show some (Knob.controller (nr % 128), v) = _
      rw [Nat.mod_eq_of_lt h1]; rfl
    | pressureOf note =>
      obtain ⟨h1, h2⟩ := h
      refine turned_midi2 s hg hc (by decide) _ _ _ ?_
      rw [hv (by simp), BitVec.toNat_ofNat, show note % 2 ^ 8 = note by omega]
      show some (Knob.pressureOf (note % 128), v) = _
      rw [Nat.mod_eq_of_lt h1]; rfl
    | program =>
      refine turned_midi2 s hg hc (by decide) _ _ _ ?_
      have h : v < 128 := h
      have e : (((BitVec.ofNat 8 v &&& 0x7F).setWidth 32 <<< 24 : Word)).toNat = v * 2 ^ 24 := by
        rw [BitVec.toNat_shiftLeft, BitVec.toNat_setWidth, and7F, BitVec.toNat_ofNat, Nat.shiftLeft_eq]
        omega
      rw [e]
      show some (Knob.program, v * 2 ^ 24 / 2 ^ 24 % 128) = some (Knob.program, v)
      rw [show v * 2 ^ 24 / 2 ^ 24 % 128 = v by omega]
    | pressure =>
      refine turned_midi2 s hg hc (by decide) _ _ _ ?_
      rw [hv (by simp)]; rfl
    | bend =>
      refine turned_midi2 s hg hc (by decide) _ _ _ ?_
      rw [hv (by simp)]; rfl

theorem knob_shape (pr : Protocol) (g c : Byte) (k : Knob) (v : Nat) :
    (∃ o a b, knobMessage pr g c k v = makeMidi1 g o c a b) ∨ (∃ o a b d, knobMessage pr g c k v = midi2Message g o c a b d) := by
  cases pr with
  | midi1 => left; cases k <;> exact ⟨_, _, _, rfl⟩
  | midi2 => right; cases k <;> exact ⟨_, _, _, _, rfl⟩

theorem type_of_sysex7 {p : Packet} (h : IsSysex7 p) : p.type = 3 := by
  have := (C15_is_sysex7_packet_iff p).2 h
  unfold isSysex7Packet at this
  simp only [Bool.and_eq_true] at this
  have := this.1.1
  unfold isDataMessage at this
  simpa [PacketType.data] using this

/-- What the knob messages are. -/
theorem knob_packet (pr : Protocol) (g c : Byte) (k : Knob) (v : Nat) :
    ((knobMessage pr g c k v).type = 2 → (knobMessage pr g c k v).byte3 < 128 ∧ (knobMessage pr g c k v).byte4 < 128) ∧
      ¬ IsSysex7 (knobMessage pr g c k v) := by
  rcases knob_shape pr g c k v with ⟨o, a, b, e⟩ | ⟨o, a, b, d, e⟩
  · have l7 : ∀ b : Byte, b &&& 0x7F < 128 := by decide +kernel
    rw [e]
    unfold makeMidi1
    refine ⟨fun _ => ?_, fun h => ?_⟩
    · rw [byte3_midi1Message, byte4_midi1Message]
      exact ⟨l7 _, l7 _⟩
    · have := type_of_sysex7 h
      rw [type_midi1Message] at this
      exact absurd this (by decide)
  · rw [e]
    refine ⟨fun h => ?_, fun h => ?_⟩
    · rw [type_midi2Message] at h
      exact absurd h (by decide)
    · have := type_of_sysex7 h
      rw [type_midi2Message] at this
      exact absurd this (by decide)

/-! ## The listener -/

theorem feed_other {c : Collector7} {p : Packet} (h : ¬ IsSysex7 p) : c.feed p = .ok (c, []) := by
  have hb : isSysex7Packet p = false := by
    rw [← Bool.not_eq_true, C15_is_sysex7_packet_iff]; exact h
  unfold Collector7.feed
  rw [hb]; rfl

theorem hear_sysex (device : Word) (ps : List Packet) (hps : ∀ p ∈ ps, IsSysex7 p) (c c' : Collector7) (out : List Sysex) (ph ph' : Phase) (t : Panel)
    (h : c.feedAll ps = .ok (c', out)) (hph : out.foldlM (Phase.next device) ph = .ok ph') :
    Listener.hear device ⟨c, ph, t⟩ ps = .ok ⟨c', ph', t⟩ := by
  induction ps generalizing c out ph with
  | nil =>
    obtain ⟨rfl, rfl⟩ := Prod.mk.inj (Except.ok.inj h)
    obtain rfl := Except.ok.inj hph
    rfl
  | cons p ps ih =>
    unfold Collector7.feedAll at h
    obtain ⟨⟨c1, o1⟩, e1, h⟩ := bindOk_iff.1 h
    obtain ⟨⟨c2, o2⟩, e2, h⟩ := bindOk_iff.1 h
    obtain ⟨rfl, rfl⟩ := Prod.mk.inj (Except.ok.inj h)
    rw [List.foldlM_append] at hph
    obtain ⟨ph1, f1, hph⟩ := bindOk_iff.1 hph
    have hty : p.type = 3 := type_of_sysex7 (hps p (by simp))
    have hp : t.receive p = .ok t := by
      rw [panel_receive t p (fun e => by rw [hty] at e; exact absurd e (by decide))]
      unfold turned
      rw [hty]
      rfl
    have hr : Listener.receive device ⟨c, ph, t⟩ p = .ok ⟨c1, ph1, t⟩ := by
      unfold Listener.receive
      dsimp only
      rw [e1, ok_bind]
      dsimp only
      rw [f1, ok_bind, hp]
      split <;> rfl
    have := ih (fun x hx => hps x (by simp [hx])) c1 o2 ph1 e2 hph
    unfold Listener.hear at this ⊢
    rw [List.foldlM_cons, hr, ok_bind, this]

/-- A packet that turns no knob. -/
theorem receive_neutral (t : Panel) (p : Packet)
    (h : ¬ (isPolyPressure p || isControlChange p || isProgramChange p || isChannelPressure p || isPitchBend p) = true) : t.receive p = .ok t := by
  simp only [Bool.or_eq_true, not_or, Bool.not_eq_true] at h
  obtain ⟨⟨⟨⟨h1, h2⟩, h3⟩, h4⟩, h5⟩ := h
  unfold Panel.receive
  rw [h1, h2, h3, h4, h5]
  rfl

/-- What is known of the settings, in comparison to what they are: of the knobs shown everything, of the others what it was. -/
def Knows (pr : Protocol) (g : Nat) (shown : Nat → Knob → Prop) (s t0 t : Panel) : Prop :=
  (∀ c k, shown c k → t g c k = pr.learned k (s g c k)) ∧ (∀ g' c k, ¬ (g' = g ∧ shown c k) → t g' c k = t0 g' c k)

theorem Knows.congr {pr : Protocol} {g : Nat} {sh sh' : Nat → Knob → Prop} {s t0 t : Panel} (h : Knows pr g sh s t0 t)
    (he : ∀ c k, sh' c k ↔ sh c k) : Knows pr g sh' s t0 t :=
  ⟨fun c k hs => h.1 c k ((he c k).1 hs), fun g' c k hs => h.2 g' c k fun x => hs ⟨x.1, (he c k).2 x.2⟩⟩

theorem hear_deeds (device : Word) (pr : Protocol) (group : Byte) (hg : group < 16) (ds : List Deed) : ∀ (s t0 t : Panel) (c : Collector7)
    (shown : Nat → Knob → Prop), AllOk group s ds → Knows pr group.toNat shown s t0 t →
    ∃ t', Listener.hear device ⟨c, .running, t⟩ (performAll pr group s ds).2 = .ok ⟨c, .running, t'⟩ ∧
      Knows pr group.toNat (fun ch k => shown ch k ∨ Shown ds ch k) (performAll pr group s ds).1 t0 t' := by
  induction ds with
  | nil =>
    intro s t0 t c shown _ h
    refine ⟨t, rfl, ?_⟩
    have e : (fun ch k => shown ch k ∨ Shown [] ch k) = shown := by
      funext ch k
      simp [Shown]
    rw [e]
    exact h
  | cons d ds ih =>
    intro s t0 t c shown hok h
    obtain ⟨hd, hok⟩ := hok
    have step : ∀ p t1, ¬ IsSysex7 p → t.receive p = .ok t1 → Listener.receive device ⟨c, .running, t⟩ p = .ok ⟨c, .running, t1⟩ := by
      intro p t1 hp e
      unfold Listener.receive
      dsimp only
      rw [feed_other hp, ok_bind]
      dsimp only
      rw [List.foldlM_nil, pure_eq_ok, ok_bind, if_pos rfl, e, ok_bind]
      rfl
    cases d with
    | turn ch k v =>
      obtain ⟨hc, hk⟩ := hd
      obtain ⟨hp1, hp2⟩ := knob_packet pr group ch k v
      have e := panel_receive t _ hp1
      rw [turned_knob pr t group ch hg hc k v hk] at e
      obtain ⟨t', e1, e2⟩ := ih (s.turn group.toNat ch.toNat k v) t0 (t.turn group.toNat ch.toNat k (pr.learned k v)) c
        (fun ch' k' => shown ch' k' ∨ ch' = ch.toNat ∧ k' = k) hok ⟨fun ch' k' hsh => by
          unfold Panel.turn
          by_cases heq : ch' = ch.toNat ∧ k' = k
          · rw [if_pos ⟨rfl, heq⟩, if_pos ⟨rfl, heq⟩, heq.2]
          · rw [if_neg fun x => heq x.2, if_neg fun x => heq x.2]
            rcases hsh with hsh | hsh
            · exact h.1 ch' k' hsh
            · exact absurd hsh heq, fun g' ch' k' hn => by
          unfold Panel.turn
          rw [if_neg fun x => hn ⟨x.1, .inr x.2⟩]
          exact h.2 g' ch' k' fun x => hn ⟨x.1, .inl x.2⟩⟩
      refine ⟨t', ?_, ?_⟩
      · show Listener.hear device _ (knobMessage pr group ch k v :: _) = _
        unfold Listener.hear at e1 ⊢
        rw [List.foldlM_cons, step _ _ hp2 e, ok_bind]
        exact e1
      · refine e2.congr fun ch' k' => ?_
        simp only [Shown, List.mem_cons]
        constructor
        · rintro (a | ⟨d, rfl | hd, hm⟩)
          · exact .inl (.inl a)
          · exact .inl (.inr ⟨hm.1.symm, hm.2.symm⟩)
          · exact .inr ⟨d, hd, hm⟩
        · rintro ((a | a) | ⟨d, hd, hm⟩)
          · exact .inl a
          · exact .inr ⟨_, .inl rfl, a.1.symm, a.2.symm⟩
          · exact .inr ⟨d, .inr hd, hm⟩
    | tell ch k =>
      obtain ⟨hc, hk⟩ := hd
      obtain ⟨hp1, hp2⟩ := knob_packet pr group ch k (s group.toNat ch.toNat k)
      have e := panel_receive t _ hp1
      rw [turned_knob pr t group ch hg hc k _ hk] at e
      obtain ⟨t', e1, e2⟩ := ih s t0 (t.turn group.toNat ch.toNat k (pr.learned k (s group.toNat ch.toNat k))) c
        (fun ch' k' => shown ch' k' ∨ ch' = ch.toNat ∧ k' = k) hok ⟨fun ch' k' hsh => by
          unfold Panel.turn
          by_cases heq : ch' = ch.toNat ∧ k' = k
          · rw [if_pos ⟨rfl, heq⟩, heq.1, heq.2]
          · rw [if_neg fun x => heq x.2]
            rcases hsh with hsh | hsh
            · exact h.1 ch' k' hsh
            · exact absurd hsh heq, fun g' ch' k' hn => by
          unfold Panel.turn
          rw [if_neg fun x => hn ⟨x.1, .inr x.2⟩]
          exact h.2 g' ch' k' fun x => hn ⟨x.1, .inl x.2⟩⟩
      refine ⟨t', ?_, ?_⟩
      · show Listener.hear device _ (knobMessage pr group ch k (s group.toNat ch.toNat k) :: _) = _
        unfold Listener.hear at e1 ⊢
        rw [List.foldlM_cons, step _ _ hp2 e, ok_bind]
        exact e1
      · refine e2.congr fun ch' k' => ?_
        simp only [Shown, List.mem_cons]
        constructor
        · rintro (a | ⟨d, rfl | hd, hm⟩)
          · exact .inl (.inl a)
          · exact .inl (.inr ⟨hm.1.symm, hm.2.symm⟩)
          · exact .inr ⟨d, hd, hm⟩
        · rintro ((a | a) | ⟨d, hd, hm⟩)
          · exact .inl a
          · exact .inr ⟨_, .inl rfl, a.1.symm, a.2.symm⟩
          · exact .inr ⟨d, .inr hd, hm⟩
    | other p =>
      obtain ⟨t', e1, e2⟩ := ih s t0 t c shown hok h
      refine ⟨t', ?_, ?_⟩
      · show Listener.hear device _ (p :: _) = _
        unfold Listener.hear at e1 ⊢
        rw [List.foldlM_cons, step _ _ hd.1 (receive_neutral t p hd.2), ok_bind]
        exact e1
      · refine e2.congr fun ch' k' => ?_
        simp only [Shown, List.mem_cons]
        constructor
        · rintro (a | ⟨d, rfl | hd, hm⟩)
          · exact .inl a
          · exact hm.elim
          · exact .inr ⟨d, hd, hm⟩
        · rintro (a | ⟨d, hd, hm⟩)
          · exact .inl a
          · exact .inr ⟨d, .inr hd, hm⟩

theorem sendable_message {m : Sysex} {version st dev : Byte} {src dst : Word} {payload : List Byte} {names : List String}
    (h : IsMessage m version st dev src dst payload names) {g : Byte} (hg : g < 16) : Sendable7 (m, g) := by
  refine ⟨?_, ?_, hg⟩
  · rw [show (m, g).1.manufacturerID = _ from h.1]; decide
  · intro b hb
    rw [BitVec.lt_def]
    exact ((C53_is_valid m).1 h.2.2.1.1).2.2.2.2 b hb

theorem next_reply {m : Sysex} {version dev : Byte} {src dst : Word} {payload : List Byte}
    (h : IsMessage m version 0x43 dev src dst payload ["midi_message_report_reply_view"]) (ph : Phase) : Phase.next src ph m = .ok .running := by
  obtain ⟨-, -, hc, ha⟩ := h
  have hv : MidiMessageReportReplyView.validate m = .ok true :=
    accepting_true m views _ (by decide) ha ⟨"midi_message_report_reply_view", MidiMessageReportReplyView.validate, [0x43]⟩ (by simp [views]) (by simp)
  unfold Phase.next
  rw [hc.2.1, ok_bind, if_pos rfl, hc.2.2.2.2.2.2.1, ok_bind, if_pos rfl, hv]
  rfl

theorem next_end {m : Sysex} {version dev : Byte} {src dst : Word} {payload : List Byte}
    (h : IsMessage m version 0x44 dev src dst payload []) (hp : payload = []) : Phase.next src .running m = .ok .finished := by
  obtain ⟨h1, h2, hc, ha⟩ := h
  have hv : MidiMessageReportReplyView.validate m = .ok false := by
    have hl : m.data.length = 12 := by
      rw [h2, hp]
      simp [ciHeader, le7]
    unfold MidiMessageReportReplyView.validate isNonRealtime sizeAtLeast
    rw [h1, hl]
    rfl
  unfold Phase.next
  rw [hc.2.1, ok_bind, if_pos rfl, hc.2.2.2.2.2.2.1, ok_bind, if_pos rfl, hv, ok_bind, if_neg (by decide), hc.2.2.2.2.1, ok_bind]
  rfl

theorem feed_both (c : Collector7) (ps qs : List Packet) {c1 c2 : Collector7} {o1 o2 : List Sysex} (h1 : c.feedAll ps = .ok (c1, o1))
    (h2 : c1.feedAll qs = .ok (c2, o2)) : c.feedAll (ps ++ qs) = .ok (c2, o1 ++ o2) := by
  induction ps generalizing c o1 with
  | nil =>
    obtain ⟨rfl, rfl⟩ := Prod.mk.inj (Except.ok.inj h1)
    exact h2
  | cons p ps ih =>
    unfold Collector7.feedAll at h1
    obtain ⟨⟨c3, o3⟩, e1, h1⟩ := bindOk_iff.1 h1
    obtain ⟨⟨c4, o4⟩, e2, h1⟩ := bindOk_iff.1 h1
    obtain ⟨rfl, rfl⟩ := Prod.mk.inj (Except.ok.inj h1)
    rw [List.cons_append]
    unfold Collector7.feedAll
    rw [e1, ok_bind]
    dsimp only
    rw [ih c3 e2, ok_bind, List.append_assoc]
    rfl

theorem feedAll_others (c : Collector7) (ps : List Packet) (h : ∀ p ∈ ps, ¬ IsSysex7 p) : c.feedAll ps = .ok (c, []) := by
  induction ps with
  | nil => rfl
  | cons p ps ih =>
    unfold Collector7.feedAll
    rw [feed_other (h p (by simp)), ok_bind]
    dsimp only
    rw [ih fun q hq => h q (by simp [hq])]
    rfl

theorem performed_others (pr : Protocol) (group : Byte) (ds : List Deed) (s : Panel) (h : AllOk group s ds) :
    ∀ p ∈ (performAll pr group s ds).2, ¬ IsSysex7 p := by
  induction ds generalizing s with
  | nil => intro p hp; cases hp
  | cons d ds ih =>
    obtain ⟨hd, h⟩ := h
    intro p hp
    rcases List.mem_cons.1 hp with rfl | hp
    · cases d with
      | turn c k v => exact (knob_packet pr group c k v).2
      | tell c k => exact (knob_packet pr group c k _).2
      | other p => exact hd.1
    · cases d with
      | turn c k v => exact ih _ h p hp
      | tell c k => exact ih _ h p hp
      | other q => exact ih _ h p hp

theorem Spec.AllOk.take {group : Byte} {some ds : List Deed} (hp : some <+: ds) {s : Panel} (h : AllOk group s ds) : AllOk group s some := by
  obtain ⟨rest, rfl⟩ := hp
  induction some generalizing s with
  | nil => trivial
  | cons d some ih => exact ⟨h.1, ih h.2⟩

/-! ## C112 -/

/-- C112: somebody who asked a device for its settings, and has received anything before, receives the reply, everything the device does then, and
the end message. What they know is, from the reply to the end, always right for everything turned or reported since the reply, as exactly as
the protocol allows; everything else is as it was before. They do not consider the report finished before the end message, but then. -/
theorem C112_report (hist : List Packet) (ph : Phase) (t0 : Panel) (device : Word) (hdev : U28 device) (system channel note deviceId : Byte)
    (h1 : U7 system) (h2 : U7 channel) (h3 : U7 note) (h4 : U7 deviceId) (g1 g2 : Byte) (hg1 : g1 < 16) (hg2 : g2 < 16)
    (pr : Protocol) (group : Byte) (hg : group < 16) (s : Panel) (ds : List Deed) (hds : AllOk group s ds) :
    ∃ c before reply finish ps qs, ({} : Collector7).feedAll hist = .ok (c, before) ∧
      makeMidiMessageReportReply device system channel note deviceId = .ok reply ∧ makeMidiMessageReportEnd device deviceId = .ok finish ∧
      sendSysex7 reply g1 = .ok ps ∧ sendSysex7 finish g2 = .ok qs ∧
      (∀ some, some <+: ds → ∃ l, Listener.hear device ⟨c, ph, t0⟩ (ps ++ (performAll pr group s some).2) = .ok l ∧ l.phase = .running ∧
        (∀ ch k, Shown some ch k → l.panel group.toNat ch k = pr.learned k ((performAll pr group s some).1 group.toNat ch k)) ∧
        (∀ g ch k, ¬ (g = group.toNat ∧ Shown some ch k) → l.panel g ch k = t0 g ch k)) ∧
      ∃ l, Listener.hear device ⟨c, ph, t0⟩ (ps ++ (performAll pr group s ds).2 ++ qs) = .ok l ∧ l.phase = .finished ∧
        (∀ ch k, Shown ds ch k → l.panel group.toNat ch k = pr.learned k ((performAll pr group s ds).1 group.toNat ch k)) ∧
        (∀ g ch k, ¬ (g = group.toNat ∧ Shown ds ch k) → l.panel g ch k = t0 g ch k) := by
  obtain ⟨reply, hr, hrm, -⟩ := C40_midi_message_report_reply device system channel note deviceId hdev h1 h2 h3 h4
  obtain ⟨finish, hf, hfm⟩ := C40_midi_message_report_end device deviceId hdev h4
  have hrs : Sendable7 (reply, g1) := sendable_message hrm hg1
  have hfs : Sendable7 (finish, g2) := sendable_message hfm hg2
  obtain ⟨sent1, hs1, -⟩ := C18_send_succeeds [(reply, g1)] (by simpa using hrs)
  obtain ⟨sent2, hs2, -⟩ := C18_send_succeeds [(finish, g2)] (by simpa using hfs)
  obtain ⟨ps, hps, hp7, -⟩ := C17_send_sysex7 reply g1 hg1 hrs.1
  obtain ⟨qs, hqs, hq7, -⟩ := C17_send_sysex7 finish g2 hg2 hfs.1
  have e1 : sent1 = [ps] := by
    rw [List.mapM_cons, hps, ok_bind, List.mapM_nil] at hs1
    exact (Except.ok.inj hs1).symm
  have e2 : sent2 = [qs] := by
    rw [List.mapM_cons, hqs, ok_bind, List.mapM_nil] at hs2
    exact (Except.ok.inj hs2).symm
  obtain ⟨c, before, c1, f1, f2⟩ := C18_sysex7_round_trip hist [(reply, g1)] (by simpa using hrs) sent1 hs1 ps (by
    rw [e1, List.filter_eq_self.2 fun p hp => by simpa using (hp7 p hp).1]; simp)
  have hear1 : ∀ t, Listener.hear device ⟨c, ph, t⟩ ps = .ok ⟨c1, .running, t⟩ := fun t =>
    hear_sysex device ps (fun p hp => (hp7 p hp).1) c c1 _ ph _ t f2 (by
      show (Phase.next device ph reply >>= fun x => pure x) = _
      rw [next_reply hrm]; rfl)
  have hsome : ∀ some, some <+: ds → ∃ t, Listener.hear device ⟨c, ph, t0⟩ (ps ++ (performAll pr group s some).2) = .ok ⟨c1, .running, t⟩ ∧
      (∀ ch k, Shown some ch k → t group.toNat ch k = pr.learned k ((performAll pr group s some).1 group.toNat ch k)) ∧
      (∀ g ch k, ¬ (g = group.toNat ∧ Shown some ch k) → t g ch k = t0 g ch k) := by
    intro some hs
    obtain ⟨t, a, b⟩ := hear_deeds device pr group hg some s t0 t0 c1 (fun _ _ => False) (hds.take hs) ⟨fun _ _ h => h.elim, fun _ _ _ _ => rfl⟩
    have b := b.congr (sh' := Shown some) fun ch k => by simp
    refine ⟨t, ?_, b.1, b.2⟩
    have := hear1 t0
    unfold Listener.hear at this a ⊢
    rw [List.foldlM_append, this, ok_bind, a]
  refine ⟨c, before, reply, finish, ps, qs, f1, hr, hf, hps, hqs, fun some hs => ?_, ?_⟩
  · obtain ⟨t, a, b⟩ := hsome some hs
    exact ⟨_, a, rfl, b⟩
  · obtain ⟨t, a, b⟩ := hsome ds (List.prefix_refl _)
    obtain ⟨c2, before2, c3, k1, k2⟩ := C18_sysex7_round_trip (hist ++ (ps ++ (performAll pr group s ds).2)) [(finish, g2)] (by simpa using hfs) sent2 hs2 qs (by
      rw [e2, List.filter_eq_self.2 fun p hp => by simpa using (hq7 p hp).1]; simp)
    have k3 := feed_both _ _ _ f1 (feed_both _ _ _ f2 (feedAll_others c1 _ (performed_others pr group ds s hds)))
    obtain rfl : c1 = c2 := (Prod.mk.inj (Except.ok.inj (k3.symm.trans k1))).1
    refine ⟨⟨c3, .finished, t⟩, ?_, rfl, b⟩
    have := hear_sysex device qs (fun p hp => (hq7 p hp).1) c1 c3 _ .running .finished t k2 (by
      show (Phase.next device .running finish >>= fun x => pure x) = _
      rw [next_end hfm rfl]; rfl)
    unfold Listener.hear at this a ⊢
    rw [List.foldlM_append, a, ok_bind, this]

/-- C112: if everything was reported at some time, everything is known at the end, whatever was turned in the meantime. -/
theorem C112_everything (hist : List Packet) (ph : Phase) (t0 : Panel) (device : Word) (hdev : U28 device) (system channel note deviceId : Byte)
    (h1 : U7 system) (h2 : U7 channel) (h3 : U7 note) (h4 : U7 deviceId) (g1 g2 : Byte) (hg1 : g1 < 16) (hg2 : g2 < 16)
    (group : Byte) (hg : group < 16) (s : Panel) (ds : List Deed) (hds : AllOk group s ds)
    (hall : ∀ ch : Byte, ch < 16 → ∀ k : Knob, k.Ok 0 → Deed.tell ch k ∈ ds) :
    ∃ c before reply finish ps qs l, ({} : Collector7).feedAll hist = .ok (c, before) ∧
      makeMidiMessageReportReply device system channel note deviceId = .ok reply ∧ makeMidiMessageReportEnd device deviceId = .ok finish ∧
      sendSysex7 reply g1 = .ok ps ∧ sendSysex7 finish g2 = .ok qs ∧
      Listener.hear device ⟨c, ph, t0⟩ (ps ++ (performAll .midi2 group s ds).2 ++ qs) = .ok l ∧ l.phase = .finished ∧
      ∀ ch < 16, ∀ k : Knob, k.Ok 0 → l.panel group.toNat ch k = (performAll .midi2 group s ds).1 group.toNat ch k := by
  obtain ⟨c, before, reply, finish, ps, qs, a1, a2, a3, a4, a5, -, l, b1, b2, b3, -⟩ :=
    C112_report hist ph t0 device hdev system channel note deviceId h1 h2 h3 h4 g1 g2 hg1 hg2 .midi2 group hg s ds hds
  refine ⟨c, before, reply, finish, ps, qs, l, a1, a2, a3, a4, a5, b1, b2, fun ch hch k hk => b3 ch k ⟨_, hall (BitVec.ofNat 8 ch) ?_ k hk, ?_, rfl⟩⟩
  · rw [BitVec.lt_def, BitVec.toNat_ofNat]
    show ch % 2 ^ 8 < 16
    omega
  · rw [BitVec.toNat_ofNat]; omega

/-- C112: the reply and the end message do not say who asked: whatever is asked by whom, they are the same, and for everybody. -/
theorem C112_reply_for_everybody (device : Word) (hdev : U28 device) (system channel note deviceId : Byte)
    (h1 : U7 system) (h2 : U7 channel) (h3 : U7 note) (h4 : U7 deviceId) :
    ∃ reply finish, makeMidiMessageReportReply device system channel note deviceId = .ok reply ∧ makeMidiMessageReportEnd device deviceId = .ok finish ∧
      CI.View.destinationMuid reply = .ok 0x0FFFFFFF ∧ CI.View.destinationMuid finish = .ok 0x0FFFFFFF := by
  obtain ⟨reply, hr, hrm, -⟩ := C40_midi_message_report_reply device system channel note deviceId hdev h1 h2 h3 h4
  obtain ⟨finish, hf, hfm⟩ := C40_midi_message_report_end device deviceId hdev h4
  exact ⟨reply, finish, hr, hf, hrm.2.2.1.2.2.2.2.2.2.2.1, hfm.2.2.1.2.2.2.2.2.2.2.1⟩

/-! ## The hypotheses can be met -/

instance decideDeedOk (s : Panel) (g : Byte) (d : Deed) : Decidable (d.Ok s g) := by cases d <;> (unfold Deed.Ok; infer_instance)

instance decideAllOk (g : Byte) : (s : Panel) → (ds : List Deed) → Decidable (AllOk g s ds)
  | _, [] => .isTrue trivial
  | _, _ :: ds => @instDecidableAnd _ _ _ (decideAllOk g _ ds)

example := C112_report [⟨0x30167E01, 0x02030405, 0, 0⟩] .waiting (fun _ _ _ => 0) 0x1234567 (by decide) 0 0x3F 0 0x7F (by decide) (by decide) (by decide)
  (by decide) 0 3 (by decide) (by decide) .midi1 5 (by decide) (fun _ _ _ => 100)
  [.tell 0 (.controller 7), .turn 0 (.controller 7) 0x80000000, .other ⟨0x10F80000, 0, 0, 0⟩, .other ⟨0x25903C40, 0, 0, 0⟩, .tell 15 .program, .turn 1 .bend 5]
  (by decide +kernel)

/-- A report of everything, with a knob turned at the begin. -/
example (s : Panel) (hs : ∀ (c : Nat) (k : Knob), k.Ok 0 → k.Ok (s 5 c k)) : ∃ ds, AllOk 5 s (.turn 0 .bend 7 :: ds) ∧
    ∀ ch : Byte, ch < 16 → ∀ k : Knob, k.Ok 0 → Deed.tell ch k ∈ Deed.turn 0 .bend 7 :: ds := by
  let knobs : List Knob := (List.range 128).map .controller ++ ((List.range 128).map .pressureOf ++ [.program, .pressure, .bend])
  have hk : ∀ k : Knob, k.Ok 0 ↔ k ∈ knobs := by
    intro k
    cases k <;> simp [knobs, Knob.Ok]
  let ds : List Deed := (List.range 16).flatMap fun c => knobs.map fun k => .tell (BitVec.ofNat 8 c) k
  have ht : ∀ (l : List Deed) (s : Panel), (∀ (c : Nat) (k : Knob), k.Ok 0 → k.Ok (s 5 c k)) → (∀ d ∈ l, ∃ (c : Byte) (k : Knob), d = .tell c k ∧ c < 16 ∧ k.Ok 0) → AllOk 5 s l := by
    intro l
    induction l with
    | nil => intros; trivial
    | cons d l ih =>
      intro s hs h
      obtain ⟨c, k, rfl, h1, h2⟩ := h d (by simp)
      exact ⟨⟨h1, hs _ _ h2⟩, ih s hs fun d hd => h d (by simp [hd])⟩
  refine ⟨ds, ⟨⟨by decide, by decide⟩, ht ds _ (fun c k hk => ?_) fun d hd => ?_⟩, fun ch hch k hk' => ?_⟩
  · show k.Ok (s.turn 5 0 .bend 7 5 c k)
    unfold Panel.turn
    split
    · next h => rw [h.2.2]; decide
    · exact hs c k hk
  · obtain ⟨c, hc, hd⟩ := List.mem_flatMap.1 hd
    obtain ⟨k, hk', rfl⟩ := List.mem_map.1 hd
    refine ⟨_, k, rfl, ?_, (hk k).2 hk'⟩
    have := List.mem_range.1 hc
    rw [BitVec.lt_def, BitVec.toNat_ofNat]
    show c % 2 ^ 8 < 16
    omega
  · refine List.mem_cons_of_mem _ (List.mem_flatMap.2 ⟨ch.toNat, List.mem_range.2 (by rw [BitVec.lt_def] at hch; exact hch), List.mem_map.2 ⟨k, (hk k).1 hk', ?_⟩⟩)
    rw [BitVec.ofNat_toNat, BitVec.setWidth_eq]

end Midi

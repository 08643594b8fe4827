import Verif.Lemmas.ByteStream

/-!
# Helper lemmas: the byte stream grammar
-/

namespace Midi
open Spec

theorem stepBytes_append (c : Settings) (a b : List Byte) : ∀ st, stepBytes c st (a ++ b) =
    ((stepBytes c (stepBytes c st a).1 b).1, (stepBytes c st a).2 ++ (stepBytes c (stepBytes c st a).1 b).2) := by
  induction a with
  | nil => intro st; rfl
  | cons x a ih => intro st; simp only [List.cons_append, stepBytes]; rw [ih]; simp

theorem stepBytes_cons (c : Settings) (st : StreamState) (b : Byte) (bs : List Byte) : stepBytes c st (b :: bs) =
    ((stepBytes c (stepByte c st b).1 bs).1, (stepByte c st b).2 ++ (stepBytes c (stepByte c st b).1 bs).2) := rfl

/-! ## Rules of `stepByte` -/

section
variable (c : Settings) (st : StreamState) {b : Byte}

theorem step_rt (h : b ≥ 0xF8) : stepByte c st b = (st, if c.enabled then
    (if b = 0xF9 ∨ b = 0xFD then [] else [.packet (shortMessage c.group b [])]) else []) := by
  unfold stepByte byteEvents; rw [if_pos h]

theorem lt80_facts (h : b < 0x80) : ¬ b ≥ 0xF8 := by revert h; revert b; decide +kernel

theorem step_message (g s : Byte) (d : List Byte) (h : b < 0x80) : stepByte c (.message g s d) b =
    if d.length + 1 = dataBytes s then
      (if s < 0xF0 then .message g s [] else .idle, if c.enabled then [.packet (shortMessage g s (d ++ [b]))] else [])
    else (.message g s (d ++ [b]), []) := by
  unfold stepByte byteEvents; rw [if_neg (lt80_facts h), if_pos h]
  dsimp only
  split <;> simp

theorem step_idle (h : b < 0x80) : stepByte c .idle b = (.idle, []) := by
  unfold stepByte byteEvents; rw [if_neg (lt80_facts h), if_pos h]; simp

theorem step_sysex_cb (g : Byte) (w : Bool) (d : List Byte) (h : b < 0x80) (hc : c.sysexCallback = true) :
    stepByte c (.sysex g w d) b = (.sysex g w (d ++ [b]), []) := by
  unfold stepByte byteEvents; rw [if_neg (lt80_facts h), if_pos h]; simp [hc]

theorem step_sysex_packet (g : Byte) (w : Bool) (d : List Byte) (h : b < 0x80) (hc : c.sysexCallback = false) :
    stepByte c (.sysex g w d) b = if (d.length + 1) % 6 = 0 then (.sysex c.group w (d ++ [b]), if c.enabled then
        [.packet (sysexPacket g (if d.length < 6 then 1 else 2) ((d ++ [b]).drop (d.length + 1 - 6)))] else [])
      else (.sysex g w (d ++ [b]), []) := by
  unfold stepByte byteEvents; rw [if_neg (lt80_facts h), if_pos h]; simp only [hc, true_and]; split <;> simp

theorem step_end_cb (g : Byte) (w : Bool) (d : List Byte) (hc : c.sysexCallback = true) :
    stepByte c (.sysex g w d) 0xF7 =
      (.idle, if c.enabled then if w ∧ HasId d then [.sysex (message7 d)] else [] else []) := by
  unfold stepByte byteEvents; rw [if_neg (by decide), if_neg (by decide), if_pos rfl]; simp [hc]

theorem step_end_packet (g : Byte) (w : Bool) (d : List Byte) (hc : c.sysexCallback = false) :
    stepByte c (.sysex g w d) 0xF7 =
      (.idle, if c.enabled then if d = [] then []
        else if d.length < 6 then [.packet (sysexPacket g 0 d)]
        else [.packet (sysexPacket g 3 (d.drop (d.length / 6 * 6)))] else []) := by
  unfold stepByte byteEvents; rw [if_neg (by decide), if_neg (by decide), if_pos rfl]; simp [hc]

theorem step_end_other (h : ∀ g w d, st ≠ .sysex g w d) : stepByte c st 0xF7 = (.idle, []) := by
  unfold stepByte byteEvents; rw [if_neg (by decide), if_neg (by decide), if_pos rfl]
  match st with
  | .sysex g w d => exact absurd rfl (h g w d)
  | .idle | .message .. => simp

theorem step_start : stepByte c st 0xF0 = (.sysex c.group c.enabled [], []) := by
  unfold stepByte byteEvents; rw [if_neg (by decide), if_neg (by decide), if_neg (by decide), if_pos rfl]; simp

/-- Status bytes other than real time bytes and sysex end. -/
theorem step_status (h1 : ¬ b ≥ 0xF8) (h2 : ¬ b < 0x80) (h3 : b ≠ 0xF7) : stepByte c st b = stepByte c .idle b := by
  unfold stepByte byteEvents
  rw [if_neg h1, if_neg h2, if_neg h3, if_neg h1, if_neg h2, if_neg h3]

/-- A status byte with data. -/
theorem step_new (h1 : ¬ b ≥ 0xF8) (h2 : dataBytes b ≠ 0) : stepByte c st b = (.message c.group b [], []) := by
  have h : ¬ b < 0x80 ∧ b ≠ 0xF7 ∧ b ≠ 0xF0 ∧ b ≠ 0xF6 ∧ ¬ (b = 0xF4 ∨ b = 0xF5) := by
    revert h1 h2; revert b; decide +kernel
  unfold stepByte byteEvents
  rw [if_neg h1, if_neg h.1, if_neg h.2.1, if_neg h.2.2.1, if_neg h.2.2.2.1, if_neg h.2.2.2.2]
  simp

theorem step_tune : stepByte c st 0xF6 = (.idle, if c.enabled then [.packet (shortMessage c.group 0xF6 [])] else []) := by
  unfold stepByte byteEvents
  rw [if_neg (by decide), if_neg (by decide), if_neg (by decide), if_neg (by decide), if_pos rfl]

theorem step_undefined (h : b = 0xF4 ∨ b = 0xF5) : stepByte c st b = (.idle, []) := by
  rcases h with rfl | rfl <;>
  · unfold stepByte byteEvents
    rw [if_neg (by decide), if_neg (by decide), if_neg (by decide), if_neg (by decide), if_neg (by decide), if_pos (by decide)]
    simp
end

/-! ## Whole messages -/

/-- The data bytes of one message. -/
theorem stepBytes_data (c : Settings) (g s : Byte) : ∀ (d e : List Byte), (∀ b ∈ d, b < 0x80) → d ≠ [] →
    e.length + d.length = dataBytes s → stepBytes c (.message g s e) d =
      (if s < 0xF0 then .message g s [] else .idle, if c.enabled then [.packet (shortMessage g s (e ++ d))] else []) := by
  intro d
  induction d with
  | nil => intro e _ h; exact absurd rfl h
  | cons b d ih =>
    intro e hb _ hl
    rw [stepBytes_cons, step_message _ _ _ _ (hb b (by simp))]
    by_cases hd : d = []
    · subst hd
      rw [if_pos (by simpa using hl)]
      simp [stepBytes]
    · have : 0 < d.length := List.length_pos_iff.2 hd
      rw [if_neg (by simp at hl; omega)]
      rw [ih (e ++ [b]) (fun x hx => hb x (by simp [hx])) hd (by simp at hl ⊢; omega)]
      simp

/-- A message with explicit status. -/
theorem stepBytes_message (c : Settings) (st : StreamState) (s : Byte) (d : List Byte) (hs : ¬ s ≥ 0xF8)
    (hn : dataBytes s ≠ 0) (hb : ∀ b ∈ d, b < 0x80) (hl : d.length = dataBytes s) : stepBytes c st (s :: d) =
      (if s < 0xF0 then .message c.group s [] else .idle,
        if c.enabled then [.packet (shortMessage c.group s d)] else []) := by
  rw [stepBytes_cons, step_new c st hs hn, stepBytes_data c _ _ d [] hb (by rintro rfl; simp at hl; omega) (by simpa using hl)]
  simp

/-! ## Real time bytes -/

theorem byteAt_short_1 (g s : Byte) (d : List Byte) : (shortMessage g s d).byteAt 1 = s := by
  rw [shortMessage, byteAt_packetOf _ (by omega)]; rfl

theorem byteAt_short_0 (g s : Byte) (d : List Byte) :
    (shortMessage g s d).byteAt 0 = (if s < 0xF0 then 0x20 else 0x10) + g := by
  rw [shortMessage, byteAt_packetOf _ (by omega)]; rfl

theorem byteAt_sysexPacket_0 (g : Byte) (f : Nat) (d : List Byte) : (sysexPacket g f d).byteAt 0 = 0x30 + g := by
  rw [sysexPacket, byteAt_packetOf _ (by omega)]; rfl

theorem shortHead_type {g s : Byte} (hg : g < 16) :
    ((if s < 0xF0 then 0x20 else 0x10) + g : Byte).toNat / 16 = if s < 0xF0 then 2 else 1 := by
  split <;> (revert hg; revert g; decide +kernel)

theorem sysexHead_type {g : Byte} (hg : g < 16) : (0x30 + g : Byte).toNat / 16 = 3 := by
  revert hg; revert g; decide +kernel

theorem rtEvent_short {g s : Byte} (hg : g < 16) (d : List Byte) : isRealTime (.packet (shortMessage g s d)) = decide (s ≥ 0xF8) := by
  simp only [isRealTime, byteAt_short_1, byteAt_short_0, shortHead_type hg]
  by_cases h : s < 0xF0
  · have : ¬ s ≥ 0xF8 := by revert h; revert s; decide +kernel
    rw [if_pos h, decide_eq_false this, decide_eq_false (by decide)]; rfl
  · rw [if_neg h, decide_eq_true rfl]; rfl

theorem rtEvent_sysexPacket {g : Byte} (hg : g < 16) (f : Nat) (d : List Byte) :
    isRealTime (.packet (sysexPacket g f d)) = false := by
  simp only [isRealTime, byteAt_sysexPacket_0, sysexHead_type hg]; rfl

/-- Groups in a state. -/
def groupOk : StreamState → Prop
  | .idle => True
  | .message g s _ => g < 16 ∧ ¬ s ≥ 0xF8
  | .sysex g _ _ => g < 16

theorem step_groupOk (c : Settings) (hc : c.group < 16) (st : StreamState) (h : groupOk st) (b : Byte) :
    groupOk (stepByte c st b).1 ∧ (¬ b ≥ 0xF8 → ∀ e ∈ (stepByte c st b).2, isRealTime e = false) := by
  by_cases h1 : b ≥ 0xF8
  · rw [step_rt c st h1]; exact ⟨h, fun x => absurd h1 x⟩
  by_cases h2 : b < 0x80
  · match st with
    | .idle => rw [step_idle c h2]; exact ⟨trivial, fun _ e he => by simp at he⟩
    | .message g s d =>
      rw [step_message c g s d h2]
      split
      · refine ⟨by dsimp only; split; exacts [h, trivial], fun _ e he => ?_⟩
        dsimp only at he
        split at he
        · simp at he; subst he; rw [rtEvent_short h.1]; simpa using h.2
        · simp at he
      · exact ⟨h, fun _ e he => by simp at he⟩
    | .sysex g w d =>
      by_cases hcb : c.sysexCallback = true
      · rw [step_sysex_cb c g w d h2 hcb]; exact ⟨h, fun _ e he => by simp at he⟩
      · rw [step_sysex_packet c g w d h2 (by simpa using hcb)]
        split
        · refine ⟨hc, fun _ e he => ?_⟩
          dsimp only at he
          split at he
          · simp only [List.mem_singleton] at he; subst he; exact rtEvent_sysexPacket h _ _
          · simp at he
        · exact ⟨h, fun _ e he => by simp at he⟩
  by_cases h3 : b = 0xF7
  · subst h3
    match st with
    | .idle | .message .. => rw [step_end_other _ _ (by simp)]; exact ⟨trivial, fun _ e he => by simp at he⟩
    | .sysex g w d =>
      by_cases hcb : c.sysexCallback = true
      · rw [step_end_cb c g w d hcb]
        refine ⟨trivial, fun _ e he => ?_⟩
        dsimp only at he
        split at he
        · split at he
          · simp only [List.mem_singleton] at he; subst he; rfl
          · simp at he
        · simp at he
      · rw [step_end_packet c g w d (by simpa using hcb)]
        refine ⟨trivial, fun _ e he => ?_⟩
        dsimp only at he
        split at he
        · split at he
          · simp at he
          · split at he
            · simp only [List.mem_singleton] at he; subst he; exact rtEvent_sysexPacket h _ _
            · simp only [List.mem_singleton] at he; subst he; exact rtEvent_sysexPacket h _ _
        · simp at he
  · by_cases h4 : b = 0xF0
    · subst h4; rw [step_start]; exact ⟨hc, fun _ e he => by simp at he⟩
    by_cases h5 : b = 0xF6
    · subst h5; rw [step_tune]
      refine ⟨trivial, fun _ e he => ?_⟩
      dsimp only at he
      split at he
      · simp only [List.mem_singleton] at he; subst he; rw [rtEvent_short hc]; decide
      · simp at he
    by_cases h6 : b = 0xF4 ∨ b = 0xF5
    · rw [step_undefined _ _ h6]; exact ⟨trivial, fun _ e he => by simp at he⟩
    · have : dataBytes b ≠ 0 := by
        clear h; revert h1 h2 h3 h4 h5 h6; revert b; decide +kernel
      rw [step_new c st h1 this]; exact ⟨⟨hc, h1⟩, fun _ e he => by simp at he⟩

/-- Taking out the real time bytes takes out the real time events. -/
theorem stepBytes_rt (c : Settings) (hc : c.group < 16) (bs : List Byte) : ∀ st, groupOk st →
    (stepBytes c st bs).1 = (stepBytes c st (bs.filter fun b => decide (b < 0xF8))).1 ∧
    (stepBytes c st bs).2.filter (fun e => !isRealTime e) = (stepBytes c st (bs.filter fun b => decide (b < 0xF8))).2 ∧
    (stepBytes c st bs).2.filter isRealTime = if c.enabled then
      (bs.filter fun b => decide (b ≥ 0xF8 ∧ b ≠ 0xF9 ∧ b ≠ 0xFD)).map fun b => .packet (shortMessage c.group b []) else [] := by
  induction bs with
  | nil => intro st _; simp [stepBytes]
  | cons b bs ih =>
    intro st h
    have hg := step_groupOk c hc st h b
    obtain ⟨i1, i2, i3⟩ := ih _ hg.1
    rw [stepBytes_cons]
    by_cases hb : b ≥ 0xF8
    · have hst : (stepByte c st b).1 = st := by rw [step_rt c st hb]
      have hlt : ¬ b < 0xF8 := by simpa using hb
      rw [List.filter_cons_of_neg (by simpa using hb)]
      rw [hst] at i1 i2 i3 ⊢
      refine ⟨i1, ?_, ?_⟩
      · rw [List.filter_append, i2]
        have : (stepByte c st b).2.filter (fun e => !isRealTime e) = [] := by
          rw [List.filter_eq_nil_iff]
          intro e he
          rw [step_rt c st hb] at he
          dsimp only at he
          split at he
          · split at he
            · simp at he
            · simp only [List.mem_singleton] at he; subst he; rw [rtEvent_short hc]; simp only [hb]; decide
          · simp at he
        rw [this]; rfl
      · rw [List.filter_append, i3, step_rt c st hb]
        dsimp only
        split
        · by_cases hu : b = 0xF9 ∨ b = 0xFD
          · rw [if_pos hu, List.filter_cons_of_neg (by rcases hu with rfl | rfl <;> decide)]; simp
          · rw [not_or] at hu
            rw [if_neg (not_or.2 hu), List.filter_cons_of_pos (by rw [rtEvent_short hc]; exact decide_eq_true hb),
              List.filter_cons, if_pos (decide_eq_true ⟨hb, hu⟩)]; rfl
        · simp
    · have hlt : b < 0xF8 := by simpa using hb
      rw [List.filter_cons_of_pos (by simpa using hlt), stepBytes_cons]
      refine ⟨i1, ?_, ?_⟩
      · rw [List.filter_append, i2, List.filter_eq_self.2]
        intro e he; rw [hg.2 hb e he]; rfl
      · rw [List.filter_append, i3, List.filter_eq_nil_iff.2 (fun e he => by rw [hg.2 hb e he]; simp),
          List.filter_cons_of_neg (by simp only [decide_eq_true_eq]; exact fun x => hb x.1)]; rfl

end Midi

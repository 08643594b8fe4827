import Verif.Lemmas.Stream

/-!
# Helper lemmas: invariants of the byte stream grammar
-/

namespace Midi
open Spec

/-- Status bytes of system and channel voice messages. -/
def shortStatus (s : Byte) : Prop :=
  s ∈ systemStatusBytes ∨ 0x80 ≤ s ∧ s < 0xF0

instance (s : Byte) : Decidable (shortStatus s) := inferInstanceAs (Decidable (_ ∨ _))

/-- The possible events. -/
inductive GoodEvent (G : List Byte) (cb : Bool) : Event → Prop where
  | short (g s : Byte) (d : List Byte) (hg : g ∈ G) (hs : shortStatus s) (hl : d.length = dataBytes s)
      (hd : ∀ b ∈ d, b < 0x80) : GoodEvent G cb (.packet (shortMessage g s d))
  | data (g : Byte) (f : Format) (d : List Byte) (hg : g ∈ G) (hl : d.length ≤ 6) (hd : ∀ b ∈ d, b < 0x80)
      (hc : cb = false) : GoodEvent G cb (.packet (sysexPacket g f.code.toNat d))
  | sysex (d : List Byte) (hd : ∀ b ∈ d, b < 0x80) (hc : cb = true) : GoodEvent G cb (.sysex (message7 d))

/-- Invariant of the states. -/
def GoodState (G : List Byte) : StreamState → Prop
  | .idle => True
  | .message g s d => g ∈ G ∧ shortStatus s ∧ d.length < dataBytes s ∧ ∀ b ∈ d, b < 0x80
  | .sysex g _ d => g ∈ G ∧ ∀ b ∈ d, b < 0x80

theorem step_good (G : List Byte) (c : Settings) (hc : c.group ∈ G) (st : StreamState) (h : GoodState G st) (b : Byte) :
    GoodState G (stepByte c st b).1 ∧ ∀ e ∈ (stepByte c st b).2, GoodEvent G c.sysexCallback e := by
  by_cases h1 : b ≥ 0xF8
  · rw [step_rt c st h1]
    refine ⟨h, fun e he => ?_⟩
    dsimp only at he
    split at he
    · split at he
      · simp at he
      · next hu =>
        simp only [List.mem_singleton] at he; subst he
        refine .short _ _ _ hc ?_ ?_ (by simp)
        · clear h; revert h1 hu; revert b; decide +kernel
        · clear h hu; revert h1; revert b; decide +kernel
    · simp at he
  have nil : ∀ e ∈ ([] : List Event), GoodEvent G c.sysexCallback e := fun e he => by simp at he
  by_cases h2 : b < 0x80
  · match st with
    | .idle => rw [step_idle c h2]; exact ⟨trivial, nil⟩
    | .message g s d =>
      obtain ⟨hg, hs, hl, hd⟩ := h
      rw [step_message c g s d h2]
      have hd' : ∀ x ∈ d ++ [b], x < 0x80 := by
        intro x hx
        rcases List.mem_append.1 hx with hx | hx
        · exact hd x hx
        · simp only [List.mem_singleton] at hx; subst hx; exact h2
      split
      · next hn =>
        refine ⟨?_, fun e he => ?_⟩
        · dsimp only; split
          · exact ⟨hg, hs, by simp; omega, by simp⟩
          · trivial
        · dsimp only at he
          split at he
          · simp only [List.mem_singleton] at he; subst he
            exact .short _ _ _ hg hs (by simpa using hn) hd'
          · simp at he
      · exact ⟨⟨hg, hs, by simp; omega, hd'⟩, nil⟩
    | .sysex g w d =>
      obtain ⟨hg, hd⟩ := h
      have hd' : ∀ x ∈ d ++ [b], x < 0x80 := by
        intro x hx
        rcases List.mem_append.1 hx with hx | hx
        · exact hd x hx
        · simp only [List.mem_singleton] at hx; subst hx; exact h2
      by_cases hcb : c.sysexCallback = true
      · rw [step_sysex_cb c g w d h2 hcb]; exact ⟨⟨hg, hd'⟩, nil⟩
      · rw [step_sysex_packet c g w d h2 (by simpa using hcb)]
        split
        · refine ⟨⟨hc, hd'⟩, fun e he => ?_⟩
          dsimp only at he
          split at he
          · simp only [List.mem_singleton] at he; subst he
            have hh := GoodEvent.data (G := G) (cb := c.sysexCallback) g (if d.length < 6 then Format.start else .cont)
              ((d ++ [b]).drop (d.length + 1 - 6)) hg (by simp; omega) (fun x hx => hd' x (List.mem_of_mem_drop hx))
              (by simpa using hcb)
            have : (if d.length < 6 then Format.start else .cont).code.toNat = if d.length < 6 then 1 else 2 := by
              split <;> rfl
            rw [this] at hh
            exact hh
          · simp at he
        · exact ⟨⟨hg, hd'⟩, nil⟩
  by_cases h3 : b = 0xF7
  · subst h3
    match st with
    | .idle | .message .. => rw [step_end_other _ _ (by simp)]; exact ⟨trivial, nil⟩
    | .sysex g w d =>
      obtain ⟨hg, hd⟩ := h
      by_cases hcb : c.sysexCallback = true
      · rw [step_end_cb c g w d hcb]
        refine ⟨trivial, fun e he => ?_⟩
        dsimp only at he
        split at he
        · split at he
          · simp only [List.mem_singleton] at he; subst he; exact .sysex d hd hcb
          · simp at he
        · simp at he
      · rw [step_end_packet c g w d (by simpa using hcb)]
        refine ⟨trivial, fun e he => ?_⟩
        dsimp only at he
        split at he
        · split at he
          · simp at he
          · split at he
            · simp only [List.mem_singleton] at he; subst he
              exact GoodEvent.data g .complete d hg (by omega) hd (by simpa using hcb)
            · simp only [List.mem_singleton] at he; subst he
              exact GoodEvent.data g .fin _ hg (by simp; omega) (fun x hx => hd x (List.mem_of_mem_drop hx))
                (by simpa using hcb)
        · simp at he
  · by_cases h4 : b = 0xF0
    · subst h4; rw [step_start]; exact ⟨⟨hc, by simp⟩, nil⟩
    by_cases h5 : b = 0xF6
    · subst h5; rw [step_tune]
      refine ⟨trivial, fun e he => ?_⟩
      dsimp only at he
      split at he
      · simp only [List.mem_singleton] at he; subst he
        exact .short _ _ _ hc (by decide) (by decide) (by simp)
      · simp at he
    by_cases h6 : b = 0xF4 ∨ b = 0xF5
    · rw [step_undefined _ _ h6]; exact ⟨trivial, nil⟩
    · have : dataBytes b ≠ 0 ∧ shortStatus b := by
        have hx : ¬ (b ≥ 0xF8 ∨ b < 0x80 ∨ b = 0xF7 ∨ b = 0xF0 ∨ b = 0xF6 ∨ b = 0xF4 ∨ b = 0xF5) := by
          simp only [not_or] at h6 ⊢; exact ⟨h1, h2, h3, h4, h5, h6⟩
        clear h h1 h2 h3 h4 h5 h6; revert hx; revert b; decide +kernel
      rw [step_new c st h1 this.1]; exact ⟨⟨hc, this.2, by simp; omega, by simp⟩, nil⟩

theorem stepBytes_good (G : List Byte) (c : Settings) (hc : c.group ∈ G) (bs : List Byte) : ∀ st, GoodState G st →
    GoodState G (stepBytes c st bs).1 ∧ ∀ e ∈ (stepBytes c st bs).2, GoodEvent G c.sysexCallback e := by
  induction bs with
  | nil => intro st h; exact ⟨h, by simp [stepBytes]⟩
  | cons b bs ih =>
    intro st h
    obtain ⟨h1, h2⟩ := step_good G c hc st h b
    obtain ⟨h3, h4⟩ := ih _ h1
    rw [stepBytes_cons]
    refine ⟨h3, fun e he => ?_⟩
    rcases List.mem_append.1 he with he | he
    · exact h2 e he
    · exact h4 e he

/-! ## Sequences of operations -/

/-- Settings and state after a sequence of operations. -/
def runState (c : Settings) (st : StreamState) : List Parser.Op → Settings × StreamState
  | [] => (c, st)
  | o :: os => runState (stepOp c st o).1 (stepOp c st o).2.1 os

theorem op_rel {c : Settings} {st : StreamState} {p : Parser} (h : ParserRel c st p) (o : Parser.Op)
    (ho : ∀ g, o = .setGroup g → g < 16) :
    ∃ p', p.op o = .ok (p', (stepOp c st o).2.2) ∧ ParserRel (stepOp c st o).1 (stepOp c st o).2.1 p' := by
  cases o with
  | feed bs => exact feedAll_rel bs h
  | setGroup g =>
    refine ⟨_, rfl, rfl, h.cb, h.on, ho g rfl, h.state⟩
  | enable on => exact ⟨_, rfl, h.group, h.cb, rfl, h.lt, h.state⟩
  | reset => exact ⟨_, rfl, h.group, h.cb, h.on, h.lt, rfl⟩

theorem run_rel (ops : List Parser.Op) : ∀ {c : Settings} {st : StreamState} {p : Parser}, ParserRel c st p →
    ValidGroups ops →
    ∃ p', p.run ops = .ok (p', opEvents c st ops) ∧ ParserRel (runState c st ops).1 (runState c st ops).2 p' := by
  induction ops with
  | nil => intro c st p h _; exact ⟨p, rfl, h⟩
  | cons o ops ih =>
    intro c st p h hv
    obtain ⟨p', e, r⟩ := op_rel h o (fun g hg => hv g (by simp [hg]))
    obtain ⟨p'', e', r'⟩ := ih r (fun g hg => hv g (by simp [hg]))
    refine ⟨p'', ?_, r'⟩
    rw [Parser.run, e, ok_bind]
    dsimp only
    rw [e', ok_bind]; rfl

theorem run_good (G : List Byte) (ops : List Parser.Op) : ∀ (c : Settings) (st : StreamState), c.group ∈ G →
    (∀ g, Parser.Op.setGroup g ∈ ops → g ∈ G) → GoodState G st →
    GoodState G (runState c st ops).2 ∧ ∀ e ∈ opEvents c st ops, GoodEvent G c.sysexCallback e := by
  induction ops with
  | nil => intro c st _ _ h; exact ⟨h, by simp [opEvents]⟩
  | cons o ops ih =>
    intro c st hc hG h
    have key : (stepOp c st o).1.group ∈ G ∧ GoodState G (stepOp c st o).2.1 ∧ ∀ e ∈ (stepOp c st o).2.2, GoodEvent G c.sysexCallback e := by
      cases o with
      | feed bs => exact ⟨hc, stepBytes_good G c hc bs st h⟩
      | setGroup g => exact ⟨hG g (by simp), h, by simp [stepOp]⟩
      | enable on => exact ⟨hc, h, by simp [stepOp]⟩
      | reset => exact ⟨hc, trivial, by simp [stepOp]⟩
    have hcb : (stepOp c st o).1.sysexCallback = c.sysexCallback := by cases o <;> rfl
    obtain ⟨h3, h4⟩ := ih _ _ key.1 (fun g hg => hG g (by simp [hg])) key.2.1
    refine ⟨h3, fun e he => ?_⟩
    rcases List.mem_append.1 he with he | he
    · exact key.2.2 e he
    · rw [← hcb]; exact h4 e he

theorem groupOk_of_good {G : List Byte} (hG : ∀ g ∈ G, g < 16) {st : StreamState} (h : GoodState G st) : groupOk st := by
  match st with
  | .idle => trivial
  | .message g s d =>
    obtain ⟨hg, _, hl, _⟩ := h
    refine ⟨hG g hg, ?_⟩
    have hn : dataBytes s ≠ 0 := by omega
    clear hl hg
    revert hn; revert s; decide +kernel
  | .sysex g w d => exact hG g h.1

/-! ## Well formed events -/

theorem groupOf_short {g s : Byte} (hg : g < 16) (d : List Byte) : groupOf (shortMessage g s d) = g.toNat := by
  rw [groupOf, byteAt_short_0]
  split <;> (clear d; revert hg; revert g; decide +kernel)

theorem shortMessage_data (g s : Byte) (d : List Byte) {i : Nat} (h2 : 2 ≤ i) (hi : i < 16) :
    (shortMessage g s d).byteAt i = d.getD (i - 2) 0 := by
  rw [shortMessage, byteAt_packetOf _ hi]
  obtain ⟨k, rfl⟩ : ∃ k, i = k + 2 := ⟨i - 2, by omega⟩
  simp

theorem getD_lt80 {d : List Byte} (h : ∀ b ∈ d, b < 0x80) (i : Nat) : d.getD i 0 < 0x80 := by
  rw [List.getD_eq_getElem?_getD]
  by_cases hi : i < d.length
  · rw [List.getElem?_eq_getElem hi]; exact h _ (List.getElem_mem hi)
  · rw [List.getElem?_eq_none (by omega)]; decide

theorem wellFormed_short (G : List Byte) {g s : Byte} {d : List Byte} (hg : g ∈ G) (hg16 : g < 16) (hs : shortStatus s)
    (hl : d.length = dataBytes s) (hd : ∀ b ∈ d, b < 0x80) : WellFormed1 G (shortMessage g s d) := by
  refine ⟨⟨g, hg, groupOf_short hg16 d⟩, ?_, ?_, ?_⟩
  · left
    unfold IsShort
    rw [byteAt_short_0, byteAt_short_1, shortHead_type hg16]
    rcases hs with hs | ⟨h1, h2⟩
    · left
      refine ⟨?_, hs⟩
      rw [if_neg]; clear hl; revert hs; revert s; decide +kernel
    · right; exact ⟨if_pos h2, h1, h2⟩
  · intro i h2 hi; rw [shortMessage_data _ _ _ h2 hi]; exact getD_lt80 hd _
  · intro i hi hu
    rw [byteAt_short_0, byteAt_short_1, shortHead_type hg16, if_neg (by split <;> omega), ← hl] at hu
    rw [shortMessage_data _ _ _ (by omega) hi, List.getD_eq_getElem?_getD, List.getElem?_eq_none (by omega)]; rfl

theorem wellFormed_sysex (G : List Byte) {g : Byte} (f : Format) {d : List Byte} (hg : g ∈ G) (hg16 : g < 16)
    (hl : d.length ≤ 6) (hd : ∀ b ∈ d, b < 0x80) : WellFormed1 G (sysexPacket g f.code.toNat d) := by
  rw [sysexPacket_eq f hg16 hl]
  refine ⟨⟨g, hg, groupOf_mk7 f hg16⟩, Or.inr (isSysex7_mk7 f hg16 hl), ?_, ?_⟩
  · intro i h2 hi
    obtain ⟨k, rfl⟩ : ∃ k, i = 2 + k := ⟨i - 2, by omega⟩
    rw [byteAt_mk7_data _ _ _ (by omega)]; exact getD_lt80 hd _
  · intro i hi hu
    rw [if_pos (isSysex7_mk7 f hg16 hl).1, payload7_mk7 f g hl] at hu
    obtain ⟨k, rfl⟩ : ∃ k, i = 2 + k := ⟨i - 2, by omega⟩
    rw [byteAt_mk7_data _ _ _ (by omega), List.getD_eq_getElem?_getD, List.getElem?_eq_none (by omega)]; rfl

theorem is7Bit_message7 {d : List Byte} (hd : ∀ b ∈ d, b < 0x80) : Is7Bit (message7 d) := by
  have lt : ∀ b ∈ d, b.toNat < 128 := fun b hb => hd b hb
  match d with
  | [] => exact ⟨by simp [message7], by decide, by decide, by decide⟩
  | a :: t =>
    by_cases ha : a = 0
    · subst ha
      match t with
      | [] => exact ⟨by simp [message7], by decide, by decide, by decide⟩
      | [x] =>
        have := lt x (by simp)
        simp only [message7, if_true]
        refine ⟨by simp, ?_⟩
        simp only [BitVec.toNat_ofNat]; omega
      | x :: y :: t =>
        have := lt x (by simp); have := lt y (by simp)
        simp only [message7, if_true]
        refine ⟨fun b hb => hd b (by simp [hb]), ?_⟩
        simp only [BitVec.toNat_ofNat]; omega
    · have := lt a (by simp)
      have e : message7 (a :: t) = ⟨BitVec.ofNat 32 (a.toNat * 65536), t⟩ := by simp only [message7]; rw [if_neg ha]
      rw [e]
      refine ⟨fun b hb => hd b (by simp [hb]), ?_⟩
      simp only [BitVec.toNat_ofNat]; omega

end Midi

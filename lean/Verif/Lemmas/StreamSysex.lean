import Verif.Lemmas.StreamInv
import Verif.Lemmas.Chunks
import Verif.Lemmas.Machine7

/-!
# Helper lemmas: sysex in byte streams
-/

namespace Midi
open Spec

/-! ## The packets of the parser -/

/-- The packets behind the start packet. -/
def restChunks (D : List Byte) : List Chunk :=
  if h : D.length < 6 then [(.fin, D)] else (.cont, D.take 6) :: restChunks (D.drop 6)
termination_by D.length
decreasing_by simp; omega

/-- The packets for a sysex message that is not empty. -/
def parserChunks (D : List Byte) : List Chunk :=
  if D.length < 6 then [(.complete, D)] else (.start, D.take 6) :: restChunks (D.drop 6)

theorem restChunks_short {D : List Byte} (h : D.length < 6) : restChunks D = [(.fin, D)] := by
  rw [restChunks, dif_pos h]

theorem restChunks_long {D : List Byte} (h : ¬ D.length < 6) :
    restChunks D = (.cont, D.take 6) :: restChunks (D.drop 6) := by
  rw [restChunks, dif_neg h]

theorem restChunks_facts (n : Nat) : ∀ D : List Byte, D.length = n →
    (∃ k, (restChunks D).map (·.1.code.toNat) = List.replicate k 2 ++ [3]) ∧ (restChunks D).flatMap (·.2) = D ∧
    (∀ c ∈ (restChunks D).dropLast, c.2.length = 6) ∧ (∀ c ∈ restChunks D, c.2.length ≤ 6) ∧
    (restChunks D).length = D.length / 6 + 1 := by
  induction n using Nat.strongRecOn with
  | ind n ih =>
    intro D hn
    by_cases h : D.length < 6
    · rw [restChunks_short h]
      refine ⟨⟨0, by simp; decide⟩, by simp, by simp, by simp; omega, ?_⟩
      rw [Nat.div_eq_of_lt h]; rfl
    · rw [restChunks_long h]
      obtain ⟨⟨k, h1⟩, h2, h3, h4, h5⟩ := ih (D.drop 6).length (by simp; omega) (D.drop 6) rfl
      have hne : restChunks (D.drop 6) ≠ [] := by intro e; rw [e] at h5; simp at h5
      refine ⟨⟨k + 1, ?_⟩, ?_, ?_, ?_, ?_⟩
      · rw [List.map_cons, h1]; rfl
      · rw [List.flatMap_cons, h2, List.take_append_drop]
      · rw [List.dropLast_cons_of_ne_nil hne]
        intro c hc
        rcases List.mem_cons.1 hc with rfl | hc
        · simp; omega
        · exact h3 c hc
      · intro c hc
        rcases List.mem_cons.1 hc with rfl | hc
        · simp
        · exact h4 c hc
      · rw [List.length_cons, h5, List.length_drop]; omega

theorem parserChunks_facts (D : List Byte) :
    Framed ((parserChunks D).map (·.1.code.toNat)) ∧ (parserChunks D).flatMap (·.2) = D ∧
    (∀ c ∈ (parserChunks D).dropLast, c.2.length = 6) ∧ (∀ c ∈ parserChunks D, c.2.length ≤ 6) ∧
    (parserChunks D).length = D.length / 6 + 1 := by
  unfold parserChunks
  by_cases h : D.length < 6
  · rw [if_pos h]
    refine ⟨Or.inl rfl, by simp, by simp, by simp; omega, ?_⟩
    rw [Nat.div_eq_of_lt h]; rfl
  · rw [if_neg h]
    obtain ⟨⟨k, h1⟩, h2, h3, h4, h5⟩ := restChunks_facts _ (D.drop 6) rfl
    have hne : restChunks (D.drop 6) ≠ [] := by intro e; rw [e] at h5; simp at h5
    refine ⟨Or.inr ⟨k, ?_⟩, ?_, ?_, ?_, ?_⟩
    · rw [List.map_cons, h1]; rfl
    · rw [List.flatMap_cons, h2, List.take_append_drop]
    · rw [List.dropLast_cons_of_ne_nil hne]
      intro c hc
      rcases List.mem_cons.1 hc with rfl | hc
      · simp; omega
      · exact h3 c hc
    · intro c hc
      rcases List.mem_cons.1 hc with rfl | hc
      · simp
      · exact h4 c hc
    · rw [List.length_cons, h5, List.length_drop]; omega

/-- The event for a packet. -/
def chunkEvent (g : Byte) (c : Chunk) : Event := .packet (sysexPacket g c.1.code.toNat c.2)

theorem sysex_part (c : Settings) (hcb : c.sysexCallback = false) (g : Byte) (w : Bool) (d : List Byte) : ∀ e : List Byte,
    (∀ b ∈ d, b < 0x80) → e.length % 6 + d.length < 6 →
    stepBytes c (.sysex g w e) d = (.sysex g w (e ++ d), []) := by
  induction d with
  | nil => intro e _ _; simp [stepBytes]
  | cons b d ih =>
    intro e hd hl
    simp only [List.length_cons] at hl
    rw [stepBytes_cons, step_sysex_packet c g w e (hd b (by simp)) hcb, if_neg (by omega)]
    dsimp only
    rw [ih (e ++ [b]) (fun x hx => hd x (by simp [hx])) (by simp; omega)]
    simp

theorem sysex_block (c : Settings) (hcb : c.sysexCallback = false) (hon : c.enabled = true) (g : Byte) (w : Bool)
    (d e : List Byte) (hd : ∀ b ∈ d, b < 0x80) (he : e.length % 6 = 0) (hl : d.length = 6) :
    stepBytes c (.sysex g w e) d = (.sysex c.group w (e ++ d), [chunkEvent g (if e = [] then .start else .cont, d)]) := by
  obtain ⟨d5, b, rfl⟩ : ∃ d5 b, d = d5 ++ [b] := by
    have hne : d ≠ [] := by rintro rfl; simp at hl
    exact ⟨d.dropLast, d.getLast hne, (List.dropLast_concat_getLast hne).symm⟩
  have h5 : d5.length = 5 := by simpa using hl
  rw [stepBytes_append, sysex_part c hcb g w d5 e (fun x hx => hd x (by simp [hx])) (by omega)]
  rw [stepBytes_cons, step_sysex_packet c g w _ (hd b (by simp)) hcb, if_pos (by simp; omega), if_pos hon]
  have h6 : (e ++ d5).length + 1 - 6 = e.length := by simp; omega
  have hdrop : (e ++ d5 ++ [b]).drop e.length = d5 ++ [b] := by rw [List.append_assoc, List.drop_left]
  rw [h6, hdrop]
  simp only [stepBytes, List.append_nil, List.nil_append, List.append_assoc, chunkEvent]
  by_cases h : e = []
  · subst h; rw [if_pos (by simp; omega), if_pos rfl]; rfl
  · have : 0 < e.length := List.length_pos_iff.2 h
    rw [if_neg (by simp; omega), if_neg h]; rfl

theorem sysex_rest (c : Settings) (hcb : c.sysexCallback = false) (hon : c.enabled = true) (w : Bool) (n : Nat) :
    ∀ D e : List Byte, D.length = n → (∀ b ∈ D, b < 0x80) → e.length % 6 = 0 → e ≠ [] →
    stepBytes c (.sysex c.group w e) (D ++ [0xF7]) = (.idle, (restChunks D).map (chunkEvent c.group)) := by
  induction n using Nat.strongRecOn with
  | ind n ih =>
    intro D e hn hD he hne
    have hpos : 0 < e.length := List.length_pos_iff.2 hne
    by_cases h : D.length < 6
    · rw [restChunks_short h, stepBytes_append, sysex_part c hcb _ w D e hD (by omega), stepBytes_cons,
        step_end_packet c _ _ _ hcb, if_pos hon, if_neg (by simp [hne]), if_neg (by simp; omega)]
      have : (e ++ D).length / 6 * 6 = e.length := by simp; omega
      rw [this, List.drop_left]
      rfl
    · rw [restChunks_long h]
      have hs : D ++ [0xF7] = D.take 6 ++ (D.drop 6 ++ [0xF7]) := by rw [← List.append_assoc, List.take_append_drop]
      rw [hs, stepBytes_append, sysex_block c hcb hon _ w _ e (fun b hb => hD b (List.mem_of_mem_take hb)) he (by simp; omega),
        if_neg hne]
      rw [ih (D.drop 6).length (by simp; omega) (D.drop 6) _ rfl (fun b hb => hD b (List.mem_of_mem_drop hb))
        (by simp; omega) (by simp [hne])]
      rfl

/-- Sysex in packet mode. -/
theorem sysex_packets (c : Settings) (hcb : c.sysexCallback = false) (hon : c.enabled = true) (st : StreamState)
    (D : List Byte) (hD : ∀ b ∈ D, b < 0x80) :
    stepBytes c st (0xF0 :: (D ++ [0xF7])) =
      (.idle, if D = [] then [] else (parserChunks D).map (chunkEvent c.group)) := by
  rw [stepBytes_cons, step_start]
  dsimp only
  unfold parserChunks
  by_cases h : D.length < 6
  · rw [if_pos h, stepBytes_append, sysex_part c hcb _ _ D [] hD (by simp; omega), stepBytes_cons,
      step_end_packet c _ _ _ hcb, if_pos hon, List.nil_append, if_pos h]
    by_cases hD0 : D = []
    · rw [if_pos hD0, if_pos hD0]; rfl
    · rw [if_neg hD0, if_neg hD0]; rfl
  · have hne : D ≠ [] := by rintro rfl; simp at h
    rw [if_neg h, if_neg hne]
    have hs : D ++ [0xF7] = D.take 6 ++ (D.drop 6 ++ [0xF7]) := by rw [← List.append_assoc, List.take_append_drop]
    have ht : (D.take 6).length = 6 := by simp; omega
    rw [hs, stepBytes_append, sysex_block c hcb hon _ _ _ [] (fun b hb => hD b (List.mem_of_mem_take hb)) rfl ht, if_pos rfl]
    rw [sysex_rest c hcb hon _ _ (D.drop 6) _ rfl (fun b hb => hD b (List.mem_of_mem_drop hb))
      (by rw [List.nil_append, ht]) (by intro e; rw [List.nil_append] at e; rw [e] at ht; simp at ht)]
    rfl

/-- Data bytes of sysex in callback mode. -/
theorem sysex_data_cb (c : Settings) (hcb : c.sysexCallback = true) (g : Byte) (w : Bool) (d : List Byte) : ∀ e : List Byte,
    (∀ b ∈ d, b < 0x80) → stepBytes c (.sysex g w e) d = (.sysex g w (e ++ d), []) := by
  induction d with
  | nil => intro e _; simp [stepBytes]
  | cons b d ih =>
    intro e hd
    rw [stepBytes_cons, step_sysex_cb c g w e (hd b (by simp)) hcb]
    dsimp only
    rw [ih (e ++ [b]) (fun x hx => hd x (by simp [hx]))]
    simp

/-- Sysex in callback mode. -/
theorem sysex_callback (c : Settings) (hcb : c.sysexCallback = true) (hon : c.enabled = true) (st : StreamState)
    (D : List Byte) (hD : ∀ b ∈ D, b < 0x80) :
    stepBytes c st (0xF0 :: (D ++ [0xF7])) = (.idle, if HasId D then [.sysex (message7 D)] else []) := by
  rw [stepBytes_cons, step_start]
  dsimp only
  rw [stepBytes_append, sysex_data_cb c hcb _ _ D [] hD, stepBytes_cons, step_end_cb c _ _ _ hcb, if_pos hon, hon]
  simp [stepBytes]

/-! ## Packets as items -/

theorem chunk_facts {g : Byte} (hg : g < 16) (c : Chunk) (h : c.2.length ≤ 6) :
    IsSysex7 (sysexPacket g c.1.code.toNat c.2) ∧ groupOf (sysexPacket g c.1.code.toNat c.2) = g.toNat ∧
    formatCode (sysexPacket g c.1.code.toNat c.2) = c.1.code.toNat ∧ payload7 (sysexPacket g c.1.code.toNat c.2) = c.2 := by
  rw [sysexPacket_eq _ hg h]
  exact ⟨isSysex7_mk7 _ hg h, groupOf_mk7 _ hg, formatCode_mk7 _ _ h, payload7_mk7 _ _ h⟩

theorem packetsOf_append (a b : List Event) : packetsOf (a ++ b) = packetsOf a ++ packetsOf b := by simp [packetsOf]
theorem sysexOf_append (a b : List Event) : sysexOf (a ++ b) = sysexOf a ++ sysexOf b := by simp [sysexOf]

theorem packetsOf_map (ps : List Packet) : packetsOf (ps.map .packet) = ps := by
  induction ps with
  | nil => rfl
  | cons p ps ih => rw [List.map_cons]; show p :: packetsOf (ps.map .packet) = _; rw [ih]

theorem not_sysex7_short {g s : Byte} (hg : g < 16) (d : List Byte) : ¬ IsSysex7 (shortMessage g s d) := by
  intro h
  have := h.1
  rw [byteAt_short_0, shortHead_type hg] at this
  split at this <;> omega

/-! ## The payloads in a stream -/

/-- The payload of the sysex message in progress. -/
def curOf : StreamState → Option (List Byte)
  | .sysex _ _ d => some d
  | _ => none

section
variable (cur : Option (List Byte)) {b : Byte} (bs : List Byte)

theorem payloads_rt (h : b ≥ 0xF8) : sysexPayloads cur (b :: bs) = sysexPayloads cur bs := by
  rw [sysexPayloads.eq_def]
  dsimp only
  rw [if_pos h]

theorem payloads_start : sysexPayloads cur (0xF0 :: bs) = sysexPayloads (some []) bs := by
  rw [sysexPayloads.eq_def]
  dsimp only
  rw [if_neg (by decide), if_pos rfl]

theorem payloads_end_some (d : List Byte) : sysexPayloads (some d) (0xF7 :: bs) = d :: sysexPayloads none bs := by
  rw [sysexPayloads.eq_def]
  dsimp only
  rw [if_neg (by decide), if_neg (by decide), if_pos rfl]

theorem payloads_end_none : sysexPayloads none (0xF7 :: bs) = sysexPayloads none bs := by
  rw [sysexPayloads.eq_def]
  dsimp only
  rw [if_neg (by decide), if_neg (by decide), if_pos rfl]

theorem payloads_status (h1 : ¬ b ≥ 0xF8) (h2 : ¬ b < 0x80) (h3 : b ≠ 0xF7) (h4 : b ≠ 0xF0) :
    sysexPayloads cur (b :: bs) = sysexPayloads none bs := by
  rw [sysexPayloads.eq_def]
  dsimp only
  rw [if_neg h1, if_neg h4, if_neg h3, if_pos (BitVec.not_lt.1 h2)]

theorem payloads_data_some (d : List Byte) (h : b < 0x80) :
    sysexPayloads (some d) (b :: bs) = sysexPayloads (some (d ++ [b])) bs := by
  have : ¬ b ≥ 0xF8 ∧ b ≠ 0xF0 ∧ b ≠ 0xF7 ∧ ¬ b ≥ 0x80 := by revert h; revert b; decide +kernel
  rw [sysexPayloads.eq_def]
  dsimp only
  rw [if_neg this.1, if_neg this.2.1, if_neg this.2.2.1, if_neg this.2.2.2]

theorem payloads_data_none (h : b < 0x80) : sysexPayloads none (b :: bs) = sysexPayloads none bs := by
  have : ¬ b ≥ 0xF8 ∧ b ≠ 0xF0 ∧ b ≠ 0xF7 ∧ ¬ b ≥ 0x80 := by revert h; revert b; decide +kernel
  rw [sysexPayloads.eq_def]
  dsimp only
  rw [if_neg this.1, if_neg this.2.1, if_neg this.2.2.1, if_neg this.2.2.2]
end

/-- The events of a status byte that neither starts nor ends sysex, and the state afterwards. -/
theorem step_other (c : Settings) (hc : c.group < 16) (st : StreamState) {b : Byte} (h1 : ¬ b ≥ 0xF8) (h2 : ¬ b < 0x80)
    (h3 : b ≠ 0xF7) (h4 : b ≠ 0xF0) : curOf (stepByte c st b).1 = none ∧ sysexOf (stepByte c st b).2 = [] ∧
    items7 (packetsOf (stepByte c st b).2) = [] := by
  by_cases h5 : b = 0xF6
  · subst h5; rw [step_tune]
    refine ⟨rfl, ?_, ?_⟩
    · dsimp only; split <;> rfl
    · dsimp only; split
      · show items7 [_] = _
        rw [items7_cons_neg _ (not_sysex7_short hc _)]; rfl
      · rfl
  by_cases h6 : b = 0xF4 ∨ b = 0xF5
  · rw [step_undefined _ _ h6]; exact ⟨rfl, rfl, rfl⟩
  · have : dataBytes b ≠ 0 := by
      have hx : ¬ (b ≥ 0xF8 ∨ b < 0x80 ∨ b = 0xF7 ∨ b = 0xF0 ∨ b = 0xF6 ∨ b = 0xF4 ∨ b = 0xF5) := by
        simp only [not_or] at h6 ⊢; exact ⟨h1, h2, h3, h4, h5, h6⟩
      clear h1 h2 h3 h4 h5 h6; revert hx; revert b; decide +kernel
    rw [step_new c st h1 this]; exact ⟨rfl, rfl, rfl⟩

theorem step_rt_events (c : Settings) (hc : c.group < 16) (st : StreamState) {b : Byte} (h : b ≥ 0xF8) :
    sysexOf (stepByte c st b).2 = [] ∧ items7 (packetsOf (stepByte c st b).2) = [] := by
  rw [step_rt c st h]
  dsimp only
  split
  · split
    · exact ⟨rfl, rfl⟩
    · refine ⟨rfl, ?_⟩
      show items7 [_] = _
      rw [items7_cons_neg _ (not_sysex7_short hc _)]; rfl
  · exact ⟨rfl, rfl⟩

/-- Callback mode delivers the messages of the stream. -/
theorem callback_payloads (c : Settings) (hc : c.group < 16) (hcb : c.sysexCallback = true) (hon : c.enabled = true)
    (bs : List Byte) : ∀ st : StreamState, (∀ g w d, st = .sysex g w d → w = true) →
    sysexOf (stepBytes c st bs).2 = ((sysexPayloads (curOf st) bs).filter fun d => decide (HasId d)).map message7 := by
  induction bs with
  | nil => intro st _; rfl
  | cons b bs ih =>
    intro st hw
    rw [stepBytes_cons, sysexOf_append]
    have nothing : ∀ st', (∀ g w d, st' = .sysex g w d → w = true) → sysexOf (stepByte c st b).2 = [] →
        (stepByte c st b).1 = st' → sysexPayloads (curOf st) (b :: bs) = sysexPayloads (curOf st') bs →
        sysexOf (stepByte c st b).2 ++ sysexOf (stepBytes c (stepByte c st b).1 bs).2 =
          ((sysexPayloads (curOf st) (b :: bs)).filter fun d => decide (HasId d)).map message7 := by
      intro st' h1 h2 h3 h4
      rw [h2, h3, h4, List.nil_append, ih st' h1]
    by_cases h1 : b ≥ 0xF8
    · exact nothing st hw (step_rt_events c hc st h1).1 (by rw [step_rt c st h1]) (payloads_rt _ _ h1)
    by_cases h2 : b < 0x80
    · match st, hw, nothing with
      | .idle, hw, nothing => exact nothing .idle (by simp) (by rw [step_idle c h2]; rfl) (by rw [step_idle c h2]) (payloads_data_none _ h2)
      | .message g s d, hw, nothing =>
        by_cases hn : d.length + 1 = dataBytes s
        · refine nothing (if s < 0xF0 then .message g s [] else .idle) ?_ ?_ ?_ ?_
          · split <;> simp
          · rw [step_message c g s d h2, if_pos hn, if_pos hon]; rfl
          · rw [step_message c g s d h2, if_pos hn]
          · rw [show curOf (.message g s d) = none from rfl, payloads_data_none _ h2]
            split <;> rfl
        · exact nothing (.message g s (d ++ [b])) (by simp) (by rw [step_message c g s d h2, if_neg hn]; rfl)
            (by rw [step_message c g s d h2, if_neg hn]) (payloads_data_none _ h2)
      | .sysex g w d, hw, nothing =>
        exact nothing (.sysex g w (d ++ [b]))
          (by intro g' w' d' e; simp only [StreamState.sysex.injEq] at e; exact e.2.1 ▸ hw g w d rfl)
          (by rw [step_sysex_cb c g w d h2 hcb]; rfl) (by rw [step_sysex_cb c g w d h2 hcb]) (payloads_data_some _ d h2)
    by_cases h3 : b = 0xF7
    · subst h3
      match st, hw, nothing with
      | .idle, _, nothing | .message .., _, nothing =>
        exact nothing .idle (by simp) (by rw [step_end_other _ _ (by simp)]; rfl) (by rw [step_end_other _ _ (by simp)])
          (payloads_end_none _)
      | .sysex g w d, hw, nothing =>
        rw [show curOf (.sysex g w d) = some d from rfl, payloads_end_some, step_end_cb c g w d hcb, ih _ (by simp), if_pos hon,
          hw g w d rfl]
        simp only [true_and, List.filter_cons]
        by_cases hi : HasId d
        · rw [if_pos hi, if_pos (by simpa using hi)]; rfl
        · rw [if_neg hi, if_neg (by simpa using hi)]; rfl
    by_cases h4 : b = 0xF0
    · subst h4
      exact nothing (.sysex c.group c.enabled [])
        (by intro g' w' d' e; simp only [StreamState.sysex.injEq] at e; rw [← e.2.1, hon])
        (by rw [step_start]; rfl) (by rw [step_start]) (payloads_start _ _)
    · obtain ⟨e1, e2, _⟩ := step_other c hc st h1 h2 h3 h4
      rw [e2, ih _ (by intro g w d e; rw [e] at e1; simp [curOf] at e1), e1, payloads_status _ _ h1 h2 h3 h4]; rfl

/-- Collector state for a state of the byte stream. -/
def CollRel : StreamState → Bool × List Byte → Prop
  | .sysex g _ d, a => g < 16 ∧ if d.length < 6 then a.1 = true ∨ a.2 = [] else a = (true, d.take (d.length / 6 * 6))
  | .message g _ _, a => g < 16 ∧ (a.1 = true ∨ a.2 = [])
  | .idle, a => a.1 = true ∨ a.2 = []

theorem collRel_clean {st : StreamState} {a : Bool × List Byte} (h : CollRel st a) : a.1 = true ∨ a.2 = [] := by
  match st with
  | .idle => exact h
  | .message g s d => exact h.2
  | .sysex g w d =>
    have := h.2
    by_cases hl : d.length < 6
    · rw [if_pos hl] at this; exact this
    · rw [if_neg hl] at this; rw [this]; exact Or.inl rfl

theorem items7_chunk {g : Byte} (hg : g < 16) (f : Format) {d : List Byte} (h : d.length ≤ 6) :
    items7 (packetsOf [.packet (sysexPacket g f.code.toNat d)]) = [(f.code.toNat, d)] := by
  obtain ⟨h1, _, h3, h4⟩ := chunk_facts hg (f, d) h
  show items7 [_] = _
  rw [items7_cons_pos _ h1, h3, h4]; rfl

/-- Packet mode and collector deliver the messages of the stream. -/
theorem packet_payloads (c : Settings) (hc : c.group < 16) (hcb : c.sysexCallback = false) (hon : c.enabled = true)
    (bs : List Byte) : ∀ (st : StreamState) (a : Bool × List Byte), CollRel st a →
    (absRun7 0 a (items7 (packetsOf (stepBytes c st bs).2))).2 =
      (sysexPayloads (curOf st) bs).filter fun d => decide (d ≠ []) := by
  induction bs with
  | nil => intro st a _; rfl
  | cons b bs ih =>
    intro st a ha
    rw [stepBytes_cons, packetsOf_append, items7_append]
    have nothing : ∀ st', CollRel st' a → items7 (packetsOf (stepByte c st b).2) = [] → (stepByte c st b).1 = st' →
        sysexPayloads (curOf st) (b :: bs) = sysexPayloads (curOf st') bs →
        (absRun7 0 a (items7 (packetsOf (stepByte c st b).2) ++
          items7 (packetsOf (stepBytes c (stepByte c st b).1 bs).2))).2 =
          (sysexPayloads (curOf st) (b :: bs)).filter fun d => decide (d ≠ []) := by
      intro st' h1 h2 h3 h4
      rw [h2, h3, h4, List.nil_append, ih st' a h1]
    by_cases h1 : b ≥ 0xF8
    · exact nothing st ha (step_rt_events c hc st h1).2 (by rw [step_rt c st h1]) (payloads_rt _ _ h1)
    by_cases h2 : b < 0x80
    · match st, ha, nothing with
      | .idle, ha, nothing => exact nothing .idle ha (by rw [step_idle c h2]; rfl) (by rw [step_idle c h2]) (payloads_data_none _ h2)
      | .message g s d, ha, nothing =>
        by_cases hn : d.length + 1 = dataBytes s
        · refine nothing (if s < 0xF0 then .message g s [] else .idle) ?_ ?_ ?_ ?_
          · split
            · exact ha
            · exact ha.2
          · rw [step_message c g s d h2, if_pos hn, if_pos hon]
            show items7 [_] = _
            rw [items7_cons_neg _ (not_sysex7_short ha.1 _)]; rfl
          · rw [step_message c g s d h2, if_pos hn]
          · rw [show curOf (.message g s d) = none from rfl, payloads_data_none _ h2]
            split <;> rfl
        · exact nothing (.message g s (d ++ [b])) ha (by rw [step_message c g s d h2, if_neg hn]; rfl)
            (by rw [step_message c g s d h2, if_neg hn]) (payloads_data_none _ h2)
      | .sysex g w d, ha, nothing =>
        by_cases h6 : (d.length + 1) % 6 = 0
        · rw [step_sysex_packet c g w d h2 hcb, if_pos h6, if_pos hon, show curOf (.sysex g w d) = some d from rfl,
            payloads_data_some _ d h2]
          have hfm : (if d.length < 6 then 1 else 2) = (if d.length < 6 then Format.start else .cont).code.toNat := by
            split <;> rfl
          have hl6 : ((d ++ [b]).drop (d.length + 1 - 6)).length ≤ 6 := by simp; omega
          dsimp only
          rw [hfm, items7_chunk ha.1 _ hl6, absRun7_append]
          have hlen : (d ++ [b]).length / 6 * 6 = d.length + 1 := by simp; omega
          have hfull : (true, (d ++ [b]).take ((d ++ [b]).length / 6 * 6)) = (true, d ++ [b]) := by
            rw [hlen, List.take_of_length_le (by simp)]
          by_cases hs : d.length < 6
          · rw [if_pos hs]
            have e0 : d.length + 1 - 6 = 0 := by omega
            have hb : (if a.1 then [] else a.2) = ([] : List Byte) := by
              rcases collRel_clean (st := .sysex g w d) ha with h | h
              · rw [h]; rfl
              · rw [h]; simp
            have : absRun7 0 a [(Format.start.code.toNat, (d ++ [b]).drop (d.length + 1 - 6))] = ((true, d ++ [b]), []) := by
              rw [e0, List.drop_zero]
              simp only [absRun7, abs7]
              rw [if_pos (by decide), if_pos (fits_zero _), if_neg (by decide), hb]; rfl
            rw [this]
            dsimp only
            rw [List.nil_append]
            refine ih (.sysex c.group w (d ++ [b])) (true, d ++ [b]) ⟨hc, ?_⟩
            rw [if_neg (by simp; omega), hfull]
          · rw [if_neg hs]
            have ha2 := ha.2
            rw [if_neg hs] at ha2
            have hcat : d.take (d.length / 6 * 6) ++ (d ++ [b]).drop (d.length + 1 - 6) = d ++ [b] := by
              have : d.length / 6 * 6 = d.length + 1 - 6 := by omega
              rw [this, List.drop_append_of_le_length (by omega), ← List.append_assoc, List.take_append_drop]
            have : absRun7 0 a [(Format.cont.code.toNat, (d ++ [b]).drop (d.length + 1 - 6))] = ((true, d ++ [b]), []) := by
              rw [ha2]
              simp only [absRun7, abs7]
              rw [if_neg (by decide), if_pos trivial, if_pos (fits_zero _), if_neg (by decide), hcat]; rfl
            rw [this]
            dsimp only
            rw [List.nil_append]
            refine ih (.sysex c.group w (d ++ [b])) (true, d ++ [b]) ⟨hc, ?_⟩
            rw [if_neg (by simp; omega), hfull]
        · refine nothing (.sysex g w (d ++ [b])) ⟨ha.1, ?_⟩ (by rw [step_sysex_packet c g w d h2 hcb, if_neg h6]; rfl)
            (by rw [step_sysex_packet c g w d h2 hcb, if_neg h6]) (payloads_data_some _ d h2)
          have ha2 := ha.2
          by_cases hs : d.length < 6
          · rw [if_pos hs] at ha2; rw [if_pos (by simp; omega)]; exact ha2
          · rw [if_neg hs] at ha2
            rw [if_neg (by simp; omega), ha2]
            have : (d ++ [b]).length / 6 * 6 = d.length / 6 * 6 := by simp; omega
            rw [this, List.take_append_of_le_length (by omega)]
    by_cases h3 : b = 0xF7
    · subst h3
      match st, ha, nothing with
      | .idle, ha, nothing =>
        exact nothing .idle ha (by rw [step_end_other _ _ (by simp)]; rfl) (by rw [step_end_other _ _ (by simp)])
          (payloads_end_none _)
      | .message g s d, ha, nothing =>
        exact nothing .idle ha.2 (by rw [step_end_other _ _ (by simp)]; rfl) (by rw [step_end_other _ _ (by simp)])
          (payloads_end_none _)
      | .sysex g w d, ha, nothing =>
        by_cases hd : d = []
        · subst hd
          rw [step_end_packet c g w [] hcb, if_pos hon, if_pos rfl, show curOf (.sysex g w []) = some [] from rfl,
            payloads_end_some, List.filter_cons_of_neg (by simp)]
          exact ih .idle a (collRel_clean ha)
        rw [step_end_packet c g w d hcb, if_pos hon, if_neg hd, show curOf (.sysex g w d) = some d from rfl,
          payloads_end_some, List.filter_cons_of_pos (by simpa using hd)]
        by_cases hs : d.length < 6
        · rw [if_pos hs]
          show (absRun7 0 a (items7 (packetsOf [.packet (sysexPacket g Format.complete.code.toNat d)]) ++ _)).2 = _
          rw [items7_chunk ha.1 _ (by omega), absRun7_append]
          have hb : (if a.1 then [] else a.2) = ([] : List Byte) := by
            rcases collRel_clean (st := .sysex g w d) ha with h | h
            · rw [h]; rfl
            · rw [h]; simp
          have : absRun7 0 a [(Format.complete.code.toNat, d)] = ((false, []), [d]) := by
            simp only [absRun7, abs7]
            rw [if_pos (by decide), if_pos (fits_zero _), if_pos (by decide), hb]; rfl
          rw [this]
          dsimp only
          rw [ih .idle (false, []) (Or.inr rfl)]; rfl
        · rw [if_neg hs]
          show (absRun7 0 a (items7 (packetsOf [.packet (sysexPacket g Format.fin.code.toNat (d.drop (d.length / 6 * 6)))]) ++ _)).2 = _
          rw [items7_chunk ha.1 _ (by simp; omega), absRun7_append]
          have ha2 := ha.2
          rw [if_neg hs] at ha2
          have : absRun7 0 a [(Format.fin.code.toNat, d.drop (d.length / 6 * 6))] = ((false, []), [d]) := by
            rw [ha2]
            simp only [absRun7, abs7]
            rw [if_neg (by decide), if_pos trivial, if_pos (fits_zero _), if_pos (by decide), List.take_append_drop]; rfl
          rw [this]
          dsimp only
          rw [ih .idle (false, []) (Or.inr rfl)]; rfl
    by_cases h4 : b = 0xF0
    · subst h4
      refine nothing (.sysex c.group c.enabled []) ⟨hc, ?_⟩ (by rw [step_start]; rfl) (by rw [step_start]) (payloads_start _ _)
      rw [if_pos (by simp)]; exact collRel_clean ha
    · obtain ⟨e1, e2, e3⟩ := step_other c hc st h1 h2 h3 h4
      rw [e3, List.nil_append, payloads_status _ _ h1 h2 h3 h4]
      have := ih (stepByte c st b).1 a (by
        have hg := step_status c st h1 h2 h3
        have := collRel_clean ha
        by_cases h5 : b = 0xF6
        · subst h5; rw [step_tune]; exact this
        by_cases h6 : b = 0xF4 ∨ b = 0xF5
        · rw [step_undefined _ _ h6]; exact this
        · have hn : dataBytes b ≠ 0 := by
            have hx : ¬ (b ≥ 0xF8 ∨ b < 0x80 ∨ b = 0xF7 ∨ b = 0xF0 ∨ b = 0xF6 ∨ b = 0xF4 ∨ b = 0xF5) := by
              simp only [not_or] at h6 ⊢; exact ⟨h1, h2, h3, h4, h5, h6⟩
            clear h1 h2 h3 h4 h5 h6 hg e1 e2 e3 nothing; revert hx; revert b; decide +kernel
          rw [step_new c st h1 hn]; exact ⟨hc, this⟩)
      rw [this, e1]

end Midi

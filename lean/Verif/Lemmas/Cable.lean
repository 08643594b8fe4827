import Verif.Spec.Cable
import Verif.Props.ByteStreamNormal

/-!
# Lemmas about MIDI 1 traffic (C86)
-/

namespace Midi
open Spec

/-! ## The receiver in the abstract machine -/

/-- `receive` with the abstract collector. -/
def recv (a : Bool × List Byte) : List Packet → (Bool × List Byte) × List Item
  | [] => (a, [])
  | q :: qs =>
    if IsSysex7 q then
      let r := abs7 0 a (formatCode q, payload7 q)
      ((recv r.1 qs).1, r.2.map .sysex ++ (recv r.1 qs).2)
    else ((recv a qs).1, .short q :: (recv a qs).2)

theorem receive_rel (ps : List Packet) : ∀ {c : Collector7} {a : Bool × List Byte}, Rel7 0 c a →
    receive c ps = .ok ((recv a ps).2.map Item.event) := by
  induction ps with
  | nil => intro c a _; rfl
  | cons q ps ih =>
    intro c a h
    unfold receive recv
    by_cases hq : IsSysex7 q
    · obtain ⟨c', e, h'⟩ := feed7_rel h q hq
      rw [e, if_pos hq, (C15_is_sysex7_packet_iff q).2 hq]
      simp only [ok_bind]
      rw [ih h']
      simp [ok_bind, pure_eq_ok, Item.event]
    · have hb : isSysex7Packet q = false := by
        rw [← Bool.not_eq_true, C15_is_sysex7_packet_iff]; exact hq
      rw [if_neg hq]
      unfold Collector7.feed
      simp only [hb, Bool.not_false, if_true, pure_eq_ok, ok_bind]
      rw [ih h]
      simp [ok_bind, Item.event]

theorem recv_append (ps qs : List Packet) : ∀ a, recv a (ps ++ qs) =
    ((recv (recv a ps).1 qs).1, (recv a ps).2 ++ (recv (recv a ps).1 qs).2) := by
  induction ps with
  | nil => intro a; rfl
  | cons p ps ih =>
    intro a
    simp only [List.cons_append, recv]
    split
    · dsimp only; rw [ih]; simp
    · rw [ih]; simp

theorem packetsOf_one (q : Packet) : packetsOf [.packet q] = [q] := rfl

theorem recv_one {q : Packet} (h : IsSysex7 q) (a : Bool × List Byte) :
    recv a [q] = ((abs7 0 a (formatCode q, payload7 q)).1, (abs7 0 a (formatCode q, payload7 q)).2.map .sysex) := by
  simp [recv, h]

theorem recv_short {q : Packet} (h : ¬ IsSysex7 q) (a : Bool × List Byte) : recv a [q] = (a, [.short q]) := by
  simp [recv, h]

theorem recv_sysex (g : Byte) (hg : g < 16) (f : Format) {d : List Byte} (h : d.length ≤ 6) (a : Bool × List Byte) :
    recv a (packetsOf [.packet (sysexPacket g f.code.toNat d)]) =
      ((abs7 0 a (f.code.toNat, d)).1, (abs7 0 a (f.code.toNat, d)).2.map .sysex) := by
  obtain ⟨h1, _, h3, h4⟩ := chunk_facts hg (f, d) h
  generalize hq : sysexPacket g f.code.toNat d = q
  simp only [hq] at h1 h3 h4
  rw [packetsOf_one, recv_one h1, h3, h4]

/-! ## Sysex in packet mode, with a collector behind -/

theorem cable_byte (c : Settings) (hc : c.group < 16) (hcb : c.sysexCallback = false) (hon : c.enabled = true)
    (g b : Byte) (h2 : b < 0x80) (d : List Byte) (a : Bool × List Byte) (ha : CollRel (.sysex g true d) a) :
    ∃ g' a', (stepByte c (.sysex g true d) b).1 = .sysex g' true (d ++ [b]) ∧
      recv a (packetsOf (stepByte c (.sysex g true d) b).2) = (a', []) ∧ CollRel (.sysex g' true (d ++ [b])) a' := by
  by_cases h6 : (d.length + 1) % 6 = 0
  · rw [step_sysex_packet c g true d h2 hcb, if_pos h6, if_pos hon]
    have hfm : (if d.length < 6 then 1 else 2) = (if d.length < 6 then Format.start else .cont).code.toNat := by
      split <;> rfl
    have hl6 : ((d ++ [b]).drop (d.length + 1 - 6)).length ≤ 6 := by simp; omega
    dsimp only
    rw [hfm, recv_sysex g ha.1 _ hl6]
    have hlen : (d ++ [b]).length / 6 * 6 = d.length + 1 := by simp; omega
    have hfull : (true, (d ++ [b]).take ((d ++ [b]).length / 6 * 6)) = (true, d ++ [b]) := by
      rw [hlen, List.take_of_length_le (by simp)]
    have hrel : CollRel (.sysex c.group true (d ++ [b])) (true, d ++ [b]) := by
      refine ⟨hc, ?_⟩
      rw [if_neg (by simp; omega), hfull]
    refine ⟨c.group, (true, d ++ [b]), rfl, ?_, hrel⟩
    by_cases hs : d.length < 6
    · rw [if_pos hs]
      have e0 : d.length + 1 - 6 = 0 := by omega
      have hb : (if a.1 then [] else a.2) = ([] : List Byte) := by
        rcases collRel_clean (st := .sysex g true d) ha with h | h
        · rw [h]; rfl
        · rw [h]; simp
      have : abs7 0 a (Format.start.code.toNat, (d ++ [b]).drop (d.length + 1 - 6)) = ((true, d ++ [b]), []) := by
        rw [e0, List.drop_zero]
        simp only [abs7]
        rw [if_pos (by decide), if_pos (fits_zero _), if_neg (by decide), hb]; rfl
      rw [this]; rfl
    · rw [if_neg hs]
      have ha2 := ha.2
      rw [if_neg hs] at ha2
      have hcat : d.take (d.length / 6 * 6) ++ (d ++ [b]).drop (d.length + 1 - 6) = d ++ [b] := by
        have : d.length / 6 * 6 = d.length + 1 - 6 := by omega
        rw [this, List.drop_append_of_le_length (by omega), ← List.append_assoc, List.take_append_drop]
      have : abs7 0 a (Format.cont.code.toNat, (d ++ [b]).drop (d.length + 1 - 6)) = ((true, d ++ [b]), []) := by
        rw [ha2]
        simp only [abs7]
        rw [if_neg (by decide), if_pos trivial, if_pos (fits_zero _), if_neg (by decide), hcat]
      rw [this]; rfl
  · rw [step_sysex_packet c g true d h2 hcb, if_neg h6]
    refine ⟨g, a, rfl, rfl, ha.1, ?_⟩
    have ha2 := ha.2
    by_cases hs : d.length < 6
    · rw [if_pos hs] at ha2; rw [if_pos (by simp; omega)]; exact ha2
    · rw [if_neg hs] at ha2
      rw [if_neg (by simp; omega), ha2]
      have : (d ++ [b]).length / 6 * 6 = d.length / 6 * 6 := by simp; omega
      rw [this, List.take_append_of_le_length (by omega)]

theorem cable_data (c : Settings) (hc : c.group < 16) (hcb : c.sysexCallback = false) (hon : c.enabled = true)
    (d : List Byte) : ∀ (g : Byte) (e : List Byte) (a : Bool × List Byte), (∀ b ∈ d, b < 0x80) → CollRel (.sysex g true e) a →
    ∃ g' a', (stepBytes c (.sysex g true e) d).1 = .sysex g' true (e ++ d) ∧
      recv a (packetsOf (stepBytes c (.sysex g true e) d).2) = (a', []) ∧ CollRel (.sysex g' true (e ++ d)) a' := by
  induction d with
  | nil => intro g e a _ ha; exact ⟨g, a, by simp [stepBytes], rfl, by simpa using ha⟩
  | cons b d ih =>
    intro g e a hd ha
    obtain ⟨g1, a1, h1, h2, h3⟩ := cable_byte c hc hcb hon g b (hd b (by simp)) e a ha
    obtain ⟨g2, a2, k1, k2, k3⟩ := ih g1 (e ++ [b]) a1 (fun x hx => hd x (by simp [hx])) h3
    have ea : e ++ b :: d = e ++ [b] ++ d := by simp
    refine ⟨g2, a2, ?_, ?_, by rw [ea]; exact k3⟩
    · rw [stepBytes_cons, h1, k1, ea]
    · rw [stepBytes_cons]
      dsimp only
      rw [packetsOf_append, recv_append, h2, h1]
      dsimp only
      rw [k2]; rfl

theorem cable_end (c : Settings) (hcb : c.sysexCallback = false) (hon : c.enabled = true)
    (g : Byte) (d : List Byte) (a : Bool × List Byte) (ha : CollRel (.sysex g true d) a) :
    ∃ a', (stepByte c (.sysex g true d) 0xF7).1 = .idle ∧
      recv a (packetsOf (stepByte c (.sysex g true d) 0xF7).2) = (a', if d = [] then [] else [.sysex d]) ∧
      (a'.1 = true ∨ a'.2 = []) := by
  by_cases hd : d = []
  · subst hd
    rw [step_end_packet c g true [] hcb, if_pos hon, if_pos rfl]
    exact ⟨a, rfl, rfl, collRel_clean ha⟩
  rw [step_end_packet c g true d hcb, if_pos hon, if_neg hd, if_neg hd]
  refine ⟨(false, []), rfl, ?_, Or.inr rfl⟩
  by_cases hs : d.length < 6
  · rw [if_pos hs]
    show recv a (packetsOf [.packet (sysexPacket g Format.complete.code.toNat d)]) = _
    rw [recv_sysex g ha.1 _ (by omega)]
    have hb : (if a.1 then [] else a.2) = ([] : List Byte) := by
      rcases collRel_clean (st := .sysex g true d) ha with h | h
      · rw [h]; rfl
      · rw [h]; simp
    have : abs7 0 a (Format.complete.code.toNat, d) = ((false, []), [d]) := by
      simp only [abs7]
      rw [if_pos (by decide), if_pos (fits_zero _), if_pos (by decide), hb]; rfl
    rw [this]; rfl
  · rw [if_neg hs]
    show recv a (packetsOf [.packet (sysexPacket g Format.fin.code.toNat (d.drop (d.length / 6 * 6)))]) = _
    rw [recv_sysex g ha.1 _ (by simp; omega)]
    have ha2 := ha.2
    rw [if_neg hs] at ha2
    have : abs7 0 a (Format.fin.code.toNat, d.drop (d.length / 6 * 6)) = ((false, []), [d]) := by
      rw [ha2]
      simp only [abs7]
      rw [if_neg (by decide), if_pos trivial, if_pos (fits_zero _), if_pos (by decide), List.take_append_drop]
    rw [this]; rfl

/-! ## Packets -/

theorem short_not_sysex {q : Packet} (h : IsShort q) : ¬ IsSysex7 q := by
  intro h'
  have := h'.1
  rcases h with ⟨h, _⟩ | ⟨h, _⟩ <;> omega

theorem payload_lt {G : List Byte} {q : Packet} (h : WellFormed1 G q) (h7 : IsSysex7 q) : ∀ b ∈ payload7 q, b < 0x80 := by
  intro b hb
  rw [payload7_eq_range'] at hb
  obtain ⟨i, hi, rfl⟩ := List.mem_map.1 hb
  have hl : sysex7PayloadSize q ≤ 6 := by
    have : (payload7 q).length ≤ 6 := by simpa [payload7] using h7.2.2
    rwa [payload7_eq_range', List.length_map, List.length_range'] at this
  have := (List.mem_range'_1.1 hi)
  exact h.data _ (by omega) (by omega)

/-- A real time packet changes nothing but is reported. -/
theorem cable_realtime {g : Byte} (hg : g < 16) (c : Settings) (hcg : c.group = g) (hon : c.enabled = true) (st : StreamState)
    {q : Packet} (hw : WellFormed1 [g] q) (hr : IsRealTimePacket q) : stepBytes c st (streamBytes q) = (st, [.packet q]) := by
  obtain ⟨s, d, h1, h2, h3, h4, h5⟩ := wellFormed_eq hg hw hr.1
  have h8 : s ≥ 0xF8 := by have := hr.2; rw [h4, byteAt_short_1] at this; exact this
  have h0 : dataBytes s = 0 ∧ ¬ (s = 0xF9 ∨ s = 0xFD) := by
    clear h2 h4 h5; revert h1 h8; revert s; decide +kernel
  have : d = [] := List.length_eq_zero_iff.1 (h2.trans h0.1)
  subst this
  rw [h5, stepBytes_cons, step_rt _ _ h8, if_neg h0.2, if_pos hon, h4, hcg]; rfl

theorem cable_short {g : Byte} (hg : g < 16) (c : Settings) (hcg : c.group = g) (hon : c.enabled = true) (st : StreamState)
    {q : Packet} (hw : WellFormed1 [g] q) (hs : IsShort q) : (stepBytes c st (streamBytes q)).2 = [.packet q] := by
  obtain ⟨s, d, h1, h2, h3, h4, h5⟩ := wellFormed_eq hg hw hs
  rw [h5, stepBytes_short c hon st h1 h2 h3, hcg, ← h4]

end Midi

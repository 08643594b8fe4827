import Verif.Lemmas.TextDigits
import Verif.Props.Packet
import Verif.Props.Text

/-!
# Property C94: the text of a packet
-/

namespace Midi
open Spec

/-- C94: the text written for a packet are its words, and as many of them as the message type has, as eight lower case hexadecimal
digits each, with a single blank between any two. -/
theorem C94_text (p : Packet) :
    writePacket p = wordsAsText ((List.range (specPacketWords p.type.toNat)).map p.word) := by
  rw [← C03_size]
  have hb := p.size_bounds
  have : p.size = 1 ∨ p.size = 2 ∨ p.size = 3 ∨ p.size = 4 := by omega
  unfold writePacket
  rcases this with h | h | h | h <;> rw [h] <;>
    simp [List.range_succ, wordsAsText, hexPadded_eq]

example : wordsAsText [0x40904060, 0x123] = "40904060 00000123".toList := by decide
example : wordsAsText ((List.range (specPacketWords 0xF)).map (⟨0xF0030041, 0xBCDEF, 7, 8⟩ : Packet).word) =
    "f0030041 000bcdef 00000007 00000008".toList := by decide

theorem wordsAsText_inj {a b : List Word} (h : wordsAsText a = wordsAsText b) : a = b := by
  induction a generalizing b with
  | nil =>
    rcases b with - | ⟨x, - | ⟨y, b⟩⟩
    · rfl
    · simpa [wordsAsText, length_lastDigits] using congrArg List.length h
    · have := congrArg List.length h
      simp [wordsAsText, length_lastDigits] at this
  | cons w a ih =>
    have hne : ∀ (x : Word) (l : List Word), ∃ t, wordsAsText (x :: l) = lastDigits 8 x.toNat ++ t ∧
        (l = [] → t = []) ∧ (l ≠ [] → t = ' ' :: wordsAsText l) := by
      intro x l
      cases l with
      | nil => exact ⟨[], by simp [wordsAsText], by simp, by simp⟩
      | cons y l => exact ⟨' ' :: wordsAsText (y :: l), by simp [wordsAsText], by simp, by simp⟩
    cases b with
    | nil =>
      obtain ⟨t, e, -⟩ := hne w a
      rw [e] at h
      have := congrArg List.length h
      simp [wordsAsText, length_lastDigits] at this
    | cons x b =>
      obtain ⟨t, e, ha1, ha2⟩ := hne w a
      obtain ⟨u, f, hb1, hb2⟩ := hne x b
      rw [e, f] at h
      obtain ⟨h1, h2⟩ := List.append_inj h (by rw [length_lastDigits, length_lastDigits])
      have hwx : w = x := BitVec.eq_of_toNat_eq (lastDigits_inj w.isLt x.isLt h1)
      subst hwx
      by_cases ha : a = []
      · by_cases hb : b = []
        · rw [ha, hb]
        · rw [ha1 ha, hb2 hb] at h2; simp at h2
      · by_cases hb : b = []
        · rw [ha2 ha, hb1 hb] at h2; simp at h2
        · rw [ha2 ha, hb2 hb] at h2
          rw [ih (by simpa using h2)]

/-- C94: two packets have the same text exactly if they compare equal. -/
theorem C94_same_text (p q : Packet) : writePacket p = writePacket q ↔ p.eqv q = true := by
  rw [C94_text, C94_text, C03_eq_iff]
  constructor
  · intro h
    have h := wordsAsText_inj h
    have hl : p.size = q.size := by
      have := congrArg List.length h
      simpa [← C03_size] using this
    rw [← C03_size, ← C03_size, hl] at h
    exact ⟨hl, fun i hi => List.map_inj_left.1 h i (List.mem_range.2 hi)⟩
  · rintro ⟨hs, h⟩
    rw [← C03_size, ← C03_size, hs]
    congr 1
    exact List.map_congr_left fun i hi => h i (List.mem_range.1 hi)

/-- C94: no text of a packet is the beginning of the text of another one, unless they compare equal. -/
theorem C94_no_prefix (p q : Packet) (h : writePacket p <+: writePacket q) : p.eqv q = true := by
  have hw : p.w0 = q.w0 := by
    have first : ∀ r : Packet, (writePacket r).take 8 = lastDigits 8 r.w0.toNat := by
      intro r
      have hb := r.size_bounds
      obtain ⟨n, hn⟩ : ∃ n, r.size = n + 1 := ⟨r.size - 1, by omega⟩
      unfold writePacket
      rw [hn, List.range_succ_eq_map, List.flatMap_cons, if_pos rfl, List.nil_append, hexPadded_eq]
      exact List.take_left' (length_lastDigits _ _)
    obtain ⟨t, ht⟩ := h
    have e := first q
    rw [← ht, List.take_append_of_le_length (by rw [C04_text_length]; have := p.size_bounds; omega), first p] at e
    exact BitVec.eq_of_toNat_eq (lastDigits_inj p.w0.isLt q.w0.isLt e)
  have hs : p.size = q.size := Packet.size_congr hw
  obtain ⟨t, ht⟩ := h
  have hl := congrArg List.length ht
  rw [List.length_append, C04_text_length, C04_text_length, hs] at hl
  have : t = [] := List.length_eq_zero_iff.1 (by omega)
  subst this
  rw [List.append_nil] at ht
  exact (C94_same_text p q).1 ht

example := C94_no_prefix ⟨0x23903C64, 1, 2, 3⟩ ⟨0x23903C64, 4, 5, 6⟩ (by decide)

/-- C94: a log of packets, one on each line, says which packets they were, up to equality, and how many. -/
theorem C94_log (ps qs : List Packet)
    (h : (ps.map fun p => writePacket p ++ ['\n']).flatten = (qs.map fun p => writePacket p ++ ['\n']).flatten) :
    List.Forall₂ (fun p q => p.eqv q = true) ps qs := by
  have noEnd : ∀ p : Packet, '\n' ∉ writePacket p := by
    intro p hp
    unfold writePacket at hp
    rw [List.mem_flatMap] at hp
    obtain ⟨w, -, hp⟩ := hp
    rcases List.mem_append.1 hp with hp | hp
    · split at hp <;> simp at hp
    · rw [hexPadded_eq] at hp
      unfold lastDigits at hp
      obtain ⟨i, -, hi⟩ := List.mem_map.1 hp
      have key : ∀ d, d < 16 → hexadecimal.getD d '?' ≠ '\n' := by decide
      exact key _ (Nat.mod_lt _ (by decide)) hi
  have cut : ∀ (a b r s : List Char), '\n' ∉ a → '\n' ∉ b → a ++ '\n' :: r = b ++ '\n' :: s → a = b ∧ r = s := by
    intro a
    induction a with
    | nil =>
      intro b r s _ hb e
      cases b with
      | nil => simpa using e
      | cons x b => simp at e; simp [← e.1] at hb
    | cons y a ih =>
      intro b r s ha hb e
      cases b with
      | nil => simp at e; simp [e.1] at ha
      | cons x b =>
        simp only [List.cons_append, List.cons.injEq] at e
        obtain ⟨e1, e2⟩ := ih b r s (fun h => ha (List.mem_cons_of_mem _ h)) (fun h => hb (List.mem_cons_of_mem _ h)) e.2
        exact ⟨by rw [e.1, e1], e2⟩
  induction ps generalizing qs with
  | nil =>
    cases qs with
    | nil => exact .nil
    | cons q qs => simp at h
  | cons p ps ih =>
    cases qs with
    | nil => simp at h
    | cons q qs =>
      simp only [List.map_cons, List.flatten_cons, List.append_assoc, List.cons_append, List.nil_append] at h
      obtain ⟨e1, e2⟩ := cut _ _ _ _ (noEnd p) (noEnd q) h
      exact .cons ((C94_same_text p q).1 e1) (ih qs e2)

example := C94_log [⟨0x23903C64, 1, 2, 3⟩, ⟨0x43903C00, 1, 2, 3⟩] [⟨0x23903C64, 4, 5, 6⟩, ⟨0x43903C00, 1, 5, 6⟩] (by decide)

end Midi

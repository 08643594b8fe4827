import Verif.Lemmas.Text
import Verif.Spec.Text

/-!
# Property C04: packets written as text can be read back
-/

namespace Midi

/-- The text of packets, each one written with `operator<<` and followed by the given separator. -/
def textOf : List (Packet × List Char) → List Char
  | [] => []
  | (p, sep) :: rest => writePacket p ++ sep ++ textOf rest

/-- Separators are white space, and not empty between two packets (it may be empty after the last one). -/
def Separated : List (Packet × List Char) → Prop
  | [] => True
  | (_, sep) :: rest => (∀ c ∈ sep, Spec.whiteSpace c = true) ∧ (rest ≠ [] → sep ≠ []) ∧ Separated rest

/-- The user's loop `while (in >> p) result.push_back(p);`, at most `fuel` rounds. -/
def readLoop : Nat → IStream → Packet → List Packet
  | 0, _, _ => []
  | fuel + 1, s, p =>
    let (s', p') := readPacket s p
    if s'.fail then [] else p' :: readLoop fuel s' p'

/-- C04 (single packet): reading the text of `p`, followed by the end of input or by white space, into any packet
variable succeeds, yields a packet that compares equal to `p` and consumes exactly that text. -/
theorem C04_read_back (p target : Packet) (rest : List Char) (h : ∀ c ∈ rest.head?, Spec.whiteSpace c = true) :
    ∃ q, readPacket { rest := writePacket p ++ rest } target =
        ({ rest := rest, eof := rest.isEmpty, fail := false }, q) ∧ p.eqv q = true :=
  readPacket_writePacket [] rest p target (by simp) (fun c hc => hexVal_space (h c hc))

example := C04_read_back ⟨0x43903C00, 0xFFFF0000, 2, 3⟩ ⟨0x23903C64, 4, 5, 6⟩ "\n20".toList (by decide)

theorem readPacket_end (ws : List Char) (t : Packet) (hws : ∀ c ∈ ws, isSpaceC c = true) (b : Bool)
    (hb : b = true → ws = []) : (readPacket { rest := ws, eof := b } t).1.fail = true := by
  have hd : ws.dropWhile isSpaceC = [] := by
    have := List.dropWhile_append_of_pos (p := isSpaceC) (l₁ := ws) (l₂ := []) hws
    simpa using this
  cases b <;> simp [readPacket, readWord, IStream.good, hd]

theorem readLoop_text (l : List (Packet × List Char)) (h : Separated l) (ws : List Char)
    (hws : ∀ c ∈ ws, isSpaceC c = true) (t : Packet) (fuel : Nat) (hf : l.length < fuel) (b : Bool)
    (hb : b = (ws ++ textOf l).isEmpty ∨ b = false) :
    List.Forall₂ (fun p q => p.eqv q = true) (l.map (·.1)) (readLoop fuel { rest := ws ++ textOf l, eof := b } t) := by
  induction l generalizing ws t fuel b with
  | nil =>
    obtain ⟨k, rfl⟩ : ∃ k, fuel = k + 1 := ⟨fuel - 1, by simp at hf; omega⟩
    have hend : (readPacket { rest := ws ++ textOf [], eof := b } t).1.fail = true := by
      apply readPacket_end
      · simpa [textOf] using hws
      · intro hbt; rcases hb with hb | hb
        · rw [hbt] at hb; simpa using hb.symm
        · simp [hbt] at hb
    rw [readLoop]
    rcases hx : readPacket { rest := ws ++ textOf [], eof := b } t with ⟨s', p'⟩
    rw [hx] at hend
    simp only at hend
    simp only [hend, if_true, List.map_nil]
    exact List.Forall₂.nil
  | cons x rest ih =>
    obtain ⟨p, sep⟩ := x
    obtain ⟨h1, h2, h3⟩ := h
    obtain ⟨k, rfl⟩ : ∃ k, fuel = k + 1 := ⟨fuel - 1, by simp at hf; omega⟩
    obtain ⟨c, cs, hc, _⟩ := hexPadded_cons p.w0
    have hwne : writePacket p ≠ [] := by
      intro h0
      have hb := p.size_bounds
      have : p.size = 1 ∨ p.size = 2 ∨ p.size = 3 ∨ p.size = 4 := by omega
      rcases this with h | h | h | h
      · rw [writePacket_size1 p h, hc] at h0; simp at h0
      · rw [writePacket_size2 p h, hc] at h0; simp at h0
      · rw [writePacket_size3 p h, hc] at h0; simp at h0
      · rw [writePacket_size4 p h, hc] at h0; simp at h0
    have hbf : b = false := by
      rcases hb with hb | hb
      · rw [hb]; simp [textOf, hwne]
      · exact hb
    subst hbf
    have hr : ∀ c ∈ (sep ++ textOf rest).head?, hexVal c = none := by
      intro c hc
      cases sep with
      | nil =>
        have : rest = [] := by
          by_contra hne; exact h2 hne rfl
        subst this; simp [textOf] at hc
      | cons d ds =>
        simp at hc; subst hc
        exact hexVal_space (h1 _ (by simp))
    obtain ⟨q, hq, he⟩ := readPacket_writePacket ws (sep ++ textOf rest) p t hws hr
    have htext : ws ++ textOf ((p, sep) :: rest) = ws ++ (writePacket p ++ (sep ++ textOf rest)) := by
      simp [textOf]
    rw [htext, readLoop, hq]
    simp only [Bool.false_eq_true, if_false, List.map_cons]
    refine List.Forall₂.cons he ?_
    exact ih h3 sep h1 q k (by simp at hf; omega) _ (Or.inl rfl)

/-- C04: writing any sequence of packets separated by white space and reading it back with `while (in >> p)` yields
exactly as many packets, in order, each one comparing equal to the original; nothing is lost, whatever the packet
variable contained before. -/
theorem C04_sequence_read_back (l : List (Packet × List Char)) (h : Separated l) (target : Packet) (fuel : Nat)
    (hf : l.length < fuel) :
    List.Forall₂ (fun p q => p.eqv q = true) (l.map (·.1)) (readLoop fuel { rest := textOf l } target) := by
  have := readLoop_text l h [] (by simp) target fuel hf false (Or.inr rfl)
  simpa using this

/-- The text of a packet consists of exactly `size()` groups of eight hexadecimal digits separated by single blanks. -/
theorem C04_text_length (p : Packet) : (writePacket p).length = 9 * p.size - 1 := by
  have hl : ∀ w : Word, (hexPadded w).length = 8 := by
    intro w
    have := length_hexDigits_le w
    simp [hexPadded]; omega
  have hb := p.size_bounds
  have : p.size = 1 ∨ p.size = 2 ∨ p.size = 3 ∨ p.size = 4 := by omega
  rcases this with h | h | h | h
  · rw [writePacket_size1 p h, h]; simp [hl]
  · rw [writePacket_size2 p h, h]; simp [hl]
  · rw [writePacket_size3 p h, h]; simp [hl]
  · rw [writePacket_size4 p h, h]; simp [hl]

example : Separated [(⟨0x20904060, 0, 0, 0⟩, ['\n']), (⟨0x40904060, 0x123, 0, 0⟩, [])] := by
  simp [Separated, Spec.whiteSpace]

example : writePacket ⟨0x40904060, 0x123, 7, 8⟩ = "40904060 00000123".toList := by decide

end Midi

import Verif.Props.TextWords

/-!
# C83: reading packets from a text ends
-/

namespace Midi

/-! ## Helper lemmas -/

theorem readDigits_length (n acc : Nat) (cs : List Char) : (readDigits n acc cs).1 + (readDigits n acc cs).2.2.length = n + cs.length := by
  induction cs generalizing n acc with
  | nil => rfl
  | cons c cs ih =>
    unfold readDigits
    cases hexVal c with
    | none => rfl
    | some d =>
      simp only
      rw [ih, List.length_cons]
      omega

theorem skipSign_length (cs : List Char) : (skipSign cs).2.length ≤ cs.length := by
  unfold skipSign
  split <;> simp

theorem skipBase_length (cs : List Char) : (skipBase cs).length ≤ cs.length := by
  unfold skipBase
  split <;> simp <;> omega

theorem readHex_length (cs : List Char) : (readHex cs).1.rest.length ≤ cs.length ∧ ((readHex cs).1.fail = false → (readHex cs).1.rest.length < cs.length) := by
  have h1 := skipSign_length cs
  have h2 := skipBase_length (skipSign cs).2
  have h3 := readDigits_length 0 0 (skipBase (skipSign cs).2)
  unfold readHex
  rcases hs : skipSign cs with ⟨neg, cs'⟩
  rw [hs] at h1 h2 h3
  rcases hr : readDigits 0 0 (skipBase cs') with ⟨n, v, rest⟩
  dsimp only at h1 h2 h3 ⊢
  simp only [hr] at h3 ⊢
  split
  · exact ⟨by dsimp only; omega, fun h => by cases h⟩
  · split
    · exact ⟨by dsimp only; omega, fun _ => by dsimp only; omega⟩
    · exact ⟨by dsimp only; omega, fun h => by cases h⟩

theorem readWord_length (s : IStream) (t : Word) : (readWord s t).1.rest.length ≤ s.rest.length ∧
    ((readWord s t).1.fail = false → (readWord s t).1.rest.length < s.rest.length) := by
  unfold readWord
  split
  · have hd : (s.rest.dropWhile isSpaceC).length ≤ s.rest.length := (List.dropWhile_sublist _).length_le
    simp only
    split
    · exact ⟨Nat.zero_le _, fun h => by cases h⟩
    · have := readHex_length (s.rest.dropWhile isSpaceC)
      exact ⟨by omega, fun h => by have := this.2 h; omega⟩
  · exact ⟨Nat.le_refl _, fun h => by cases h⟩

theorem readWords_length (k : Nat) (s : IStream) (p : Packet) (w : Nat) : (readWords s p w k).1.rest.length ≤ s.rest.length := by
  induction k generalizing s p w with
  | zero => exact Nat.le_refl _
  | succ k ih =>
    have h := (readWord_length s (p.word w)).1
    unfold readWords
    simp only
    split
    · exact Nat.le_trans (ih _ _ _) h
    · exact h

/-- Reading a packet successfully takes at least one character from the text. -/
theorem readPacket_length (s : IStream) (p : Packet) (h : (readPacket s p).1.fail = false) : (readPacket s p).1.rest.length < s.rest.length := by
  have hw := readWord_length s p.w0
  unfold readPacket at h ⊢
  simp only at h ⊢
  split
  · rename_i hg
    have hf : (readWord s p.w0).1.fail = false := by
      unfold IStream.good at hg
      simp at hg
      exact hg.2
    have := readWords_length ((Packet.size { p with w0 := (readWord s p.w0).2 }) - 1) (readWord s p.w0).1 { p with w0 := (readWord s p.w0).2 } 1
    have := hw.2 hf
    omega
  · rename_i hg
    rw [if_neg hg] at h
    exact hw.2 h

/-! ## C83 -/

/-- C83: whatever the text is and whatever state the stream is in, the loop `while (in >> p)` ends, after at most as many packets as there
are characters: more rounds change nothing. -/
theorem C83_reading_ends (s : IStream) (p : Packet) (more : Nat) :
    readLoop (s.rest.length + 1 + more) s p = readLoop (s.rest.length + 1) s p ∧ (readLoop (s.rest.length + 1) s p).length ≤ s.rest.length := by
  suffices h : ∀ n m s p, s.rest.length < n → s.rest.length < m → readLoop n s p = readLoop m s p ∧ (readLoop n s p).length ≤ s.rest.length by
    exact ⟨(h _ _ s p (by omega) (by omega)).1, (h _ (s.rest.length + 1) s p (by omega) (by omega)).2⟩
  intro n
  induction n with
  | zero => intro m s p h; omega
  | succ n ih =>
    intro m s p hn hm
    obtain ⟨m, rfl⟩ : ∃ k, m = k + 1 := ⟨m - 1, by omega⟩
    unfold readLoop
    simp only
    cases hf : (readPacket s p).1.fail
    · have hlt := readPacket_length s p hf
      obtain ⟨h1, h2⟩ := ih m (readPacket s p).1 (readPacket s p).2 (by omega) (by omega)
      refine ⟨?_, ?_⟩
      · simp only [Bool.false_eq_true, if_false]
        rw [h1]
      · simp only [Bool.false_eq_true, if_false, List.length_cons]
        omega
    · exact ⟨rfl, Nat.zero_le _⟩

/-- Five characters, two packets and something that is no number. -/
example : readLoop 6 { rest := "1 0 ,".toList } {} = [⟨1, 0, 0, 0⟩, ⟨0, 0, 0, 0⟩] := by decide +kernel

end Midi

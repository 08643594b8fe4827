import Verif.Lemmas.Packet

/-!
# Helper lemmas: hexadecimal text
-/

namespace Midi

theorem hexVal_digitChar : ∀ d, d < 16 → hexVal (Nat.digitChar d) = some d := by decide

theorem isSpace_digitChar : ∀ d, d < 16 → isSpaceC (Nat.digitChar d) = false := by decide

theorem hexVal_space {c : Char} (h : isSpaceC c = true) : hexVal c = none := by
  simp only [isSpaceC, Bool.or_eq_true, decide_eq_true_eq] at h
  rcases h with ((((h | h) | h) | h) | h) | h <;> subst h <;> decide

theorem readDigits_replicate (k n acc : Nat) (r : List Char) :
    readDigits n acc (List.replicate k '0' ++ r) = readDigits (n + k) (acc * 16 ^ k) r := by
  induction k generalizing n acc with
  | zero => simp
  | succ k ih =>
    have h0 : hexVal '0' = some 0 := by decide
    rw [List.replicate_succ, List.cons_append, readDigits, h0]
    simp only
    rw [ih]
    congr 1
    · omega
    · rw [Nat.pow_succ, Nat.mul_comm (16 ^ k) 16, ← Nat.mul_assoc]; simp

theorem readDigits_toDigits (v : Nat) (n acc : Nat) (r : List Char) :
    readDigits n acc (Nat.toDigits 16 v ++ r) =
      readDigits (n + (Nat.toDigits 16 v).length) (acc * 16 ^ (Nat.toDigits 16 v).length + v) r := by
  induction v using Nat.strongRecOn generalizing n acc r with
  | ind v ih =>
    by_cases hv : v < 16
    · rw [Nat.toDigits_of_lt_base hv]
      simp only [List.cons_append, List.nil_append, readDigits, hexVal_digitChar v hv, List.length_cons,
        List.length_nil, Nat.pow_succ, Nat.pow_zero, Nat.one_mul]
    · rw [Nat.toDigits_of_base_le (by omega) (by omega), List.append_assoc, ih (v / 16) (by omega)]
      have hm : v % 16 < 16 := by omega
      have hd : (v % 16).digitChar :: r = [(v % 16).digitChar] ++ r := rfl
      simp only [List.cons_append, List.nil_append, readDigits, hexVal_digitChar _ hm, List.length_append,
        List.length_cons, List.length_nil, Nat.pow_succ]
      congr 1
      simp only [Nat.add_mul]
      rw [Nat.add_assoc, Nat.mul_comm (v / 16) 16, Nat.div_add_mod]
      simp [Nat.mul_assoc]

theorem length_hexDigits_le (w : Word) : (hexDigits w).length ≤ 8 := by
  unfold hexDigits
  rw [Nat.length_toDigits_le_iff (by omega) (by omega)]
  exact w.isLt

theorem readDigits_hexPadded (w : Word) (r : List Char) :
    readDigits 0 0 (hexPadded w ++ r) = readDigits 8 w.toNat r := by
  unfold hexPadded
  have h := length_hexDigits_le w
  rw [List.append_assoc, readDigits_replicate]
  unfold hexDigits at *
  rw [readDigits_toDigits]
  congr 1
  · omega
  · simp

theorem readDigits_stop (n acc : Nat) (r : List Char) (h : ∀ c ∈ r.head?, hexVal c = none) :
    readDigits n acc r = (n, acc, r) := by
  cases r with
  | nil => rfl
  | cons c cs => simp [readDigits, h c (by simp)]

theorem isSpace_of_mem_toDigits (v : Nat) : ∀ c ∈ Nat.toDigits 16 v, isSpaceC c = false := by
  induction v using Nat.strongRecOn with
  | ind v ih =>
    by_cases hv : v < 16
    · rw [Nat.toDigits_of_lt_base hv]
      intro c hc; simp at hc; subst hc; exact isSpace_digitChar v hv
    · rw [Nat.toDigits_of_base_le (by omega) (by omega)]
      intro c hc
      rw [List.mem_append] at hc
      rcases hc with hc | hc
      · exact ih (v / 16) (by omega) c hc
      · simp at hc; subst hc; exact isSpace_digitChar _ (by omega)

theorem hexPadded_cons (w : Word) : ∃ c cs, hexPadded w = c :: cs ∧ isSpaceC c = false := by
  have hne : hexPadded w ≠ [] := by
    unfold hexPadded hexDigits
    intro h
    exact Nat.toDigits_ne_nil (List.append_eq_nil_iff.1 h).2
  obtain ⟨c, cs, h⟩ := List.exists_cons_of_ne_nil hne
  refine ⟨c, cs, h, ?_⟩
  have hc : c ∈ hexPadded w := by rw [h]; simp
  unfold hexPadded at hc
  rw [List.mem_append] at hc
  rcases hc with hc | hc
  · rw [List.mem_replicate] at hc; rw [hc.2]; decide
  · exact isSpace_of_mem_toDigits _ c hc

theorem hexVal_of_mem_toDigits (v : Nat) : ∀ c ∈ Nat.toDigits 16 v, hexVal c ≠ none := by
  induction v using Nat.strongRecOn with
  | ind v ih =>
    by_cases hv : v < 16
    · rw [Nat.toDigits_of_lt_base hv]
      intro c hc; simp at hc; subst hc; rw [hexVal_digitChar v hv]; simp
    · rw [Nat.toDigits_of_base_le (by omega) (by omega)]
      intro c hc
      rw [List.mem_append] at hc
      rcases hc with hc | hc
      · exact ih (v / 16) (by omega) c hc
      · simp at hc; subst hc; rw [hexVal_digitChar _ (by omega)]; simp

theorem hexPadded_hex (w : Word) : ∀ c ∈ hexPadded w, hexVal c ≠ none := by
  intro c hc
  unfold hexPadded at hc
  rw [List.mem_append] at hc
  rcases hc with hc | hc
  · rw [List.mem_replicate] at hc; rw [hc.2]; decide
  · exact hexVal_of_mem_toDigits _ c hc

theorem length_hexPadded (w : Word) : (hexPadded w).length = 8 := by
  have := length_hexDigits_le w
  simp [hexPadded]; omega

theorem skipSign_hex (c : Char) (cs : List Char) (h : hexVal c ≠ none) : skipSign (c :: cs) = (false, c :: cs) := by
  unfold skipSign
  split
  · rename_i e; cases e; exact absurd (by decide) h
  · rename_i e; cases e; exact absurd (by decide) h
  · rfl

theorem skipBase_hex (a b : Char) (cs : List Char) (h : hexVal b ≠ none) : skipBase (a :: b :: cs) = a :: b :: cs := by
  unfold skipBase
  split
  · rename_i e; cases e; exact absurd (by decide) h
  · rename_i e; cases e; exact absurd (by decide) h
  · rfl

theorem readHex_digits (cs r : List Char) (n v : Nat) (hd : ∀ c ∈ cs, hexVal c ≠ none) (hl : 2 ≤ cs.length)
    (hrd : readDigits 0 0 (cs ++ r) = (n, v, r)) (hn : n ≠ 0) (hv : v < 2 ^ 32) :
    readHex (cs ++ r) = ({ rest := r, eof := r.isEmpty, fail := false }, BitVec.ofNat 32 v) := by
  obtain ⟨a, b, t, rfl⟩ : ∃ a b t, cs = a :: b :: t := by
    rcases cs with _ | ⟨a, _ | ⟨b, t⟩⟩
    · simp at hl
    · simp at hl
    · exact ⟨a, b, t, rfl⟩
  have h1 : skipSign (a :: b :: t ++ r) = (false, a :: b :: t ++ r) := skipSign_hex a _ (hd a (by simp))
  have h2 : skipBase (a :: b :: t ++ r) = a :: b :: t ++ r := skipBase_hex a b _ (hd b (by simp))
  unfold readHex
  rw [h1]
  simp only [h2, hrd, if_neg hn, if_pos hv]
  rfl

theorem readHex_hexPadded (r : List Char) (w : Word) (hr : ∀ c ∈ r.head?, hexVal c = none) :
    readHex (hexPadded w ++ r) = ({ rest := r, eof := r.isEmpty, fail := false }, w) := by
  rw [readHex_digits (hexPadded w) r 8 w.toNat (hexPadded_hex w) (by rw [length_hexPadded]; decide)
    (by rw [readDigits_hexPadded, readDigits_stop _ _ _ hr]) (by decide) w.isLt]
  simp

/-- Reading a padded number back. -/
theorem readWord_hexPadded (ws r : List Char) (w t : Word) (hws : ∀ c ∈ ws, isSpaceC c = true)
    (hr : ∀ c ∈ r.head?, hexVal c = none) :
    readWord { rest := ws ++ (hexPadded w ++ r) } t = ({ rest := r, eof := r.isEmpty, fail := false }, w) := by
  obtain ⟨c, cs, hc, hsp⟩ := hexPadded_cons w
  have hdrop : (ws ++ (hexPadded w ++ r)).dropWhile isSpaceC = hexPadded w ++ r := by
    rw [List.dropWhile_append_of_pos hws, hc]
    simp [hsp]
  have hrd := readHex_hexPadded r w hr
  unfold readWord
  simp only [IStream.good, Bool.not_false, Bool.and_self, if_true, hdrop]
  have hcons : hexPadded w ++ r = c :: (cs ++ r) := by rw [hc]; rfl
  rw [hcons] at hrd ⊢
  exact hrd

theorem writePacket_size1 (p : Packet) (h : p.size = 1) : writePacket p = hexPadded p.w0 := by
  simp [writePacket, h, List.range_succ, Packet.word]
theorem writePacket_size2 (p : Packet) (h : p.size = 2) :
    writePacket p = hexPadded p.w0 ++ (' ' :: hexPadded p.w1) := by
  simp [writePacket, h, List.range_succ, Packet.word]
theorem writePacket_size3 (p : Packet) (h : p.size = 3) :
    writePacket p = hexPadded p.w0 ++ (' ' :: hexPadded p.w1 ++ (' ' :: hexPadded p.w2)) := by
  simp [writePacket, h, List.range_succ, Packet.word]
theorem writePacket_size4 (p : Packet) (h : p.size = 4) :
    writePacket p = hexPadded p.w0 ++ (' ' :: hexPadded p.w1 ++ (' ' :: hexPadded p.w2 ++ (' ' :: hexPadded p.w3))) := by
  simp [writePacket, h, List.range_succ, Packet.word]

theorem readWord_first (ws r : List Char) (w t : Word) (hws : ∀ c ∈ ws, isSpaceC c = true) :
    readWord { rest := ws ++ (hexPadded w ++ (' ' :: r)) } t = ({ rest := ' ' :: r }, w) := by
  rw [readWord_hexPadded ws _ w t hws (by intro c hc; simp at hc; subst hc; decide)]
  rfl

theorem readWord_next (r : List Char) (w t : Word) :
    readWord { rest := ' ' :: (hexPadded w ++ (' ' :: r)) } t = ({ rest := ' ' :: r }, w) :=
  readWord_first [' '] r w t (by simp [isSpaceC])

theorem readWord_last (r : List Char) (w t : Word) (hr : ∀ c ∈ r.head?, hexVal c = none) :
    readWord { rest := ' ' :: (hexPadded w ++ r) } t = ({ rest := r, eof := r.isEmpty, fail := false }, w) :=
  readWord_hexPadded [' '] r w t (by simp [isSpaceC]) hr

theorem good_mk (r : List Char) : ({ rest := r } : IStream).good = true := rfl

/-- Reading back a written packet that is followed by the end of input or by something that is not a hex digit. -/
theorem readPacket_writePacket (ws r : List Char) (p t : Packet) (hws : ∀ c ∈ ws, isSpaceC c = true)
    (hr : ∀ c ∈ r.head?, hexVal c = none) :
    ∃ q, readPacket { rest := ws ++ (writePacket p ++ r) } t = ({ rest := r, eof := r.isEmpty, fail := false }, q) ∧
      p.eqv q = true := by
  have hb := p.size_bounds
  have hs : ∀ q : Packet, q.w0 = p.w0 → q.size = p.size := fun q h => Packet.size_congr h
  have hcases : p.size = 1 ∨ p.size = 2 ∨ p.size = 3 ∨ p.size = 4 := by omega
  rcases hcases with h | h | h | h
  · refine ⟨{ t with w0 := p.w0 }, ?_, ?_⟩
    · rw [writePacket_size1 p h]
      unfold readPacket
      simp only [readWord_hexPadded ws r _ _ hws hr]
      rw [hs { t with w0 := p.w0 } rfl, h]
      simp [readWords]
    · rw [Packet.eqv_iff, h]; intro i hi; interval_cases i <;> rfl
  · refine ⟨{ t with w0 := p.w0, w1 := p.w1 }, ?_, ?_⟩
    · rw [writePacket_size2 p h]
      unfold readPacket
      simp only [List.append_assoc, List.cons_append, readWord_first ws _ _ _ hws, good_mk, if_true]
      rw [hs { t with w0 := p.w0 } rfl, h]
      simp [readWords, readWord_last _ _ _ hr, Packet.setWord]
    · rw [Packet.eqv_iff, h]; intro i hi; interval_cases i <;> rfl
  · refine ⟨{ t with w0 := p.w0, w1 := p.w1, w2 := p.w2 }, ?_, ?_⟩
    · rw [writePacket_size3 p h]
      unfold readPacket
      simp only [List.append_assoc, List.cons_append, readWord_first ws _ _ _ hws, good_mk, if_true]
      rw [hs { t with w0 := p.w0 } rfl, h]
      simp [readWords, readWord_next, good_mk, readWord_last _ _ _ hr, Packet.setWord]
    · rw [Packet.eqv_iff, h]; intro i hi; interval_cases i <;> rfl
  · refine ⟨{ t with w0 := p.w0, w1 := p.w1, w2 := p.w2, w3 := p.w3 }, ?_, ?_⟩
    · rw [writePacket_size4 p h]
      unfold readPacket
      simp only [List.append_assoc, List.cons_append, readWord_first ws _ _ _ hws, good_mk, if_true]
      rw [hs { t with w0 := p.w0 } rfl, h]
      simp [readWords, readWord_next, good_mk, readWord_last _ _ _ hr, Packet.setWord]
    · rw [Packet.eqv_iff, h]; intro i hi; interval_cases i <;> rfl

end Midi

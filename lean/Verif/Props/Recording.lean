import Verif.Props.TextWords
import Verif.Props.TextExact
import Verif.Props.Interchange
import Verif.Spec.Recording

/-!
# C119: recordings that were cut off
-/

namespace Midi

open Spec

/-! ## Helper lemmas -/

/-- The digits of a number. -/
def digitsOf : Nat → Nat → List (Fin 16 × Bool)
  | 0, _ => []
  | n + 1, v => digitsOf n (v / 16) ++ [(⟨v % 16, Nat.mod_lt _ (by decide)⟩, false)]

theorem length_digitsOf (n v : Nat) : (digitsOf n v).length = n := by
  induction n generalizing v with
  | zero => rfl
  | succ n ih => simp [digitsOf, ih]

theorem digitsOf_text (n v : Nat) : (digitsOf n v).map Numeral.digitText = lastDigits n v := by
  induction n generalizing v with
  | zero => rfl
  | succ n ih =>
    rw [lastDigits_succ, digitsOf, List.map_append, ih]
    have key : ∀ d : Fin 16, Numeral.digitText (d, false) = Nat.digitChar d.val := by decide
    rw [← key ⟨v % 16, Nat.mod_lt _ (by decide)⟩]
    rfl

theorem digitsOf_value (n v : Nat) (h : v < 16 ^ n) : (digitsOf n v).foldl (fun acc d => 16 * acc + d.1.val) 0 = v := by
  induction n generalizing v with
  | zero => simp at h; subst h; rfl
  | succ n ih =>
    rw [digitsOf, List.foldl_append, ih _ (Nat.div_lt_of_lt_mul (by rw [Nat.pow_succ] at h; omega))]
    show 16 * (v / 16) + v % 16 = v
    omega

theorem digits_lt (ds : List (Fin 16 × Bool)) (a : Nat) : ds.foldl (fun acc d => 16 * acc + d.1.val) a < (a + 1) * 16 ^ ds.length := by
  induction ds generalizing a with
  | nil => simp
  | cons d ds ih =>
    rw [List.foldl_cons, List.length_cons, Nat.pow_succ]
    refine Nat.lt_of_lt_of_le (ih _) ?_
    have := d.1.isLt
    have h : 16 * a + d.1.val + 1 ≤ (a + 1) * 16 := by omega
    calc (16 * a + d.1.val + 1) * 16 ^ ds.length ≤ ((a + 1) * 16) * 16 ^ ds.length := Nat.mul_le_mul_right _ h
      _ = (a + 1) * (16 ^ ds.length * 16) := by rw [Nat.mul_assoc, Nat.mul_comm 16]

theorem numeral_valid (ds : List (Fin 16 × Bool)) (h1 : ds ≠ []) (h2 : ds.length ≤ 8) : Numeral.Valid { digits := ds } := by
  refine ⟨h1, Nat.lt_of_lt_of_le (digits_lt ds 0) ?_⟩
  have : 16 ^ ds.length ≤ 16 ^ 8 := Nat.pow_le_pow_right (by decide) h2
  omega

theorem numeral_text (ds : List (Fin 16 × Bool)) : Numeral.text { digits := ds } = ds.map Numeral.digitText := rfl

theorem numeral_word (w : Word) : Numeral.word { digits := digitsOf 8 w.toNat } = w := by
  unfold Numeral.word Numeral.value
  dsimp only
  rw [digitsOf_value 8 _ w.isLt, if_neg (by simp)]
  simp

theorem wordsAsText_cons (w v : Word) (ws : List Word) : wordsAsText (w :: v :: ws) = lastDigits 8 w.toNat ++ ' ' :: wordsAsText (v :: ws) := rfl

theorem first_digits (w : Word) (n : Nat) (h0 : n ≠ 0) (h8 : n ≤ 8) : ∃ l, Written [] l ∧ numerals l = (lastDigits 8 w.toNat).take n ∧ l.length = 1 := by
  refine ⟨[({ digits := (digitsOf 8 w.toNat).take n }, [])], ⟨numeral_valid _ ?_ ?_, by simp, by simp, trivial⟩, ?_, rfl⟩
  · intro h
    have := congrArg List.length h
    rw [List.length_take, length_digitsOf] at this
    simp at this; omega
  · rw [List.length_take, length_digitsOf]; omega
  · simp only [numerals, List.append_nil]
    rw [numeral_text, List.map_take, digitsOf_text]

/-- The beginning of the text of some words are numbers: not more than there are words, and the first one is the first word if there
are at least two. -/
theorem beginning_numerals (ws : List Word) : ∀ n, ∃ l, Written [] l ∧ numerals l = (wordsAsText ws).take n ∧ l.length ≤ ws.length ∧
    (2 ≤ l.length → (wordsOf l).head? = ws.head?) := by
  induction ws with
  | nil => intro n; exact ⟨[], trivial, by simp [wordsAsText, numerals], by simp, by simp⟩
  | cons w ws ih =>
    intro n
    by_cases h0 : n = 0
    · subst h0; exact ⟨[], trivial, by simp [numerals], by simp, by simp⟩
    · cases ws with
      | nil =>
        obtain ⟨l, a, b, c⟩ := first_digits w (min n 8) (by omega) (by omega)
        refine ⟨l, a, ?_, by simp [c], by omega⟩
        rw [b]
        show _ = (lastDigits 8 w.toNat).take n
        rw [List.take_eq_take_iff, length_lastDigits]
        omega
      | cons v ws =>
        rw [wordsAsText_cons]
        by_cases h8 : n ≤ 8
        · obtain ⟨l, a, b, c⟩ := first_digits w n h0 h8
          refine ⟨l, a, ?_, by simp [c], by omega⟩
          rw [b, List.take_append_of_le_length (by rw [length_lastDigits]; exact h8)]
        · obtain ⟨l, a, b, c, -⟩ := ih (n - 9)
          refine ⟨({ digits := digitsOf 8 w.toNat }, [' ']) :: l,
            ⟨numeral_valid _ (fun h => ?_) (by rw [length_digitsOf]), by simp [Spec.whiteSpace], by simp, a⟩, ?_, by simpa using c, fun _ => ?_⟩
          · have := congrArg List.length h
            rw [length_digitsOf] at this; cases this
          · simp only [numerals]
            rw [numeral_text, digitsOf_text, b, List.take_append, length_lastDigits, List.take_of_length_le (l := lastDigits 8 w.toNat) (by rw [length_lastDigits]; omega)]
            obtain ⟨k, hk⟩ : ∃ k, n - 8 = k + 1 := ⟨n - 9, by omega⟩
            rw [hk, List.take_succ_cons, show n - 9 = k by omega]
            simp
          · show some (Numeral.word _) = some w
            rw [numeral_word]


theorem recording_cons (p : Packet) (ps : List Packet) : recording (p :: ps) = writePacket p ++ '\n' :: recording ps := by
  simp [recording]

theorem no_line_end (p : Packet) : '\n' ∉ writePacket p := by
  intro hp
  unfold writePacket at hp
  rw [List.mem_flatMap] at hp
  obtain ⟨w, -, hp⟩ := hp
  rcases List.mem_append.1 hp with hp | hp
  · split at hp <;> simp at hp
  · rw [hexPadded_eq] at hp
    unfold lastDigits at hp
    obtain ⟨i, -, hi⟩ := List.mem_map.1 hp
    have key : ∀ d, d < 16 → hexadecimal.getD d '?' ≠ '\n' := by decide
    exact key _ (Nat.mod_lt _ (by decide)) hi

/-- What is left of a recording: the complete lines, and maybe the beginning of another one. -/
theorem take_recording (ps : List Packet) : ∀ n, ∃ t, (recording ps).take n = recording (complete n ps) ++ t ∧
    (t = [] ∨ ∃ p k, t = (writePacket p).take k) := by
  induction ps with
  | nil => intro n; exact ⟨[], by simp [recording, complete], Or.inl rfl⟩
  | cons p ps ih =>
    intro n
    rw [recording_cons, complete]
    by_cases h : (writePacket p).length < n
    · obtain ⟨t, ht, hc⟩ := ih (n - ((writePacket p).length + 1))
      refine ⟨t, ?_, hc⟩
      rw [if_pos h, recording_cons, List.take_append, List.take_of_length_le (Nat.le_of_lt h)]
      obtain ⟨k, hk⟩ : ∃ k, n - (writePacket p).length = k + 1 := ⟨n - (writePacket p).length - 1, by omega⟩
      rw [show n - ((writePacket p).length + 1) = k by omega] at ht ⊢
      rw [hk, List.take_succ_cons, ht]
      simp
    · refine ⟨(writePacket p).take n, ?_, Or.inr ⟨p, n, rfl⟩⟩
      rw [if_neg h, List.take_append_of_le_length (by omega)]
      rfl

theorem words_text (p : Packet) : writePacket p = wordsAsText p.words := by
  rw [C94_text, ← C03_size]; rfl

theorem head_words (p : Packet) : p.words.head? = some p.w0 := by
  have := p.size_bounds
  unfold Packet.words
  obtain ⟨k, hk⟩ : ∃ k, p.size = k + 1 := ⟨p.size - 1, by omega⟩
  rw [hk, List.range_succ_eq_map]
  rfl

/-- The words of the beginning of a line are at most one message or the beginning of one. -/
theorem cut_at_most_one {p : Packet} {ws : List Word} {ms : List (List Word)} {rest : List Word} (hc : Spec.Cut ws ms rest)
    (hl : ws.length ≤ p.size) (h2 : 2 ≤ ws.length → ws.head? = some p.w0) : ms.length + (if rest = [] then 0 else 1) ≤ 1 := by
  obtain ⟨he, hm, -⟩ := hc
  cases ms with
  | nil => simp only [List.length_nil]; split <;> omega
  | cons m ms =>
    obtain ⟨w, t, hw, hlen⟩ := hm m (by simp)
    have hpos : 1 ≤ m.length := by rw [hw]; simp
    have hle : ws.length ≤ m.length := by
      by_cases h : 2 ≤ ws.length
      · have := h2 h
        rw [he, hw] at this
        simp at this
        rw [hlen, this, ← size_wordsFrom]
        exact hl
      · omega
    have hsum : ws.length = m.length + (ms.flatten.length + rest.length) := by
      rw [he, List.flatten_cons, List.length_append, List.length_append]; omega
    have hr : rest = [] := List.eq_nil_of_length_eq_zero (by omega)
    have hms : ms = [] := by
      cases ms with
      | nil => rfl
      | cons m' ms =>
        obtain ⟨w', t', hw', -⟩ := hm m' (by simp)
        rw [List.flatten_cons, List.length_append, hw', List.length_cons] at hsum
        omega
    subst hr; subst hms
    simp

theorem readLoop_beginning (t : List Char) (ht : t = [] ∨ ∃ p k, t = (writePacket p).take k) (lead : List Char)
    (hlead : ∀ c ∈ lead, isSpaceC c = true) (target : Packet) (fuel : Nat) (hf : 4 < fuel) (b : Bool)
    (hb : b = (lead ++ t).isEmpty ∨ b = false) : (readLoop fuel { rest := lead ++ t, eof := b } target).length ≤ 1 := by
  obtain ⟨p, k, rfl⟩ : ∃ (p : Packet) (k : Nat), t = (writePacket p).take k := by
    rcases ht with rfl | h
    · exact ⟨target, 0, by simp⟩
    · exact h
  obtain ⟨l, hw, hn, hl, hh⟩ := beginning_numerals p.words k
  rw [← words_text] at hn
  have hlen : p.words.length = p.size := by simp [Packet.words]
  have hs := p.size_bounds
  have hwl : (wordsOf l).length = l.length := by simp [wordsOf]
  rw [← hn] at hb ⊢
  obtain ⟨ms, rest, ps, hc, hps, h1, h2⟩ := readLoop_numerals [] (Or.inl rfl) fuel l hw lead hlead target b
    (by simpa using hb) (by omega)
  have hone := cut_at_most_one (p := p) hc (by omega) (fun h => by rw [hh (by omega), head_words])
  have hpl : ps.length = ms.length := by rw [← hps]; simp
  simp only [List.append_nil] at h1 h2
  by_cases hr : rest = []
  · rw [h1 (Or.inl hr)]; omega
  · rw [if_neg hr] at hone
    by_cases hbare : EndsBare l
    · obtain ⟨q, hq, -⟩ := h2 hr hbare
      rw [hq, List.length_append, List.length_singleton]; omega
    · rw [h1 (Or.inr hbare)]; omega

theorem readLoop_recording (t : List Char) (ht : t = [] ∨ ∃ p k, t = (writePacket p).take k) (ps : List Packet) (lead : List Char)
    (hlead : ∀ c ∈ lead, isSpaceC c = true) (target : Packet) (fuel : Nat) (hf : ps.length + 4 < fuel) (b : Bool)
    (hb : b = (lead ++ (recording ps ++ t)).isEmpty ∨ b = false) :
    ∃ qs extra, readLoop fuel { rest := lead ++ (recording ps ++ t), eof := b } target = qs ++ extra ∧
      List.Forall₂ (fun p q => p.eqv q = true) ps qs ∧ extra.length ≤ 1 := by
  induction ps generalizing lead target fuel b with
  | nil =>
    exact ⟨[], _, rfl, .nil, readLoop_beginning t ht lead hlead target fuel (by simpa using hf) b hb⟩
  | cons p ps ih =>
    obtain ⟨k, rfl⟩ : ∃ k, fuel = k + 1 := ⟨fuel - 1, by omega⟩
    have hbf : b = false := by
      rcases hb with hb | hb
      · rw [hb, recording_cons]; simp
      · exact hb
    subst hbf
    obtain ⟨q, hq, he⟩ := readPacket_writePacket lead ('\n' :: (recording ps ++ t)) p target hlead
      (by intro c hc; simp at hc; subst hc; decide)
    obtain ⟨qs, extra, h1, h2, h3⟩ := ih ['\n'] (by decide) q k (by simp at hf; omega) false (Or.inr rfl)
    refine ⟨q :: qs, extra, ?_, .cons he h2, h3⟩
    rw [recording_cons, List.append_assoc, List.cons_append, readLoop, hq]
    simp only [Bool.false_eq_true, if_false, List.cons_append]
    rw [← h1]
    rfl

theorem recording_text (ps : List Packet) : textOf (ps.map fun p => (p, ['\n'])) = recording ps ∧ Separated (ps.map fun p => (p, ['\n'])) := by
  induction ps with
  | nil => exact ⟨rfl, trivial⟩
  | cons p ps ih =>
    refine ⟨?_, by decide, by simp, ih.2⟩
    rw [recording_cons, ← ih.1]
    simp [textOf]

theorem wholeLines_recording (ps : List Packet) (t : List Char) (ht : '\n' ∉ t) : wholeLines (recording ps ++ t) = recording ps := by
  have hend : recording ps = [] ∨ ∃ r, recording ps = r ++ ['\n'] := by
    induction ps with
    | nil => exact Or.inl rfl
    | cons p ps ih =>
      right
      rw [recording_cons]
      rcases ih with h | ⟨r, h⟩
      · exact ⟨writePacket p, by rw [h]⟩
      · exact ⟨writePacket p ++ '\n' :: r, by rw [h]; simp⟩
  unfold wholeLines
  rw [List.reverse_append, List.dropWhile_append_of_pos]
  · rcases hend with h | ⟨r, h⟩ <;> rw [h] <;> simp
  · intro c hc
    rw [List.mem_reverse] at hc
    rw [bne_iff_ne]
    rintro rfl
    exact ht hc

theorem complete_length (ps : List Packet) : ∀ n, (complete n ps).length ≤ ps.length := by
  induction ps with
  | nil => intro n; simp [complete]
  | cons p ps ih =>
    intro n
    rw [complete]
    split
    · simpa using ih _
    · simp

/-- The specification: a line that is complete remains so, and all of them are when the whole text is there. -/
theorem complete_prefix (ps : List Packet) (m n : Nat) (h : m ≤ n) : complete m ps <+: complete n ps := by
  induction ps generalizing m n with
  | nil => simp [complete]
  | cons p ps ih =>
    rw [complete, complete]
    by_cases hm : (writePacket p).length < m
    · rw [if_pos hm, if_pos (by omega)]
      exact List.cons_prefix_cons.2 ⟨rfl, ih _ _ (by omega)⟩
    · rw [if_neg hm]
      exact List.nil_prefix

theorem complete_all (ps : List Packet) : complete (recording ps).length ps = ps := by
  induction ps with
  | nil => rfl
  | cons p ps ih =>
    have hl : (recording (p :: ps)).length = (writePacket p).length + 1 + (recording ps).length := by
      rw [recording_cons, List.length_append, List.length_cons]; omega
    rw [complete, hl, if_pos (by omega), Nat.add_sub_cancel_left, ih]

theorem recording_last (ps : List Packet) (p : Packet) :
    textOf (ps.map (fun p => (p, ['\n'])) ++ [(p, [])]) = recording ps ++ writePacket p ∧ Separated (ps.map (fun p => (p, ['\n'])) ++ [(p, [])]) := by
  induction ps with
  | nil => exact ⟨by simp [textOf, recording], by simp, by simp, trivial⟩
  | cons q ps ih =>
    refine ⟨?_, by decide, by simp, ih.2⟩
    rw [recording_cons, List.append_assoc, List.cons_append, ← ih.1]
    simp [textOf]

/-! ## The properties -/

/-- C119: whatever packets a program records, one per line, and wherever in the text it is stopped: someone who reads the text with
`while (in >> p)` gets all packets whose lines are complete, in order and unchanged, and behind them at most one other packet. -/
theorem C119_cut (ps : List Packet) (n : Nat) (target : Packet) (fuel : Nat) (hf : ps.length + 4 < fuel) :
    ∃ qs extra, readLoop fuel { rest := (recording ps).take n } target = qs ++ extra ∧
      List.Forall₂ (fun p q => p.eqv q = true) (complete n ps) qs ∧ extra.length ≤ 1 := by
  obtain ⟨t, ht, hc⟩ := take_recording ps n
  have := complete_length ps n
  rw [ht]
  exact readLoop_recording t hc (complete n ps) [] (by simp) target fuel (by omega) false (Or.inr rfl)

example := C119_cut [⟨0x20903C64, 0, 0, 0⟩, ⟨0x40903C00, 0xFFFF0000, 0, 0⟩, ⟨0x20803C00, 0, 0, 0⟩] 22 default 8 (by decide)
example : complete 22 [⟨0x20903C64, 0, 0, 0⟩, ⟨0x40903C00, 0xFFFF0000, 0, 0⟩, ⟨0x20803C00, 0, 0, 0⟩] = [⟨0x20903C64, 0, 0, 0⟩] := by decide
example : complete 27 [⟨0x20903C64, 0, 0, 0⟩, ⟨0x40903C00, 0xFFFF0000, 0, 0⟩, ⟨0x20803C00, 0, 0, 0⟩] =
    [⟨0x20903C64, 0, 0, 0⟩, ⟨0x40903C00, 0xFFFF0000, 0, 0⟩] := by decide

/-- C119: a program that begins again after it was stopped, removes a last line without an end and continues the recording: the reader
gets the packets whose lines were complete, then the new ones, and nothing else. -/
theorem C119_resume (ps : List Packet) (n : Nat) (later : List Packet) (target : Packet) (fuel : Nat)
    (hf : ps.length + later.length < fuel) :
    List.Forall₂ (fun p q => p.eqv q = true) (complete n ps ++ later)
      (readLoop fuel { rest := wholeLines ((recording ps).take n) ++ recording later } target) := by
  obtain ⟨t, ht, hc⟩ := take_recording ps n
  have hno : '\n' ∉ t := by
    rcases hc with rfl | ⟨p, k, rfl⟩
    · simp
    · exact fun h => no_line_end p (List.mem_of_mem_take h)
  have := complete_length ps n
  have happ : recording (complete n ps) ++ recording later = recording (complete n ps ++ later) := by simp [recording]
  rw [ht, wholeLines_recording _ _ hno, happ, ← (recording_text _).1]
  have h := C04_sequence_read_back _ (recording_text (complete n ps ++ later)).2 target fuel (by simp; omega)
  rw [List.map_map, show List.map ((fun x : Packet × List Char => x.1) ∘ fun p => (p, ['\n'])) (complete n ps ++ later) =
    complete n ps ++ later from List.map_id _] at h
  exact h

example := C119_resume [⟨0x20903C64, 0, 0, 0⟩, ⟨0x40903C00, 0xFFFF0000, 0, 0⟩, ⟨0x20803C00, 0, 0, 0⟩] 22 [⟨0x20B07B00, 0, 0, 0⟩] default 5 (by decide)

/-- C119: a reader that leaves out a last line without an end gets the packets whose lines are complete, and nothing else. -/
theorem C119_careful (ps : List Packet) (n : Nat) (target : Packet) (fuel : Nat) (hf : ps.length < fuel) :
    List.Forall₂ (fun p q => p.eqv q = true) (complete n ps)
      (readLoop fuel { rest := wholeLines ((recording ps).take n) } target) := by
  have h := C119_resume ps n [] target fuel (by simpa using hf)
  simpa [recording] using h

example := C119_careful [⟨0x20903C64, 0, 0, 0⟩, ⟨0x40903C00, 0xFFFF0000, 0, 0⟩, ⟨0x20803C00, 0, 0, 0⟩] 22 default 4 (by decide)
example : wholeLines "20903c64\n40903c00 ffff".toList = "20903c64\n".toList := by decide

/-- C119: if nothing but the end of the last line is missing, the reader gets all packets. -/
theorem C119_line_end (ps : List Packet) (p target : Packet) (fuel : Nat) (hf : ps.length + 1 < fuel) :
    List.Forall₂ (fun p q => p.eqv q = true) (ps ++ [p])
      (readLoop fuel { rest := (recording (ps ++ [p])).take ((recording (ps ++ [p])).length - 1) } target) := by
  have htext : (recording (ps ++ [p])).take ((recording (ps ++ [p])).length - 1) = recording ps ++ writePacket p := by
    rw [show recording (ps ++ [p]) = (recording ps ++ writePacket p) ++ ['\n'] by simp [recording], List.length_append]
    exact List.take_left
  rw [htext, ← (recording_last ps p).1]
  have h := C04_sequence_read_back _ (recording_last ps p).2 target fuel (by simp; omega)
  rw [List.map_append, List.map_map, show List.map ((fun x : Packet × List Char => x.1) ∘ fun p => (p, ['\n'])) ps = ps from List.map_id _] at h
  exact h

example := C119_line_end [⟨0x20903C64, 0, 0, 0⟩] ⟨0x40903C00, 0xFFFF0000, 0, 0⟩ default 3 (by decide)

/-- C119: the packets that a reader gets who leaves out an incomplete line do what the recorded ones did: collectors of system exclusive that get them end in the same state and have
called back with the same messages. -/
theorem C119_collectors (ps : List Packet) (n : Nat) (target : Packet) (fuel : Nat) (hf : ps.length < fuel) (c7 : Collector7) (c8 : Collector8) :
    c7.feedAll (readLoop fuel { rest := wholeLines ((recording ps).take n) } target) = c7.feedAll (complete n ps) ∧
    c8.feedAll (readLoop fuel { rest := wholeLines ((recording ps).take n) } target) = c8.feedAll (complete n ps) :=
  ⟨(C85_collector7 c7 _ _ (C119_careful ps n target fuel hf)).symm, (C85_collector8 c8 _ _ (C119_careful ps n target fuel hf)).symm⟩

example := C119_collectors [⟨0x30167E01, 0x02030405, 0, 0⟩, ⟨0x30310600, 0, 0, 0⟩] 22 default 4 (by decide) {} {}

/-- C119, the limit: the other packet may be one that was never recorded. A note that is cut off comes back as a utility message, and
a MIDI 2 note of full velocity as one whose velocity is zero; nothing tells the reader. -/
theorem C119_wrong :
    readLoop 6 { rest := (recording [⟨0x20903C64, 0, 0, 0⟩]).take 3 } ⟨0, 0, 0, 0⟩ = [⟨0x209, 0, 0, 0⟩] ∧
    readLoop 6 { rest := (recording [⟨0x40903C00, 0xFFFF0000, 0, 0⟩]).take 13 } ⟨0, 0, 0, 0⟩ = [⟨0x40903C00, 0x0000FFFF, 0, 0⟩] := by
  constructor <;> decide +kernel

/-- C119, the limit: a program that begins again with a new line, without removing the incomplete one, loses a packet that was
recorded completely. Its line becomes the second word of the packet before. -/
theorem C119_lost :
    readLoop 7 { rest := (recording [⟨0x40903C00, 0xFFFF0000, 0, 0⟩]).take 8 ++ '\n' :: recording [⟨0x20803C00, 0, 0, 0⟩] } ⟨0, 0, 0, 0⟩ =
      [⟨0x40903C00, 0x20803C00, 0, 0⟩] := by
  decide +kernel

end Midi

import Verif.Model.TextFormat
import Verif.Lemmas.TextDigits

/-!
# Property C61: packets as text on streams with any format

The canonical text of a packet, `writePacket p`, is the one C04 is about: groups of eight lower case hexadecimal digits
separated by single blanks.
-/

namespace Midi
open OStream

/-! ## Helper lemmas -/

/-- The text written for one word by a stream with the given flags. -/
def wordText (f : FmtFlags) (v : Word) : List Char :=
  (putUnsigned { flags := { f with base := .hex }, fill := '0', width := 8, out := [] } v).out

/-- The first `n` words as text. -/
def wordsText (f : FmtFlags) (p : Packet) (n : Nat) : List Char :=
  (List.range n).flatMap fun w => (if w = 0 then [] else [' ']) ++ wordText f (p.word w)

theorem putChar_blank (f : FmtFlags) (c : Char) (o : List Char) :
    putChar { flags := f, fill := c, width := 0, out := o } ' ' = { flags := f, fill := c, width := 0, out := o ++ [' '] } := by
  unfold putChar
  cases h : f.adjust <;> simp

theorem foldl_putWord (s : OStream) (p : Packet) (k : Nat) :
    (List.range (k + 1)).foldl (fun s w => s.putWord p w) s =
      { flags := { s.flags with base := .hex }, fill := '0', width := 0, out := s.out ++ wordsText s.flags p (k + 1) } := by
  induction k with
  | zero => simp [putWord, setHex, setFill, setWidth, putUnsigned, wordText, wordsText]
  | succ k ih =>
    rw [List.range_succ, List.foldl_append, ih]
    have hw : wordsText s.flags p (k + 1 + 1) = wordsText s.flags p (k + 1) ++ (' ' :: wordText s.flags (p.word (k + 1))) := by
      unfold wordsText
      rw [List.range_succ, List.flatMap_append]
      simp
    rw [hw]
    simp only [List.foldl_cons, List.foldl_nil, putWord]
    rw [if_pos (by omega), putChar_blank]
    simp [setHex, setFill, setWidth, putUnsigned, wordText]

theorem putPacket_eq (s : OStream) (p : Packet) :
    s.putPacket p = { flags := s.flags, fill := '0', width := 0, out := s.out ++ wordsText s.flags p p.size } := by
  have hb := p.size_bounds
  obtain ⟨k, hk⟩ : ∃ k, p.size = k + 1 := ⟨p.size - 1, by omega⟩
  unfold putPacket
  rw [hk, foldl_putWord]

/-- A word is written in the canonical way by a stream with these flags. -/
def Plain (f : FmtFlags) (v : Word) : Prop :=
  (f.showbase = true → v = 0) ∧ (f.uppercase = true → ∀ i, i < 8 → v.toNat / 16 ^ i % 16 < 10) ∧
    (f.adjust = .left → v = 0 ∨ 0x10000000 ≤ v.toNat)

theorem digits_hex (f : FmtFlags) (v : Word) :
    digits { f with base := .hex } v = if f.uppercase then (hexDigits v).map Char.toUpper else hexDigits v := rfl

theorem prefix_plain (f : FmtFlags) (v : Word) (h : f.showbase = true → v = 0) : basePrefix { f with base := .hex } v = [] := by
  unfold basePrefix
  simp only
  rw [if_neg]
  simpa using h

theorem prefix_x (f : FmtFlags) (v : Word) (h : ¬(f.showbase = true → v = 0)) :
    ∃ c ∈ basePrefix { f with base := .hex } v, c = 'x' ∨ c = 'X' := by
  unfold basePrefix
  simp only
  rw [if_pos (by simpa using h)]
  cases f.uppercase <;> simp

theorem wordText_eq (f : FmtFlags) (v : Word) : wordText f v =
    match f.adjust with
    | .left => basePrefix { f with base := .hex } v ++ digits { f with base := .hex } v ++
        List.replicate (8 - ((basePrefix { f with base := .hex } v).length + (digits { f with base := .hex } v).length)) '0'
    | .internal => basePrefix { f with base := .hex } v ++
        List.replicate (8 - ((basePrefix { f with base := .hex } v).length + (digits { f with base := .hex } v).length)) '0' ++
        digits { f with base := .hex } v
    | _ => List.replicate (8 - ((basePrefix { f with base := .hex } v).length + (digits { f with base := .hex } v).length)) '0' ++
        basePrefix { f with base := .hex } v ++ digits { f with base := .hex } v := by
  obtain ⟨_, a, _, _, _, _⟩ := f
  cases a <;> simp [wordText, putUnsigned]

theorem wordText_noprefix (f : FmtFlags) (v : Word) (h : f.showbase = true → v = 0) : wordText f v =
    if f.adjust = .left then digits { f with base := .hex } v ++ List.replicate (8 - (digits { f with base := .hex } v).length) '0'
    else List.replicate (8 - (digits { f with base := .hex } v).length) '0' ++ digits { f with base := .hex } v := by
  rw [wordText_eq, prefix_plain f v h]
  cases f.adjust <;> simp

theorem length_digits (f : FmtFlags) (v : Word) : (digits { f with base := .hex } v).length = (hexDigits v).length := by
  rw [digits_hex]; split <;> simp

theorem mem_hexDigits {v : Word} {c : Char} (h : c ∈ hexDigits v) : ∃ d, d < 16 ∧ c = Nat.digitChar d := by
  unfold hexDigits at h
  revert c
  generalize v.toNat = n
  induction n using Nat.strongRecOn with
  | ind n ih =>
    intro c hc
    by_cases hv : n < 16
    · rw [Nat.toDigits_of_lt_base hv] at hc
      simp at hc
      exact ⟨n, hv, hc⟩
    · rw [Nat.toDigits_of_base_le (by omega) (by omega), List.mem_append] at hc
      rcases hc with hc | hc
      · exact ih (n / 16) (by omega) hc
      · simp at hc
        exact ⟨n % 16, by omega, hc⟩

theorem lower_upper : ∀ d, d < 16 → (Nat.digitChar d).toUpper.toLower = Nat.digitChar d ∧
    (Nat.digitChar d).toLower = Nat.digitChar d ∧ Nat.digitChar d ≠ 'x' ∧ Nat.digitChar d ≠ 'X' := by decide

theorem lower_digits (f : FmtFlags) (v : Word) :
    (digits { f with base := .hex } v).map Char.toLower = hexDigits v ∧ (hexDigits v).map Char.toLower = hexDigits v := by
  have h1 : (hexDigits v).map Char.toLower = hexDigits v := by
    conv_rhs => rw [← List.map_id (hexDigits v)]
    apply List.map_congr_left
    intro c hc
    obtain ⟨d, hd, rfl⟩ := mem_hexDigits hc
    exact (lower_upper d hd).2.1
  refine ⟨?_, h1⟩
  rw [digits_hex]
  split
  · rw [List.map_map]
    conv_rhs => rw [← List.map_id (hexDigits v)]
    apply List.map_congr_left
    intro c hc
    obtain ⟨d, hd, rfl⟩ := mem_hexDigits hc
    exact (lower_upper d hd).1
  · exact h1

theorem map_eq_self {f : Char → Char} {l : List Char} : l.map f = l ↔ ∀ c ∈ l, f c = c := by
  induction l with
  | nil => simp
  | cons a l ih => simp [ih]

theorem shifted_digits (v : Word) (h : hexDigits v ++ List.replicate (8 - (hexDigits v).length) '0' =
    List.replicate (8 - (hexDigits v).length) '0' ++ hexDigits v) : v = 0 ∨ 0x10000000 ≤ v.toNat := by
  have hl := length_hexDigits_le v
  have e1 := readDigits_hexPadded v []
  unfold hexPadded at e1
  rw [← h, List.append_nil] at e1
  unfold hexDigits at e1
  rw [readDigits_toDigits] at e1
  have e2 := readDigits_replicate (8 - (hexDigits v).length) (0 + (Nat.toDigits 16 v.toNat).length)
    (0 * 16 ^ (Nat.toDigits 16 v.toNat).length + v.toNat) []
  rw [List.append_nil] at e2
  unfold hexDigits at e2 hl
  rw [e2] at e1
  simp only [readDigits, Prod.mk.injEq, Nat.zero_mul, Nat.zero_add, and_true] at e1
  by_cases h8 : (Nat.toDigits 16 v.toNat).length ≤ 7
  · left
    obtain ⟨k, hk⟩ : ∃ k, 8 - (Nat.toDigits 16 v.toNat).length = k + 1 := ⟨7 - (Nat.toDigits 16 v.toNat).length, by omega⟩
    rw [hk, Nat.pow_succ] at e1
    have hp : 0 < 16 ^ k := Nat.pow_pos (by omega)
    have : v.toNat = 0 := by
      by_contra hne
      have h1 : v.toNat * 1 < v.toNat * (16 ^ k * 16) := Nat.mul_lt_mul_of_pos_left (by omega) (by omega)
      omega
    exact BitVec.eq_of_toNat_eq (by simpa using this)
  · right
    have := (Nat.length_toDigits_le_iff (b := 16) (n := v.toNat) (k := 7) (by omega) (by omega)).not.1 h8
    omega

theorem plain_iff (f : FmtFlags) (v : Word) (h : f.showbase = true → v = 0) : wordText f v = hexPadded v ↔ Plain f v := by
  have hl := length_hexDigits_le v
  rw [wordText_noprefix f v h, length_digits]
  unfold Plain hexPadded
  have hz : v = 0 → hexDigits v = ['0'] := by rintro rfl; rfl
  constructor
  · intro e
    have key : (f.adjust = .left → v = 0 ∨ 0x10000000 ≤ v.toNat) ∧ digits { f with base := .hex } v = hexDigits v := by
      by_cases hL : f.adjust = .left
      · rw [if_pos hL] at e
        have e' := congrArg (List.map Char.toLower) e
        rw [List.map_append, List.map_append, (lower_digits f v).1, (lower_digits f v).2, List.map_replicate,
          show Char.toLower '0' = '0' from rfl] at e'
        have hv := shifted_digits v e'
        refine ⟨fun _ => hv, ?_⟩
        rcases hv with hv | hv
        · subst hv
          rw [digits_hex]
          split <;> rfl
        · have : (hexDigits v).length = 8 := by
            have := (Nat.length_toDigits_le_iff (b := 16) (n := v.toNat) (k := 7) (by omega) (by omega)).not.2 (by omega)
            unfold hexDigits at *
            omega
          rw [this] at e
          simpa using e
      · rw [if_neg hL] at e
        exact ⟨fun h => absurd h hL, List.append_cancel_left e⟩
    refine ⟨h, fun hu => ?_, key.1⟩
    have := key.2
    rw [digits_hex, if_pos hu, map_eq_self] at this
    exact (hexDigits_upper v).1 this
  · rintro ⟨-, hu, hL⟩
    have hd : digits { f with base := .hex } v = hexDigits v := by
      rw [digits_hex]
      split
      · exact map_eq_self.2 ((hexDigits_upper v).2 (hu ‹_›))
      · rfl
    rw [hd]
    split
    · rcases hL ‹_› with hv | hv
      · rw [hz hv]; rfl
      · have : (hexDigits v).length = 8 := by
          have := (Nat.length_toDigits_le_iff (b := 16) (n := v.toNat) (k := 7) (by omega) (by omega)).not.2 (by omega)
          unfold hexDigits at *
          omega
        rw [this]; simp
    · rfl

theorem length_wordText (f : FmtFlags) (v : Word) (h : f.showbase = true → v = 0) : (wordText f v).length = 8 := by
  have hl := length_hexDigits_le v
  rw [wordText_noprefix f v h, length_digits]
  split <;> simp [length_digits] <;> omega

theorem no_x (p : Packet) : ∀ c ∈ writePacket p, c ≠ 'x' ∧ c ≠ 'X' := by
  intro c hc
  unfold writePacket at hc
  rw [List.mem_flatMap] at hc
  obtain ⟨w, -, hc⟩ := hc
  rw [List.mem_append] at hc
  rcases hc with hc | hc
  · split at hc
    · cases hc
    · simp at hc; subst hc; decide
  · unfold hexPadded at hc
    rw [List.mem_append] at hc
    rcases hc with hc | hc
    · rw [List.mem_replicate] at hc
      rw [hc.2]; decide
    · obtain ⟨d, hd, rfl⟩ := mem_hexDigits hc
      exact (lower_upper d hd).2.2

theorem mem_wordText_prefix (f : FmtFlags) (v : Word) {c : Char} (h : c ∈ basePrefix { f with base := .hex } v) :
    c ∈ wordText f v := by
  rw [wordText_eq]
  split
  · exact List.mem_append_left _ (List.mem_append_left _ h)
  · exact List.mem_append_left _ (List.mem_append_left _ h)
  · exact List.mem_append_left _ (List.mem_append_right _ h)

theorem flatMap_pieces (g h : Nat → List Char) (n k : Nat) (hg : ∀ w, w < n → (g w).length = k)
    (hh : ∀ w, w < n → (h w).length = k) :
    (List.range n).flatMap (fun w => (if w = 0 then [] else [' ']) ++ g w) =
      (List.range n).flatMap (fun w => (if w = 0 then [] else [' ']) ++ h w) ↔ ∀ w, w < n → g w = h w := by
  induction n with
  | zero => simp
  | succ n ih =>
    rw [List.range_succ, List.flatMap_append, List.flatMap_append]
    have ih' := ih (fun w hw => hg w (by omega)) (fun w hw => hh w (by omega))
    constructor
    · intro e
      have hlen := List.append_inj' e (by simp [hg n (by omega), hh n (by omega)])
      intro w hw
      by_cases hwn : w < n
      · exact ih'.1 hlen.1 w hwn
      · obtain rfl : w = n := by omega
        have := hlen.2
        simp only [List.flatMap_cons, List.flatMap_nil, List.append_nil] at this
        exact List.append_cancel_left this
    · intro e
      rw [ih'.2 fun w hw => e w (by omega)]
      simp only [List.flatMap_cons, List.flatMap_nil, e n (by omega)]

/-! ## Theorems -/

/-- C61: the format flags of the stream are the same after writing a packet. -/
theorem C61_flags_restored (s : OStream) (p : Packet) : (s.putPacket p).flags = s.flags := by
  rw [putPacket_eq]

/-- C61: reading a packet does not change the format flags either. -/
theorem C61_read_flags_restored (f : FmtFlags) (s : IStream) (p : Packet) : (readPacketF f s p).2.1 = f := rfl

/-- C61: the fill character is not restored. Writing a packet leaves all formatting of the stream as it was if and only if
the fill character was `0` already (and no width was pending). -/
theorem C61_unchanged_iff (s : OStream) (p : Packet) :
    ((s.putPacket p).flags = s.flags ∧ (s.putPacket p).fill = s.fill ∧ (s.putPacket p).width = s.width) ↔
      s.fill = '0' ∧ s.width = 0 := by
  rw [putPacket_eq]
  constructor
  · rintro ⟨-, h1, h2⟩
    exact ⟨h1.symm, h2.symm⟩
  · rintro ⟨h1, h2⟩
    exact ⟨rfl, h1.symm, h2.symm⟩

/-- C61: for which formats of the stream the text is the canonical one: exactly if for every word of the packet `showbase` is
off or the word is 0, `uppercase` is off or the word has no digits beyond 9, and `left` is off or the word is 0 or has no
leading zeros. The base, the fill character, the width and all other flags do not matter. -/
theorem C61_text_exactly (s : OStream) (p : Packet) :
    (s.putPacket p).out = s.out ++ writePacket p ↔ ∀ w, w < p.size → Plain s.flags (p.word w) := by
  rw [putPacket_eq]
  simp only [List.append_cancel_left_eq]
  by_cases hx : ∀ w, w < p.size → (s.flags.showbase = true → p.word w = 0)
  · unfold writePacket wordsText
    rw [flatMap_pieces _ _ p.size 8 (fun w hw => length_wordText _ _ (hx w hw)) (fun w _ => by
      have := length_hexDigits_le (p.word w)
      simp [hexPadded]
      omega)]
    exact forall_congr' fun w => forall_congr' fun hw => plain_iff _ _ (hx w hw)
  · constructor
    · intro e
      push Not at hx
      obtain ⟨w, hw, hs, hv⟩ := hx
      obtain ⟨c, hc, hcx⟩ := prefix_x s.flags (p.word w) (fun h => hv (h hs))
      have hm : c ∈ writePacket p := by
        rw [← e]
        unfold wordsText
        rw [List.mem_flatMap]
        exact ⟨w, List.mem_range.2 hw, List.mem_append_right _ (mem_wordText_prefix _ _ hc)⟩
      have := no_x p c hm
      rcases hcx with rfl | rfl
      · exact absurd rfl this.1
      · exact absurd rfl this.2
    · intro h
      exact absurd (fun w hw => (h w hw).1) hx

/-- C61: in particular the canonical text is written by every stream without `showbase`, `uppercase` and `left`: writing does
not depend on the base, fill character and width. -/
theorem C61_text_partial (s : OStream) (p : Packet) (h1 : s.flags.showbase = false) (h2 : s.flags.uppercase = false)
    (h3 : s.flags.adjust ≠ .left) : (s.putPacket p).out = s.out ++ writePacket p :=
  (C61_text_exactly s p).2 fun _ _ => ⟨by simp [h1], by simp [h2], fun h => absurd h h3⟩

/-- C61: what this means for the user of a stream: a number written with a width of 5 after a packet is padded with zeros,
whatever the packet, while it was padded with blanks before. -/
theorem C61_fill_left_behind (p : Packet) :
    ((({} : OStream).setWidth 5).putUnsigned 42).out = "   42".toList ∧
    (((({} : OStream).putPacket p).setWidth 5).putUnsigned 42).out = writePacket p ++ "00042".toList := by
  refine ⟨by decide +kernel, ?_⟩
  have ht := C61_text_partial {} p rfl rfl (by decide)
  have hs : ({} : OStream).putPacket p = { flags := {}, fill := '0', width := 0, out := writePacket p } := by
    rw [putPacket_eq] at ht ⊢
    simp only at ht
    rw [ht]
    rfl
  rw [hs]
  have : ∀ t : List Char, (putUnsigned (setWidth { flags := {}, fill := '0', width := 0, out := t } 5) 42).out =
      t ++ (putUnsigned (setWidth { flags := {}, fill := '0', width := 0, out := [] } 5) 42).out := fun t => rfl
  rw [this]
  congr 1

/-- C61: a stream that is set to octal numbers, a width and a fill character, and to internal adjustment. -/
example : ({ flags := { base := .oct, adjust := .internal }, fill := '*', width := 20 } : OStream).putPacket ⟨0x10FA0000, 0, 0, 0⟩
    = { flags := { base := .oct, adjust := .internal }, fill := '0', width := 0, out := "10fa0000".toList } := by decide +kernel

/-- C61: the text of a packet written on a stream with `std::left` can be the text of another packet: a jitter reduction clock
message with timestamp 0x1234 is written as `10123400` and read back as a system message. -/
theorem C61_left_other_packet :
    (({ flags := { adjust := .left } } : OStream).putPacket ⟨0x00101234, 0, 0, 0⟩).out = "10123400".toList ∧
    readPacket { rest := "10123400".toList } {} = ({ rest := [], eof := true }, ⟨0x10123400, 0, 0, 0⟩) := by
  constructor <;> decide +kernel

/-- C61: `showbase` and `uppercase` change the text. -/
theorem C61_showbase_uppercase :
    (({ flags := { showbase := true } } : OStream).putPacket ⟨0x20903C40, 0, 0, 0⟩).out = "0x20903c40".toList ∧
    (({ flags := { uppercase := true } } : OStream).putPacket ⟨0x20903C40, 0, 0, 0⟩).out = "20903C40".toList := by
  constructor <;> decide +kernel

/-- C61: on a stream that skips white space, which is the default, reading is what C04 is about. -/
theorem C61_read_skipws (f : FmtFlags) (s : IStream) (p : Packet) (h : f.skipws = true) :
    readPacketF f s p = ((readPacket s p).1, f, (readPacket s p).2) := by
  have hw : ∀ s t, readWordF true s t = readWord s t := fun s t => by
    unfold readWordF readWord
    simp only [if_true]
    cases s.rest.dropWhile isSpaceC <;> rfl
  have hws : ∀ k s p w, readWordsF true s p w k = readWords s p w k := by
    intro k
    induction k with
    | zero => intros; rfl
    | succ k ih =>
      intro s p w
      simp only [readWordsF, readWords, hw, ih]
  unfold readPacketF readPacket
  simp only [h, hw, hws]

/-- C61: on a stream that does not skip white space no packet of more than one word can be read back. -/
theorem C61_noskipws (f : FmtFlags) (p target : Packet) (rest : List Char) (h : f.skipws = false) (hp : 1 < p.size) :
    (readPacketF f { rest := writePacket p ++ rest } target).1.fail = true := by
  have hw : ∃ r, writePacket p ++ rest = hexPadded p.w0 ++ (' ' :: r) := by
    have hb := p.size_bounds
    have : p.size = 2 ∨ p.size = 3 ∨ p.size = 4 := by omega
    rcases this with h | h | h
    · exact ⟨(hexPadded p.w1 ++ rest), by rw [writePacket_size2 p h]; simp only [List.append_assoc, List.cons_append]⟩
    · exact ⟨(hexPadded p.w1 ++ ' ' :: (hexPadded p.w2 ++ rest)), by rw [writePacket_size3 p h]; simp only [List.append_assoc, List.cons_append]⟩
    · exact ⟨(hexPadded p.w1 ++ ' ' :: (hexPadded p.w2 ++ ' ' :: (hexPadded p.w3 ++ rest))), by rw [writePacket_size4 p h]; simp only [List.append_assoc, List.cons_append]⟩
  obtain ⟨r, hr⟩ := hw
  have hfirst : ∀ t, readWordF false { rest := hexPadded p.w0 ++ (' ' :: r) } t = ({ rest := ' ' :: r }, p.w0) := by
    intro t
    have hrd := readHex_hexPadded (' ' :: r) p.w0 (by intro c hc; simp at hc; subst hc; decide)
    obtain ⟨c, cs, hc, -⟩ := hexPadded_cons p.w0
    have hcons : hexPadded p.w0 ++ (' ' :: r) = c :: (cs ++ (' ' :: r)) := by rw [hc]; rfl
    unfold readWordF
    simp only [IStream.good, Bool.not_false, Bool.and_self, if_true, Bool.false_eq_true, if_false]
    rw [hcons] at hrd ⊢
    exact hrd
  have hsize : ({ target with w0 := p.w0 } : Packet).size = p.size := Packet.size_congr rfl
  obtain ⟨k, hk⟩ : ∃ k, p.size - 1 = k + 1 := ⟨p.size - 2, by omega⟩
  unfold readPacketF
  simp only [h, hr, hfirst, good_mk, if_true, hsize, hk]
  have hd : readDigits 0 0 (' ' :: r) = (0, 0, ' ' :: r) := by
    rw [readDigits_stop _ _ _ (by intro c hc; simp at hc; subst hc; decide)]
  have hx : readHex (' ' :: r) = ({ rest := ' ' :: r, fail := true }, 0) := by
    simp [readHex, skipSign, skipBase, hd]
  simp [readWordsF, readWordF, IStream.good, hx]

/-- C61: the hypotheses of `C61_noskipws` hold for a MIDI 2 note on message and a stream with `std::noskipws`. -/
example : (1 < ({ w0 := 0x40903C00, w1 := 0x80000000 } : Packet).size) ∧ ({ skipws := false } : FmtFlags).skipws = false := by
  decide

end Midi

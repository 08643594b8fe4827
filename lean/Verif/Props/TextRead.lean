import Verif.Props.TextFormat
import Verif.Spec.Text

/-!
# Property C61: which texts can be read back
-/

namespace Midi
open OStream

/-- A word written by a stream with these flags is read back as the same word: it is 0, or it is written with its zeros behind the
prefix (`std::internal`), or no zeros are needed where they do harm. Eight digits fill the field, six if there is a
prefix `0x`. -/
def Legible (f : FmtFlags) (v : Word) : Prop :=
  v = 0 ∨
    match f.adjust with
    | .internal => True
    | .left => (if f.showbase then 0x100000 else 0x10000000) ≤ v.toNat
    | _ => f.showbase = true → 0x100000 ≤ v.toNat

instance (f : FmtFlags) (v : Word) : Decidable (Legible f v) := by
  unfold Legible
  cases f.adjust <;> dsimp only <;> infer_instance

/-! ## Helper lemmas -/

theorem hexVal_upper : ∀ d, d < 16 → hexVal (Nat.digitChar d).toUpper = some d := by decide

theorem isSpace_of_hexVal {c : Char} (h : hexVal c ≠ none) : isSpaceC c = false := by
  cases hs : isSpaceC c
  · rfl
  · exact absurd (hexVal_space hs) h

theorem digits_hexVal (f : FmtFlags) (v : Word) : ∀ c ∈ digits { f with base := .hex } v, hexVal c ≠ none := by
  intro c hc
  rw [digits_hex] at hc
  split at hc
  · obtain ⟨a, ha, rfl⟩ := List.mem_map.1 hc
    obtain ⟨d, hd, rfl⟩ := mem_hexDigits ha
    rw [hexVal_upper d hd]; simp
  · obtain ⟨d, hd, rfl⟩ := mem_hexDigits hc
    rw [hexVal_digitChar d hd]; simp

theorem readDigits_upper (l r : List Char) (h : ∀ c ∈ l, ∃ d, d < 16 ∧ c = Nat.digitChar d) (n acc : Nat) :
    readDigits n acc (l.map Char.toUpper ++ r) = readDigits n acc (l ++ r) := by
  induction l generalizing n acc with
  | nil => rfl
  | cons c l ih =>
    obtain ⟨d, hd, rfl⟩ := h c (by simp)
    simp only [List.map_cons, List.cons_append, readDigits, hexVal_upper d hd, hexVal_digitChar d hd]
    exact ih (fun c hc => h c (by simp [hc])) _ _

theorem readDigits_digits (f : FmtFlags) (v : Word) (n acc : Nat) (r : List Char) :
    readDigits n acc (digits { f with base := .hex } v ++ r) =
      readDigits (n + (hexDigits v).length) (acc * 16 ^ (hexDigits v).length + v.toNat) r := by
  rw [digits_hex]
  split
  · rw [readDigits_upper _ _ fun c hc => mem_hexDigits hc]
    exact readDigits_toDigits _ _ _ _
  · exact readDigits_toDigits _ _ _ _

theorem length_hexDigits_pos (v : Word) : 0 < (hexDigits v).length := List.length_pos_iff.2 Nat.toDigits_ne_nil

theorem hexDigits_lt (v : Word) (k : Nat) (h : 0 < k) : (hexDigits v).length ≤ k ↔ v.toNat < 16 ^ k :=
  Nat.length_toDigits_le_iff (by omega) h

theorem shift_bound (v : Word) (k : Nat) (h : (hexDigits v).length + k ≤ 8) : v.toNat * 16 ^ k < 2 ^ 32 := by
  have h1 := (hexDigits_lt v (hexDigits v).length (length_hexDigits_pos v)).1 (Nat.le_refl _)
  calc v.toNat * 16 ^ k < 16 ^ (hexDigits v).length * 16 ^ k := Nat.mul_lt_mul_of_pos_right h1 (Nat.pow_pos (by omega))
    _ = 16 ^ ((hexDigits v).length + k) := (Nat.pow_add ..).symm
    _ ≤ 16 ^ 8 := Nat.pow_le_pow_right (by omega) h
    _ = 2 ^ 32 := by decide

theorem shift_eq (v : Word) (k : Nat) (h : (hexDigits v).length + k ≤ 8) : BitVec.ofNat 32 (v.toNat * 16 ^ k) = v ↔ v = 0 ∨ k = 0 := by
  have hb := shift_bound v k h
  constructor
  · intro e
    have e' := congrArg BitVec.toNat e
    rw [BitVec.toNat_ofNat, Nat.mod_eq_of_lt hb] at e'
    rcases Nat.eq_zero_or_pos k with hk | hk
    · exact Or.inr hk
    · left
      have hp : 16 ≤ 16 ^ k := by
        calc 16 = 16 ^ 1 := by decide
          _ ≤ 16 ^ k := Nat.pow_le_pow_right (by omega) hk
      have : v.toNat * 16 ≤ v.toNat * 16 ^ k := Nat.mul_le_mul_left _ hp
      exact BitVec.eq_of_toNat_eq (by simp; omega)
  · rintro (rfl | rfl) <;> simp

theorem skipBase_x (c : Char) (h : c = 'x' ∨ c = 'X') (cs : List Char) : skipBase ('0' :: c :: cs) = cs := by
  rcases h with rfl | rfl <;> rfl

/-- Reading a number with prefix. -/
theorem readHex_prefix (c : Char) (hc : c = 'x' ∨ c = 'X') (cs r : List Char) (n v : Nat) (hrd : readDigits 0 0 cs = (n, v, r))
    (hn : n ≠ 0) (hv : v < 2 ^ 32) :
    readHex ('0' :: c :: cs) = ({ rest := r, eof := r.isEmpty, fail := false }, BitVec.ofNat 32 v) := by
  have h1 : skipSign ('0' :: c :: cs) = (false, '0' :: c :: cs) := skipSign_hex '0' _ (by decide)
  unfold readHex
  rw [h1]
  simp only [skipBase_x c hc, hrd, if_neg hn, if_pos hv]
  rfl

theorem prefix_eq (f : FmtFlags) (v : Word) (h : ¬(f.showbase = true → v = 0)) :
    ∃ c, (c = 'x' ∨ c = 'X') ∧ basePrefix { f with base := .hex } v = ['0', c] := by
  unfold basePrefix
  simp only
  rw [if_pos (by simpa using h)]
  cases f.uppercase
  · exact ⟨'x', Or.inl rfl, rfl⟩
  · exact ⟨'X', Or.inr rfl, rfl⟩

theorem first_not_space (f : FmtFlags) (v : Word) : ∃ c cs, wordText f v = c :: cs ∧ isSpaceC c = false := by
  have hne : wordText f v ≠ [] := by
    have hd : digits { f with base := .hex } v ≠ [] := by
      intro h
      have := length_digits f v
      rw [h] at this
      have := length_hexDigits_pos v
      simp at *
      omega
    rw [wordText_eq]
    split <;> simp [hd]
  obtain ⟨c, cs, h⟩ := List.exists_cons_of_ne_nil hne
  refine ⟨c, cs, h, ?_⟩
  have hall : ∀ c ∈ wordText f v, isSpaceC c = false := by
    have hp : ∀ c ∈ basePrefix { f with base := .hex } v, isSpaceC c = false := by
      by_cases hx : f.showbase = true → v = 0
      · rw [prefix_plain f v hx]; simp
      · obtain ⟨c, hc, e⟩ := prefix_eq f v hx
        rw [e]
        rcases hc with rfl | rfl <;> decide
    have hd : ∀ c ∈ digits { f with base := .hex } v, isSpaceC c = false := fun c hc => isSpace_of_hexVal (digits_hexVal f v c hc)
    have hz : ∀ k, ∀ c ∈ List.replicate k '0', isSpaceC c = false := by
      intro k c hc
      rw [List.mem_replicate] at hc
      rw [hc.2]; decide
    intro c hc
    rw [wordText_eq] at hc
    split at hc <;> simp only [List.mem_append] at hc <;> rcases hc with (hc | hc) | hc <;>
      first | exact hp c hc | exact hd c hc | exact hz _ c hc
  exact hall c (by rw [h]; simp)

theorem readHex_wordText (f : FmtFlags) (v : Word) (r : List Char) (hr : ∀ c ∈ r.head?, hexVal c = none) :
    (Legible f v → readHex (wordText f v ++ r) = ({ rest := r, eof := r.isEmpty, fail := false }, v)) ∧
    (¬ Legible f v → (readHex (wordText f v ++ r)).2 ≠ v) := by
  have hl := length_hexDigits_le v
  have hl0 := length_hexDigits_pos v
  have hstop : ∀ n acc, readDigits n acc r = (n, acc, r) := fun n acc => readDigits_stop n acc r hr
  have hzhex : ∀ k, ∀ c ∈ List.replicate k '0', hexVal c ≠ none := by
    intro k c hc
    rw [List.mem_replicate] at hc
    rw [hc.2]; decide
  have hv32 : v.toNat < 2 ^ 32 := v.isLt
  -- a text that reads as the word followed by zeros
  have key : ∀ k, (hexDigits v).length + k ≤ 8 →
      readHex (wordText f v ++ r) = ({ rest := r, eof := r.isEmpty, fail := false }, BitVec.ofNat 32 (v.toNat * 16 ^ k)) →
      (Legible f v ↔ v = 0 ∨ k = 0) →
      (Legible f v → readHex (wordText f v ++ r) = ({ rest := r, eof := r.isEmpty, fail := false }, v)) ∧
      (¬ Legible f v → (readHex (wordText f v ++ r)).2 ≠ v) := by
    intro k hk e hiff
    rw [e, hiff, ← shift_eq v k hk]
    exact ⟨fun h => by rw [h], fun h => h⟩
  by_cases hx : f.showbase = true → v = 0
  · -- without prefix
    by_cases hL : f.adjust = .left
    · have h28 : (hexDigits v).length ≤ 7 ↔ v.toNat < 0x10000000 := hexDigits_lt v 7 (by decide)
      refine key (8 - (hexDigits v).length) (by omega) ?_ ?_
      · rw [wordText_noprefix f v hx, if_pos hL, length_digits]
        refine readHex_digits _ _ 8 _ ?_ ?_ ?_ (by decide) (shift_bound v _ (by omega))
        · intro c hc
          rcases List.mem_append.1 hc with hc | hc
          · exact digits_hexVal f v c hc
          · exact hzhex _ c hc
        · simp [length_digits]; omega
        · rw [List.append_assoc, readDigits_digits, readDigits_replicate, hstop]
          simp; omega
      · unfold Legible
        rw [hL]
        dsimp only
        by_cases hv : v = 0
        · simp [hv]
        · have hsb : f.showbase = false := by
            cases h : f.showbase
            · rfl
            · exact absurd (hx h) hv
          simp only [hv, hsb, Bool.false_eq_true, if_false, false_or]
          omega
    · refine key 0 (by omega) ?_ ?_
      · rw [wordText_noprefix f v hx, if_neg hL, length_digits]
        refine readHex_digits _ _ 8 _ ?_ ?_ ?_ (by decide) (shift_bound v _ (by omega))
        · intro c hc
          rcases List.mem_append.1 hc with hc | hc
          · exact hzhex _ c hc
          · exact digits_hexVal f v c hc
        · simp [length_digits]; omega
        · rw [List.append_assoc, readDigits_replicate, readDigits_digits, hstop]
          simp; omega
      · unfold Legible
        refine ⟨fun _ => Or.inr rfl, fun _ => ?_⟩
        by_cases hv : v = 0
        · exact Or.inl hv
        · right
          split
          · trivial
          · exact absurd ‹_› hL
          · intro h; exact absurd (hx h) hv
  · -- with prefix
    obtain ⟨c, hc, hp⟩ := prefix_eq f v hx
    have hsb : f.showbase = true := by
      by_contra h
      exact hx fun h' => absurd h' h
    have hv0 : v ≠ 0 := fun h => hx fun _ => h
    have h20 : (hexDigits v).length ≤ 5 ↔ v.toNat < 0x100000 := hexDigits_lt v 5 (by decide)
    have hpad : 8 - ((basePrefix { f with base := .hex } v).length + (digits { f with base := .hex } v).length) =
        6 - (hexDigits v).length := by
      rw [hp, length_digits]; simp only [List.length_cons, List.length_nil]; omega
    have hw := wordText_eq f v
    rw [hpad, hp] at hw
    have hright : wordText f v = List.replicate (6 - (hexDigits v).length) '0' ++ ['0', c] ++ digits { f with base := .hex } v →
        (Legible f v ↔ 0x100000 ≤ v.toNat) →
        (Legible f v → readHex (wordText f v ++ r) = ({ rest := r, eof := r.isEmpty, fail := false }, v)) ∧
        (¬ Legible f v → (readHex (wordText f v ++ r)).2 ≠ v) := by
      intro hw hleg
      by_cases hk : 6 - (hexDigits v).length = 0
      · refine key 0 (by omega) ?_ (by rw [hleg]; simp only [or_true, iff_true]; omega)
        rw [hw, hk]
        refine readHex_prefix c hc _ _ (hexDigits v).length _ ?_ (by omega) (shift_bound v _ (by omega))
        show readDigits 0 0 (digits { f with base := .hex } v ++ r) = _
        rw [readDigits_digits, hstop]
        simp
      · have hn : ¬ Legible f v := by rw [hleg]; omega
        refine ⟨fun h => absurd h hn, fun _ => ?_⟩
        obtain ⟨k, hk'⟩ : ∃ k, 6 - (hexDigits v).length = k + 1 := ⟨5 - (hexDigits v).length, by omega⟩
        have ht : wordText f v ++ r = List.replicate (k + 2) '0' ++ (c :: (digits { f with base := .hex } v ++ r)) := by
          rw [hw, hk', List.replicate_succ' (n := k + 1)]
          simp
        have hcx : hexVal c = none := by rcases hc with rfl | rfl <;> decide
        have := readHex_digits (List.replicate (k + 2) '0') (c :: (digits { f with base := .hex } v ++ r)) (k + 2) 0 (hzhex _)
          (by simp) (by rw [readDigits_replicate, readDigits_stop _ _ _ (by simpa using hcx)]; simp) (by omega) (by decide)
        rw [ht, this]
        exact fun h => hv0 h.symm
    cases ha : f.adjust with
    | left =>
      rw [ha] at hw
      dsimp only at hw
      refine key (6 - (hexDigits v).length) (by omega) ?_ ?_
      · rw [hw]
        refine readHex_prefix c hc _ _ ((hexDigits v).length + (6 - (hexDigits v).length)) _ ?_ (by omega) (shift_bound v _ (by omega))
        show readDigits 0 0 ((digits { f with base := .hex } v ++ List.replicate (6 - (hexDigits v).length) '0') ++ r) = _
        rw [List.append_assoc, readDigits_digits, readDigits_replicate, hstop]
        simp
      · unfold Legible
        rw [ha]
        dsimp only
        simp only [hv0, hsb, if_true, false_or]
        omega
    | internal =>
      rw [ha] at hw
      dsimp only at hw
      refine key 0 (by omega) ?_ ?_
      · rw [hw]
        refine readHex_prefix c hc _ _ (6 - (hexDigits v).length + (hexDigits v).length) _ ?_ (by omega) (shift_bound v _ (by omega))
        show readDigits 0 0 ((List.replicate (6 - (hexDigits v).length) '0' ++ digits { f with base := .hex } v) ++ r) = _
        rw [List.append_assoc, readDigits_replicate, readDigits_digits, hstop]
        simp
      · unfold Legible
        rw [ha]
        simp
    | none =>
      rw [ha] at hw
      exact hright hw (by unfold Legible; rw [ha]; simp only [hv0, hsb, false_or, forall_const])
    | right =>
      rw [ha] at hw
      exact hright hw (by unfold Legible; rw [ha]; simp only [hv0, hsb, false_or, forall_const])

theorem readWord_wordText (f : FmtFlags) (v t : Word) (ws r : List Char) (hws : ∀ c ∈ ws, isSpaceC c = true) :
    readWord { rest := ws ++ (wordText f v ++ r) } t = readHex (wordText f v ++ r) := by
  obtain ⟨c, cs, hc, hsp⟩ := first_not_space f v
  have hdrop : (ws ++ (wordText f v ++ r)).dropWhile isSpaceC = c :: (cs ++ r) := by
    rw [List.dropWhile_append_of_pos hws, hc]
    simp [hsp]
  unfold readWord
  simp only [IStream.good, Bool.not_false, Bool.and_self, if_true, hdrop]
  rw [hc]
  rfl

theorem readWords_before (s : IStream) (q : Packet) (w k i : Nat) (hw : w + k ≤ 4) (hi : i < w) :
    (readWords s q w k).2.word i = q.word i := by
  induction k generalizing s q w with
  | zero => rfl
  | succ k ih =>
    unfold readWords
    dsimp only
    have hs : (q.setWord w (readWord s (q.word w)).2).word i = q.word i :=
      Packet.word_setWord_ne q w i (by omega) (by omega) (by omega) _
    split
    · rw [ih _ _ (w + 1) (by omega) (by omega), hs]
    · exact hs

/-- The words `w, w + 1, ..` of a packet as text, each with a blank before it. -/
def moreText (f : FmtFlags) (p : Packet) (w : Nat) : Nat → List Char
  | 0 => []
  | k + 1 => ' ' :: (wordText f (p.word w) ++ moreText f p (w + 1) k)

theorem wordsText_succ (f : FmtFlags) (p : Packet) (k : Nat) : wordsText f p (k + 1) = wordText f (p.word 0) ++ moreText f p 1 k := by
  have more_snoc : ∀ k w, moreText f p w (k + 1) = moreText f p w k ++ (' ' :: wordText f (p.word (w + k))) := by
    intro k
    induction k with
    | zero => intro w; simp [moreText]
    | succ k ih =>
      intro w
      rw [moreText, ih, moreText, show w + 1 + k = w + (k + 1) by omega]
      simp
  induction k with
  | zero => simp [wordsText, moreText]
  | succ k ih =>
    have hw : wordsText f p (k + 1 + 1) = wordsText f p (k + 1) ++ (' ' :: wordText f (p.word (k + 1))) := by
      unfold wordsText
      rw [List.range_succ, List.flatMap_append]
      simp
    rw [hw, ih, more_snoc, Nat.add_comm 1 k]
    simp

theorem readWords_moreText (f : FmtFlags) (p : Packet) (rest : List Char) (hrest : ∀ c ∈ rest.head?, hexVal c = none)
    (q : Packet) (w k : Nat) (hw : w + k ≤ 4) (hk : 0 < k) :
    ((∀ i, w ≤ i → i < w + k → Legible f (p.word i)) →
      (readWords { rest := moreText f p w k ++ rest } q w k).1 = { rest := rest, eof := rest.isEmpty, fail := false } ∧
      ∀ i, w ≤ i → i < w + k → (readWords { rest := moreText f p w k ++ rest } q w k).2.word i = p.word i) ∧
    ((∀ i, w ≤ i → i < w + k → (readWords { rest := moreText f p w k ++ rest } q w k).2.word i = p.word i) →
      ∀ i, w ≤ i → i < w + k → Legible f (p.word i)) := by
  induction k generalizing q w with
  | zero => omega
  | succ k ih =>
    have hhead : ∀ c ∈ (moreText f p (w + 1) k ++ rest).head?, hexVal c = none := by
      cases k with
      | zero => exact hrest
      | succ k => intro c hc; simp [moreText] at hc; subst hc; decide
    have hread : ∀ t, readWord { rest := moreText f p w (k + 1) ++ rest } t =
        readHex (wordText f (p.word w) ++ (moreText f p (w + 1) k ++ rest)) := by
      intro t
      have := readWord_wordText f (p.word w) t [' '] (moreText f p (w + 1) k ++ rest) (by simp [isSpaceC])
      rw [← this, moreText]
      simp
    obtain ⟨h1, h2⟩ := readHex_wordText f (p.word w) (moreText f p (w + 1) k ++ rest) hhead
    unfold readWords
    dsimp only
    rw [hread]
    by_cases hleg : Legible f (p.word w)
    · rw [h1 hleg]
      dsimp only
      have hsame : (q.setWord w (p.word w)).word w = p.word w := Packet.word_setWord_same q w (by omega) _
      cases k with
      | zero =>
        have hbr : ∀ b : Bool, (if b then readWords { rest := rest, eof := rest.isEmpty, fail := false } (q.setWord w (p.word w)) (w + 1) 0
            else ({ rest := rest, eof := rest.isEmpty, fail := false }, q.setWord w (p.word w))) =
            ({ rest := rest, eof := rest.isEmpty, fail := false }, q.setWord w (p.word w)) := by
          intro b; cases b <;> rfl
        have hmt : moreText f p (w + 1) 0 ++ rest = rest := rfl
        rw [hmt, hbr]
        refine ⟨fun _ => ⟨rfl, fun i hi1 hi2 => ?_⟩, fun _ i hi1 hi2 => ?_⟩
        · obtain rfl : i = w := by omega
          exact hsame
        · obtain rfl : i = w := by omega
          exact hleg
      | succ k =>
        have hgood : (⟨moreText f p (w + 1) (k + 1) ++ rest, (moreText f p (w + 1) (k + 1) ++ rest).isEmpty, false⟩ : IStream) = { rest := moreText f p (w + 1) (k + 1) ++ rest } := by simp [moreText]
        rw [hgood, good_mk, if_pos rfl]
        obtain ⟨ih1, ih2⟩ := ih (q.setWord w (p.word w)) (w + 1) (by omega) (by omega)
        have hfirst := readWords_before { rest := moreText f p (w + 1) (k + 1) ++ rest } (q.setWord w (p.word w)) (w + 1) (k + 1) w
          (by omega) (by omega)
        rw [hsame] at hfirst
        constructor
        · intro hall
          obtain ⟨e1, e2⟩ := ih1 fun i hi1 hi2 => hall i (by omega) (by omega)
          refine ⟨e1, fun i hi1 hi2 => ?_⟩
          by_cases hiw : i = w
          · rw [hiw]; exact hfirst
          · exact e2 i (by omega) (by omega)
        · intro hall i hi1 hi2
          by_cases hiw : i = w
          · rw [hiw]; exact hleg
          · exact ih2 (fun j hj1 hj2 => hall j (by omega) (by omega)) i (by omega) (by omega)
    · refine ⟨fun hall => absurd (hall w (by omega) (by omega)) hleg, fun hall => ?_⟩
      exfalso
      apply h2 hleg
      have hw' := hall w (by omega) (by omega)
      have hsame := Packet.word_setWord_same q w (by omega) (readHex (wordText f (p.word w) ++ (moreText f p (w + 1) k ++ rest))).2
      split at hw'
      · rw [readWords_before _ _ (w + 1) k w (by omega) (by omega), hsame] at hw'
        exact hw'
      · rw [hsame] at hw'
        exact hw'

/-- C61, exactly: the text a stream in any formatting state writes for a packet is read back as an equal packet, with nothing else
consumed, if and only if all words of the packet are `Legible`; otherwise another packet is read or nothing. -/
theorem C61_read_back_exactly (s : OStream) (hs : s.out = []) (p target : Packet) (rest : List Char)
    (h : ∀ c ∈ rest.head?, Spec.whiteSpace c = true) :
    (p.eqv (readPacket { rest := (s.putPacket p).out ++ rest } target).2 = true ↔ ∀ w, w < p.size → Legible s.flags (p.word w)) ∧
    ((∀ w, w < p.size → Legible s.flags (p.word w)) →
      (readPacket { rest := (s.putPacket p).out ++ rest } target).1 = { rest := rest, eof := rest.isEmpty, fail := false }) := by
  have hrest : ∀ c ∈ rest.head?, hexVal c = none := fun c hc => hexVal_space (h c hc)
  rw [putPacket_eq, hs, List.nil_append]
  dsimp only
  generalize s.flags = f
  have hb := p.size_bounds
  obtain ⟨k, hk⟩ : ∃ k, p.size = k + 1 := ⟨p.size - 1, by omega⟩
  rw [Packet.eqv_iff, hk, wordsText_succ, List.append_assoc]
  have hhead : ∀ c ∈ (moreText f p 1 k ++ rest).head?, hexVal c = none := by
    cases k with
    | zero => exact hrest
    | succ k => intro c hc; simp [moreText] at hc; subst hc; decide
  have hread := readWord_wordText f (p.word 0) target.w0 [] (moreText f p 1 k ++ rest) (by simp)
  rw [List.nil_append] at hread
  obtain ⟨h1, h2⟩ := readHex_wordText f (p.word 0) (moreText f p 1 k ++ rest) hhead
  unfold readPacket
  dsimp only
  rw [hread]
  by_cases hleg : Legible f (p.word 0)
  · rw [h1 hleg]
    dsimp only
    have hsize : ({ target with w0 := p.word 0 } : Packet).size = k + 1 := by rw [← hk]; exact Packet.size_congr rfl
    rw [hsize, Nat.add_sub_cancel]
    cases k with
    | zero =>
      have hbr : ∀ b : Bool, (if b then readWords { rest := rest, eof := rest.isEmpty, fail := false } { target with w0 := p.word 0 } 1 0
          else ({ rest := rest, eof := rest.isEmpty, fail := false }, { target with w0 := p.word 0 })) =
          ({ rest := rest, eof := rest.isEmpty, fail := false }, { target with w0 := p.word 0 }) := by
        intro b; cases b <;> rfl
      have hmt : moreText f p 1 0 ++ rest = rest := rfl
      rw [hmt, hbr]
      refine ⟨⟨fun _ i hi => ?_, fun _ i hi => ?_⟩, fun _ => rfl⟩
      · obtain rfl : i = 0 := by omega
        exact hleg
      · obtain rfl : i = 0 := by omega
        rfl
    | succ k =>
      have hgood : (⟨moreText f p 1 (k + 1) ++ rest, (moreText f p 1 (k + 1) ++ rest).isEmpty, false⟩ : IStream) = { rest := moreText f p 1 (k + 1) ++ rest } := by simp [moreText]
      rw [hgood, good_mk, if_pos rfl]
      obtain ⟨e1, e2⟩ := readWords_moreText f p rest hrest { target with w0 := p.word 0 } 1 (k + 1) (by omega) (by omega)
      have hfirst := readWords_before { rest := moreText f p 1 (k + 1) ++ rest } { target with w0 := p.word 0 } 1 (k + 1) 0
        (by omega) (by omega)
      refine ⟨⟨fun hall i hi => ?_, fun hall i hi => ?_⟩, fun hall => ?_⟩
      · by_cases hi0 : i = 0
        · rw [hi0]; exact hleg
        · exact e2 (fun j hj1 hj2 => (hall j (by omega)).symm) i (by omega) (by omega)
      · by_cases hi0 : i = 0
        · rw [hi0]; exact hfirst.symm
        · exact ((e1 fun j hj1 hj2 => hall j (by omega)).2 i (by omega) (by omega)).symm
      · exact (e1 fun j hj1 hj2 => hall j (by omega)).1
  · refine ⟨⟨fun hall => ?_, fun hall => absurd (hall 0 (by omega)) hleg⟩, fun hall => absurd (hall 0 (by omega)) hleg⟩
    exfalso
    apply h2 hleg
    have h0 := hall 0 (by omega)
    split at h0
    · rw [readWords_before _ _ 1 _ 0 (by have := Packet.size_bounds { target with w0 := (readHex (wordText f (p.word 0) ++
        (moreText f p 1 k ++ rest))).2 }; omega) (by omega)] at h0
      exact h0.symm
    · exact h0.symm

example := C61_read_back_exactly { fill := '*', width := 5 } rfl ⟨0x43903C00, 0xFFFF0000, 2, 3⟩ ⟨0x23903C64, 4, 5, 6⟩ "\n20".toList (by decide)

/-- C61: whatever the case of the digits, and without `showbase` and `left`, every packet can be read back; likewise with `internal`. -/
theorem C61_read_back_partial (s : OStream) (hs : s.out = []) (p target : Packet) (rest : List Char)
    (h : ∀ c ∈ rest.head?, Spec.whiteSpace c = true)
    (hf : s.flags.adjust = .internal ∨ (s.flags.adjust ≠ .left ∧ s.flags.showbase = false)) :
    p.eqv (readPacket { rest := (s.putPacket p).out ++ rest } target).2 = true ∧
    (readPacket { rest := (s.putPacket p).out ++ rest } target).1 = { rest := rest, eof := rest.isEmpty, fail := false } := by
  obtain ⟨h1, h2⟩ := C61_read_back_exactly s hs p target rest h
  have hall : ∀ w, w < p.size → Legible s.flags (p.word w) := by
    intro w _
    right
    rcases hf with hf | ⟨hf1, hf2⟩
    · rw [hf]; trivial
    · split
      · trivial
      · exact absurd ‹_› hf1
      · intro h; rw [hf2] at h; cases h
  exact ⟨h1.2 hall, h2 hall⟩

/-- C61: with `showbase`, the second word of a MIDI 2 note on message with velocity 1 is `00x10000`: it is read as 0, and the message
read has velocity 0. -/
theorem C61_showbase_other_packet :
    (({ flags := { showbase := true } } : OStream).putPacket ⟨0x40903C00, 0x00010000, 0, 0⟩).out = "0x40903c00 00x10000".toList ∧
    readPacket { rest := "0x40903c00 00x10000".toList } {} = ({ rest := "x10000".toList }, ⟨0x40903C00, 0, 0, 0⟩) := by
  constructor <;> decide +kernel

/-- C61: a packet and flags that meet the condition of `C61_read_back_exactly`, and ones that do not. -/
example : (∀ w, w < (⟨0x40903C00, 0xC0000000, 0, 0⟩ : Packet).size →
      Legible { showbase := true, uppercase := true } ((⟨0x40903C00, 0xC0000000, 0, 0⟩ : Packet).word w)) ∧
    ¬ Legible { showbase := true } 0x00010000 ∧ Legible { showbase := true, adjust := .internal } 0x00010000 ∧
    ¬ Legible { adjust := .left } 0x00010000 := by decide +kernel

end Midi

import Verif.Props.Text
import Verif.Props.TextRead
import Verif.Spec.WordStream

/-!
# Property C83: reading packets from any text of numbers
-/

namespace Midi
open Spec (Numeral numerals)

/-- The words of a packet, as many as `size()` says. -/
def Packet.words (p : Packet) : List Word := (List.range p.size).map p.word

/-- The numbers fit into a word, the separators are white space, and not empty between two numbers; nor behind the last one if the text
goes on with something else (`g`). -/
def Written (g : List Char) : List (Numeral × List Char) → Prop
  | [] => True
  | (n, sep) :: rest => n.Valid ∧ (∀ c ∈ sep, Spec.whiteSpace c = true) ∧ (rest ≠ [] ∨ g ≠ [] → sep ≠ []) ∧ Written g rest

/-- Nothing follows the last number. -/
def EndsBare (l : List (Numeral × List Char)) : Prop := ∃ x, l.getLast? = some x ∧ x.2 = []

/-! ## Helper lemmas -/

theorem hexVal_digitText : ∀ d : Fin 16 × Bool, hexVal (Numeral.digitText d) = some d.1.val := by
  have h : ∀ (b : Bool) (d : Fin 16), hexVal (Numeral.digitText (d, b)) = some d.val := by decide
  exact fun d => h d.2 d.1

theorem readDigits_numeral (ds : List (Fin 16 × Bool)) (n acc : Nat) (r : List Char) :
    readDigits n acc (ds.map Numeral.digitText ++ r) =
      readDigits (n + ds.length) (ds.foldl (fun acc d => 16 * acc + d.1.val) acc) r := by
  induction ds generalizing n acc with
  | nil => rfl
  | cons d ds ih =>
    simp only [List.map_cons, List.cons_append, readDigits, hexVal_digitText, List.foldl_cons, List.length_cons]
    rw [ih, Nat.mul_comm acc 16]
    congr 1
    omega

theorem skipBase_plain (c : Char) (cs : List Char) (h : ∀ d ∈ cs.head?, d ≠ 'x' ∧ d ≠ 'X') : skipBase (c :: cs) = c :: cs := by
  unfold skipBase
  split
  · rename_i e; cases e; exact absurd rfl (h 'x' (by simp)).1
  · rename_i e; cases e; exact absurd rfl (h 'X' (by simp)).2
  · rfl

theorem hex_not_x {c : Char} (h : hexVal c ≠ none) : c ≠ 'x' ∧ c ≠ 'X' := by
  constructor <;> rintro rfl <;> exact h (by decide)

theorem space_not_x {c : Char} (h : isSpaceC c = true) : c ≠ 'x' ∧ c ≠ 'X' := by
  constructor <;> rintro rfl <;> revert h <;> decide

theorem skipBase_digits (n : Numeral) (hn : n.digits ≠ []) (r : List Char)
    (hr : n.digits.length = 1 → ∀ c ∈ r.head?, c ≠ 'x' ∧ c ≠ 'X') :
    skipBase ((match n.base with | none => [] | some false => ['0', 'x'] | some true => ['0', 'X']) ++
      (n.digits.map Numeral.digitText ++ r)) = n.digits.map Numeral.digitText ++ r := by
  obtain ⟨sign, base, ds⟩ := n
  obtain ⟨d, ds, rfl⟩ := List.exists_cons_of_ne_nil hn
  cases base with
  | some b => cases b <;> rfl
  | none =>
    show skipBase (Numeral.digitText d :: (ds.map Numeral.digitText ++ r)) = _
    rw [skipBase_plain]
    · rfl
    · intro c hc
      cases ds with
      | nil => exact hr rfl c (by simpa using hc)
      | cons e es =>
        simp at hc
        subst hc
        exact hex_not_x (by rw [hexVal_digitText]; simp)

theorem numeral_first (n : Numeral) (hn : n.digits ≠ []) : ∃ c cs, n.text = c :: cs ∧ isSpaceC c = false := by
  obtain ⟨sign, base, ds⟩ := n
  obtain ⟨d, ds, rfl⟩ := List.exists_cons_of_ne_nil hn
  rcases sign with _ | _ | _
  · rcases base with _ | _ | _
    · exact ⟨_, _, rfl, isSpace_of_hexVal (by rw [hexVal_digitText]; simp)⟩
    · exact ⟨_, _, rfl, by decide⟩
    · exact ⟨_, _, rfl, by decide⟩
  · rcases base with _ | _ | _ <;> exact ⟨_, _, rfl, by decide⟩
  · rcases base with _ | _ | _ <;> exact ⟨_, _, rfl, by decide⟩

theorem skipSign_numeral (n : Numeral) (hn : n.digits ≠ []) (r : List Char) :
    skipSign (n.text ++ r) = (n.sign == some true, (match n.base with | none => [] | some false => ['0', 'x'] | some true => ['0', 'X']) ++
      (n.digits.map Numeral.digitText ++ r)) := by
  obtain ⟨sign, base, ds⟩ := n
  obtain ⟨d, ds, rfl⟩ := List.exists_cons_of_ne_nil hn
  rcases sign with _ | _ | _
  · rcases base with _ | _ | _
    · exact skipSign_hex _ _ (by rw [hexVal_digitText]; simp)
    · exact skipSign_hex '0' _ (by decide)
    · exact skipSign_hex '0' _ (by decide)
  · rcases base with _ | _ | _ <;> rfl
  · rcases base with _ | _ | _ <;> rfl

theorem readDigits_number (n : Numeral) (r : List Char) (hr : ∀ c ∈ r.head?, hexVal c = none) :
    readDigits 0 0 (n.digits.map Numeral.digitText ++ r) = (n.digits.length, n.value, r) := by
  rw [readDigits_numeral, readDigits_stop _ _ _ hr]
  simp [Numeral.value]

theorem readHex_numeral (n : Numeral) (hn : n.Valid) (r : List Char) (hr : ∀ c ∈ r.head?, isSpaceC c = true) :
    readHex (n.text ++ r) = ({ rest := r, eof := r.isEmpty, fail := false }, n.word) := by
  have hlen : n.digits.length ≠ 0 := fun h => hn.1 (List.length_eq_zero_iff.1 h)
  have hd := readDigits_number n r (fun c hc => hexVal_space (hr c hc))
  unfold readHex
  rw [skipSign_numeral n hn.1 r]
  simp only [skipBase_digits n hn.1 r (fun _ c hc => space_not_x (hr c hc)), hd, if_neg hlen, if_pos hn.2]
  unfold Numeral.word
  by_cases h : n.sign = some true
  · simp only [h, BEq.rfl, if_true]
    rw [BitVec.ofInt_neg, BitVec.ofInt_natCast]
  · simp only [h, beq_eq_false_iff_ne.2 h, Bool.false_eq_true, if_false]
    rw [BitVec.ofInt_natCast]

theorem readWord_readHex (lead : List Char) (hlead : ∀ c ∈ lead, isSpaceC c = true) (c : Char) (cs : List Char) (hc : isSpaceC c = false)
    (t : Word) : readWord { rest := lead ++ c :: cs } t = readHex (c :: cs) := by
  have hdrop : (lead ++ c :: cs).dropWhile isSpaceC = c :: cs := by
    rw [List.dropWhile_append_of_pos hlead]
    simp [hc]
  unfold readWord
  simp only [IStream.good, Bool.not_false, Bool.and_self, if_true, hdrop]

theorem readWord_numeral (lead : List Char) (hlead : ∀ c ∈ lead, isSpaceC c = true) (n : Numeral) (hn : n.Valid) (r : List Char)
    (hr : ∀ c ∈ r.head?, isSpaceC c = true) (t : Word) :
    readWord { rest := lead ++ (n.text ++ r) } t = ({ rest := r, eof := r.isEmpty, fail := false }, n.word) := by
  obtain ⟨c, cs, hc, hsp⟩ := numeral_first n hn.1
  rw [← readHex_numeral n hn r hr, hc]
  exact readWord_readHex lead hlead c (cs ++ r) hsp t

theorem hexVal_mem (c : Char) (h : c ∉ "0123456789abcdefABCDEF".toList) : hexVal c = none := by
  have key : ∀ lo hi : Nat, (∀ n, lo ≤ n → n ≤ hi → Char.ofNat n ∈ "0123456789abcdefABCDEF".toList) → ¬ (lo ≤ c.toNat ∧ c.toNat ≤ hi) := by
    intro lo hi hall hc
    have := hall c.toNat hc.1 hc.2
    rw [Char.ofNat_toNat] at this
    exact h this
  have k1 := key 48 57 (by intro n h1 h2; interval_cases n <;> decide)
  have k2 := key 97 102 (by intro n h1 h2; interval_cases n <;> decide)
  have k3 := key 65 70 (by intro n h1 h2; interval_cases n <;> decide)
  unfold hexVal
  rw [if_neg, if_neg, if_neg]
  · exact fun h => k3 ⟨h.1, h.2⟩
  · exact fun h => k2 ⟨h.1, h.2⟩
  · exact fun h => k1 ⟨h.1, h.2⟩

theorem not_mayBegin {c : Char} (h : c ∉ Spec.mayBegin) : isSpaceC c = false ∧ hexVal c = none ∧ c ≠ '+' ∧ c ≠ '-' := by
  have ne : ∀ d ∈ Spec.mayBegin, c ≠ d := fun d hd e => h (e ▸ hd)
  refine ⟨?_, hexVal_mem c fun hc => h ?_, ne '+' (by decide), ne '-' (by decide)⟩
  · simp only [isSpaceC, ne ' ' (by decide), ne '\n' (by decide), ne '\t' (by decide), ne '\r' (by decide), ne '\x0b' (by decide),
      ne '\x0c' (by decide), decide_false, Bool.or_self]
  · have sub : ∀ d ∈ "0123456789abcdefABCDEF".toList, d ∈ Spec.mayBegin := by decide
    exact sub c hc

theorem skipSign_other {c : Char} (h1 : c ≠ '+') (h2 : c ≠ '-') (cs : List Char) : skipSign (c :: cs) = (false, c :: cs) := by
  unfold skipSign
  split
  · rename_i e; cases e; exact absurd rfl h1
  · rename_i e; cases e; exact absurd rfl h2
  · rfl

theorem skipBase_other {c : Char} (h : hexVal c = none) (cs : List Char) : skipBase (c :: cs) = c :: cs := by
  unfold skipBase
  split
  · rename_i e; cases e; exact absurd h (by decide)
  · rename_i e; cases e; exact absurd h (by decide)
  · rfl

theorem readHex_noNumber (g : List Char) (h : Spec.NoNumber g) : (readHex g).1.fail = true ∧ ∃ c cs, g = c :: cs ∧ isSpaceC c = false := by
  cases h with
  | other c cs h =>
    obtain ⟨h1, h2, h3, h4⟩ := not_mayBegin h
    refine ⟨?_, c, cs, rfl, h1⟩
    unfold readHex
    rw [skipSign_other h3 h4]
    simp only [skipBase_other h2]
    rw [readDigits_stop _ _ _ (by simpa using h2)]
    rfl
  | sign s c cs h h' =>
    obtain ⟨h1, h2, h3, h4⟩ := not_mayBegin h'
    rcases h with rfl | rfl
    all_goals
      refine ⟨?_, _, _, rfl, by decide⟩
      unfold readHex
      simp only [skipSign, skipBase_other h2]
      rw [readDigits_stop _ _ _ (by simpa using h2)]
      rfl
  | large n cs h h' =>
    have hd : 1 < n.digits.length := by
      rcases hds : n.digits with _ | ⟨d, _ | ⟨e, es⟩⟩
      · unfold Numeral.value at h; rw [hds] at h; simp at h
      · unfold Numeral.value at h; rw [hds] at h; simp at h; have := d.1.isLt; omega
      · simp
    have hne : n.digits ≠ [] := by intro e; rw [e] at hd; simp at hd
    constructor
    · unfold readHex
      rw [skipSign_numeral n hne]
      simp only [skipBase_digits n hne cs (fun e => by omega), readDigits_number n cs (fun c hc => hexVal_mem c (h' c hc)),
        if_neg (show n.digits.length ≠ 0 by omega), if_neg (show ¬ n.value < 2 ^ 32 by omega)]
    · obtain ⟨c, cs', hc, hsp⟩ := numeral_first n hne
      exact ⟨c, cs' ++ cs, by rw [hc]; rfl, hsp⟩

theorem readWord_bad (g : List Char) (hg : g = [] ∨ Spec.NoNumber g) (lead : List Char) (hlead : ∀ c ∈ lead, isSpaceC c = true) (b : Bool)
    (hb : b = (lead ++ g).isEmpty ∨ b = false) (t : Word) : (readWord { rest := lead ++ g, eof := b } t).1.fail = true := by
  rcases hg with rfl | hg
  · have hd : (lead ++ []).dropWhile isSpaceC = [] := List.dropWhile_append_of_pos (p := isSpaceC) (l₁ := lead) (l₂ := []) hlead
    cases b <;> simp only [readWord, IStream.good, hd, Bool.not_false, Bool.not_true, Bool.and_self, Bool.and_true, if_true,
      Bool.false_eq_true, if_false]
  · obtain ⟨h, c, cs, rfl, hc⟩ := readHex_noNumber g hg
    obtain rfl : b = false := by
      rcases hb with hb | hb
      · rw [hb]; simp
      · exact hb
    rw [readWord_readHex lead hlead c cs hc]
    exact h

/-- The state of the stream before the separator `lead`, the numbers `l` and the rest `g`. -/
abbrev before (g lead : List Char) (l : List (Numeral × List Char)) : IStream :=
  { rest := lead ++ (numerals l ++ g), eof := (lead ++ (numerals l ++ g)).isEmpty, fail := false }

theorem numerals_head (g lead : List Char) (hlead : ∀ c ∈ lead, isSpaceC c = true) (l : List (Numeral × List Char))
    (h : l ≠ [] ∨ g ≠ [] → lead ≠ []) : ∀ c ∈ (lead ++ (numerals l ++ g)).head?, isSpaceC c = true := by
  intro c hc
  cases lead with
  | nil =>
    obtain rfl : l = [] := by
      by_contra hl; exact h (Or.inl hl) rfl
    obtain rfl : g = [] := by
      by_contra hl; exact h (Or.inr hl) rfl
    simp [numerals] at hc
  | cons d ds => simp at hc; subst hc; exact hlead _ (by simp)

/-- The rest of a packet is read only from a good stream. -/
def readMore (s : IStream) (p : Packet) (w k : Nat) : IStream × Packet := if s.good then readWords s p w k else (s, p)

theorem readMore_zero (s : IStream) (p : Packet) (w : Nat) : readMore s p w 0 = (s, p) := by
  unfold readMore readWords; split <;> rfl

theorem readMore_succ (s : IStream) (p : Packet) (w k : Nat) (h : s.good = true) :
    readMore s p w (k + 1) = readMore (readWord s (p.word w)).1 (p.setWord w (readWord s (p.word w)).2) (w + 1) k := by
  rw [readMore, if_pos h]
  rfl

theorem readPacket_more (s : IStream) (p : Packet) :
    readPacket s p = readMore (readWord s p.w0).1 { p with w0 := (readWord s p.w0).2 } 1
      (({ p with w0 := (readWord s p.w0).2 } : Packet).size - 1) := rfl

theorem readMore_failed (s : IStream) (p : Packet) (w k : Nat) (h : s.fail = true) : readMore s p w k = (s, p) := by
  rw [readMore, if_neg (by simp [IStream.good, h])]

theorem readMore_complete (g : List Char) (l : List (Numeral × List Char)) (hl : Written g l) (lead : List Char)
    (hlead : ∀ c ∈ lead, isSpaceC c = true) (hne : l ≠ [] ∨ g ≠ [] → lead ≠ []) (q : Packet) (w k : Nat) (hw : w + k ≤ 4) (hk : k ≤ l.length) :
    ∃ lead', (∀ c ∈ lead', isSpaceC c = true) ∧ (l.drop k ≠ [] ∨ g ≠ [] → lead' ≠ []) ∧
      (readMore (before g lead l) q w k).1 = before g lead' (l.drop k) ∧
      (∀ i, i < k → (readMore (before g lead l) q w k).2.word (w + i) = ((l.map (·.1.word)).getD i 0)) ∧
      (∀ i, i < 4 → i < w ∨ w + k ≤ i → (readMore (before g lead l) q w k).2.word i = q.word i) := by
  induction k generalizing l lead q w with
  | zero =>
    rw [readMore_zero]
    exact ⟨lead, hlead, hne, rfl, fun i hi => absurd hi (by omega), fun i _ _ => rfl⟩
  | succ k ih =>
    obtain ⟨⟨n, sep⟩, l, rfl⟩ := List.exists_cons_of_ne_nil (l := l) (by rintro rfl; simp at hk)
    obtain ⟨hn, hsep, hs, hl⟩ := hl
    have hlne := hne (Or.inl (by simp))
    have hst : before g lead ((n, sep) :: l) = { rest := lead ++ (n.text ++ (sep ++ (numerals l ++ g))) } := by
      obtain ⟨c, cs, rfl⟩ := List.exists_cons_of_ne_nil hlne
      simp [before, numerals]
    rw [hst, readMore_succ _ _ _ _ rfl, readWord_numeral lead hlead n hn _ (numerals_head g sep hsep l hs)]
    obtain ⟨lead', h1, h2, h3, h4, h5⟩ := ih l hl sep hsep hs (q.setWord w n.word) (w + 1) (by omega) (by simpa using hk)
    refine ⟨lead', h1, h2, h3, fun i hi => ?_, fun i hi hi' => ?_⟩
    · cases i with
      | zero =>
        rw [Nat.add_zero]
        show (readMore (before g sep l) (q.setWord w n.word) (w + 1) k).2.word w = _
        rw [h5 w (by omega) (by omega), Packet.word_setWord_same _ _ (by omega)]
        rfl
      | succ i =>
        have := h4 i (by omega)
        rw [show w + (i + 1) = w + 1 + i by omega]
        exact this
    · show (readMore (before g sep l) (q.setWord w n.word) (w + 1) k).2.word i = _
      rw [h5 i hi (by omega), Packet.word_setWord_ne _ _ _ (by omega) hi (by omega)]

theorem readMore_incomplete (g : List Char) (hg : g = [] ∨ Spec.NoNumber g) (l : List (Numeral × List Char)) (hl : Written g l) (lead : List Char)
    (hlead : ∀ c ∈ lead, isSpaceC c = true) (hne : l ≠ [] ∨ g ≠ [] → lead ≠ []) (q : Packet) (w k : Nat) (hw : w + k ≤ 4) (hk : l.length < k) :
    ((l = [] ∧ lead = []) ∨ EndsBare l →
      (readMore (before g lead l) q w k).1 = before g [] [] ∧
      (∀ i, i < l.length → (readMore (before g lead l) q w k).2.word (w + i) = ((l.map (·.1.word)).getD i 0)) ∧
      (∀ i, i < 4 → i < w ∨ w + l.length ≤ i → (readMore (before g lead l) q w k).2.word i = q.word i)) ∧
    (¬ ((l = [] ∧ lead = []) ∨ EndsBare l) → (readMore (before g lead l) q w k).1.fail = true) := by
  induction k generalizing l lead q w with
  | zero => omega
  | succ k ih =>
    cases l with
    | nil =>
      constructor
      · rintro (⟨_, rfl⟩ | ⟨x, hx, _⟩)
        · obtain rfl : g = [] := by
            by_contra hg'; exact hne (Or.inr hg') rfl
          exact ⟨rfl, fun i hi => absurd hi (by simp), fun i _ _ => rfl⟩
        · simp at hx
      · intro hnb
        have hlne : lead ≠ [] := fun h => hnb (Or.inl ⟨rfl, h⟩)
        have hgood : (before g lead []).good = true := by
          obtain ⟨c, cs, rfl⟩ := List.exists_cons_of_ne_nil hlne
          simp [numerals, IStream.good]
        have hf : (readWord (before g lead []) (q.word w)).1.fail = true :=
          readWord_bad g hg lead hlead _ (Or.inl rfl) _
        rw [readMore_succ _ _ _ _ hgood, readMore_failed _ _ _ _ hf]
        exact hf
    | cons x l =>
      obtain ⟨n, sep⟩ := x
      obtain ⟨hn, hsep, hs, hl⟩ := hl
      have hlne := hne (Or.inl (by simp))
      have hst : before g lead ((n, sep) :: l) = { rest := lead ++ (n.text ++ (sep ++ (numerals l ++ g))) } := by
        obtain ⟨c, cs, rfl⟩ := List.exists_cons_of_ne_nil hlne
        simp [before, numerals]
      have hcase : ((n, sep) :: l = [] ∧ lead = []) ∨ EndsBare ((n, sep) :: l) ↔ (l = [] ∧ sep = []) ∨ EndsBare l := by
        cases l with
        | nil => simp [EndsBare]
        | cons y l => simp [EndsBare]
      rw [hst, readMore_succ _ _ _ _ rfl, readWord_numeral lead hlead n hn _ (numerals_head g sep hsep l hs), hcase]
      obtain ⟨ih1, ih2⟩ := ih l hl sep hsep hs (q.setWord w n.word) (w + 1) (by omega) (by simpa using hk)
      refine ⟨fun hb => ?_, fun hb => ih2 hb⟩
      obtain ⟨h3, h4, h5⟩ := ih1 hb
      have hlen : l.length < k := by simpa using hk
      refine ⟨h3, fun i hi => ?_, fun i hi hi' => ?_⟩
      · cases i with
        | zero =>
          rw [Nat.add_zero]
          show (readMore (before g sep l) (q.setWord w n.word) (w + 1) k).2.word w = _
          rw [h5 w (by omega) (by omega), Packet.word_setWord_same _ _ (by omega)]
          rfl
        | succ i =>
          have := h4 i (by simpa using hi)
          rw [show w + (i + 1) = w + 1 + i by omega]
          exact this
      · simp only [List.length_cons] at hi'
        show (readMore (before g sep l) (q.setWord w n.word) (w + 1) k).2.word i = _
        rw [h5 i hi (by omega), Packet.word_setWord_ne _ _ _ (by omega) hi (by omega)]

theorem size_wordsFrom (p : Packet) : p.size = Spec.wordsFrom p.w0 := by
  have h : ∀ t, t < 16 → Packet.sizeLookup.getD t 0 = Spec.wordsOfType t := by decide
  have ht : p.type.toNat = p.w0.toNat / 2 ^ 28 := by
    have := p.w0.isLt
    simp [Packet.type, Nat.shiftRight_eq_div_pow]
    rw [show (15 : Nat) = 2 ^ 4 - 1 by decide, Nat.and_two_pow_sub_one_eq_mod]
    omega
  unfold Packet.size Spec.wordsFrom
  rw [ht]
  exact h _ (by have := p.w0.isLt; omega)

theorem endsBare_drop (x : Numeral × List Char) (l : List (Numeral × List Char)) (k : Nat) (h : l.drop k ≠ []) :
    EndsBare (l.drop k) ↔ EndsBare (x :: l) := by
  have hk : k < l.length := by
    by_contra hk
    exact h (List.drop_eq_nil_iff.2 (by omega))
  have : (l.drop k).getLast? = (x :: l).getLast? := by
    rw [List.getLast?_drop, if_neg (by omega), List.getLast?_cons_of_ne_nil (by rintro rfl; simp at hk)]
  unfold EndsBare
  rw [this]

theorem written_drop (g : List Char) (l : List (Numeral × List Char)) (k : Nat) (h : Written g l) : Written g (l.drop k) := by
  induction k generalizing l with
  | zero => exact h
  | succ k ih =>
    cases l with
    | nil => exact h
    | cons x l => exact ih l h.2.2.2

theorem bare_nil (g : List Char) (l : List (Numeral × List Char)) (h : Written g l) (hb : EndsBare l) : g = [] := by
  induction l with
  | nil => obtain ⟨x, hx, _⟩ := hb; simp at hx
  | cons x l ih =>
    cases l with
    | nil =>
      obtain ⟨y, hy, he⟩ := hb
      simp at hy
      subst hy
      by_contra hg
      exact h.2.2.1 (Or.inr hg) he
    | cons y l =>
      refine ih h.2.2.2 ?_
      obtain ⟨z, hz, he⟩ := hb
      exact ⟨z, by simpa using hz, he⟩

/-- The words the numbers stand for. -/
def wordsOf (l : List (Numeral × List Char)) : List Word := l.map (·.1.word)

theorem words_ext (p : Packet) (ws : List Word) (h : ws.length = p.size) (he : ∀ i, i < p.size → p.word i = ws.getD i 0) :
    p.words = ws := by
  apply List.ext_getElem
  · simp [Packet.words, h]
  · intro i h1 h2
    simp only [Packet.words, List.length_map, List.length_range] at h1
    simp only [Packet.words, List.getElem_map, List.getElem_range]
    rw [he i h1, List.getD_eq_getElem?_getD, List.getElem?_eq_getElem h2]
    rfl

theorem readLoop_numerals (g : List Char) (hg : g = [] ∨ Spec.NoNumber g) (fuel : Nat) (l : List (Numeral × List Char)) (hl : Written g l) (lead : List Char)
    (hlead : ∀ c ∈ lead, isSpaceC c = true) (target : Packet) (b : Bool) (hb : b = (lead ++ (numerals l ++ g)).isEmpty ∨ b = false)
    (hf : l.length < fuel) :
    ∃ ms rest ps, Spec.Cut (wordsOf l) ms rest ∧ ps.map Packet.words = ms ∧
      (rest = [] ∨ ¬ EndsBare l → readLoop fuel { rest := lead ++ (numerals l ++ g), eof := b } target = ps) ∧
      (rest ≠ [] → EndsBare l → ∃ q, readLoop fuel { rest := lead ++ (numerals l ++ g), eof := b } target = ps ++ [q] ∧
        (∀ i, i < rest.length → q.word i = rest.getD i 0) ∧
        (∀ i, i < 4 → rest.length ≤ i → q.word i = (ps.getLast?.getD target).word i)) := by
  induction fuel generalizing l lead target b with
  | zero => omega
  | succ fuel ih =>
    cases l with
    | nil =>
      refine ⟨[], [], [], ⟨rfl, by simp, by intro w t h; cases h⟩, rfl, fun _ => ?_, fun h => absurd rfl h⟩
      have hend : (readPacket { rest := lead ++ (numerals [] ++ g), eof := b } target).1.fail = true := by
        have := readWord_bad g hg lead hlead b hb target.w0
        rw [show lead ++ (numerals [] ++ g) = lead ++ g from rfl, readPacket_more, readMore_failed _ _ _ _ this]
        exact this
      rw [readLoop]
      simp only [hend, if_true]
    | cons x l =>
      obtain ⟨n, sep⟩ := x
      obtain ⟨hn, hsep, hs, hl⟩ := hl
      have hst : ({ rest := lead ++ (numerals ((n, sep) :: l) ++ g), eof := b } : IStream) = { rest := lead ++ (n.text ++ (sep ++ (numerals l ++ g))) } := by
        obtain ⟨c, cs, hc, _⟩ := numeral_first n hn.1
        have hbf : b = false := by
          rcases hb with hb | hb
          · rw [hb]; simp [numerals, hc]
          · exact hb
        simp [hbf, numerals]
      have hread : readPacket { rest := lead ++ (numerals ((n, sep) :: l) ++ g), eof := b } target =
          readMore (before g sep l) { target with w0 := n.word } 1 (Spec.wordsFrom n.word - 1) := by
        rw [hst, readPacket_more, readWord_numeral lead hlead n hn _ (numerals_head g sep hsep l hs), size_wordsFrom]
      have hsz : ∀ q : Packet, q.w0 = n.word → q.size = Spec.wordsFrom n.word := fun q h => by rw [size_wordsFrom, h]
      have hbd := Packet.size_bounds { target with w0 := n.word }
      rw [hsz _ rfl] at hbd
      obtain ⟨k, hk⟩ : ∃ k, Spec.wordsFrom n.word = k + 1 := ⟨Spec.wordsFrom n.word - 1, by omega⟩
      rw [hk, Nat.add_sub_cancel] at hread
      by_cases hle : k ≤ l.length
      · obtain ⟨lead', h1, h2, h3, h4, h5⟩ := readMore_complete g l hl sep hsep hs { target with w0 := n.word } 1 k (by omega) hle
        rw [← hread] at h3 h4 h5
        rcases hx : readPacket { rest := lead ++ (numerals ((n, sep) :: l) ++ g), eof := b } target with ⟨s', q⟩
        rw [hx] at h3 h4 h5
        dsimp only at h3 h4 h5
        have hq0 : q.w0 = n.word := h5 0 (by omega) (by omega)
        have hqs : q.size = k + 1 := by rw [hsz q hq0, hk]
        obtain ⟨ms, rest, ps, hcut, hps, he1, he2⟩ := ih (l.drop k) (written_drop g l k hl) lead' h1 q (lead' ++ (numerals (l.drop k) ++ g)).isEmpty
          (Or.inl rfl) (by simp at hf ⊢; omega)
        have hloop : readLoop (fuel + 1) { rest := lead ++ (numerals ((n, sep) :: l) ++ g), eof := b } target =
            q :: readLoop fuel (before g lead' (l.drop k)) q := by
          rw [readLoop, hx]
          dsimp only
          rw [h3]
          rfl
        have hqw : q.words = n.word :: (wordsOf l).take k := by
          apply words_ext
          · simp [wordsOf, hqs, hle]
          · intro i hi
            rw [hqs] at hi
            cases i with
            | zero => exact hq0
            | succ i =>
              rw [Nat.add_comm i 1, h4 i (by omega), Nat.add_comm 1 i]
              rw [List.getD_cons_succ, List.getD_eq_getElem?_getD, List.getD_eq_getElem?_getD, List.getElem?_take_of_lt (by omega)]
              rfl
        have hrest : rest ≠ [] → l.drop k ≠ [] := by
          intro hr hd
          apply hr
          have := hcut.1
          rw [hd] at this
          exact (List.append_eq_nil_iff.1 this.symm).2
        refine ⟨q.words :: ms, rest, q :: ps, ⟨?_, ?_, hcut.2.2⟩, by rw [List.map_cons, hps], fun h => ?_, fun h hbare => ?_⟩
        · rw [List.flatten_cons, List.append_assoc, ← hcut.1, hqw]
          show n.word :: wordsOf l = n.word :: ((wordsOf l).take k ++ wordsOf (l.drop k))
          rw [show wordsOf (l.drop k) = (wordsOf l).drop k from List.map_drop, List.take_append_drop]
        · intro m hm
          rcases List.mem_cons.1 hm with rfl | hm
          · exact ⟨n.word, (wordsOf l).take k, hqw, by simp [Packet.words, hqs, hk]⟩
          · exact hcut.2.1 m hm
        · rw [hloop, he1]
          by_cases hr : rest = []
          · exact Or.inl hr
          · right
            rw [endsBare_drop (n, sep) l k (hrest hr)]
            exact h.resolve_left hr
        · obtain ⟨q', e1, e2, e3⟩ := he2 h ((endsBare_drop (n, sep) l k (hrest h)).2 hbare)
          refine ⟨q', by rw [hloop, e1]; rfl, e2, fun i hi hi' => ?_⟩
          rw [e3 i hi hi']
          cases ps with
          | nil => rfl
          | cons a ps => rw [List.getLast?_cons_cons]
                         obtain ⟨z, hz⟩ : ∃ z, (a :: ps).getLast? = some z := ⟨_, List.getLast?_eq_some_getLast (by simp)⟩
                         rw [hz]; rfl
      · obtain ⟨h1, h2⟩ := readMore_incomplete g hg l hl sep hsep hs { target with w0 := n.word } 1 k (by omega) (by omega)
        have hcase : (l = [] ∧ sep = []) ∨ EndsBare l ↔ EndsBare ((n, sep) :: l) := by
          cases l with
          | nil => simp [EndsBare]
          | cons y l => simp [EndsBare]
        rw [hcase, ← hread] at h1 h2
        refine ⟨[], wordsOf ((n, sep) :: l), [], ⟨rfl, by simp, ?_⟩, rfl, fun h => ?_, fun _ hbare => ?_⟩
        · intro w t h
          have : w = n.word := by simp [wordsOf] at h; exact h.1.symm
          rw [this, hk]
          simp [wordsOf]; omega
        · have := h2 (h.resolve_left (by simp [wordsOf]))
          rw [readLoop]
          simp only [this, if_true]
        · obtain ⟨e1, e2, e3⟩ := h1 hbare
          rcases hx : readPacket { rest := lead ++ (numerals ((n, sep) :: l) ++ g), eof := b } target with ⟨s', q⟩
          rw [hx] at e1 e2 e3
          dsimp only at e1 e2 e3
          refine ⟨q, ?_, fun i hi => ?_, fun i hi hi' => ?_⟩
          · rw [readLoop, hx]
            dsimp only
            rw [e1]
            obtain rfl := bare_nil g ((n, sep) :: l) ⟨hn, hsep, hs, hl⟩ hbare
            show q :: readLoop fuel (before [] [] []) q = [q]
            cases fuel with
            | zero => rfl
            | succ fuel => rfl
          · cases i with
            | zero => exact e3 0 (by omega) (by omega)
            | succ i =>
              rw [Nat.add_comm i 1, e2 i (by simpa [wordsOf] using hi), Nat.add_comm 1 i]
              rfl
          · simp only [wordsOf, List.length_map, List.length_cons] at hi'
            rw [e3 i hi (by omega)]
            have : i ≠ 0 := by omega
            match i, this with
            | 1, _ => rfl
            | 2, _ => rfl
            | k + 3, _ => rfl

/-! ## The property -/

/-- There is only one way to cut a sequence of words into messages: what `Cut` relates the words to is determined by them. -/
theorem C83_one_cut (words : List Word) (ms ms' : List (List Word)) (rest rest' : List Word) (h : Spec.Cut words ms rest)
    (h' : Spec.Cut words ms' rest') : ms = ms' ∧ rest = rest' := by
  induction ms generalizing words ms' with
  | nil =>
    cases ms' with
    | nil => exact ⟨rfl, by rw [← List.nil_append rest, ← List.nil_append rest']; exact h.1.symm.trans h'.1⟩
    | cons m ms' =>
      obtain ⟨w, t, rfl, hlen⟩ := h'.2.1 m (by simp)
      have e : rest = (w :: t) ++ (ms'.flatten ++ rest') := by
        have := h.1.symm.trans h'.1
        simpa using this
      have := h.2.2 w (t ++ (ms'.flatten ++ rest')) e
      rw [e, List.length_append] at this
      omega
  | cons m ms ih =>
    obtain ⟨w, t, rfl, hlen⟩ := h.2.1 m (by simp)
    cases ms' with
    | nil =>
      have e : rest' = (w :: t) ++ (ms.flatten ++ rest) := by
        have := h'.1.symm.trans h.1
        simpa using this
      have := h'.2.2 w (t ++ (ms.flatten ++ rest)) e
      rw [e, List.length_append] at this
      omega
    | cons m' ms' =>
      obtain ⟨w', t', rfl, hlen'⟩ := h'.2.1 m' (by simp)
      have e : (w :: t) ++ (ms.flatten ++ rest) = (w' :: t') ++ (ms'.flatten ++ rest') := by
        have := h.1.symm.trans h'.1
        simpa using this
      have hw : w = w' := (List.cons.inj e).1
      obtain ⟨e1, e2⟩ := List.append_inj e (by rw [hlen, hlen', hw])
      obtain ⟨h1, h2⟩ := ih _ ms' ⟨rfl, fun m hm => h.2.1 m (by simp [hm]), h.2.2⟩ ⟨e2, fun m hm => h'.2.1 m (by simp [hm]), h'.2.2⟩
      exact ⟨by rw [e1, h1], h2⟩

example := C83_one_cut [0x20903C64, 0x40903E00, 1, 0x40903F00] [[0x20903C64], [0x40903E00, 1]] [[0x20903C64], [0x40903E00, 1]] [0x40903F00] [0x40903F00]
  ⟨rfl, by simp [Spec.WholeMessage, Spec.wordsFrom, Spec.wordsOfType], by simp [Spec.Incomplete, Spec.wordsFrom, Spec.wordsOfType]⟩
  ⟨rfl, by simp [Spec.WholeMessage, Spec.wordsFrom, Spec.wordsOfType], by simp [Spec.Incomplete, Spec.wordsFrom, Spec.wordsOfType]⟩

/-- C83: a text of hexadecimal numbers, however they are written, separated by any white space, with white space (an end of line, say) at
the end: `while (in >> p)` reads exactly the complete messages in the sequence of words, in order; the words of an incomplete message
at the end are dropped. The same holds if the text goes on with something that is not a number (`g`): reading stops there.

Partial: this does not hold of all texts without white space at the end, see `C83_exactly`. -/
theorem C83_reads_messages_partial (l : List (Numeral × List Char)) (g : List Char) (hg : g = [] ∨ Spec.NoNumber g) (hl : Written g l) (hend : ¬ EndsBare l)
    (lead : List Char) (hlead : ∀ c ∈ lead, Spec.whiteSpace c = true) (target : Packet) (fuel : Nat) (hf : l.length < fuel) :
    ∃ rest, Spec.Cut (wordsOf l) ((readLoop fuel { rest := lead ++ (numerals l ++ g) } target).map Packet.words) rest := by
  obtain ⟨ms, rest, ps, hcut, hps, h1, _⟩ := readLoop_numerals g hg fuel l hl lead hlead target false (Or.inr rfl) hf
  exact ⟨rest, by rw [h1 (Or.inr hend), hps]; exact hcut⟩

/-- C83, exactly: the messages are read if the words end with a complete message or the text ends with white space. Otherwise one more
packet is delivered for the incomplete message: it has the words which are there, and what the packet variable contained before (that is,
words of the message before it) in place of the missing ones. -/
theorem C83_exactly (l : List (Numeral × List Char)) (g : List Char) (hg : g = [] ∨ Spec.NoNumber g) (hl : Written g l) (lead : List Char)
    (hlead : ∀ c ∈ lead, Spec.whiteSpace c = true) (target : Packet) (fuel : Nat) (hf : l.length < fuel) :
    ∃ ms rest ps, Spec.Cut (wordsOf l) ms rest ∧ ps.map Packet.words = ms ∧
      (rest = [] ∨ ¬ EndsBare l → readLoop fuel { rest := lead ++ (numerals l ++ g) } target = ps) ∧
      (rest ≠ [] → EndsBare l → ∃ q, readLoop fuel { rest := lead ++ (numerals l ++ g) } target = ps ++ [q] ∧ rest.length < q.size ∧
        (∀ i, i < rest.length → q.word i = rest.getD i 0) ∧
        (∀ i, i < 4 → rest.length ≤ i → q.word i = (ps.getLast?.getD target).word i)) := by
  obtain ⟨ms, rest, ps, hcut, hps, h1, h2⟩ := readLoop_numerals g hg fuel l hl lead hlead target false (Or.inr rfl) hf
  refine ⟨ms, rest, ps, hcut, hps, h1, fun hr hb => ?_⟩
  obtain ⟨q, e1, e2, e3⟩ := h2 hr hb
  refine ⟨q, e1, ?_, e2, e3⟩
  obtain ⟨w, t, rfl⟩ := List.exists_cons_of_ne_nil hr
  have hw : q.w0 = w := e2 0 (by simp)
  rw [size_wordsFrom, hw]
  exact hcut.2.2 w t rfl

/-- C83 is false of texts that end with the last digit: a MIDI 2 note on message of two words, cut off after the first one, is read as a
note on message with the second word of the message before it. -/
theorem C83_truncated_message_delivered :
    readLoop 9 { rest := "40903c00 c0000000 40903e00".toList } {} =
      [⟨0x40903C00, 0xC0000000, 0, 0⟩, ⟨0x40903E00, 0xC0000000, 0, 0⟩] ∧
    readLoop 9 { rest := "40903c00 c0000000 40903e00\n".toList } {} = [⟨0x40903C00, 0xC0000000, 0, 0⟩] := by
  constructor <;> decide +kernel

/-- C83: numbers in different styles that meet the hypotheses. -/
def someNumerals : List (Numeral × List Char) :=
  [({ base := some false, digits := [(2, false), (0, false), (9, false), (0, false), (3, false), (12, true), (6, false), (4, false)] }, ['\t']),
   ({ sign := some false, digits := [(4, false), (0, false), (9, false), (0, false), (3, false), (14, false), (0, false), (0, false)] }, ['\n', ' ']),
   ({ sign := some true, base := some true, digits := [(7, false)] }, ['\n'])]

example : numerals someNumerals = "0x20903C64\t+40903e00\n -0X7\n".toList ∧ wordsOf someNumerals = [0x20903C64, 0x40903E00, 0xFFFFFFF9] ∧
    readLoop 9 { rest := numerals someNumerals ++ "hello 20903c00".toList } {} = [⟨0x20903C64, 0, 0, 0⟩, ⟨0x40903E00, 0xFFFFFFF9, 0, 0⟩] := by
  decide +kernel

example : Spec.NoNumber "hello 20903c00".toList ∧ Written "hello 20903c00".toList someNumerals ∧ ¬ EndsBare someNumerals := by
  refine ⟨Spec.NoNumber.other 'h' _ (by decide),
    ⟨by decide, by decide, by decide, by decide, by decide, by decide, by decide, by decide, by decide, trivial⟩, ?_⟩
  rintro ⟨x, hx, h⟩
  simp [someNumerals] at hx
  subst hx
  simp at h

/-- C83: a number that is too large. -/
example : Spec.NoNumber "100000000 20903c00".toList :=
  Spec.NoNumber.large { digits := [(1, false), (0, false), (0, false), (0, false), (0, false), (0, false), (0, false), (0, false), (0, false)] }
    " 20903c00".toList (by decide) (by decide)

end Midi

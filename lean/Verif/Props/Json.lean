import Verif.Model.CapabilityInquiry
import Verif.Lemmas.CI
import Verif.Spec.Json

/-!
# C52: property exchange headers are JSON
-/

namespace Midi.CI
open Spec Spec.Json

theorem string_plain {s : List Byte} (h : s.all plain = true) (r : List Byte) :
    string (s ++ 0x22 :: r) = some (s, r) := by
  induction s with
  | nil => rfl
  | cons c s ih =>
    simp only [List.all_cons, Bool.and_eq_true] at h
    have hc : c ≠ 0x22 := by
      rintro rfl; exact absurd h.1 (by decide)
    rw [List.cons_append]
    unfold string
    rw [if_neg hc, if_pos h.1, ih h.2]
    rfl

theorem digits_append {ds r : List Byte} (hd : ds.all digit = true) (hr : ∀ c, r.head? = some c → digit c = false) :
    digits (ds ++ r) = (ds, r) := by
  induction ds with
  | nil =>
    cases r with
    | nil => rfl
    | cons c r =>
      show digits (c :: r) = _
      unfold digits
      rw [if_neg (by rw [hr c rfl]; decide)]
  | cons d ds ih =>
    simp only [List.all_cons, Bool.and_eq_true] at hd
    rw [List.cons_append]
    unfold digits
    rw [if_pos hd.1, ih hd.2]

theorem isNumberLoop_iff (l : List Byte) : isNumberLoop l = l.all digit := by
  induction l with
  | nil => rfl
  | cons c l ih =>
    have key : ∀ c : Byte, (c < 0x30 ∨ c > 0x39) ↔ digit c = false := by decide +kernel
    unfold isNumberLoop
    rw [List.all_cons, ih]
    by_cases h : c < 0x30 ∨ c > 0x39
    · rw [if_pos h, (key c).1 h]; rfl
    · rw [if_neg h]
      have : digit c = true := by
        cases hd : digit c with
        | true => rfl
        | false => exact absurd ((key c).2 hd) h
      rw [this]; rfl

theorem not_minus {c : Byte} (h : digit c = true) : c ≠ 0x2D := by rintro rfl; exact absurd h (by decide)

/-- What follows a member. -/
def Stops (r : List Byte) : Prop := ∀ c, r.head? = some c → digit c = false

theorem integer_cons (c : Byte) (l : List Byte) : integer (c :: l) =
    if c = 0x2D then (natural l).map fun (n, r) => (-(n : Int), r) else (natural (c :: l)).map fun (n, r) => ((n : Int), r) := by
  unfold integer
  by_cases h : c = 0x2D
  · rw [if_pos (show (c :: l).head? = some 0x2D from congrArg some h), if_pos h]; rfl
  · rw [if_neg (show ¬(c :: l).head? = some 0x2D from fun e => h (Option.some.inj e)), if_neg h]

theorem isNumber_cons (c : Byte) (l : List Byte) :
    isNumber (c :: l) = .ok (if c = 0x2D then isNumberLoop l else isNumberLoop (c :: l)) := rfl

theorem rjsonOptions_cons (k v : List Byte) (os : List (List Byte × List Byte)) (b : Bool) (h : isNumber v = .ok b) :
    rjsonOptions ((k, v) :: os) = (rjsonOptions os).map fun r =>
      0x2C :: 0x22 :: (k ++ 0x22 :: 0x3A :: ((if b then v else 0x22 :: (v ++ [0x22])) ++ r)) := by
  rw [rjsonOptions, h]
  cases rjsonOptions os with
  | error e => rfl
  | ok t =>
    show Except.ok _ = Except.ok _
    refine congrArg Except.ok ?_
    cases b <;>
    · simp only [if_true, Bool.false_eq_true, if_false, List.append_assoc, List.cons_append]
      rfl

theorem natural_append {l : List Byte} {n : Nat} (h : natural l = some (n, [])) {r : List Byte} (hr : Stops r) :
    natural (l ++ r) = some (n, r) := by
  unfold natural at h
  split at h
  · cases h
  · split at h
    · cases h
    · injection h with h
      injection h with h1 h2
      have : ∀ l : List Byte, (digits l).2 = [] → (digits l).1 = l ∧ l.all digit = true := by
        intro l
        induction l with
        | nil => intro _; exact ⟨rfl, rfl⟩
        | cons c l ih =>
          intro h
          unfold digits at h ⊢
          split at h
          · rename_i hc
            rw [if_pos hc]
            obtain ⟨e1, e2⟩ := ih h
            exact ⟨by rw [e1], by simp [hc, e2]⟩
          · cases h
      obtain ⟨e1, e2⟩ := this l h2
      unfold natural
      rw [digits_append e2 hr]
      rename_i a b
      rw [e1] at a b h1
      show (if l = [] then none else if l.head? = some 0x30 ∧ l.length ≠ 1 then none else some (valueOf l, r)) = _
      rw [if_neg a, if_neg b, h1]

theorem integer_append {l : List Byte} {n : Int} (h : integer l = some (n, [])) {r : List Byte} (hr : Stops r) :
    integer (l ++ r) = some (n, r) := by
  cases l with
  | nil => cases h
  | cons c l =>
    rw [List.cons_append]
    rw [integer_cons] at h ⊢
    by_cases hc : c = (0x2D : Byte)
    · rw [if_pos hc] at h ⊢
      rw [Option.map_eq_some_iff] at h
      obtain ⟨⟨k, r'⟩, h1, h2⟩ := h
      injection h2 with h2 h3
      subst h3
      rw [natural_append h1 hr, ← h2]
      rfl
    · rw [if_neg hc] at h ⊢
      rw [Option.map_eq_some_iff] at h
      obtain ⟨⟨k, r'⟩, h1, h2⟩ := h
      injection h2 with h2 h3
      subst h3
      rw [← List.cons_append, natural_append h1 hr, ← h2]
      rfl

/-- An integer consists of a minus sign and digits only. -/
theorem integer_number {c : Byte} {l : List Byte} {n : Int} (h : integer (c :: l) = some (n, [])) :
    isNumber (c :: l) = .ok true ∧ c ≠ 0x22 := by
  have key : ∀ (l : List Byte) (k : Nat), natural l = some (k, []) → l.all digit = true ∧ l ≠ [] := by
    intro l k h
    unfold natural at h
    split at h
    · cases h
    · split at h
      · cases h
      · injection h with h
        injection h with h1 h2
        have : ∀ l : List Byte, (digits l).2 = [] → l.all digit = true := by
          intro l
          induction l with
          | nil => intro _; rfl
          | cons c l ih =>
            intro h
            unfold digits at h
            split at h
            · rename_i hc
              simp [hc, ih h]
            · cases h
        refine ⟨this l h2, ?_⟩
        rintro rfl
        rename_i a _
        exact a rfl
  rw [integer_cons] at h
  rw [isNumber_cons]
  by_cases hc : c = 0x2D
  · rw [if_pos hc, Option.map_eq_some_iff] at h
    obtain ⟨⟨k, r'⟩, h1, h2⟩ := h
    injection h2 with h2 h3
    subst h3
    rw [if_pos hc, isNumberLoop_iff, (key _ _ h1).1]
    exact ⟨rfl, by rw [hc]; decide⟩
  · rw [if_neg hc, Option.map_eq_some_iff] at h
    obtain ⟨⟨k, r'⟩, h1, h2⟩ := h
    injection h2 with h2 h3
    subst h3
    have h4 := (key _ _ h1).1
    rw [if_neg hc, isNumberLoop_iff, h4]
    refine ⟨rfl, ?_⟩
    rintro rfl
    exact absurd h4 (by simp [digit])

/-! ## Decimal numbers -/

theorem digitChar_byte : ∀ d, d < 10 → (BitVec.ofNat 8 (Nat.digitChar d).toNat : Byte) = BitVec.ofNat 8 (0x30 + d) := by
  intro d hd
  have : ∀ d : Fin 10, (BitVec.ofNat 8 (Nat.digitChar d.val).toNat : Byte) = BitVec.ofNat 8 (0x30 + d.val) := by decide
  exact this ⟨d, hd⟩

/-- The bytes of a decimal number. -/
def dec (n : Nat) : List Byte := (Nat.toDigits 10 n).map fun c => BitVec.ofNat 8 c.toNat

theorem dec_small {n : Nat} (h : n < 10) : dec n = [BitVec.ofNat 8 (0x30 + n)] := by
  unfold dec
  rw [Nat.toDigits_of_lt_base h]
  simp only [List.map_cons, List.map_nil]
  rw [digitChar_byte n h]

theorem dec_large {n : Nat} (h : 10 ≤ n) : dec n = dec (n / 10) ++ [BitVec.ofNat 8 (0x30 + n % 10)] := by
  unfold dec
  rw [Nat.toDigits_of_base_le (by decide) h, List.map_append]
  simp only [List.map_cons, List.map_nil]
  rw [digitChar_byte _ (Nat.mod_lt _ (by decide))]

theorem dec_props (n : Nat) : (dec n).all digit = true ∧ dec n ≠ [] ∧ valueOf (dec n) = n ∧
    (n ≠ 0 → (dec n).head? ≠ some 0x30) ∧ (n = 0 → (dec n).length = 1) := by
  have dig : ∀ d, d < 10 → digit (BitVec.ofNat 8 (0x30 + d)) = true := by
    intro d hd
    unfold digit
    rw [BitVec.toNat_ofNat]
    simp only [Bool.and_eq_true, decide_eq_true_eq]
    omega
  have val : ∀ d, d < 10 → (BitVec.ofNat 8 (0x30 + d) : Byte).toNat - 0x30 = d := by
    intro d hd
    rw [BitVec.toNat_ofNat]
    omega
  induction n using Nat.strongRecOn with
  | ind n ih =>
    by_cases h : n < 10
    · rw [dec_small h]
      refine ⟨by simp [dig n h], by simp, ?_, ?_, by intro _; rfl⟩
      · show 10 * 0 + _ = n
        rw [val n h]; omega
      · intro h0 e
        have e : (BitVec.ofNat 8 (0x30 + n) : Byte) = 0x30 := by simpa using e
        have := congrArg BitVec.toNat e
        rw [BitVec.toNat_ofNat, show (0x30 : Byte).toNat = 0x30 from rfl] at this
        omega
    · obtain ⟨i1, i2, i3, i4, -⟩ := ih (n / 10) (by omega)
      have hm := Nat.mod_lt n (show 10 > 0 by decide)
      rw [dec_large (by omega)]
      refine ⟨?_, by simp, ?_, ?_, by omega⟩
      · rw [List.all_append, i1]; simp [dig _ hm]
      · unfold valueOf at i3 ⊢
        rw [List.foldl_append, i3]
        show 10 * (n / 10) + _ = n
        rw [val _ hm]
        omega
      · intro _
        rw [List.head?_append, Option.or_of_isSome (by simpa using i2)]
        exact i4 (by omega)

theorem natural_dec (n : Nat) {r : List Byte} (hr : Stops r) : natural (dec n ++ r) = some (n, r) := by
  obtain ⟨h1, h2, h3, h4, h5⟩ := dec_props n
  unfold natural
  rw [digits_append h1 hr]
  simp only
  rw [if_neg h2, if_neg, h3]
  rintro ⟨h6, h7⟩
  by_cases h0 : n = 0
  · exact h7 (h5 h0)
  · exact h4 h0 h6

theorem integer_decimal (v : Int) {r : List Byte} (hr : Stops r) : integer (toDecimal v ++ r) = some (v, r) := by
  unfold toDecimal integer
  by_cases h : v < 0
  · rw [if_pos h, ← dec]
    simp only [List.cons_append, List.head?_cons, List.tail_cons, if_true]
    rw [natural_dec _ hr]
    simp only [Option.map_some]
    rw [show -(v.natAbs : Int) = v by omega]
  · rw [if_neg h, ← dec]
    rw [if_neg, natural_dec _ hr]
    · simp only [Option.map_some]
      rw [show (v.natAbs : Int) = v by omega]
    · obtain ⟨h1, h2, -⟩ := dec_props v.natAbs
      cases hd : dec v.natAbs with
      | nil => exact absurd hd h2
      | cons c l =>
        rw [hd] at h1
        simp only [List.all_cons, Bool.and_eq_true] at h1
        simp only [List.cons_append, List.head?_cons]
        intro e
        injection e with e
        exact not_minus h1.1 e

theorem value_decimal (v : Int) {r : List Byte} (hr : Stops r) : value (toDecimal v ++ r) = some (.num v, r) := by
  unfold value
  rw [if_neg, integer_decimal v hr]
  · rfl
  · unfold toDecimal
    split
    · simp
    · rw [← dec]
      obtain ⟨h1, h2, -⟩ := dec_props v.natAbs
      cases hd : dec v.natAbs with
      | nil => exact absurd hd h2
      | cons c l =>
        rw [hd] at h1
        simp only [List.all_cons, Bool.and_eq_true] at h1
        simp only [List.cons_append, List.head?_cons]
        intro e
        injection e with e
        rw [e] at h1
        exact absurd h1.1 (by decide)

/-! ## The theorems -/

/-- An option that can be written: key and value consist of characters that need no escape, the value is not empty, and
if it consists of digits with an optional minus sign, it is an integer (in particular, it has no leading zeros). -/
def Spec.OptionOk (o : List Byte × List Byte) : Prop :=
  o.1.all plain = true ∧ o.2.all plain = true ∧ o.2 ≠ [] ∧
    ((if o.2.head? = some 0x2D then o.2.tail else o.2).all digit = true → (integer o.2).map Prod.snd = some [])

instance (o : List Byte × List Byte) : Decidable (Spec.OptionOk o) := inferInstanceAs (Decidable (_ ∧ _))

theorem isNumber_iff {c : Byte} {l : List Byte} :
    isNumber (c :: l) = .ok ((if (c :: l).head? = some 0x2D then (c :: l).tail else c :: l).all digit) := by
  unfold isNumber
  simp only [List.head?_cons, List.tail_cons, Option.some.injEq]
  by_cases h : c = 0x2D
  · rw [if_pos h, if_pos h, isNumberLoop_iff]
  · rw [if_neg h, if_neg h, isNumberLoop_iff]

theorem stops_comma (r : List Byte) : Stops (0x2C :: r) := by
  intro c hc; injection hc with hc; rw [← hc]; rfl
theorem stops_end : Stops [0x7D] := by
  intro c hc; injection hc with hc; rw [← hc]; rfl

/-- One option, as `make_rjson` writes it, reads back. -/
theorem option_text {o : List Byte × List Byte} (h : Spec.OptionOk o) : ∃ t,
    (∀ os, rjsonOptions (o :: os) = (rjsonOptions os).map (fun r => 0x2C :: 0x22 :: (o.1 ++ 0x22 :: 0x3A :: (t ++ r)))) ∧
    ∀ r, Stops r → value (t ++ r) = some (optionValue o.2, r) := by
  obtain ⟨k, v⟩ := o
  obtain ⟨hk, hv, hne, hn⟩ := h
  cases v with
  | nil => exact absurd rfl hne
  | cons c l =>
    simp only at hk hv hn
    have hb := isNumber_iff (c := c) (l := l)
    generalize hB : (if (c :: l).head? = some 0x2D then (c :: l).tail else c :: l).all digit = b at hb hn
    cases b with
    | true =>
      have := hn rfl
      rw [Option.map_eq_some_iff] at this
      obtain ⟨⟨n, r⟩, h1, h2⟩ := this
      simp only at h2
      subst h2
      refine ⟨c :: l, ?_, ?_⟩
      · intro os
        exact rjsonOptions_cons _ _ _ _ hb
      · intro r hr
        have hq := (integer_number h1).2
        unfold value optionValue
        rw [h1, if_neg (by simpa using hq), integer_append h1 hr]
        rfl
    | false =>
      refine ⟨0x22 :: ((c :: l) ++ [0x22]), ?_, ?_⟩
      · intro os
        exact rjsonOptions_cons _ _ _ _ hb
      · intro r hr
        unfold value
        rw [if_pos (by rfl)]
        simp only [List.cons_append, List.tail_cons, List.append_assoc, List.nil_append]
        rw [← List.cons_append, string_plain hv]
        have : optionValue (c :: l) = .str (c :: l) := by
          unfold optionValue
          cases hi : integer (c :: l) with
          | none => rfl
          | some p =>
            obtain ⟨n, r'⟩ := p
            cases r' with
            | cons _ _ => rfl
            | nil =>
              have := (integer_number hi).1
              rw [hb] at this
              injection this with this
              cases this
        rw [this]
        rfl

/-- All options, and the end of the object. -/
theorem options_text {os : List (List Byte × List Byte)} (h : ∀ o ∈ os, Spec.OptionOk o) : ∃ t, rjsonOptions os = .ok t ∧
    Stops (t ++ [0x7D]) ∧
    ∀ (k : List Byte) (val : List Byte) (w : Value) (n : Nat), k.all plain = true →
      (∀ r, Stops r → value (val ++ r) = some (w, r)) → os.length < n →
      members n (0x22 :: (k ++ 0x22 :: 0x3A :: (val ++ (t ++ [0x7D])))) =
        some ((k, w) :: os.map fun o => (o.1, optionValue o.2)) := by
  have head : ∀ (k val t : List Byte) (w : Value) (n : Nat), k.all plain = true →
      value (val ++ (t ++ [0x7D])) = some (w, t ++ [0x7D]) →
      members (n + 1) (0x22 :: (k ++ 0x22 :: 0x3A :: (val ++ (t ++ [0x7D])))) =
        if t ++ [0x7D] = [0x7D] then some [(k, w)]
        else if (t ++ [0x7D]).head? = some 0x2C then (members n (t ++ [0x7D]).tail).map ((k, w) :: ·) else none := by
    intro k val t w n hk hv
    rw [members]
    simp only [List.head?_cons, List.tail_cons, if_true]
    rw [string_plain hk]
    simp only [List.head?_cons, List.tail_cons, if_true]
    simp only [hv]
  induction os with
  | nil =>
    refine ⟨[], rfl, stops_end, ?_⟩
    intro k val w n hk hval hn
    obtain ⟨n, rfl⟩ : ∃ m, n = m + 1 := ⟨n - 1, by simp at hn; omega⟩
    rw [head k val [] w n hk (hval _ stops_end)]
    rfl
  | cons o os ih =>
    obtain ⟨t, ht, hst, hmem⟩ := ih fun o ho => h o (List.mem_cons_of_mem _ ho)
    have ho := h o (List.mem_cons_self ..)
    obtain ⟨u, hu, huv⟩ := option_text ho
    refine ⟨0x2C :: 0x22 :: (o.1 ++ 0x22 :: 0x3A :: (u ++ t)), by rw [hu, ht]; rfl, ?_, ?_⟩
    · exact stops_comma _
    · intro k val w n hk hval hn
      obtain ⟨n, rfl⟩ : ∃ m, n = m + 1 := ⟨n - 1, by simp at hn; omega⟩
      rw [head k val _ w n hk (hval _ (stops_comma _))]
      rw [if_neg (by simp), if_pos (by rfl)]
      have := hmem o.1 u (optionValue o.2) n ho.1 huv (by simp at hn; omega)
      simp only [List.cons_append, List.tail_cons, List.append_assoc]
      rw [this]
      rfl

theorem value_string {v : List Byte} (hv : v.all plain = true) (r : List Byte) :
    value ((0x22 :: (v ++ [0x22])) ++ r) = some (.str v, r) := by
  unfold value
  rw [if_pos (by rfl)]
  simp only [List.cons_append, List.tail_cons, List.append_assoc, List.nil_append]
  rw [string_plain hv]
  rfl

theorem object_members (key val t : List Byte) (ms : List (List Byte × Value)) (os : List (List Byte × List Byte))
    (h : ∀ n, os.length < n → members n (0x22 :: (key ++ 0x22 :: 0x3A :: (val ++ (t ++ [0x7D])))) = some ms)
    (hl : os.length ≤ t.length) :
    object (0x7B :: 0x22 :: (key ++ 0x22 :: 0x3A :: (val ++ (t ++ [0x7D])))) = some ms := by
  unfold object
  rw [if_pos (by rfl)]
  refine h _ ?_
  simp only [List.length_cons, List.length_append]
  omega

theorem options_length {os : List (List Byte × List Byte)} {t : List Byte} (h : rjsonOptions os = .ok t) :
    os.length ≤ t.length := by
  induction os generalizing t with
  | nil => exact Nat.zero_le _
  | cons o os ih =>
    obtain ⟨k, v⟩ := o
    cases hn : isNumber v with
    | error e => rw [rjsonOptions, hn] at h; cases h
    | ok b =>
      rw [rjsonOptions_cons _ _ _ _ hn] at h
      cases ho : rjsonOptions os with
      | error e => rw [ho] at h; cases h
      | ok u =>
        rw [ho] at h
        injection h with h
        have := ih ho
        rw [← h]
        simp only [List.length_append, List.length_cons]
        omega

/-- C52: `make_rjson` for a string value with options writes a JSON object with exactly these members in this order. Partial: the
property does not exclude empty option values and those that only look like integers, see `C52_fault_iff_empty_option` and
`C52_not_json`. -/
theorem C52_rjson_string_options_partial (key v : List Byte) (options : List (List Byte × List Byte)) (hk : key.all plain = true)
    (hv : v.all plain = true) (ho : ∀ o ∈ options, Spec.OptionOk o) :
    ∃ t, makeRjsonOptions key v options = .ok t ∧
      object t = some ((key, .str v) :: options.map fun o => (o.1, optionValue o.2)) := by
  obtain ⟨t, ht, -, hmem⟩ := options_text ho
  refine ⟨0x7B :: 0x22 :: (key ++ 0x22 :: 0x3A :: ((0x22 :: (v ++ [0x22])) ++ (t ++ [0x7D]))), ?_, ?_⟩
  · unfold makeRjsonOptions
    rw [ht]
    simp only [ok_bind, pure_eq_ok, List.append_assoc, List.cons_append]
    rfl
  · exact object_members key _ t _ options (fun n hn => hmem key _ _ n hk (fun r _ => value_string hv r) hn) (options_length ht)

example := C52_rjson_string_options_partial (ascii "resource") (ascii "X-List") [(ascii "offset", ascii "-20"), (ascii "resId", ascii "a1")]
  (by decide) (by decide) (by decide)

/-- C52: `make_rjson` for an integer value with options. -/
theorem C52_rjson_int_options_partial (key : List Byte) (v : Int) (options : List (List Byte × List Byte))
    (hk : key.all plain = true) (ho : ∀ o ∈ options, Spec.OptionOk o) :
    ∃ t, makeRjsonIntOptions key v options = .ok t ∧
      object t = some ((key, .num v) :: options.map fun o => (o.1, optionValue o.2)) := by
  obtain ⟨t, ht, -, hmem⟩ := options_text ho
  refine ⟨0x7B :: 0x22 :: (key ++ 0x22 :: 0x3A :: (toDecimal v ++ (t ++ [0x7D]))), ?_, ?_⟩
  · unfold makeRjsonIntOptions
    rw [ht]
    simp only [ok_bind, pure_eq_ok, List.append_assoc]
    rfl
  · exact object_members key _ t _ options (fun n hn => hmem key _ _ n hk (fun r hr => value_decimal v hr) hn) (options_length ht)

example := C52_rjson_int_options_partial (ascii "status") 200 [(ascii "offset", ascii "-20"), (ascii "resId", ascii "a1")] (by decide) (by decide)

/-! ## Exactly when the text reads back -/

theorem string_out {l s r : List Byte} (h : string l = some (s, r)) : s.all plain = true := by
  induction l generalizing s with
  | nil => cases h
  | cons c l ih =>
    rw [string] at h
    split at h
    · injection h with h; injection h with h1 h2; subst h1; rfl
    · split at h
      · rename_i hp
        rw [Option.map_eq_some_iff] at h
        obtain ⟨⟨s', r'⟩, h1, h2⟩ := h
        injection h2 with h2 h3
        subst h2 h3
        simp only [List.all_cons, hp, ih h1, Bool.and_self]
      · cases h

/-- The characters of a string, and of the key, are plain. -/
def PlainMember (m : List Byte × Value) : Prop := m.1.all plain = true ∧ ∀ s, m.2 = .str s → s.all plain = true

theorem value_out {l : List Byte} {v : Value} {r : List Byte} (h : value l = some (v, r)) :
    ∀ s, v = .str s → s.all plain = true := by
  unfold value at h
  split at h
  · rw [Option.map_eq_some_iff] at h
    obtain ⟨⟨s', r'⟩, h1, h2⟩ := h
    injection h2 with h2 h3
    subst h2
    rintro s ⟨⟩
    exact string_out h1
  · rw [Option.map_eq_some_iff] at h
    obtain ⟨⟨s', r'⟩, h1, h2⟩ := h
    injection h2 with h2 h3
    subst h2
    rintro s ⟨⟩

theorem members_out {n : Nat} {l : List Byte} {ms : List (List Byte × Value)} (h : members n l = some ms) :
    ∀ m ∈ ms, PlainMember m := by
  induction n generalizing l ms with
  | zero => cases h
  | succ n ih =>
    rw [members] at h
    split at h
    · split at h
      · cases h
      · rename_i k r hk
        split at h
        · split at h
          · cases h
          · rename_i v r' hv
            have hm : PlainMember (k, v) := ⟨string_out hk, value_out hv⟩
            split at h
            · injection h with h
              subst h
              intro m hm'
              rw [List.mem_singleton] at hm'
              rw [hm']; exact hm
            · split at h
              · rw [Option.map_eq_some_iff] at h
                obtain ⟨ms', h1, h2⟩ := h
                subst h2
                intro m hm'
                rcases List.mem_cons.1 hm' with e | hm'
                · rw [e]; exact hm
                · exact ih h1 m hm'
              · cases h
        · cases h
    · cases h

theorem natural_digits {ds r : List Byte} (hd : ds.all digit = true) (hr : Stops r) :
    natural (ds ++ r) = (natural ds).map fun p => (p.1, r) := by
  unfold natural
  have h0 : digits ds = (ds, []) := by
    have := digits_append (r := []) hd (by simp)
    rwa [List.append_nil] at this
  rw [digits_append hd hr, h0]
  simp only
  split
  · rfl
  · split <;> rfl

/-- The text of a value that looks like a number is read as a number or not at all. -/
theorem value_number {c : Byte} {l r : List Byte} (hr : Stops r)
    (hn : (if (c :: l).head? = some 0x2D then (c :: l).tail else c :: l).all digit = true) {v : Value} {r' : List Byte}
    (h : value ((c :: l) ++ r) = some (v, r')) : ∃ n, v = .num n ∧ integer (c :: l) = some (n, []) := by
  unfold value at h
  by_cases hm : c = 0x2D
  · subst hm
    rw [if_neg (by simp), Option.map_eq_some_iff] at h
    obtain ⟨⟨n, r''⟩, h1, h2⟩ := h
    injection h2 with h2 h3
    subst h2
    refine ⟨n, rfl, ?_⟩
    rw [if_pos (by rfl), List.tail_cons] at hn
    rw [List.cons_append, integer_cons, if_pos rfl, natural_digits hn hr] at h1
    rw [integer_cons, if_pos rfl]
    have h0 : natural l = (natural l).map fun p => (p.1, []) := by
      have := natural_digits (r := []) hn (by intro c hc; cases hc)
      rwa [List.append_nil] at this
    cases hl : natural l with
    | none => rw [hl] at h1; cases h1
    | some p =>
      rw [hl] at h1 h0
      simp only [Option.map_some, Option.some.injEq, Prod.mk.injEq] at h1 h0 ⊢
      refine ⟨h1.1, ?_⟩
      rw [h0]
  · have hq : c ≠ 0x22 := by
      rw [if_neg (by simpa using hm)] at hn
      simp only [List.all_cons, Bool.and_eq_true] at hn
      rintro rfl
      exact absurd hn.1 (by decide)
    rw [if_neg (by simpa using hm)] at hn
    rw [if_neg (by simpa using hq), Option.map_eq_some_iff] at h
    obtain ⟨⟨n, r''⟩, h1, h2⟩ := h
    injection h2 with h2 h3
    subst h2
    refine ⟨n, rfl, ?_⟩
    rw [List.cons_append, integer_cons, if_neg hm, ← List.cons_append, natural_digits hn hr] at h1
    rw [integer_cons, if_neg hm]
    have h0 : natural (c :: l) = (natural (c :: l)).map fun p => (p.1, []) := by
      have := natural_digits (r := []) hn (by intro c hc; cases hc)
      rwa [List.append_nil] at this
    cases hl : natural (c :: l) with
    | none => rw [hl] at h1; cases h1
    | some p =>
      rw [hl] at h1 h0
      simp only [Option.map_some, Option.some.injEq, Prod.mk.injEq] at h1 h0 ⊢
      refine ⟨h1.1, ?_⟩
      rw [h0]

theorem members_first {n : Nat} {k l : List Byte} {m : List Byte × Value} {ms : List (List Byte × Value)}
    (hk : k.all plain = true) (h : members n (0x22 :: (k ++ 0x22 :: 0x3A :: l)) = some (m :: ms)) :
    ∃ r, value l = some (m.2, r) ∧ ((ms = [] ∧ r = [0x7D]) ∨ (r.head? = some 0x2C ∧ ∃ n', members n' r.tail = some ms)) := by
  cases n with
  | zero => cases h
  | succ n =>
    rw [members] at h
    simp only [List.head?_cons, List.tail_cons, if_true] at h
    rw [string_plain hk] at h
    simp only [List.head?_cons, List.tail_cons, if_true] at h
    cases hv : value l with
    | none => rw [hv] at h; cases h
    | some p =>
      obtain ⟨w, r⟩ := p
      rw [hv] at h
      simp only at h
      split at h
      · rename_i hr
        injection h with h
        injection h with h1 h2
        subst h1
        exact ⟨r, rfl, .inl ⟨h2.symm, hr⟩⟩
      · split at h
        · rename_i hr
          rw [Option.map_eq_some_iff] at h
          obtain ⟨ms', h1, h2⟩ := h
          injection h2 with h2 h3
          subst h2 h3
          exact ⟨r, rfl, .inr ⟨hr, n, h1⟩⟩
        · cases h

theorem rjsonOptions_stops {os : List (List Byte × List Byte)} {t : List Byte} (h : rjsonOptions os = .ok t) :
    (os = [] ∧ t = []) ∨ ∃ l, t = 0x2C :: l := by
  cases os with
  | nil => injection h with h; exact .inl ⟨rfl, h.symm⟩
  | cons o os =>
    right
    obtain ⟨k, v⟩ := o
    cases v with
    | nil => cases h
    | cons c l =>
      rw [rjsonOptions_cons _ _ _ _ (isNumber_cons c l)] at h
      cases hr : rjsonOptions os with
      | error e => rw [hr] at h; cases h
      | ok t' => rw [hr] at h; injection h with h; exact ⟨_, h.symm⟩

/-- If the members read back, the options can be written. -/
theorem options_exact {os : List (List Byte × List Byte)} {t : List Byte} (ht : rjsonOptions os = .ok t)
    (k val : List Byte) (w : Value) (n : Nat) (hk : k.all plain = true)
    (hval : ∀ r, Stops r → value (val ++ r) = some (w, r))
    (h : members n (0x22 :: (k ++ 0x22 :: 0x3A :: (val ++ (t ++ [0x7D])))) =
      some ((k, w) :: os.map fun o => (o.1, optionValue o.2))) : ∀ o ∈ os, Spec.OptionOk o := by
  induction os generalizing t k val w n with
  | nil => intro o ho; cases ho
  | cons o os ih =>
    have hplain := members_out h (o.1, optionValue o.2) (by simp)
    obtain ⟨r, hv, hr⟩ := members_first hk h
    have hst : Stops (t ++ [0x7D]) := by
      rcases rjsonOptions_stops ht with ⟨h1, h2⟩ | ⟨l, rfl⟩
      · cases h1
      · exact stops_comma _
    rw [hval _ hst] at hv
    injection hv with hv
    obtain ⟨-, rfl⟩ := Prod.mk.inj hv
    rcases hr with ⟨h1, -⟩ | ⟨-, n', hn'⟩
    · cases h1
    obtain ⟨k', v⟩ := o
    cases v with
    | nil => cases ht
    | cons c l =>
      obtain ⟨b, hnum, hbdef⟩ : ∃ b, isNumber (c :: l) = .ok b ∧
        (if (c :: l).head? = some 0x2D then (c :: l).tail else c :: l).all digit = b := ⟨_, isNumber_iff, rfl⟩
      have hcons := rjsonOptions_cons k' (c :: l) os b hnum
      generalize hu0 : (if b = true then c :: l else 0x22 :: (c :: l ++ [0x22])) = u0 at hcons
      rw [hcons] at ht
      cases hos : rjsonOptions os with
      | error e => rw [hos] at ht; cases ht
      | ok t' =>
        rw [hos] at ht
        injection ht with ht
        subst ht
        simp only [List.cons_append, List.tail_cons, List.append_assoc, List.map_cons] at hn'
        have hst' : Stops (t' ++ [0x7D]) := by
          rcases rjsonOptions_stops hos with ⟨-, rfl⟩ | ⟨l, rfl⟩
          · exact stops_end
          · exact stops_comma _
        obtain ⟨r, hv', -⟩ := members_first hplain.1 hn'
        simp only at hv'
        have hok : Spec.OptionOk (k', c :: l) := by
          refine ⟨hplain.1, ?_, by simp, ?_⟩
          · cases hov : optionValue (c :: l) with
            | str s =>
              have hs : s = c :: l := by
                unfold optionValue at hov
                split at hov
                · cases hov
                · injection hov with hov; exact hov.symm
              rw [← hs]
              exact hplain.2 s hov
            | num m =>
              have hi : integer (c :: l) = some (m, []) := by
                unfold optionValue at hov
                split at hov
                · rename_i x hx
                  injection hov with hov
                  rw [hx, hov]
                · cases hov
              have := (integer_number hi).1
              rw [hnum] at this
              injection this with this
              rw [this] at hbdef
              have dp : ∀ c : Byte, digit c = true → plain c = true := by decide +kernel
              by_cases hm : c = 0x2D
              · subst hm
                rw [if_pos (by rfl), List.tail_cons] at hbdef
                simp only [List.all_cons, Bool.and_eq_true]
                refine ⟨by decide, ?_⟩
                rw [List.all_eq_true] at hbdef ⊢
                exact fun x hx => dp x (hbdef x hx)
              · rw [if_neg (by simpa using hm)] at hbdef
                show List.all (c :: l) plain = true
                rw [List.all_eq_true] at hbdef ⊢
                exact fun x hx => dp x (hbdef x hx)
          · intro hb
            rw [← hu0, if_pos (hbdef.symm.trans hb)] at hv'
            obtain ⟨m, h1, h2⟩ := value_number hst' hb hv'
            rw [h2]; rfl
        obtain ⟨u, hu, huv⟩ := option_text hok
        have hu' := hu os
        rw [hcons, hos] at hu'
        injection hu' with hu'
        have e : u0 = u := by
          simp only [List.cons.injEq, true_and] at hu'
          have := List.append_cancel_left hu'
          simp only [List.cons.injEq, true_and] at this
          exact List.append_cancel_right this
        rw [e] at hn'
        intro o ho
        rcases List.mem_cons.1 ho with rfl | ho
        · exact hok
        · exact ih hos k' u _ n' hplain.1 huv hn' o ho

/-- C52: the text `make_rjson` writes for a string value with options is a JSON object with exactly the expected members
if and only if key and value need no escapes and every option can be written (`OptionOk`). -/
theorem C52_rjson_string_options_exact (key v : List Byte) (options : List (List Byte × List Byte)) :
    (∃ t, makeRjsonOptions key v options = .ok t ∧
      object t = some ((key, .str v) :: options.map fun o => (o.1, optionValue o.2))) ↔
    key.all plain = true ∧ v.all plain = true ∧ ∀ o ∈ options, Spec.OptionOk o := by
  constructor
  · rintro ⟨t, ht, h⟩
    unfold makeRjsonOptions at ht
    cases hos : rjsonOptions options with
    | error e => rw [hos] at ht; cases ht
    | ok o =>
      rw [hos] at ht
      injection ht with ht
      subst ht
      unfold object at h
      generalize hN : List.length _ = N at h
      split at h
      · have hp := members_out h (key, .str v) (by simp)
        have hk := hp.1
        have hv := hp.2 v rfl
        refine ⟨hk, hv, ?_⟩
        refine options_exact hos key (0x22 :: (v ++ [0x22])) (.str v) N hk (fun r _ => value_string hv r) (Eq.trans ?_ h)
        congr 1
        simp [ascii]
      · cases h
  · rintro ⟨hk, hv, ho⟩
    exact C52_rjson_string_options_partial key v options hk hv ho

/-- C52: the same for an integer value. -/
theorem C52_rjson_int_options_exact (key : List Byte) (v : Int) (options : List (List Byte × List Byte)) :
    (∃ t, makeRjsonIntOptions key v options = .ok t ∧
      object t = some ((key, .num v) :: options.map fun o => (o.1, optionValue o.2))) ↔
    key.all plain = true ∧ ∀ o ∈ options, Spec.OptionOk o := by
  constructor
  · rintro ⟨t, ht, h⟩
    unfold makeRjsonIntOptions at ht
    cases hos : rjsonOptions options with
    | error e => rw [hos] at ht; cases ht
    | ok o =>
      rw [hos] at ht
      injection ht with ht
      subst ht
      unfold object at h
      generalize hN : List.length _ = N at h
      split at h
      · have hk := (members_out h (key, .num v) (by simp)).1
        refine ⟨hk, ?_⟩
        refine options_exact hos key (toDecimal v) (.num v) N hk (fun r hr => value_decimal v hr) (Eq.trans ?_ h)
        congr 1
        simp [ascii]
      · cases h
  · rintro ⟨hk, ho⟩
    exact C52_rjson_int_options_partial key v options hk ho

/-- C52: `make_rjson` for a string value. -/
theorem C52_rjson_string (key v : List Byte) (hk : key.all plain = true) (hv : v.all plain = true) :
    object (makeRjson key v) = some [(key, .str v)] := by
  obtain ⟨t, ht, h⟩ := C52_rjson_string_options_partial key v [] hk hv (by simp)
  rw [← show makeRjson key v = t by
    unfold makeRjsonOptions at ht
    simp only [rjsonOptions, ok_bind, pure_eq_ok] at ht
    injection ht with ht
    rw [← ht]
    simp only [makeRjson, List.append_assoc, List.nil_append, List.append_nil]
    rfl] at h
  exact h

/-- C52: `make_rjson` for an integer value. -/
theorem C52_rjson_int (key : List Byte) (v : Int) (hk : key.all plain = true) :
    object (makeRjsonInt key v) = some [(key, .num v)] := by
  obtain ⟨t, ht, h⟩ := C52_rjson_int_options_partial key v [] hk (by simp)
  rw [← show makeRjsonInt key v = t by
    unfold makeRjsonIntOptions at ht
    simp only [rjsonOptions, ok_bind, pure_eq_ok] at ht
    injection ht with ht
    rw [← ht]
    simp only [makeRjsonInt, List.append_assoc, List.append_nil]] at h
  exact h

example : (ascii "resource").all plain = true ∧ Spec.OptionOk (ascii "offset", ascii "-20") ∧
    Spec.OptionOk (ascii "resId", ascii "abc-1") ∧ ¬ Spec.OptionOk (ascii "offset", ascii "007") := by decide
example : (makeRjsonOptions (ascii "resource") (ascii "X-List") [(ascii "offset", ascii "-20"), (ascii "resId", ascii "a1")]).map object =
    .ok (some [(ascii "resource", .str (ascii "X-List")), (ascii "offset", .num (-20)), (ascii "resId", .str (ascii "a1"))]) := by
  decide +kernel

/-! ## What is not true -/

/-- C52: building a header reads outside of a string exactly if the value of an option is empty. So the claim that this
never happens is false, for example for a subscription without a subscribe id. -/
theorem C52_fault_iff_empty_option (key v : List Byte) (options : List (List Byte × List Byte)) :
    (makeRjsonOptions key v options = .error .outOfBounds ↔ ∃ o ∈ options, o.2 = []) ∧
    (NoFault (makeRjsonOptions key v options) ↔ ∀ o ∈ options, o.2 ≠ []) := by
  have key' : (rjsonOptions options = .error .outOfBounds ∧ ∃ o ∈ options, o.2 = []) ∨
      ((∃ t, rjsonOptions options = .ok t) ∧ ∀ o ∈ options, o.2 ≠ []) := by
    induction options with
    | nil => right; exact ⟨⟨_, rfl⟩, by simp⟩
    | cons o os ih =>
      obtain ⟨k, w⟩ := o
      cases w with
      | nil => left; exact ⟨rfl, (k, []), by simp, rfl⟩
      | cons c l =>
        rcases ih with ⟨h1, o, ho, h2⟩ | ⟨⟨t, h1⟩, h2⟩
        · left
          refine ⟨?_, o, List.mem_cons_of_mem _ ho, h2⟩
          rw [rjsonOptions_cons _ _ _ _ (isNumber_cons c l), h1]
          rfl
        · right
          refine ⟨?_, ?_⟩
          · rw [rjsonOptions_cons _ _ _ _ (isNumber_cons c l), h1]
            exact ⟨_, rfl⟩
          · intro o ho
            rw [List.mem_cons] at ho
            rcases ho with rfl | ho
            · simp
            · exact h2 o ho
  unfold makeRjsonOptions
  rcases key' with ⟨h1, o, ho, h2⟩ | ⟨⟨t, h1⟩, h2⟩
  · rw [h1]
    refine ⟨⟨fun _ => ⟨o, ho, h2⟩, fun _ => rfl⟩, ?_, fun h => absurd h2 (h o ho)⟩
    rintro ⟨t, ht⟩
    cases ht
  · rw [h1]
    refine ⟨⟨fun h => (by cases h), ?_⟩, fun _ => h2, fun _ => ⟨_, rfl⟩⟩
    rintro ⟨o, ho, h⟩
    exact absurd h (h2 o ho)

/-- The factory for subscriptions reads outside of the string for an empty subscribe id. -/
theorem C52_empty_subscribe_id : makeSubscriptionInquiry 1 2 (ascii "X") (ascii "start") [] 3 0x7F = .error .outOfBounds := by
  rfl

/-- Some option values give text that is no JSON: a single minus sign and numbers with leading zeros are taken for
numbers, and quotation marks are not escaped. (No JSON parser accepts these texts.) -/
theorem C52_not_json :
    makeRjsonOptions (ascii "a") (ascii "b") [(ascii "c", ascii "-")] = .ok (ascii "{\"a\":\"b\",\"c\":-}") ∧
    makeRjsonOptions (ascii "a") (ascii "b") [(ascii "c", ascii "007")] = .ok (ascii "{\"a\":\"b\",\"c\":007}") ∧
    makeRjson (ascii "a") (ascii "say \"x\"") = ascii "{\"a\":\"say \"x\"\"}" := by
  refine ⟨rfl, rfl, rfl⟩

end Midi.CI

import Verif.Model.CapabilityInquiry
import Verif.Props.SysexHelpers

/-!
# Helper lemmas about MIDI-CI messages
-/

namespace Midi

/-- Finishes without fault. -/
def Spec.NoFault {α : Type} (x : Except Fault α) : Prop := ∃ r, x = .ok r

open Spec

theorem NoFault.ok {α : Type} (a : α) : NoFault (.ok a : Except Fault α) := ⟨a, rfl⟩

theorem NoFault.map {α β : Type} {x : Except Fault α} (f : α → β) (h : NoFault x) : NoFault (x.map f) := by
  obtain ⟨r, rfl⟩ := h; exact ⟨f r, rfl⟩

theorem NoFault.bind {α β : Type} {x : Except Fault α} {f : α → Except Fault β} (h : NoFault x)
    (h' : ∀ r, x = .ok r → NoFault (f r)) : NoFault (x >>= f) := by
  obtain ⟨r, rfl⟩ := h; exact h' r rfl

theorem andThen_true {a b : Except Fault Bool} : (a &&! b) = .ok true ↔ a = .ok true ∧ b = .ok true := by
  match a with
  | .ok true => simp [andThen]
  | .ok false => simp [andThen]
  | .error e => simp [andThen]

theorem orElse_true {a b : Except Fault Bool} :
    (a ||! b) = .ok true ↔ a = .ok true ∨ (a = .ok false ∧ b = .ok true) := by
  match a with
  | .ok true => simp [orElse]
  | .ok false => simp [orElse]
  | .error e => simp [orElse]

theorem NoFault.and {a b : Except Fault Bool} (h : NoFault a) (h' : a = .ok true → NoFault b) :
    NoFault (a &&! b) := by
  obtain ⟨r, rfl⟩ := h
  cases r with
  | true => exact h' rfl
  | false => exact ⟨false, rfl⟩

theorem NoFault.or {a b : Except Fault Bool} (h : NoFault a) (h' : NoFault b) : NoFault (a ||! b) := by
  obtain ⟨r, rfl⟩ := h
  cases r with
  | true => exact ⟨true, rfl⟩
  | false => exact h'

theorem index_ok {l : List Byte} {i : Nat} (h : i < l.length) : index l i = .ok l[i] := by
  unfold index; rw [dif_pos h]

theorem index_iff {l : List Byte} {i : Nat} {b : Byte} : index l i = .ok b ↔ l[i]? = some b := by
  unfold index
  by_cases h : i < l.length
  · rw [dif_pos h]; simp [h]
  · rw [dif_neg h]; simp [List.getElem?_eq_none (Nat.le_of_not_lt h)]

theorem NoFault.index {l : List Byte} {i : Nat} (h : i < l.length) : NoFault (index l i) := ⟨_, index_ok h⟩

theorem NoFault.uint14 {s : Sysex} {pos : Nat} (h : pos + 1 < s.data.length) : NoFault (s.makeUint14 pos) := by
  unfold Sysex.makeUint14
  rw [assert_ok (by simpa using h), index_ok (by omega), index_ok h]
  exact NoFault.ok _

theorem NoFault.uint28 {s : Sysex} {pos : Nat} (h : pos + 3 < s.data.length) : NoFault (s.makeUint28 pos) := by
  unfold Sysex.makeUint28
  rw [assert_ok (by simpa using h), index_ok (by omega), index_ok (by omega), index_ok (by omega), index_ok h]
  exact NoFault.ok _

theorem NoFault.deviceIdentity {s : Sysex} {pos : Nat} (h : pos + 10 < s.data.length) :
    NoFault (s.makeDeviceIdentity pos) := by
  unfold Sysex.makeDeviceIdentity
  rw [assert_ok (by simpa using h), index_ok (by omega), index_ok (by omega), index_ok (by omega)]
  obtain ⟨a, ha⟩ := NoFault.uint14 (s := s) (pos := pos + 3) (by omega)
  obtain ⟨b, hb⟩ := NoFault.uint14 (s := s) (pos := pos + 5) (by omega)
  obtain ⟨c, hc⟩ := NoFault.uint28 (s := s) (pos := pos + 7) (by omega)
  simp only [ok_bind]
  rw [ha, hb, hc]
  exact NoFault.ok _

theorem NoFault.slice {s : Sysex} {pos size : Nat} (h : pos + size ≤ s.data.length) : NoFault (slice s pos size) := by
  unfold Midi.slice; rw [if_pos h]; exact NoFault.ok _

theorem NoFault.dataAt {s : Sysex} {i : Nat} {c : Byte → Bool} (h : i < s.data.length) : NoFault (dataAt s i c) :=
  NoFault.map _ (NoFault.index h)

theorem dataAt_true {s : Sysex} {i : Nat} {c : Byte → Bool} :
    dataAt s i c = .ok true ↔ ∃ b, s.data[i]? = some b ∧ c b = true := by
  unfold dataAt
  constructor
  · intro h
    cases hi : index s.data i with
    | error e => rw [hi] at h; cases h
    | ok b =>
      rw [hi] at h
      refine ⟨b, index_iff.1 hi, ?_⟩
      simpa [Except.map] using h
  · rintro ⟨b, hb, hc⟩
    rw [index_iff.2 hb]; simp [Except.map, hc]

theorem map_true {α : Type} {x : Except Fault α} {c : α → Bool} :
    x.map c = .ok true ↔ ∃ a, x = .ok a ∧ c a = true := by
  cases x with
  | error e => simp [Except.map]
  | ok a => simp [Except.map]

/-! ## Reading by dropping -/

theorem index_drop (l : List Byte) (i : Nat) :
    index l i = match l.drop i with | a :: _ => .ok a | [] => .error .outOfBounds := by
  by_cases h : i < l.length
  · rw [index_ok h, List.drop_eq_getElem_cons h]
  · rw [List.drop_eq_nil_of_le (Nat.le_of_not_lt h)]; unfold index; rw [dif_neg h]

theorem makeUint14_drop (s : Sysex) (pos : Nat) :
    s.makeUint14 pos = match s.data.drop pos with
      | a :: b :: _ => .ok (a.setWidth 16 ||| (b.setWidth 16 <<< 7)) | _ => .error .assertFailed := by
  by_cases h : pos + 1 < s.data.length
  · unfold Sysex.makeUint14
    rw [assert_ok (by simpa using h), index_ok (by omega), index_ok h,
      List.drop_eq_getElem_cons (show pos < s.data.length by omega), List.drop_eq_getElem_cons h]
    rfl
  · have hl : (s.data.drop pos).length ≤ 1 := by rw [List.length_drop]; omega
    unfold Sysex.makeUint14
    rw [assert_fail (by simpa using h), error_bind]
    match s.data.drop pos, hl with
    | [], _ => rfl
    | [_], _ => rfl

theorem makeUint28_drop (s : Sysex) (pos : Nat) :
    s.makeUint28 pos = match s.data.drop pos with
      | a :: b :: c :: d :: _ => .ok (a.setWidth 32 ||| (b.setWidth 32 <<< 7) ||| (c.setWidth 32 <<< 14) |||
          (d.setWidth 32 <<< 21))
      | _ => .error .assertFailed := by
  by_cases h : pos + 3 < s.data.length
  · unfold Sysex.makeUint28
    rw [assert_ok (by simpa using h), index_ok (by omega), index_ok (by omega), index_ok (by omega), index_ok h,
      List.drop_eq_getElem_cons (show pos < s.data.length by omega),
      List.drop_eq_getElem_cons (show pos + 1 < s.data.length by omega),
      List.drop_eq_getElem_cons (show pos + 1 + 1 < s.data.length by omega),
      List.drop_eq_getElem_cons (show pos + 1 + 1 + 1 < s.data.length by omega)]
    rfl
  · have hl : (s.data.drop pos).length ≤ 3 := by rw [List.length_drop]; omega
    unfold Sysex.makeUint28
    rw [assert_fail (by simpa using h), error_bind]
    match s.data.drop pos, hl with
    | [], _ => rfl
    | [_], _ => rfl
    | [_, _], _ => rfl
    | [_, _, _], _ => rfl

theorem slice_append {s : Sysex} {a b c : List Byte} {pos size : Nat} (h : s.data = a ++ (b ++ c))
    (hp : a.length = pos) (hl : b.length = size) : slice s pos size = .ok b := by
  unfold slice
  subst hp hl
  rw [if_pos (by rw [h]; simp), h]
  simp

namespace CI

theorem NoFault.view {s : Sysex} : NoFault (View.validate s) := by
  refine NoFault.and (NoFault.ok _) fun _ => NoFault.and (NoFault.ok _) fun h => NoFault.dataAt ?_
  simp [sizeAtLeast] at h
  omega

theorem sizeAtLeast_true {s : Sysex} {n : Nat} : sizeAtLeast s n = .ok true ↔ n ≤ s.data.length := by
  simp [sizeAtLeast]

theorem isNonRealtime_true {s : Sysex} : isNonRealtime s = .ok true ↔ s.manufacturerID = universalNonRealtime := by
  simp [isNonRealtime]

theorem sizeAtLeast14_true {s : Sysex} {n pos : Nat} :
    sizeAtLeast14 s n pos = .ok true ↔ ∃ l, s.makeUint14 pos = .ok l ∧ n + l.toNat ≤ s.data.length := by
  unfold sizeAtLeast14
  rw [map_true]
  simp

theorem NoFault.size14 {s : Sysex} {n pos : Nat} (h : pos + 1 < s.data.length) : NoFault (sizeAtLeast14 s n pos) :=
  NoFault.map _ (NoFault.uint14 h)

end CI

end Midi

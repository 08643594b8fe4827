import Verif.Lemmas.Collector7
import Verif.Props.SysexSend

/-!
# Helper lemmas: runs of the abstract sysex7 machine
-/

namespace Midi
open Spec

theorem fits_zero (n : Nat) : fits 0 n := Or.inl rfl

theorem decode_start (d : List Byte) (r : List (Nat × List Byte)) : decode ((1, d) :: r) =
    match takeRun d r with
    | some q => q.1 :: decode q.2
    | none => decode r := by
  rw [decode]
  split <;> next h => rw [h]

/-- Without a limit the abstract machine is the reference decoder. -/
theorem absRun7_decode (l : List (Nat × List Byte)) (hl : ∀ x ∈ l, x.1 ≤ 3) :
    (absRun7 0 (false, []) l).2 = decode l ∧
    ∀ pl, (absRun7 0 (true, pl) l).2 = match takeRun pl l with
      | some q => q.1 :: decode q.2
      | none => decode l := by
  induction l with
  | nil => exact ⟨by simp [absRun7, decode], fun pl => by simp [absRun7, takeRun, decode]⟩
  | cons x l ih =>
    obtain ⟨c, d⟩ := x
    have hc : c ≤ 3 := hl (c, d) (by simp)
    obtain ⟨i1, i2⟩ := ih fun y hy => hl y (by simp [hy])
    rcases (by omega : c = 0 ∨ c = 1 ∨ c = 2 ∨ c = 3) with rfl | rfl | rfl | rfl
    · constructor
      · simp [absRun7, abs7, fits_zero, decode, i1]
      · intro pl; simp [absRun7, abs7, fits_zero, decode, takeRun, i1]
    · constructor
      · simp [absRun7, abs7, fits_zero, decode_start, i2]
      · intro pl
        simp [absRun7, abs7, fits_zero, decode_start, takeRun, i2]
    · constructor
      · simp [absRun7, abs7, decode, i1]
      · intro pl; simp [absRun7, abs7, fits_zero, decode, takeRun, i2]
    · constructor
      · simp [absRun7, abs7, decode, i1]
      · intro pl; simp [absRun7, abs7, fits_zero, takeRun, i1]

theorem message7_length (pl : List Byte) : (message7 pl).data.length ≤ pl.length ∧ pl.length ≤ (message7 pl).data.length + 3 := by
  unfold message7
  split
  · simp
  · split
    · split <;> (simp; try omega)
    · simp

theorem message7_id (id : Word) (h : GenuineId id) (d : List Byte) : message7 (idBytes7 id ++ d) = ⟨id, d⟩ := by
  have hid := id.isLt
  unfold idBytes7
  by_cases h0 : id.toNat / 65536 = 0
  · rw [if_pos h0]
    show (⟨_, d⟩ : Sysex) = _
    congr 1
    apply BitVec.eq_of_toNat_eq
    simp only [BitVec.toNat_ofNat]
    omega
  · rw [if_neg h0]
    have h1 : OneByteId id := by
      rcases h with h | h
      · exact h
      · unfold ThreeByteId at h; omega
    unfold OneByteId at h1
    have hne : BitVec.ofNat 8 (id.toNat / 65536) ≠ 0 := by
      intro h
      have := congrArg BitVec.toNat h
      simp only [BitVec.toNat_ofNat] at this
      rw [show BitVec.toNat (0 : Byte) = 0 from rfl] at this
      omega
    show (if BitVec.ofNat 8 (id.toNat / 65536) = 0 then _ else (⟨_, d⟩ : Sysex)) = _
    rw [if_neg hne]
    congr 1
    apply BitVec.eq_of_toNat_eq
    simp only [BitVec.toNat_ofNat]
    omega

/-- Continue packets and an end packet when everything fits. -/
theorem absRun7_rest (lim : Nat) : ∀ (n : Nat) (its : List (Nat × List Byte)) (pl : List Byte),
    its.map Prod.fst = List.replicate n 2 ++ [3] → fits lim (pl.length + (its.flatMap Prod.snd).length) →
    absRun7 lim (true, pl) its = ((false, []), [pl ++ its.flatMap Prod.snd]) := by
  intro n
  induction n with
  | zero =>
    intro its pl hi hf
    match its, hi with
    | [(3, e)], _ =>
      have hm := (message7_length pl).1
      have : fits lim ((message7 pl).data.length + e.length) := by
        unfold fits at hf ⊢; simp at hf; omega
      simp [absRun7, abs7, this]
  | succ n ih =>
    intro its pl hi hf
    rw [List.replicate_succ, List.cons_append] at hi
    match its, hi with
    | (c, e) :: its, hi =>
      simp only [List.map_cons, List.cons.injEq] at hi
      obtain ⟨rfl, hi⟩ := hi
      have hm := (message7_length pl).1
      simp only [List.flatMap_cons, List.length_append] at hf
      have hf' : fits lim ((message7 pl).data.length + e.length) := by
        unfold fits at hf ⊢; omega
      have hr := ih its (pl ++ e) hi (by unfold fits at hf ⊢; simp at hf ⊢; omega)
      simp only [absRun7, abs7]
      simp [hf', hr]

/-- A framed message that fits, fed in a state without left over data. -/
theorem absRun7_framed {lim : Nat} {st : Bool × List Byte} (hst : st.1 = true ∨ st.2 = [])
    (its : List (Nat × List Byte)) (hi : Framed (its.map Prod.fst)) (hf : fits lim (its.flatMap Prod.snd).length) :
    absRun7 lim st its = ((false, []), [its.flatMap Prod.snd]) := by
  obtain ⟨r, pl⟩ := st
  have hb : (if r then [] else pl) = ([] : List Byte) := by
    cases r <;> simp_all
  rcases hi with hi | ⟨n, hi⟩
  · match its, hi with
    | [(0, d)], _ =>
      have : fits lim ((message7 []).data.length + d.length) := by
        unfold fits at hf ⊢; simp [message7] at hf ⊢; omega
      simp only [absRun7, abs7, hb]
      simp [this]
  · match its, hi with
    | (c, d) :: its, hi =>
      simp only [List.map_cons, List.cons.injEq] at hi
      obtain ⟨rfl, hi⟩ := hi
      simp only [List.flatMap_cons, List.length_append] at hf
      have : fits lim ((message7 []).data.length + d.length) := by
        unfold fits at hf ⊢; simp [message7] at hf ⊢; omega
      have hr := absRun7_rest lim n its d hi hf
      simp only [absRun7, abs7, hb]
      simp [this, hr]

/-- Without a limit there is no left over data. -/
theorem absRun7_clean (l : List (Nat × List Byte)) : ∀ st : Bool × List Byte, st.1 = true ∨ st.2 = [] →
    (absRun7 0 st l).1.1 = true ∨ (absRun7 0 st l).1.2 = [] := by
  induction l with
  | nil => intro st h; exact h
  | cons x l ih =>
    intro st h
    refine ih _ ?_
    simp only [abs7, fits_zero, if_true]
    by_cases h1 : x.1 ≤ 1
    · rw [if_pos h1]; split <;> simp
    · rw [if_neg h1]; split
      · split <;> simp
      · simp

theorem absRun7_framed_seq {lim : Nat} (ms : List (List (Nat × List Byte))) : ∀ {st : Bool × List Byte},
    (st.1 = true ∨ st.2 = []) → (∀ its ∈ ms, Framed (its.map Prod.fst) ∧ fits lim (its.flatMap Prod.snd).length) →
    (absRun7 lim st ms.flatten).2 = ms.map fun its => its.flatMap Prod.snd := by
  induction ms with
  | nil => intro st _ _; rfl
  | cons m ms ih =>
    intro st hst h
    obtain ⟨h1, h2⟩ := h m (by simp)
    rw [List.flatten_cons, absRun7_append, absRun7_framed hst m h1 h2]
    rw [ih (Or.inr rfl) fun x hx => h x (by simp [hx])]
    rfl

/-- Delivered messages obey the limit. -/
theorem absRun7_limit {lim : Nat} (h0 : lim ≠ 0) (l : List (Nat × List Byte)) : ∀ st : Bool × List Byte,
    ∀ pl ∈ (absRun7 lim st l).2, (message7 pl).data.length ≤ lim := by
  have gen : ∀ (l : List Byte) (s : Sysex × Nat), (l.foldl coll7 s).1.data.length ≤ s.1.data.length + l.length := by
    intro l
    induction l with
    | nil => intro s; simp
    | cons b l ih =>
      intro s
      rw [List.foldl_cons]
      have := ih (coll7 s b)
      rcases coll7_data s b with h | h <;> rw [h] at this <;> simp at this ⊢ <;> omega
  have app : ∀ a d : List Byte, (message7 (a ++ d)).data.length ≤ (message7 a).data.length + d.length := by
    intro a d
    rw [← parse7_message, ← parse7_message, parse7, List.foldl_append]
    exact gen _ _
  induction l with
  | nil => intro st pl h; simp [absRun7] at h
  | cons x l ih =>
    intro st pl h
    simp only [absRun7, List.mem_append] at h
    rcases h with h | h
    · unfold abs7 at h
      by_cases h1 : x.1 ≤ 1
      · rw [if_pos h1] at h
        dsimp only at h
        generalize (if st.1 = true then [] else st.2) = base at h
        split at h
        · next hf =>
          split at h
          · simp only [List.mem_singleton] at h
            subst h
            refine le_trans (app _ _) ?_
            unfold fits at hf; omega
          · simp at h
        · simp at h
      · rw [if_neg h1] at h
        split at h
        · split at h
          · next hf =>
            split at h
            · simp only [List.mem_singleton] at h
              subst h
              refine le_trans (app _ _) ?_
              unfold fits at hf; omega
            · simp at h
          · simp at h
        · simp at h
    · exact ih _ pl h

/-- Orphaned packets. -/
theorem absRun7_orphans (lim : Nat) (l : List (Nat × List Byte)) (hl : ∀ x ∈ l, 2 ≤ x.1) (hne : l ≠ []) :
    ∀ pl, absRun7 lim (false, pl) l = ((false, []), []) := by
  induction l with
  | nil => exact absurd rfl hne
  | cons x l ih =>
    intro pl
    have hx : ¬ x.1 ≤ 1 := by have := hl x (by simp); omega
    simp only [absRun7, abs7, if_neg hx]
    by_cases h : l = []
    · subst h; simp [absRun7]
    · simp [ih (fun y hy => hl y (by simp [hy])) h]

/-- A message that is too long already without its last packet leaves nothing behind. -/
theorem absRun7_dropped {lim : Nat} (h0 : lim ≠ 0) : ∀ (n : Nat) (its : List (Nat × List Byte)) (pl : List Byte),
    its.map Prod.fst = List.replicate n 2 ++ [3] → (message7 pl).data.length ≤ lim →
    lim + 3 < (pl ++ its.dropLast.flatMap Prod.snd).length →
    absRun7 lim (true, pl) its = ((false, []), []) := by
  intro n
  induction n with
  | zero =>
    intro its pl hi hm hf
    match its, hi with
    | [(3, e)], _ =>
      have hm' := (message7_length pl).2
      simp at hf; omega
  | succ n ih =>
    intro its pl hi hm hf
    rw [List.replicate_succ, List.cons_append] at hi
    match its, hi with
    | (c, e) :: its, hi =>
      simp only [List.map_cons, List.cons.injEq] at hi
      obtain ⟨rfl, hi⟩ := hi
      have hne : its ≠ [] := by rintro rfl; simp at hi
      by_cases hfit : fits lim ((message7 pl).data.length + e.length)
      · have hm2 : (message7 (pl ++ e)).data.length ≤ lim := by
          exact absRun7_limit h0 [(3, e)] (true, pl) (pl ++ e) (by simp [absRun7, abs7, hfit])
        have hr := ih its (pl ++ e) hi hm2 (by
          rw [List.dropLast_cons_of_ne_nil hne, List.flatMap_cons] at hf
          simpa [List.append_assoc] using hf)
        simp only [absRun7, abs7]
        simp [hfit, hr]
      · have ho := absRun7_orphans lim its (by
          intro x hx
          have := List.mem_map_of_mem (f := Prod.fst) hx
          rw [hi] at this
          simp at this
          omega) hne pl
        simp only [absRun7, abs7]
        simp [hfit, ho]

theorem absRun7_dropped_framed {lim : Nat} (h0 : lim ≠ 0) (its : List (Nat × List Byte)) (st : Bool × List Byte)
    (hi : Framed (its.map Prod.fst)) (hf : lim + 3 < (its.dropLast.flatMap Prod.snd).length) :
    absRun7 lim st its = ((false, []), []) := by
  rcases hi with hi | ⟨n, hi⟩
  · match its, hi with
    | [(0, d)], _ => simp at hf
  · match its, hi with
    | (c, d) :: its, hi =>
      simp only [List.map_cons, List.cons.injEq] at hi
      obtain ⟨rfl, hi⟩ := hi
      have hne : its ≠ [] := by rintro rfl; simp at hi
      rw [List.dropLast_cons_of_ne_nil hne, List.flatMap_cons] at hf
      simp only [absRun7, abs7]
      simp only [Nat.le_refl, if_true]
      generalize (if st.1 = true then [] else st.2) = pl
      by_cases hfit : fits lim ((message7 pl).data.length + d.length)
      · have hm2 : (message7 (pl ++ d)).data.length ≤ lim := by
          have := absRun7_limit h0 [(0, d)] (false, pl) (pl ++ d) (by simp [absRun7, abs7, hfit])
          exact this
        have hr := absRun7_dropped h0 n its (pl ++ d) hi hm2 (by simp at hf ⊢; omega)
        simp [hfit, hr]
      · have ho := absRun7_orphans lim its (by
          intro x hx
          have := List.mem_map_of_mem (f := Prod.fst) hx
          rw [hi] at this
          simp at this
          omega) hne pl
        simp [hfit, ho]

end Midi

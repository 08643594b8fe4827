import Verif.Model.CollectorHistory
import Verif.Props.Collector8
import Verif.Spec.CollectorLimit

/-!
C22: what the size limit of the collectors guarantees after any history of calls, and C21/C24: no history causes a fault.
-/

namespace Midi

open Spec

theorem ensureCapacity_bound {cap lim size n : Nat} (hs : size ≤ cap) (hn : n ≤ 13) :
    ((ensureCapacity cap lim size n).2 = true → size + n ≤ (ensureCapacity cap lim size n).1) ∧
    cap ≤ (ensureCapacity cap lim size n).1 ∧
    (lim ≠ 0 → (ensureCapacity cap lim size n).1 ≤ max cap lim) := by
  unfold ensureCapacity vecReserve
  by_cases h : size + n > cap
  · rw [if_pos h]
    by_cases hl : lim > 0
    · simp only [hl, decide_true, if_true, Bool.true_and, decide_eq_true_eq]
      split
      · simp; omega
      · simp; omega
    · simp only [hl, decide_false, Bool.false_and]
      simp; omega
  · rw [if_neg h]; simp; omega

theorem coll7_foldl_length : ∀ (l : List Byte) (s : Sysex × Nat), (l.foldl coll7 s).1.data.length ≤ s.1.data.length + l.length := by
  intro l
  induction l with
  | nil => intro s; simp
  | cons b l ih =>
    intro s
    rw [List.foldl_cons]
    have := ih (coll7 s b)
    rcases coll7_data s b with h | h <;> rw [h] at this <;> simp at this ⊢ <;> omega

/-- What a step of a collector keeps: `s`, `s'` size of the data, `k`, `k'` capacity before and after, `lim` the limit, and
`outs` the sizes of messages delivered. -/
structure Keeps (_s k lim s' k' lim' : Nat) (outs : List Nat) : Prop where
  size : s' ≤ k'
  same : lim' = lim
  cap : lim ≠ 0 → k' ≤ max k lim
  out : lim ≠ 0 → ∀ o ∈ outs, o ≤ max k lim

theorem Keeps.trans {s k lim s1 k1 lim1 s2 k2 lim2 : Nat} {o1 o2 : List Nat} (h1 : Keeps s k lim s1 k1 lim1 o1)
    (h2 : Keeps s1 k1 lim1 s2 k2 lim2 o2) : Keeps s k lim s2 k2 lim2 (o1 ++ o2) := by
  obtain ⟨a1, a2, a3, a4⟩ := h1
  obtain ⟨b1, b2, b3, b4⟩ := h2
  subst a2
  refine ⟨b1, b2, fun h => ?_, fun h o ho => ?_⟩
  · have := a3 h
    have := b3 h
    omega
  · rcases List.mem_append.1 ho with h' | h'
    · exact a4 h o h'
    · have := a3 h
      have := b4 h o h'
      omega

/-! ## 7 bit sysex -/

theorem reset7_keeps (c : Collector7) : Keeps c.sysex.data.length c.capacity c.maxSize c.reset.sysex.data.length c.reset.capacity
    c.reset.maxSize [] := by
  refine ⟨Nat.zero_le _, rfl, fun _ => ?_, fun _ _ h => by cases h⟩
  show vecClearCap c.capacity ≤ _
  unfold vecClearCap
  split <;> omega

theorem feedPayload7_keeps (c : Collector7) (p : Packet) (hp : isSysex7Packet p = true) (h : c.sysex.data.length ≤ c.capacity) :
    ∃ d out, c.feedPayload p = .ok (d, out) ∧ Keeps c.sysex.data.length c.capacity c.maxSize d.sysex.data.length d.capacity
      d.maxSize (out.map (·.data.length)) := by
  have hn : sysex7PayloadSize p ≤ 6 := (C15_view_payload p hp).1
  obtain ⟨e1, e2, e3⟩ := ensureCapacity_bound (lim := c.maxSize) (n := sysex7PayloadSize p) h (by omega)
  unfold Collector7.feedPayload
  dsimp only
  generalize ensureCapacity c.capacity c.maxSize c.sysex.data.length (sysex7PayloadSize p) = ec at e1 e2 e3 ⊢
  obtain ⟨cap, acc⟩ := ec
  dsimp only at e1 e2 e3 ⊢
  cases acc
  · exact ⟨_, _, rfl, le_trans h e2, rfl, e3, fun _ _ h => by cases h⟩
  · simp only [Bool.not_true, Bool.false_eq_true, if_false]
    rw [collectLoop7_eq p _ 0 _ (by omega) (e1 rfl)]
    simp only [ok_bind]
    have hsz : (((List.range' 0 (sysex7PayloadSize p)).map fun i => p.byteAt (2 + i)).foldl coll7
        (c.sysex, c.idRead)).1.data.length ≤ c.sysex.data.length + sysex7PayloadSize p := by
      simpa using coll7_foldl_length ((List.range' 0 (sysex7PayloadSize p)).map fun i => p.byteAt (2 + i)) (c.sysex, c.idRead)
    generalize ((List.range' 0 (sysex7PayloadSize p)).map fun i => p.byteAt (2 + i)).foldl coll7 (c.sysex, c.idRead) = r at hsz ⊢
    have e1' := e1 rfl
    split
    · refine ⟨_, _, rfl, Nat.zero_le _, rfl, fun hl => ?_, fun hl o ho => ?_⟩
      · show vecClearCap cap ≤ _
        have := e3 hl
        unfold vecClearCap
        split <;> omega
      · have := e3 hl
        have ho' : o = r.1.data.length := by
          split at ho
          · simpa using ho
          · cases ho
        omega
    · exact ⟨_, _, rfl, le_trans hsz e1', rfl, e3, fun _ _ h => by cases h⟩

theorem feed7_keeps (c : Collector7) (p : Packet) (h : c.sysex.data.length ≤ c.capacity) :
    ∃ d out, c.feed p = .ok (d, out) ∧ Keeps c.sysex.data.length c.capacity c.maxSize d.sysex.data.length d.capacity
      d.maxSize (out.map (·.data.length)) := by
  unfold Collector7.feed
  by_cases hb : isSysex7Packet p = true
  · simp only [hb, Bool.not_true, Bool.false_eq_true, if_false, sysex7View]
    rw [assert_ok rfl]
    simp only [ok_bind, pure_eq_ok]
    split
    · split
      · obtain ⟨d, out, e, k⟩ := feedPayload7_keeps c.reset p hb (reset7_keeps c).size
        exact ⟨d, out, e, (reset7_keeps c).trans k⟩
      · exact feedPayload7_keeps c p hb h
    · split
      · exact ⟨_, _, rfl, reset7_keeps c⟩
      · exact feedPayload7_keeps c p hb h
  · simp only [hb, Bool.not_false, if_true]
    exact ⟨_, _, rfl, h, rfl, fun _ => le_max_left _ _, fun _ _ h => by cases h⟩

theorem feedAll7_keeps (ps : List Packet) : ∀ (c : Collector7), c.sysex.data.length ≤ c.capacity →
    ∃ d out, c.feedAll ps = .ok (d, out) ∧ Keeps c.sysex.data.length c.capacity c.maxSize d.sysex.data.length d.capacity
      d.maxSize (out.map (·.data.length)) := by
  induction ps with
  | nil => intro c h; exact ⟨c, [], rfl, h, rfl, fun _ => le_max_left _ _, fun _ _ h => by cases h⟩
  | cons p ps ih =>
    intro c h
    obtain ⟨d, out, e, k⟩ := feed7_keeps c p h
    obtain ⟨d', out', e', k'⟩ := ih d k.size
    refine ⟨d', out ++ out', ?_, ?_⟩
    · unfold Collector7.feedAll
      rw [e, ok_bind]; dsimp only
      rw [e']; rfl
    · rw [List.map_append]
      exact k.trans k'

theorem run7_size (ops : List CollectorOp) : ∀ (c : Collector7), c.sysex.data.length ≤ c.capacity →
    ∃ d out, c.run ops = .ok (d, out) ∧ d.sysex.data.length ≤ d.capacity := by
  induction ops with
  | nil => intro c h; exact ⟨c, [], rfl, h⟩
  | cons op ops ih =>
    intro c h
    cases op with
    | feed ps =>
      obtain ⟨d, out, e, k⟩ := feedAll7_keeps ps c h
      obtain ⟨d', out', e', k'⟩ := ih d k.size
      refine ⟨d', out ++ out', ?_, k'⟩
      rw [Collector7.run, e, ok_bind]; dsimp only
      rw [e']; rfl
    | setMaxSize n =>
      refine ih (c.setMaxSize n) ?_
      unfold Collector7.setMaxSize vecReserve
      dsimp only
      split
      · exact le_trans h (le_max_left _ _)
      · exact h
    | setCallback b => exact ih (c.setCallback b) h
    | reset => exact ih c.reset (Nat.zero_le _)

/-- C21: no history of calls on a new collector causes a fault, whatever packets are fed. -/
theorem C21_history_never_faults (ops : List CollectorOp) : ∃ d out, ({} : Collector7).run ops = .ok (d, out) := by
  obtain ⟨d, out, h, _⟩ := run7_size ops {} (Nat.le_refl _)
  exact ⟨d, out, h⟩

/-- C22: after any history of calls, a limit bounds the messages delivered from then on, and the storage, by the limit or by the
storage that is already allocated, whichever is larger. -/
theorem C22_effective_limit (ops : List CollectorOp) (c : Collector7) (before : List Sysex)
    (hc : ({} : Collector7).run ops = .ok (c, before)) (n : Nat) (hn : n ≠ 0) (ps : List Packet) :
    ∃ c' out, (c.setMaxSize n).feedAll ps = .ok (c', out) ∧ (∀ m ∈ out, m.data.length ≤ max c.capacity n) ∧
      c'.capacity ≤ max c.capacity n := by
  obtain ⟨d, out, h, hs⟩ := run7_size ops {} (Nat.le_refl _)
  cases h.symm.trans hc
  have e : c.setMaxSize n = { c with maxSize := n, capacity := max c.capacity n } := by
    unfold Collector7.setMaxSize; rw [if_pos hn]; rfl
  obtain ⟨d, out, h', k⟩ := feedAll7_keeps ps (c.setMaxSize n) (by rw [e]; exact le_trans hs (le_max_left _ _))
  rw [e] at k h' ⊢
  have k3 := k.cap hn
  have k4 := k.out hn
  dsimp only at k3 k4
  refine ⟨d, out, h', fun m hm => ?_, by omega⟩
  have := k4 _ (List.mem_map_of_mem hm)
  omega

-- a history in which the storage is larger than the limit
example : ∃ c out, ({} : Collector7).run [.feed [⟨0x30017E00, 0, 0, 0⟩], .reset, .setCallback true] = .ok (c, out) ∧
    c.capacity = 128 := ⟨_, _, rfl, rfl⟩

/-! ## The exact behaviour with a limit -/

theorem limited_eq {n : Nat} (hn : n ≠ 0) (l : List (Nat × List Byte)) (hl : ∀ x ∈ l, x.1 ≤ 3) : ∀ st : Bool × List Byte,
    (absRun7 n st l).2 = limited n st.1 st.2 l := by
  induction l with
  | nil => intro st; rfl
  | cons x l ih =>
    rintro ⟨r, pl⟩
    obtain ⟨f, d⟩ := x
    have hf : f ≤ 3 := hl _ (List.mem_cons_self ..)
    have ih' := ih fun x hx => hl x (List.mem_cons_of_mem _ hx)
    have fe : ∀ k, fits n k ↔ k ≤ n := fun k => ⟨fun h => h.resolve_left hn, Or.inr⟩
    show (abs7 n (r, pl) (f, d)).2 ++ (absRun7 n (abs7 n (r, pl) (f, d)).1 l).2 = _
    rw [ih', limited]
    unfold abs7
    simp only [fe]
    have hc : f = 0 ∨ f = 1 ∨ f = 2 ∨ f = 3 := by omega
    rcases hc with rfl | rfl | rfl | rfl <;> cases r <;> simp <;> split <;> simp

/-- C22, C23: the messages that a new collector with a limit delivers, for every sequence of packets. -/
theorem C22_limited_exactly (n : Nat) (hn : n ≠ 0) (ps : List Packet) :
    ∃ c, (({} : Collector7).setMaxSize n).feedAll ps = .ok (c, (limited n false [] (items7 ps)).map message7) := by
  obtain ⟨c, h, _⟩ := feedAll7_rel ps (rel7_limit rel7_fresh hn (Nat.zero_le n))
  rw [limited_eq hn _ (items7_codes ps)] at h
  exact ⟨c, h⟩

example := C22_limited_exactly 8 (by decide) [⟨0x30167E01, 0x02030405, 0, 0⟩, ⟨0x30330607, 0x08000000, 0, 0⟩]

/-- The reference machine on a message that is dropped before its last packet. -/
theorem limited_early {n : Nat} (k : Nat) : ∀ (its rest : List (Nat × List Byte)) (pl : List Byte) (i : Nat) (hi : i + 1 < its.length),
    its.map Prod.fst = List.replicate k 2 ++ [3] →
    n < (message7 (pl ++ (its.take i).flatMap Prod.snd)).data.length + its[i].2.length →
    limited n true pl (its ++ rest) = limited n false [] rest := by
  have orphans : ∀ (k : Nat) (its rest : List (Nat × List Byte)) (pl : List Byte), its.map Prod.fst = List.replicate k 2 ++ [3] →
      limited n false pl (its ++ rest) = limited n false [] rest := by
    intro k
    induction k with
    | zero =>
      intro its rest pl h
      match its, h with
      | [(3, e)], _ => rw [List.cons_append, limited, if_pos ⟨by omega, rfl⟩]; rfl
    | succ k ih =>
      intro its rest pl h
      match its, h with
      | (2, e) :: its, h =>
        rw [List.cons_append, limited, if_pos ⟨by omega, rfl⟩]
        exact ih its rest [] (by simpa [List.replicate_succ] using h)
      | (0, e) :: its, h => simp [List.replicate_succ] at h
      | (1, e) :: its, h => simp [List.replicate_succ] at h
      | (j + 3, e) :: its, h => simp [List.replicate_succ] at h
  induction k with
  | zero =>
    intro its rest pl i hi h
    have := congrArg List.length h
    simp at this
    omega
  | succ k ih =>
    intro its rest pl i hi h ho
    match its, h with
    | (c, e) :: its, h =>
      rw [List.replicate_succ, List.cons_append, List.map_cons, List.cons.injEq] at h
      obtain ⟨rfl, h⟩ := h
      rw [List.cons_append, limited, if_neg (by simp)]
      simp only [Nat.reduceLeDiff, false_and, if_false, Nat.reduceEqDiff, or_self]
      by_cases hc : (message7 pl).data.length + e.length ≤ n
      · rw [if_pos hc]
        cases i with
        | zero =>
          simp only [List.take_zero, List.flatMap_nil, List.append_nil, List.getElem_cons_zero] at ho
          omega
        | succ i =>
          refine ih its rest (pl ++ e) i (by simpa using hi) h ?_
          simpa [List.append_assoc] using ho
      · rw [if_neg hc]
        exact orphans k its rest pl h

/-- The reference machine on a message that fits up to its last packet. -/
theorem limited_rest {n : Nat} (k : Nat) : ∀ (its rest : List (Nat × List Byte)) (pl : List Byte),
    its.map Prod.fst = List.replicate k 2 ++ [3] → (pl ++ its.dropLast.flatMap Prod.snd).length ≤ n →
    limited n true pl (its ++ rest) =
      if (message7 (pl ++ its.dropLast.flatMap Prod.snd)).data.length + (its.getLast?.getD (0, [])).2.length ≤ n then
        (pl ++ its.flatMap Prod.snd) :: limited n false [] rest
      else limited n false (pl ++ its.dropLast.flatMap Prod.snd) rest := by
  induction k with
  | zero =>
    intro its rest pl h hf
    match its, h with
    | [(3, e)], _ =>
      rw [List.cons_append, limited, if_neg (by simp)]
      simp
  | succ k ih =>
    intro its rest pl h hf
    match its, h with
    | (c, e) :: its, h =>
      rw [List.replicate_succ, List.cons_append, List.map_cons, List.cons.injEq] at h
      obtain ⟨rfl, h⟩ := h
      have hne : its ≠ [] := by rintro rfl; simp at h
      rw [List.dropLast_cons_of_ne_nil hne, List.flatMap_cons] at hf ⊢
      have hm := (message7_length pl).1
      have hc : (message7 pl).data.length + e.length ≤ n := by
        simp only [List.length_append] at hf; omega
      rw [List.cons_append, limited, if_neg (by simp)]
      simp only [Nat.reduceLeDiff, false_and, if_false, Nat.reduceEqDiff, or_self]
      rw [if_pos hc, ih its rest (pl ++ e) h (by simpa [List.append_assoc] using hf)]
      simp only [List.append_assoc, List.flatMap_cons]
      rw [List.getLast?_cons_of_ne_nil hne]

/-- The reference machine on a whole message that fits, together with what is left over. -/
theorem limited_framed {n : Nat} (its : List (Nat × List Byte)) (pl : List Byte) (h : Framed (its.map Prod.fst))
    (hf : (pl ++ its.flatMap Prod.snd).length ≤ n) : limited n false pl its = [pl ++ its.flatMap Prod.snd] := by
  have hm := (message7_length pl).1
  rcases h with h | ⟨k, h⟩
  · match its, h with
    | [(0, d)], _ =>
      simp only [List.flatMap_cons, List.flatMap_nil, List.append_nil, List.length_append] at hf
      rw [limited, if_neg (by simp)]
      simp only [Nat.zero_le, true_and, Bool.false_eq_true, if_false, true_or, if_true]
      rw [if_pos (by omega), limited]
      simp
  · match its, h with
    | (c, d) :: its, h =>
      simp only [List.map_cons, List.cons.injEq] at h
      obtain ⟨rfl, h⟩ := h
      have hne : its ≠ [] := by rintro rfl; simp at h
      simp only [List.flatMap_cons, List.length_append] at hf
      rw [limited, if_neg (by simp)]
      simp only [Bool.false_eq_true, and_false, if_false]
      rw [if_pos (by omega), if_neg (by omega)]
      have hs : its = its.dropLast ++ [its.getLast hne] := (List.dropLast_concat_getLast hne).symm
      have hsum : (its.flatMap Prod.snd).length = (its.dropLast.flatMap Prod.snd).length + (its.getLast hne).2.length := by
        conv => lhs; rw [hs]
        simp
      have e := limited_rest (n := n) k its [] (pl ++ d) h (by simp only [List.length_append]; omega)
      have hm2 := (message7_length (pl ++ d ++ its.dropLast.flatMap Prod.snd)).1
      simp only [List.length_append] at hm2
      rw [List.append_nil, List.getLast?_eq_some_getLast hne, Option.getD_some, if_pos (by omega)] at e
      rw [e, limited]
      simp

/-- C23: a message that is dropped before its last packet does not disturb the following message, if it is fed to a new
collector. The condition says that there is a packet before the last one whose payload does not fit in addition to the data
before it. -/
theorem C23_dropped_early_then_exact (n : Nat) (hn : n ≠ 0) (ps qs : List Packet)
    (hps : ∀ p ∈ ps, IsSysex7 p) (hpf : Framed (ps.map formatCode)) (i : Nat) (hi : i + 1 < ps.length)
    (hlong : n < (message7 ((ps.take i).flatMap payload7)).data.length + (payload7 ps[i]).length)
    (hqs : ∀ p ∈ qs, IsSysex7 p) (hqf : Framed (qs.map formatCode)) (hfit : (qs.flatMap payload7).length ≤ n) :
    ∃ c, (({} : Collector7).setMaxSize n).feedAll (ps ++ qs) = .ok (c, [message7 (qs.flatMap payload7)]) := by
  obtain ⟨c, h⟩ := C22_limited_exactly n hn (ps ++ qs)
  refine ⟨c, ?_⟩
  rw [h, items7_append, items7_all hps, items7_all hqs]
  have hlast : limited n false [] (qs.map fun p => (formatCode p, payload7 p)) = [qs.flatMap payload7] := by
    rw [limited_framed _ [] (by rw [map_fst_items]; exact hqf) (by rw [flatMap_snd_items]; exact hfit), flatMap_snd_items]
    rfl
  suffices limited n false [] ((ps.map fun p => (formatCode p, payload7 p)) ++ qs.map fun p => (formatCode p, payload7 p)) =
      limited n false [] (qs.map fun p => (formatCode p, payload7 p)) by rw [this, hlast]; rfl
  rcases hpf with hpf | ⟨k, hpf⟩
  · have := congrArg List.length hpf
    simp at this
    omega
  · match ps, hpf with
    | p :: ps, hpf =>
      rw [List.map_cons, List.cons.injEq] at hpf
      obtain ⟨h1, hpf⟩ := hpf
      rw [List.map_cons, List.cons_append, limited, h1, if_neg (by simp)]
      simp only [Bool.false_eq_true, and_false, if_false, List.nil_append]
      have e0 : (message7 []).data.length = 0 := rfl
      have hpf' : (ps.map fun p => (formatCode p, payload7 p)).map Prod.fst = List.replicate k 2 ++ [3] := by
        rw [map_fst_items]; exact hpf
      by_cases hc : (payload7 p).length ≤ n
      · rw [e0, Nat.zero_add, if_pos hc, if_neg (by omega)]
        cases i with
        | zero =>
          simp only [List.take_zero, List.flatMap_nil, List.getElem_cons_zero, e0] at hlong
          omega
        | succ i =>
          simp only [List.length_cons] at hi
          refine limited_early k _ _ (payload7 p) i (by simp; omega) hpf' ?_
          rw [List.getElem_map, ← List.map_take, flatMap_snd_items]
          simpa using hlong
      · rw [e0, Nat.zero_add, if_neg hc]
        have hne : ps ≠ [] := by rintro rfl; simp at hpf
        have ho := absRun7_orphans n (ps.map fun p => (formatCode p, payload7 p)) (by
          intro x hx
          have := List.mem_map_of_mem (f := Prod.fst) hx
          rw [hpf'] at this
          simp at this
          omega) (by simpa using hne) []
        have ha := absRun7_append n (ps.map fun p => (formatCode p, payload7 p)) (qs.map fun p => (formatCode p, payload7 p))
          (false, [])
        have hcodes : ∀ x ∈ (ps ++ qs).map fun p => (formatCode p, payload7 p), x.1 ≤ 3 := by
          intro x hx
          obtain ⟨q, hq, rfl⟩ := List.mem_map.1 hx
          rcases List.mem_append.1 hq with hq | hq
          · exact (hps q (List.mem_cons_of_mem _ hq)).2.1
          · exact (hqs q hq).2.1
        have hcodes' : ∀ x ∈ qs.map fun p => (formatCode p, payload7 p), x.1 ≤ 3 := by
          intro x hx
          obtain ⟨q, hq, rfl⟩ := List.mem_map.1 hx
          exact (hqs q hq).2.1
        rw [← List.map_append, ← limited_eq hn _ hcodes (false, []), List.map_append, ha, ho,
          ← limited_eq hn _ hcodes' (false, [])]
        rfl

/-- C23 is false for every message that fits without its last packet, but does not fit with it: all its other packets are
left over, and are delivered as the begin of the following message if that still fits. -/
theorem C23_dropped_late_leaks (n : Nat) (hn : n ≠ 0) (ps qs : List Packet) (last : Packet)
    (hps : ∀ p ∈ ps ++ [last], IsSysex7 p) (hpf : Framed ((ps ++ [last]).map formatCode)) (hne : ps ≠ [])
    (hfits : (ps.flatMap payload7).length ≤ n)
    (hlong : n < (message7 (ps.flatMap payload7)).data.length + (payload7 last).length)
    (hqs : ∀ p ∈ qs, IsSysex7 p) (hqf : Framed (qs.map formatCode))
    (hfit : (ps.flatMap payload7 ++ qs.flatMap payload7).length ≤ n) :
    ∃ c, (({} : Collector7).setMaxSize n).feedAll (ps ++ [last] ++ qs) =
      .ok (c, [message7 (ps.flatMap payload7 ++ qs.flatMap payload7)]) := by
  obtain ⟨c, h⟩ := C22_limited_exactly n hn (ps ++ [last] ++ qs)
  refine ⟨c, ?_⟩
  rw [h, items7_append, items7_all hps, items7_all hqs]
  have hlast : limited n false (ps.flatMap payload7) (qs.map fun p => (formatCode p, payload7 p)) =
      [ps.flatMap payload7 ++ qs.flatMap payload7] := by
    rw [limited_framed _ _ (by rw [map_fst_items]; exact hqf) (by rw [flatMap_snd_items]; exact hfit), flatMap_snd_items]
  rcases hpf with hpf | ⟨k, hpf⟩
  · have h1 := congrArg List.length hpf
    have h2 := List.length_pos_iff.2 hne
    rw [List.length_map, List.length_append, List.length_singleton, List.length_singleton] at h1
    omega
  · match ps, hpf, hne with
    | p :: ps, hpf, _ =>
      rw [List.cons_append, List.map_cons, List.cons.injEq] at hpf
      obtain ⟨h1, hpf⟩ := hpf
      rw [List.cons_append, List.map_cons, List.cons_append, limited, h1, if_neg (by simp)]
      simp only [Bool.false_eq_true, and_false, if_false, List.nil_append]
      have e0 : (message7 []).data.length = 0 := rfl
      rw [List.flatMap_cons] at hfits hlong hlast hfit ⊢
      simp only [List.length_append] at hfits hfit
      rw [e0, Nat.zero_add, if_pos (by omega), if_neg (by omega)]
      have e := limited_rest (n := n) k ((ps ++ [last]).map fun p => (formatCode p, payload7 p))
        (qs.map fun p => (formatCode p, payload7 p)) (payload7 p) (by rw [map_fst_items]; exact hpf) (by
          rw [← List.map_dropLast, flatMap_snd_items, List.dropLast_concat, List.length_append]; omega)
      rw [← List.map_dropLast, flatMap_snd_items, List.dropLast_concat, if_neg (by
        rw [List.map_append, List.map_cons, List.map_nil, List.getLast?_concat, Option.getD_some]; dsimp only; omega)] at e
      rw [e, hlast]
      rfl

-- the hypotheses of both, with limits of 8 and 10 bytes
example : let ps : List Packet := [⟨0x30167E01, 0x02030405, 0, 0⟩, ⟨0x30260607, 0x08090A0B, 0, 0⟩, ⟨0x30310C00, 0, 0, 0⟩]
    (∀ p ∈ ps, IsSysex7 p) ∧ ps.map formatCode = [1, 2, 3] ∧
    8 < (message7 ((ps.take 1).flatMap payload7)).data.length + (payload7 ps[1]).length := by decide
example : let ps : List Packet := [⟨0x30167E01, 0x02030405, 0, 0⟩]
    let last : Packet := ⟨0x30360607, 0x08090A0B, 0, 0⟩
    (∀ p ∈ ps ++ [last], IsSysex7 p) ∧ (ps ++ [last]).map formatCode = [1, 3] ∧ (ps.flatMap payload7).length ≤ 10 ∧
    10 < (message7 (ps.flatMap payload7)).data.length + (payload7 last).length := by decide

/-! ## 8 bit sysex -/

theorem reset8_keeps (c : Collector8) : Keeps c.sysex.data.length c.capacity c.maxSize c.reset.sysex.data.length c.reset.capacity
    c.reset.maxSize [] := by
  refine ⟨Nat.zero_le _, rfl, fun _ => ?_, fun _ _ h => by cases h⟩
  show vecClearCap c.capacity ≤ _
  unfold vecClearCap
  split <;> omega

theorem feedPayload8_keeps (c : Collector8) (p : Packet) (hp : isSysex8Packet p = true) (h : c.sysex.data.length ≤ c.capacity) :
    ∃ d out, c.feedPayload p = .ok (d, out) ∧ Keeps c.sysex.data.length c.capacity c.maxSize d.sysex.data.length d.capacity
      d.maxSize (out.map (·.1.data.length)) := by
  have hn : sysex8PayloadSize p ≤ 13 := (C16_view_payload p hp).1
  obtain ⟨e1, e2, e3⟩ := ensureCapacity_bound (lim := c.maxSize) (n := sysex8PayloadSize p) h hn
  unfold Collector8.feedPayload
  dsimp only
  generalize ensureCapacity c.capacity c.maxSize c.sysex.data.length (sysex8PayloadSize p) = ec at e1 e2 e3 ⊢
  obtain ⟨cap, acc⟩ := ec
  dsimp only at e1 e2 e3 ⊢
  cases acc
  · exact ⟨_, _, rfl, le_trans h e2, rfl, e3, fun _ _ h => by cases h⟩
  · simp only [Bool.not_true, Bool.false_eq_true, if_false]
    rw [collectLoop8_eq p _ 0 _ (by omega) (e1 rfl)]
    simp only [ok_bind]
    have hsz : (((List.range' 0 (sysex8PayloadSize p)).map fun i => p.byteAt (3 + i)).foldl coll8
        (c.sysex, c.idState)).1.data.length ≤ c.sysex.data.length + sysex8PayloadSize p := by
      simpa using coll8_foldl_length ((List.range' 0 (sysex8PayloadSize p)).map fun i => p.byteAt (3 + i)) (c.sysex, c.idState)
    generalize ((List.range' 0 (sysex8PayloadSize p)).map fun i => p.byteAt (3 + i)).foldl coll8 (c.sysex, c.idState) = r
      at hsz ⊢
    have e1' := e1 rfl
    split
    · refine ⟨_, _, rfl, Nat.zero_le _, rfl, fun hl => ?_, fun hl o ho => ?_⟩
      · show vecClearCap cap ≤ _
        have := e3 hl
        unfold vecClearCap
        split <;> omega
      · have := e3 hl
        have ho' : o = r.1.data.length := by
          split at ho
          · simpa using ho
          · cases ho
        omega
    · exact ⟨_, _, rfl, le_trans hsz e1', rfl, e3, fun _ _ h => by cases h⟩

theorem feed8_keeps (c : Collector8) (p : Packet) (h : c.sysex.data.length ≤ c.capacity) :
    ∃ d out, c.feed p = .ok (d, out) ∧ Keeps c.sysex.data.length c.capacity c.maxSize d.sysex.data.length d.capacity
      d.maxSize (out.map (·.1.data.length)) := by
  unfold Collector8.feed
  by_cases hb : isSysex8Packet p = true
  · have hst : sysex8StreamId p = .ok (p.byteAt 2) := by
      unfold sysex8StreamId; rw [Packet.getByte_lt _ (by omega)]
    simp only [hb, Bool.not_true, Bool.false_eq_true, if_false, sysex8View]
    rw [assert_ok rfl]
    simp only [ok_bind, pure_eq_ok, hst]
    split
    · split
      · obtain ⟨d, out, e, k⟩ := feedPayload8_keeps { c.reset with streamId := p.byteAt 2 } p hb (reset8_keeps c).size
        exact ⟨d, out, e, (reset8_keeps c).trans k⟩
      · exact feedPayload8_keeps { c with streamId := p.byteAt 2 } p hb h
    · split
      · exact ⟨_, _, rfl, reset8_keeps c⟩
      · split
        · exact ⟨_, _, rfl, h, rfl, fun _ => le_max_left _ _, fun _ _ h => by cases h⟩
        · exact feedPayload8_keeps c p hb h
  · simp only [hb, Bool.not_false, if_true]
    exact ⟨_, _, rfl, h, rfl, fun _ => le_max_left _ _, fun _ _ h => by cases h⟩

theorem feedAll8_keeps (ps : List Packet) : ∀ (c : Collector8), c.sysex.data.length ≤ c.capacity →
    ∃ d out, c.feedAll ps = .ok (d, out) ∧ Keeps c.sysex.data.length c.capacity c.maxSize d.sysex.data.length d.capacity
      d.maxSize (out.map (·.1.data.length)) := by
  induction ps with
  | nil => intro c h; exact ⟨c, [], rfl, h, rfl, fun _ => le_max_left _ _, fun _ _ h => by cases h⟩
  | cons p ps ih =>
    intro c h
    obtain ⟨d, out, e, k⟩ := feed8_keeps c p h
    obtain ⟨d', out', e', k'⟩ := ih d k.size
    refine ⟨d', out ++ out', ?_, ?_⟩
    · unfold Collector8.feedAll
      rw [e, ok_bind]; dsimp only
      rw [e']; rfl
    · rw [List.map_append]
      exact k.trans k'

theorem run8_size (ops : List CollectorOp) : ∀ (c : Collector8), c.sysex.data.length ≤ c.capacity →
    ∃ d out, c.run ops = .ok (d, out) ∧ d.sysex.data.length ≤ d.capacity := by
  induction ops with
  | nil => intro c h; exact ⟨c, [], rfl, h⟩
  | cons op ops ih =>
    intro c h
    cases op with
    | feed ps =>
      obtain ⟨d, out, e, k⟩ := feedAll8_keeps ps c h
      obtain ⟨d', out', e', k'⟩ := ih d k.size
      refine ⟨d', out ++ out', ?_, k'⟩
      rw [Collector8.run, e, ok_bind]; dsimp only
      rw [e']; rfl
    | setMaxSize n =>
      refine ih (c.setMaxSize n) ?_
      unfold Collector8.setMaxSize vecReserve
      dsimp only
      split
      · exact le_trans h (le_max_left _ _)
      · exact h
    | setCallback b => exact ih (c.setCallback b) h
    | reset => exact ih c.reset (Nat.zero_le _)

/-- C24: no history of calls on a new collector causes a fault, whatever packets are fed. -/
theorem C24_history_never_faults (ops : List CollectorOp) : ∃ d out, ({} : Collector8).run ops = .ok (d, out) := by
  obtain ⟨d, out, h, _⟩ := run8_size ops {} (Nat.le_refl _)
  exact ⟨d, out, h⟩

/-- C22 for 8 bit sysex: after any history of calls, a limit bounds the messages delivered from then on, and the storage, by
the limit or by the storage that is already allocated, whichever is larger. -/
theorem C22_effective_limit8 (ops : List CollectorOp) (c : Collector8) (before : List (Sysex × Byte))
    (hc : ({} : Collector8).run ops = .ok (c, before)) (n : Nat) (hn : n ≠ 0) (ps : List Packet) :
    ∃ c' out, (c.setMaxSize n).feedAll ps = .ok (c', out) ∧ (∀ m ∈ out, m.1.data.length ≤ max c.capacity n) ∧
      c'.capacity ≤ max c.capacity n := by
  obtain ⟨d, out, h, hs⟩ := run8_size ops {} (Nat.le_refl _)
  cases h.symm.trans hc
  have e : c.setMaxSize n = { c with maxSize := n, capacity := max c.capacity n } := by
    unfold Collector8.setMaxSize; rw [if_pos hn]; rfl
  obtain ⟨d, out, h', k⟩ := feedAll8_keeps ps (c.setMaxSize n) (by rw [e]; exact le_trans hs (le_max_left _ _))
  rw [e] at k h' ⊢
  have k3 := k.cap hn
  have k4 := k.out hn
  dsimp only at k3 k4
  refine ⟨d, out, h', fun m hm => ?_, by omega⟩
  have := k4 _ (List.mem_map_of_mem hm)
  omega

example := C22_effective_limit8 [.feed [⟨0x50050000, 0x7E010200, 0, 0⟩]] _ _ rfl 8 (by decide) [⟨0x50050000, 0x7E010200, 0, 0⟩]

theorem limited8_eq {n : Nat} (hn : n ≠ 0) (l : List Item8) (hl : ∀ x ∈ l, x.1 ≤ 3) : ∀ st : St8,
    (absRun8 n st l).2 = limited8 n st.1 st.2.1 st.2.2 l := by
  induction l with
  | nil => intro st; rfl
  | cons x l ih =>
    rintro ⟨r, s, pl⟩
    obtain ⟨f, t, d⟩ := x
    have hf : f ≤ 3 := hl _ (List.mem_cons_self ..)
    have ih' := ih fun x hx => hl x (List.mem_cons_of_mem _ hx)
    have fe : ∀ k, fits n k ↔ k ≤ n := fun k => ⟨fun h => h.resolve_left hn, Or.inr⟩
    show (abs8 n (r, s, pl) (f, t, d)).2 ++ (absRun8 n (abs8 n (r, s, pl) (f, t, d)).1 l).2 = _
    rw [ih', limited8]
    unfold abs8 absAdd8
    simp only [fe]
    have hc : f = 0 ∨ f = 1 ∨ f = 2 ∨ f = 3 := by omega
    by_cases hs : t = s
    · subst hs
      rcases hc with rfl | rfl | rfl | rfl <;> cases r <;> simp <;> split <;> simp
    · rcases hc with rfl | rfl | rfl | rfl <;> cases r <;> simp [hs] <;> split <;> simp

/-- C22, C23 for 8 bit sysex: the messages that a new collector with a limit delivers, for every sequence of packets. -/
theorem C22_limited_exactly8 (n : Nat) (hn : n ≠ 0) (ps : List Packet) :
    ∃ c, (({} : Collector8).setMaxSize n).feedAll ps =
      .ok (c, (limited8 n false 0 [] (items8 ps)).map fun m => (message8 m.1, m.2)) := by
  obtain ⟨c, h, _⟩ := feedAll8_rel ps (rel8_limit rel8_fresh hn (Nat.zero_le n))
  rw [limited8_eq hn _ (items8_codes ps)] at h
  exact ⟨c, h⟩

example := C22_limited_exactly8 8 (by decide) [⟨0x50050000, 0x7E010200, 0, 0⟩]

end Midi

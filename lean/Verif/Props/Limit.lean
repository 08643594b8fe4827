import Verif.Spec.Limit
import Verif.Props.CollectorLimit
import Verif.Props.Transfer
import Verif.Props.Store
import Verif.Props.CIFactory

/-!
# C111: senders that respect the maximum message size of the receiver
-/

namespace Midi
open Spec UniversalSysex CI

/-! ## The reference machine on the messages of `send_sysex7` -/

theorem limited_orphans {n : Nat} (k : Nat) : ∀ (its rest : List (Nat × List Byte)) (pl : List Byte), its.map Prod.fst = List.replicate k 2 ++ [3] →
    limited n false pl (its ++ rest) = limited n false [] rest := by
  induction k with
  | zero =>
    intro its rest pl h
    match its, h with
    | [(3, e)], _ => rw [List.cons_append, limited, if_pos ⟨by omega, rfl⟩]; rfl
  | succ k ih =>
    intro its rest pl h
    match its, h with
    | (c, e) :: its, h =>
      rw [List.replicate_succ, List.cons_append, List.map_cons, List.cons.injEq] at h
      obtain ⟨rfl, h⟩ := h
      rw [List.cons_append, limited, if_pos ⟨by omega, rfl⟩]
      exact ih its rest [] h

theorem message7_more (pl x : List Byte) (h : 3 ≤ pl.length) : (message7 (pl ++ x)).data.length = (message7 pl).data.length + x.length := by
  match pl, h with
  | a :: b :: c :: d, _ =>
    simp only [message7, List.cons_append]
    split
    · simp
    · simp; omega

/-- What follows the start packet. -/
theorem limited_tail {n : Nat} (k : Nat) : ∀ (its : List (Nat × List Byte)) (pl : List Byte),
    its.map Prod.fst = List.replicate k 2 ++ [3] → 3 ≤ pl.length → (message7 pl).data.length ≤ n →
    ((message7 (pl ++ its.flatMap Prod.snd)).data.length ≤ n →
      ∀ rest, limited n true pl (its ++ rest) = (pl ++ its.flatMap Prod.snd) :: limited n false [] rest) ∧
    (∀ last ∈ its.getLast?, n < (message7 (pl ++ its.flatMap Prod.snd)).data.length →
      (message7 (pl ++ its.flatMap Prod.snd)).data.length ≤ n + last.2.length →
      ∃ h, (message7 h).data.length + last.2.length = (message7 (pl ++ its.flatMap Prod.snd)).data.length ∧
      ∀ rest, limited n true pl (its ++ rest) = limited n false h rest) ∧
    (∀ last ∈ its.getLast?, n + last.2.length < (message7 (pl ++ its.flatMap Prod.snd)).data.length →
      ∀ rest, limited n true pl (its ++ rest) = limited n false [] rest) := by
  induction k with
  | zero =>
    intro its pl h hpl hn
    match its, h with
    | [(3, e)], _ =>
      have e0 : [((3 : Nat), e)].flatMap Prod.snd = e := by simp
      rw [e0, message7_more pl e hpl]
      have hl : ∀ last ∈ [((3 : Nat), e)].getLast?, last = (3, e) := by simp
      refine ⟨fun h rest => ?_, fun last hlast h1 h2 => ⟨pl, ?_, fun rest => ?_⟩, fun last hlast h1 => ?_⟩
      · rw [List.cons_append, limited, if_neg (by simp)]
        simp only [Nat.reduceLeDiff, false_and, if_false, or_true, if_true]
        rw [if_pos h]; rfl
      · rw [hl last hlast]
      · rw [List.cons_append, limited, if_neg (by simp)]
        simp only [Nat.reduceLeDiff, false_and, if_false, or_true, if_true]
        rw [if_neg (by omega)]; rfl
      · rw [hl last hlast] at h1
        simp only at h1
        omega
  | succ k ih =>
    intro its pl h hpl hn
    match its, h with
    | (c, e) :: its, h =>
      rw [List.replicate_succ, List.cons_append, List.map_cons, List.cons.injEq] at h
      obtain ⟨rfl, h⟩ := h
      have hne : its ≠ [] := by rintro rfl; simp at h
      have e0 : pl ++ ((2, e) :: its).flatMap Prod.snd = (pl ++ e) ++ its.flatMap Prod.snd := by simp
      have e1 : ((2, e) :: its).getLast? = its.getLast? := List.getLast?_cons_of_ne_nil hne
      rw [e0, e1]
      by_cases hc : (message7 pl).data.length + e.length ≤ n
      · have hstep : ∀ rest, limited n true pl (((2, e) :: its) ++ rest) = limited n true (pl ++ e) (its ++ rest) := by
          intro rest
          rw [List.cons_append, limited, if_neg (by simp)]
          simp only [Nat.reduceLeDiff, false_and, if_false, Nat.reduceEqDiff, or_self]
          rw [if_pos hc]
        simp only [hstep]
        exact ih its (pl ++ e) h (by simp; omega) (by rw [message7_more pl e hpl]; exact hc)
      · have hstep : ∀ rest, limited n true pl (((2, e) :: its) ++ rest) = limited n false [] rest := by
          intro rest
          rw [List.cons_append, limited, if_neg (by simp)]
          simp only [Nat.reduceLeDiff, false_and, if_false, Nat.reduceEqDiff, or_self]
          rw [if_neg hc]
          exact limited_orphans k its rest pl h
        simp only [hstep]
        have hall := message7_more (pl ++ e) (its.flatMap Prod.snd) (by simp; omega)
        rw [message7_more pl e hpl] at hall
        refine ⟨fun h' => by omega, fun last hlast h1 h2 => ?_, fun _ _ _ _ => by trivial⟩
        have : last.2.length ≤ (its.flatMap Prod.snd).length := by
          have hm := List.mem_of_getLast? hlast
          obtain ⟨s, t, rfl⟩ := List.append_of_mem hm
          simp; omega
        omega

/-- All of a message. `started` are the bytes left over from before, if any. -/
theorem limited_message {n : Nat} (its : List (Nat × List Byte)) (m : Sysex) (hf : Framed (its.map Prod.fst))
    (hfull : ∀ it ∈ its.dropLast, it.2.length = 6) (hlast : ∀ last ∈ its.getLast?, last.2.length = bytesInLast m)
    (hpl : its.flatMap Prod.snd = idBytes7 m.manufacturerID ++ m.data)
    (hm : GenuineId m.manufacturerID) (hs : SeveralPackets m) (rest : List (Nat × List Byte)) :
    (Fits n m → limited n false [] (its ++ rest) = (idBytes7 m.manufacturerID ++ m.data) :: limited n false [] rest) ∧
    (JustTooLarge n m → ∃ h, n < (message7 h).data.length + 6 ∧ limited n false [] (its ++ rest) = limited n false h rest) ∧
    (¬ Fits n m → ¬ JustTooLarge n m → limited n false [] (its ++ rest) = limited n false [] rest) ∧
    (∀ h, n < (message7 h).data.length + 6 → limited n false h (its ++ rest) = limited n false [] rest) := by
  have hlen := congrArg List.length hpl
  rw [List.length_append] at hlen
  have hsev : 6 < (idBytes7 m.manufacturerID).length + m.data.length := hs
  have hdata : (message7 (its.flatMap Prod.snd)).data.length = m.data.length := by rw [hpl, message7_id _ hm]
  have hl6 : bytesInLast m ≤ 6 := by unfold bytesInLast; omega
  rcases hf with hf | ⟨k, hf⟩
  · match its, hf with
    | [(0, d)], _ =>
      have := hlast (0, d) (by simp)
      simp at hlen this
      omega
  · match its, hf with
    | (c, a) :: its, hf =>
      simp only [List.map_cons, List.cons.injEq] at hf
      obtain ⟨rfl, hf⟩ := hf
      have hne : its ≠ [] := by rintro rfl; simp at hf
      have ha : a.length = 6 := hfull (1, a) (by rw [List.dropLast_cons_of_ne_nil hne]; simp)
      rw [List.getLast?_cons_of_ne_nil hne] at hlast
      rw [List.flatMap_cons] at hpl hdata
      have hreject : ∀ h, n < (message7 h).data.length + 6 → limited n false h (((1, a) :: its) ++ rest) = limited n false [] rest := by
        intro h hh
        rw [List.cons_append, limited, if_neg (by simp)]
        simp only [Bool.false_eq_true, and_false, if_false]
        rw [if_neg (by omega)]
        exact limited_orphans k its rest h hf
      by_cases h6 : 6 ≤ n
      · have hstep : limited n false [] (((1, a) :: its) ++ rest) = limited n true a (its ++ rest) := by
          rw [List.cons_append, limited, if_neg (by simp)]
          simp only [Bool.false_eq_true, and_false, if_false]
          rw [if_pos (by simp [message7]; omega), if_neg (by omega)]; rfl
        obtain ⟨t1, t2, t3⟩ := limited_tail (n := n) k its a hf (by omega) (by have := (message7_length a).1; omega)
        obtain ⟨last, hlm⟩ : ∃ last, last ∈ its.getLast? := ⟨its.getLast hne, List.getLast?_eq_some_getLast hne⟩
        rw [hstep]
        rw [hdata] at t1 t2 t3
        have hll := hlast last hlm
        refine ⟨fun ⟨_, hfit⟩ => ?_, fun ⟨_, h1, h2⟩ => ?_, fun h1 h2 => ?_, hreject⟩
        · rw [t1 hfit rest, ← hpl]
        · obtain ⟨h, e1, e2⟩ := t2 last hlm h1 (by omega)
          exact ⟨h, by omega, e2 rest⟩
        · refine t3 last hlm ?_ rest
          rw [hll]
          have : n < m.data.length := Nat.lt_of_not_le fun h => h1 ⟨h6, h⟩
          exact Nat.lt_of_not_le fun h => h2 ⟨h6, this, h⟩
      · refine ⟨fun h => absurd h.1 h6, fun h => absurd h.1 h6, fun _ _ => hreject [] (by simp [message7]; omega), hreject⟩

/-- The items of a message that is sent. -/
theorem sent_message (m : Sysex × Byte) (hm : Sendable7 m) : ∃ ps, sendSysex7 m.1 m.2 = .ok ps ∧ (∀ p ∈ ps, IsSysex7 p) ∧
    ∃ its : List (Nat × List Byte), ps.map (fun p => (formatCode p, payload7 p)) = its ∧ Framed (its.map Prod.fst) ∧
      (∀ it ∈ its.dropLast, it.2.length = 6) ∧ (∀ last ∈ its.getLast?, last.2.length = bytesInLast m.1) ∧
      its.flatMap Prod.snd = idBytes7 m.1.manufacturerID ++ m.1.data := by
  obtain ⟨hid, hd, hg⟩ := hm
  obtain ⟨ps, hps, h1, h2, h3, h4⟩ := C17_send_sysex7 m.1 m.2 hg hid
  refine ⟨ps, hps, fun p hp => (h1 p hp).1, _, rfl, by rw [map_fst_items]; exact h2, ?_, ?_, by rw [flatMap_snd_items, h4, map_and7F hd]⟩
  · intro it hit
    rw [← List.map_dropLast] at hit
    obtain ⟨p, hp, rfl⟩ := List.mem_map.1 hit
    exact h3 p hp
  · intro last hlast
    rw [List.getLast?_map, Option.mem_def, Option.map_eq_some_iff] at hlast
    obtain ⟨p, hp, rfl⟩ := hlast
    obtain ⟨q1, q2, q3⟩ := h1 p (List.mem_of_getLast? hp)
    have hne : ps ≠ [] := by rintro rfl; simp at hp
    have hs : ps = ps.dropLast ++ [p] := by
      have := List.dropLast_concat_getLast hne
      rw [List.getLast?_eq_some_getLast hne] at hp
      rw [Option.some.inj hp] at this
      exact this.symm
    have hsum := congrArg List.length h4
    rw [map_and7F hd] at hsum
    have h6 : (ps.dropLast.flatMap payload7).length = 6 * ps.dropLast.length := by
      generalize ps.dropLast = l at h3
      induction l with
      | nil => rfl
      | cons q l ih =>
        rw [List.flatMap_cons, List.length_append, ih fun x hx => h3 x (by simp [hx]), h3 q (by simp), List.length_cons]
        omega
    have hsplit : (ps.flatMap payload7).length = (ps.dropLast.flatMap payload7).length + (payload7 p).length := by
      conv => lhs; rw [hs]
      simp
    have hpos : 0 < (payload7 p).length := List.length_pos_iff.2 q3
    have hle : (payload7 p).length ≤ 6 := by
      have := q1.2.2
      simp [payload7]
      omega
    rw [List.length_append] at hsum
    show (payload7 p).length = bytesInLast m.1
    unfold bytesInLast bytesSent
    omega

theorem limited_passing (n : Nat) (ms : List (Sysex × Byte)) (hms : ∀ m ∈ ms, Sendable7 m ∧ SeveralPackets m.1) (sent : List (List Packet))
    (hs : ms.mapM (fun m => sendSysex7 m.1 m.2) = .ok sent) :
    (limited n false [] (sent.flatten.map fun p => (formatCode p, payload7 p))).map message7 = passing n (ms.map Prod.fst) := by
  match ms, hms, hs with
  | [], _, hs =>
    simp only [List.mapM_nil] at hs
    obtain rfl := Except.ok.inj hs
    rfl
  | [m], hms, hs =>
    obtain ⟨ps, hps, -, its, h1, h2, h3, h4, h5⟩ := sent_message m (hms m (by simp)).1
    rw [List.mapM_cons, hps, ok_bind, List.mapM_nil] at hs
    obtain rfl := Except.ok.inj hs
    have hid := (hms m (by simp)).1.1
    obtain ⟨t1, t2, t3, -⟩ := limited_message (n := n) its m.1 h2 h3 h4 h5 hid (hms m (by simp)).2 []
    rw [List.append_nil] at t1 t2 t3
    rw [List.flatten_cons, List.flatten_nil, List.append_nil, h1]
    show _ = if Fits n m.1 then [m.1] else []
    by_cases hf : Fits n m.1
    · rw [if_pos hf, t1 hf]
      simp [limited, message7_id _ hid]
    · rw [if_neg hf]
      by_cases hj : JustTooLarge n m.1
      · obtain ⟨h, -, e⟩ := t2 hj
        rw [e]; rfl
      · rw [t3 hf hj]; rfl
  | m :: next :: ms, hms, hs =>
    obtain ⟨ps, hps, -, its, h1, h2, h3, h4, h5⟩ := sent_message m (hms m (by simp)).1
    obtain ⟨qs, hqs, -, jts, g1, g2, g3, g4, g5⟩ := sent_message next (hms next (by simp)).1
    rw [List.mapM_cons, hps, ok_bind] at hs
    obtain ⟨sent1, hs1, hs⟩ := bindOk_iff.1 hs
    obtain rfl := Except.ok.inj hs
    have hs2 := hs1
    rw [List.mapM_cons, hqs, ok_bind] at hs2
    obtain ⟨sent2, hs2, hs3⟩ := bindOk_iff.1 hs2
    have hid := (hms m (by simp)).1.1
    obtain ⟨t1, t2, t3, -⟩ := limited_message (n := n) its m.1 h2 h3 h4 h5 hid (hms m (by simp)).2
      (sent1.flatten.map fun p => (formatCode p, payload7 p))
    obtain ⟨-, -, -, u4⟩ := limited_message (n := n) jts next.1 g2 g3 g4 g5 (hms next (by simp)).1.1 (hms next (by simp)).2
      (sent2.flatten.map fun p => (formatCode p, payload7 p))
    have ih1 := limited_passing n (next :: ms) (fun x hx => hms x (List.mem_cons_of_mem _ hx)) sent1 hs1
    have ih2 := limited_passing n ms (fun x hx => hms x (by simp [hx])) sent2 hs2
    rw [List.flatten_cons, List.map_append, h1]
    show _ = if Fits n m.1 then m.1 :: passing n ((next :: ms).map Prod.fst)
      else if JustTooLarge n m.1 then passing n (ms.map Prod.fst) else passing n ((next :: ms).map Prod.fst)
    by_cases hf : Fits n m.1
    · rw [if_pos hf, t1 hf, List.map_cons, ih1, message7_id _ hid]
    · rw [if_neg hf]
      by_cases hj : JustTooLarge n m.1
      · rw [if_pos hj]
        obtain ⟨h, e0, e⟩ := t2 hj
        obtain rfl := Except.ok.inj hs3
        rw [e, List.flatten_cons, List.map_append, g1, u4 h e0, ih2]
      · rw [if_neg hj, t3 hf hj, ih1]
termination_by ms.length

theorem passing_sublist (n : Nat) (ms : List Sysex) : (passing n ms).Sublist ms := by
  match ms with
  | [] => exact List.Sublist.refl _
  | [m] =>
    unfold passing
    split
    · exact List.Sublist.refl _
    · exact List.nil_sublist _
  | m :: next :: ms =>
    unfold passing
    split
    · exact (passing_sublist n (next :: ms)).cons_cons m
    · split
      · exact ((passing_sublist n ms).cons next).cons m
      · exact (passing_sublist n (next :: ms)).cons m
termination_by ms.length

theorem passing_all (n : Nat) (ms : List Sysex) (h : ∀ m ∈ ms, Fits n m) : passing n ms = ms := by
  match ms, h with
  | [], _ => rfl
  | [m], h => unfold passing; rw [if_pos (h m (by simp))]
  | m :: next :: ms, h =>
    unfold passing
    rw [if_pos (h m (by simp)), passing_all n (next :: ms) fun x hx => h x (List.mem_cons_of_mem _ hx)]
termination_by ms.length

theorem passing_fits (n : Nat) (ms : List Sysex) : ∀ m ∈ passing n ms, Fits n m := by
  match ms with
  | [] => intro m hm; cases hm
  | [m] =>
    intro x hx
    unfold passing at hx
    split at hx
    · rename_i h
      rw [List.mem_singleton.1 hx]; exact h
    · cases hx
  | m :: next :: ms =>
    intro x hx
    unfold passing at hx
    split at hx
    · rename_i h
      rcases List.mem_cons.1 hx with rfl | hx
      · exact h
      · exact passing_fits n (next :: ms) x hx
    · split at hx
      · exact passing_fits n ms x hx
      · exact passing_fits n (next :: ms) x hx
termination_by ms.length

/-! ## C111 -/

/-- C111: messages of several packets each, sent one after the other in any groups, with any other packets between, to a new collector
with size limit: exactly those of `passing` are delivered, unchanged and in order. -/
theorem C111_delivered_exactly (n : Nat) (hn : n ≠ 0) (ms : List (Sysex × Byte)) (hms : ∀ m ∈ ms, Sendable7 m ∧ SeveralPackets m.1) :
    ∃ sent, ms.mapM (fun m => sendSysex7 m.1 m.2) = .ok sent ∧
      ∀ qs : List Packet, qs.filter (fun p => decide (IsSysex7 p)) = sent.flatten →
      ∃ c, (({} : Collector7).setMaxSize n).feedAll qs = .ok (c, passing n (ms.map Prod.fst)) := by
  obtain ⟨sent, hs, -⟩ := C18_send_succeeds ms fun m hm => (hms m hm).1
  refine ⟨sent, hs, fun qs hq => ?_⟩
  obtain ⟨c, h⟩ := C22_limited_exactly n hn qs
  refine ⟨c, ?_⟩
  rw [h, items7_of_filter hq, limited_passing n ms hms sent hs]

/-- C111: what is delivered fits, and nothing is added, changed or put into another order; what fits is delivered, unless the message
before was just too large. -/
theorem C111_passing (n : Nat) (ms : List Sysex) :
    (passing n ms).Sublist ms ∧ (∀ m ∈ passing n ms, Fits n m) ∧ ((∀ m ∈ ms, ¬ JustTooLarge n m) → passing n ms = ms.filter fun m => decide (Fits n m)) := by
  refine ⟨passing_sublist n ms, passing_fits n ms, fun h => ?_⟩
  match ms, h with
  | [], _ => rfl
  | [m], h =>
    unfold passing
    by_cases hf : Fits n m
    · rw [if_pos hf, List.filter_cons_of_pos (by simpa using hf)]; rfl
    · rw [if_neg hf, List.filter_cons_of_neg (by simpa using hf)]; rfl
  | m :: next :: ms, h =>
    unfold passing
    have ih := (C111_passing n (next :: ms)).2.2 fun x hx => h x (List.mem_cons_of_mem _ hx)
    by_cases hf : Fits n m
    · rw [if_pos hf, List.filter_cons_of_pos (by simpa using hf), ih]
    · rw [if_neg hf, if_neg (h m (by simp)), List.filter_cons_of_neg (by simpa using hf), ih]
termination_by ms.length

/-- C111: a message that is just too large takes the following one with it, whatever that is. -/
theorem C111_just_too_large (n : Nat) (hn : n ≠ 0) (m next : Sysex × Byte) (hm : Sendable7 m ∧ SeveralPackets m.1)
    (hnext : Sendable7 next ∧ SeveralPackets next.1) (hj : JustTooLarge n m.1) :
    ∃ ps qs c, sendSysex7 m.1 m.2 = .ok ps ∧ sendSysex7 next.1 next.2 = .ok qs ∧
      (({} : Collector7).setMaxSize n).feedAll (ps ++ qs) = .ok (c, []) := by
  obtain ⟨ps, hps, h1, -⟩ := sent_message m hm.1
  obtain ⟨qs, hqs, h2, -⟩ := sent_message next hnext.1
  obtain ⟨sent, hs, h⟩ := C111_delivered_exactly n hn [m, next] (by
    intro x hx
    rcases List.mem_cons.1 hx with rfl | hx
    · exact hm
    · rw [List.mem_singleton.1 hx]; exact hnext)
  rw [List.mapM_cons, hps, ok_bind, List.mapM_cons, hqs, ok_bind, List.mapM_nil] at hs
  obtain rfl := Except.ok.inj hs
  obtain ⟨c, e⟩ := h (ps ++ qs) (by
    rw [List.filter_eq_self.2]
    · simp
    · intro p hp
      rcases List.mem_append.1 hp with hp | hp
      · simpa using h1 p hp
      · simpa using h2 p hp)
  refine ⟨ps, qs, c, hps, hqs, ?_⟩
  rw [e]
  show Except.ok (c, passing n [m.1, next.1]) = _
  unfold passing
  rw [if_neg fun hf => absurd hf.2 (by have := hj.2.1; omega), if_pos hj]
  rfl

/-- The data of the messages of a transfer. -/
theorem property_size {m : Sysex} {st dev : Byte} {src dst : Word} {req : Byte} {header : List Byte} {n i : U16} {chunk : List Byte}
    (h : IsPropertyMessage m st dev src dst req header n i chunk) :
    m.manufacturerID = 0x7E0000 ∧ m.data.length = 21 + header.length + chunk.length := by
  obtain ⟨⟨h1, h2, -⟩, -⟩ := h
  refine ⟨h1, ?_⟩
  rw [h2]
  simp only [List.length_append, List.length_cons, List.length_nil, ciHeader, le7]
  omega

/-- C111: how large the messages of a transfer are: 21 bytes, the header in the first one, and the chunk; and one byte more with the
manufacturer id. -/
theorem C111_size (t : Transfer) (ht : t.Ok) (ms : List Sysex) (h : MadeFor t ms) (i : Nat) (m : Sysex) (c : List Byte) (hm : ms[i]? = some m)
    (hc : t.chunks[i]? = some c) :
    m.data.length = 21 + (if i = 0 then t.header.length else 0) + c.length ∧
      m.totalDataSize = 22 + (if i = 0 then t.header.length else 0) + c.length := by
  obtain ⟨h1, h2⟩ := property_size ((carries_of_made ht h).2 i m c hm hc)
  have e : m.totalDataSize = m.data.length + 1 := by
    unfold Sysex.totalDataSize
    rw [h1]
    rfl
  rw [e, h2]
  by_cases h0 : i = 0 <;> simp [h0] <;> omega

theorem several_of_made {t : Transfer} (ht : t.Ok) {ms : List Sysex} (h : MadeFor t ms) {m : Sysex} (hm : m ∈ ms) : SeveralPackets m := by
  obtain ⟨i, hi, rfl⟩ := List.getElem_of_mem hm
  have hc := carries_of_made ht h
  obtain ⟨h1, h2⟩ := property_size (hc.2 i _ (t.chunks[i]'(hc.1 ▸ hi)) (List.getElem?_eq_getElem hi) (List.getElem?_eq_getElem _))
  unfold SeveralPackets bytesSent
  omega

theorem sendable_of_made {t : Transfer} (ht : t.Ok) {ms : List Sysex} (h : MadeFor t ms) {m : Sysex} (hm : m ∈ ms) {g : Byte} (hg : g < 16) :
    Sendable7 (m, g) := by
  obtain ⟨i, hi, rfl⟩ := List.getElem_of_mem hm
  have hc := carries_of_made ht h
  obtain ⟨h1, h2, -⟩ := property_valid (hc.2 i _ (t.chunks[i]'(hc.1 ▸ hi)) (List.getElem?_eq_getElem hi) (List.getElem?_eq_getElem _))
  exact sendable_of_view (v := ⟨"property_data_message_view", PropertyDataView.validate, [0x34, 0x35, 0x36, 0x37, 0x38, 0x39, 0x3F]⟩)
    (by simp [views]) h1 h2 hg

/-- C111: transfers of property data to a receiver whose collector has a size limit, all mixed with each other and with other messages: a
receiver that counts considers a transfer complete exactly if all its messages passed, and then it has the header and all data. No transfer with a
message that does not fit is considered complete; and if everything fits, all are. -/
theorem C111_transfers (n : Nat) (hn : n ≠ 0) (ts : List (Transfer × List Sysex)) (hts : ∀ x ∈ ts, x.1.Ok ∧ MadeFor x.1 x.2)
    (hdist : ts.Pairwise fun x y => Distinct x.1 y.1) (other : List Sysex)
    (hother : ∀ m ∈ other, Sendable7 (m, 0) ∧ SeveralPackets m ∧ ∀ x ∈ ts, belongs x.1 m = .ok false)
    (w : List (Sysex × Byte)) (hw : Interleaved (ts.map Prod.snd ++ [other]) (w.map Prod.fst)) (hg : ∀ m ∈ w, m.2 < 16) :
    ∃ sent, w.mapM (fun m => sendSysex7 m.1 m.2) = .ok sent ∧
      ∀ qs : List Packet, qs.filter (fun p => decide (IsSysex7 p)) = sent.flatten →
      ∃ c, (({} : Collector7).setMaxSize n).feedAll qs = .ok (c, passing n (w.map Prod.fst)) ∧
      ∀ x ∈ ts, ∃ b, ({} : CountingInbox).takeAll x.1 (passing n (w.map Prod.fst)) = .ok b ∧
        (b.complete = true ↔ x.2.Sublist (passing n (w.map Prod.fst))) ∧
        (b.complete = true → b.header = x.1.header ∧ b.data = x.1.chunks.flatten) ∧
        ((∃ m ∈ x.2, ¬ Fits n m) → b.complete = false) ∧
        ((∀ m ∈ w, Fits n m.1) → b.complete = true) := by
  have hsend : ∀ m ∈ w, Sendable7 m ∧ SeveralPackets m.1 := by
    intro m hm
    obtain ⟨l, hl, hml⟩ := hw.mem (List.mem_map_of_mem hm)
    rcases List.mem_append.1 hl with hl | hl
    · obtain ⟨x, hx, rfl⟩ := List.mem_map.1 hl
      exact ⟨sendable_of_made (hts x hx).1 (hts x hx).2 hml (hg m hm), several_of_made (hts x hx).1 (hts x hx).2 hml⟩
    · rw [List.mem_singleton] at hl
      subst hl
      obtain ⟨⟨h1, h2, -⟩, h3, -⟩ := hother _ hml
      exact ⟨⟨h1, h2, hg m hm⟩, h3⟩
  obtain ⟨sent, hs, h⟩ := C111_delivered_exactly n hn w hsend
  refine ⟨sent, hs, fun qs hq => ?_⟩
  obtain ⟨c, hc⟩ := h qs hq
  refine ⟨c, hc, fun x hx => ?_⟩
  obtain ⟨b, hb, h1, h2⟩ := C84_lost_messages ts hts hdist other (fun m hm => (hother m hm).2.2) _ hw _ (passing_sublist n _) x hx
  refine ⟨b, hb, h1, h2, fun ⟨m, hm, hf⟩ => ?_, fun hall => ?_⟩
  · cases e : b.complete with
    | false => rfl
    | true => exact absurd (passing_fits n _ m ((h1.1 e).subset hm)) hf
  · rw [h1, passing_all n _ fun m hm => ?_]
    · have hmem : x.2 ∈ ts.map Prod.snd ++ [other] := List.mem_append.2 (Or.inl (List.mem_map_of_mem hx))
      obtain ⟨P, -, hsel⟩ := selects ts hts hdist other (fun m hm => (hother m hm).2.2) _ hw x hx
      rw [← hsel]
      exact List.filter_sublist
    · obtain ⟨m', hm', rfl⟩ := List.mem_map.1 hm
      exact hall m' hm'

/-- C111: a device tells its maximum message size `n` in the discovery reply, and its collector has this limit. A sender that reads it with
`discovery_reply_view` and cuts its data accordingly can send any data that fits into 16383 chunks, and all of it arrives. -/
theorem C111_told (n : Word) (hn : U28 n) (device sender : Word) (hdevice : U28 device) (hsender : U28 sender) (i : DeviceIdentity)
    (hi : ValidIdentity i) (categories path block : Byte) (hcat : U7 categories) (hpath : U7 path) (hblock : U7 block)
    (deviceId requestId : Byte) (hdev : U7 deviceId) (hreq : U7 requestId) (header data : List Byte) (hh : Spec.Seven header) (hd : Spec.Seven data)
    (hhl : header.length ≤ 16383) (hroom : 22 + header.length < n.toNat) (hlen : data.length ≤ 16383 * chunkSize n.toNat header)
    (group : Byte) (hg : group < 16) :
    ∃ reply told, makeDiscoveryReply device sender i categories n path block = .ok reply ∧ Discovery.maximumMessageSize reply = .ok told ∧
      let t : Transfer := ⟨0x35, sender, device, deviceId, requestId, header, pieces (chunkSize told.toNat header) data.length data⟩
      ∃ ms, replyMessages t = .ok ms ∧ (∀ m ∈ ms, m.totalDataSize ≤ n.toNat) ∧
      ∃ sent, ms.mapM (fun m => sendSysex7 m group) = .ok sent ∧
      ∀ qs : List Packet, qs.filter (fun p => decide (IsSysex7 p)) = sent.flatten →
      ∃ c, (({} : Collector7).setMaxSize n.toNat).feedAll qs = .ok (c, ms) ∧
        ({} : Inbox).takeAll t ms = .ok ⟨header, data, true⟩ := by
  obtain ⟨reply, hreply, -, -, -, htold, -⟩ := C40_discovery_reply device sender i categories n path block hdevice hsender hi hcat hn hpath hblock
  refine ⟨reply, n, hreply, htold, ?_⟩
  intro t
  have hsize : 1 ≤ chunkSize n.toNat header := by unfold chunkSize; omega
  have hle := pieces_le hsize data.length data (Nat.le_refl _)
  have hflat := pieces_flatten (chunkSize n.toNat header) data.length data
  have ht : t.Ok := by
    refine ⟨hsender, hdevice, hdev, hreq, hh, hhl, pieces_ne _ _ _, pieces_length _ _ 16383 (by omega) hlen, fun c hc => ⟨fun b hb => ?_, ?_⟩⟩
    · exact hd b (hflat ▸ List.mem_flatten.2 ⟨c, hc, hb⟩)
    · have := hle c hc
      unfold chunkSize at this
      omega
  obtain ⟨ms, hmade, hl, -⟩ := C84_reply_can_be_made t ht rfl
  have hms : replyMessages t = .ok ms := by
    rcases hmade with ⟨-, h⟩ | ⟨h, -⟩
    · exact h
    · exact absurd (show (0x35 : Byte) = 0x36 from h) (by decide)
  have hall : ∀ m ∈ ms, m.totalDataSize ≤ n.toNat := by
    intro m hm
    obtain ⟨k, hk, rfl⟩ := List.getElem_of_mem hm
    have hkc : k < t.chunks.length := by rw [← hl]; exact hk
    rw [(C111_size t ht ms hmade k _ _ (List.getElem?_eq_getElem hk) (List.getElem?_eq_getElem hkc)).2]
    have := hle _ (List.getElem_mem hkc)
    unfold chunkSize at this
    have e : t.header.length = header.length := rfl
    split <;> omega
  refine ⟨ms, hms, hall, ?_⟩
  let w := ms.map fun m => (m, group)
  have hw : w.map Prod.fst = ms := by rw [List.map_map]; exact List.map_id ms
  have hsend : ∀ m ∈ w, Sendable7 m := by
    intro m hm
    obtain ⟨m', hm', rfl⟩ := List.mem_map.1 hm
    exact sendable_of_made ht hmade hm' hg
  obtain ⟨sent, hs, -⟩ := C18_send_succeeds w hsend
  refine ⟨sent, ?_, fun qs hq => ?_⟩
  · have hmap : ∀ l : List Sysex, l.mapM (fun m => sendSysex7 m group) = (l.map fun m => (m, group)).mapM fun m => sendSysex7 m.1 m.2 := by
      intro l
      induction l with
      | nil => rfl
      | cons m l ih => rw [List.map_cons, List.mapM_cons, List.mapM_cons, ih]
    rw [hmap]; exact hs
  obtain ⟨c, hc⟩ := C22_fitting_delivered n.toNat (by omega) w hsend (fun m hm => by
    obtain ⟨m', hm', rfl⟩ := List.mem_map.1 hm
    exact hall m' hm') sent hs qs hq
  rw [hw] at hc
  refine ⟨c, hc, ?_⟩
  have := (C84_receiver [(t, ms)] (by simpa using ⟨ht, hmade⟩) (by simp) [] (by simp) ms (by
    have hgen : ∀ l : List Sysex, Interleaved [l, []] l := by
      intro l
      induction l with
      | nil => exact .nothing _ (by simp)
      | cons a l ih => exact .next _ 0 a l l rfl ih
    exact hgen ms) (t, ms) (by simp)).2
  rw [this, show t.chunks.flatten = data from hflat]

/-! ## The hypotheses can be met -/

example := C111_delivered_exactly 24 (by decide)
  [(⟨0x7E0000, List.replicate 26 1⟩, 0), (⟨0x7E0000, [1, 2, 3, 4, 5, 6]⟩, 3), (⟨0x000102, [1, 2, 3, 4]⟩, 15)]
  (by intro m hm; simp only [List.mem_cons, List.not_mem_nil, or_false] at hm; rcases hm with rfl | rfl | rfl <;> exact ⟨by decide, by decide⟩)

/-- The second message is lost with the first one. -/
example : passing 24 [⟨0x7E0000, List.replicate 26 1⟩, ⟨0x7E0000, [1, 2, 3, 4, 5, 6]⟩, ⟨0x000102, [1, 2, 3, 4]⟩] =
    [⟨0x000102, [1, 2, 3, 4]⟩] := by decide

/-- If the first one is still larger, it is not. -/
example : passing 24 [⟨0x7E0000, List.replicate 30 1⟩, ⟨0x7E0000, [1, 2, 3, 4, 5, 6]⟩, ⟨0x000102, [1, 2, 3, 4]⟩] =
    [⟨0x7E0000, [1, 2, 3, 4, 5, 6]⟩, ⟨0x000102, [1, 2, 3, 4]⟩] := by decide

example := C111_just_too_large 24 (by decide) (⟨0x7E0000, List.replicate 26 1⟩, 0) (⟨0x7E0000, [1, 2, 3, 4, 5, 6]⟩, 3)
  ⟨by decide, by decide⟩ ⟨by decide, by decide⟩ (by decide)

/-- Transfers that meet the hypotheses, of which one has a message that does not fit into 36 bytes of data. -/
example : ∃ r0 r1 s0 s1, exampleReplies = [r0, r1] ∧ exampleSets = [s0, s1] ∧
    Interleaved ([(exampleReply, exampleReplies), (exampleSet, exampleSets)].map Prod.snd ++ [[]]) [s0, r0, s1, r1] ∧
    (∀ m ∈ [r0, r1], SeveralPackets m) ∧ ¬ Fits 36 r0 ∧ Fits 36 r1 ∧ Fits 50 s0 ∧ Fits 50 s1 ∧ Fits 50 r0 := by
  refine ⟨_, _, _, _, rfl, rfl, ?_, by decide, by decide, by decide, by decide, by decide, by decide⟩
  exact .next _ 1 _ _ _ rfl (.next _ 0 _ _ _ rfl (.next _ 1 _ _ _ rfl (.next _ 0 _ _ _ rfl (.nothing _ (by decide)))))

example := C111_told 512 (by decide) 0x1234567 0x0765432 (by decide) (by decide) ⟨0x7D0000, 1, 2, 3⟩ (by decide) 0x1C 0 0x7F (by decide) (by decide)
  (by decide) 0x7F 5 (by decide) (by decide) (ascii "{\"status\":200}") (List.replicate 2000 0x20) (by unfold Spec.Seven; decide)
  (fun b hb => by rw [List.eq_of_mem_replicate hb]; decide) (by decide) (by decide) (by rw [List.length_replicate]; decide) 3 (by decide)

end Midi

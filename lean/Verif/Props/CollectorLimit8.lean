import Verif.Props.CollectorLimit

/-!
C23 for 8 bit sysex: exactly which dropped messages disturb the following one.
-/

namespace Midi

open Spec

/-- Continue and end packets without a start are skipped. -/
theorem limited8_orphans {n : Nat} (k : Nat) : ∀ (its rest : List Item8) (s : Byte) (pl : List Byte),
    its.map Prod.fst = List.replicate k 2 ++ [3] → limited8 n false s pl (its ++ rest) = limited8 n false 0 [] rest := by
  induction k with
  | zero =>
    intro its rest s pl h
    match its, h with
    | [(c, t, e)], h =>
      simp only [List.map_cons, List.map_nil, List.replicate_zero, List.nil_append, List.cons.injEq, and_true] at h
      subst h
      rw [List.cons_append, limited8, if_pos ⟨by omega, rfl⟩]; rfl
  | succ k ih =>
    intro its rest s pl h
    match its, h with
    | (c, t, e) :: its, h =>
      rw [List.replicate_succ, List.cons_append, List.map_cons, List.cons.injEq] at h
      obtain ⟨rfl, h⟩ := h
      rw [List.cons_append, limited8, if_pos ⟨by omega, rfl⟩]
      exact ih its rest 0 [] h

/-- The reference machine on a message that is dropped before its last packet. -/
theorem limited8_early {n : Nat} {s : Byte} (k : Nat) : ∀ (its rest : List Item8) (pl : List Byte) (i : Nat) (hi : i + 1 < its.length),
    its.map Prod.fst = List.replicate k 2 ++ [3] → (∀ it ∈ its, it.2.1 = s) →
    n < (message8 (pl ++ (its.take i).flatMap fun it => it.2.2)).data.length + its[i].2.2.length →
    limited8 n true s pl (its ++ rest) = limited8 n false 0 [] rest := by
  induction k with
  | zero =>
    intro its rest pl i hi h
    have := congrArg List.length h
    simp at this
    omega
  | succ k ih =>
    intro its rest pl i hi h hs ho
    match its, h with
    | (c, t, e) :: its, h =>
      rw [List.replicate_succ, List.cons_append, List.map_cons, List.cons.injEq] at h
      obtain ⟨rfl, h⟩ := h
      have ht : t = s := hs _ (List.mem_cons_self ..)
      subst ht
      rw [List.cons_append, limited8, if_neg (by simp), if_neg (by simp)]
      simp only [Nat.reduceLeDiff, false_and, if_false, Nat.reduceEqDiff, or_self]
      by_cases hc : (message8 pl).data.length + e.length ≤ n
      · rw [if_pos hc]
        cases i with
        | zero =>
          simp only [List.take_zero, List.flatMap_nil, List.append_nil, List.getElem_cons_zero] at ho
          omega
        | succ i =>
          refine ih its rest (pl ++ e) i (by simpa using hi) h (fun it hit => hs it (List.mem_cons_of_mem _ hit)) ?_
          simpa [List.append_assoc] using ho
      · rw [if_neg hc]
        exact limited8_orphans k its rest _ pl h

/-- The reference machine on a message that fits up to its last packet. -/
theorem limited8_rest {n : Nat} {s : Byte} (k : Nat) : ∀ (its rest : List Item8) (pl : List Byte),
    its.map Prod.fst = List.replicate k 2 ++ [3] → (∀ it ∈ its, it.2.1 = s) →
    (pl ++ its.dropLast.flatMap fun it => it.2.2).length ≤ n →
    limited8 n true s pl (its ++ rest) =
      if (message8 (pl ++ its.dropLast.flatMap fun it => it.2.2)).data.length + (its.getLast?.getD (0, 0, [])).2.2.length ≤ n then
        (pl ++ its.flatMap (fun it => it.2.2), s) :: limited8 n false 0 [] rest
      else limited8 n false s (pl ++ its.dropLast.flatMap fun it => it.2.2) rest := by
  induction k with
  | zero =>
    intro its rest pl h hs hf
    match its, h with
    | [(c, t, e)], h =>
      simp only [List.map_cons, List.map_nil, List.replicate_zero, List.nil_append, List.cons.injEq, and_true] at h
      subst h
      have ht : t = s := hs _ (List.mem_cons_self ..)
      subst ht
      rw [List.cons_append, limited8, if_neg (by simp), if_neg (by simp)]
      simp
  | succ k ih =>
    intro its rest pl h hs hf
    match its, h with
    | (c, t, e) :: its, h =>
      rw [List.replicate_succ, List.cons_append, List.map_cons, List.cons.injEq] at h
      obtain ⟨rfl, h⟩ := h
      have ht : t = s := hs _ (List.mem_cons_self ..)
      subst ht
      have hne : its ≠ [] := by rintro rfl; simp at h
      rw [List.dropLast_cons_of_ne_nil hne, List.flatMap_cons] at hf ⊢
      have hm := (message8_length pl).1
      have hc : (message8 pl).data.length + e.length ≤ n := by
        simp only [List.length_append] at hf; omega
      rw [List.cons_append, limited8, if_neg (by simp), if_neg (by simp)]
      simp only [Nat.reduceLeDiff, false_and, if_false, Nat.reduceEqDiff, or_self]
      rw [if_pos hc, ih its rest (pl ++ e) h (fun it hit => hs it (List.mem_cons_of_mem _ hit))
        (by simpa [List.append_assoc] using hf)]
      simp only [List.append_assoc, List.flatMap_cons]
      rw [List.getLast?_cons_of_ne_nil hne]

/-- The reference machine on a whole message that fits, together with what is left over. -/
theorem limited8_framed {n : Nat} {t : Byte} (its : List Item8) (s : Byte) (pl : List Byte) (h : Framed (its.map Prod.fst))
    (hs : ∀ it ∈ its, it.2.1 = t) (hf : (pl ++ its.flatMap fun it => it.2.2).length ≤ n) :
    limited8 n false s pl its = [(pl ++ its.flatMap (fun it => it.2.2), t)] := by
  have hm := (message8_length pl).1
  rcases h with h | ⟨k, h⟩
  · match its, h with
    | [(c, u, d)], h =>
      simp only [List.map_cons, List.map_nil, List.cons.injEq, and_true] at h
      subst h
      have hu : u = t := hs _ (List.mem_cons_self ..)
      subst hu
      simp only [List.flatMap_cons, List.flatMap_nil, List.append_nil, List.length_append] at hf
      rw [limited8, if_neg (by simp), if_neg (by simp)]
      simp only [Nat.zero_le, true_and, Bool.false_eq_true, if_false, true_or, if_true]
      rw [if_pos (by omega), limited8]
      simp
  · match its, h with
    | (c, u, d) :: its, h =>
      simp only [List.map_cons, List.cons.injEq] at h
      obtain ⟨rfl, h⟩ := h
      have hu : u = t := hs _ (List.mem_cons_self ..)
      subst hu
      have hne : its ≠ [] := by rintro rfl; simp at h
      simp only [List.flatMap_cons, List.length_append] at hf
      rw [limited8, if_neg (by simp), if_neg (by simp)]
      simp only [Bool.false_eq_true, and_false, if_false]
      rw [if_pos (by omega), if_neg (by omega)]
      have hsp : its = its.dropLast ++ [its.getLast hne] := (List.dropLast_concat_getLast hne).symm
      have hsum : (its.flatMap fun it => it.2.2).length =
          (its.dropLast.flatMap fun it => it.2.2).length + (its.getLast hne).2.2.length := by
        conv => lhs; rw [hsp]
        simp
      have e := limited8_rest (n := n) k its [] (pl ++ d) h (fun it hit => hs it (List.mem_cons_of_mem _ hit))
        (by simp only [List.length_append]; omega)
      have hm2 := (message8_length (pl ++ d ++ its.dropLast.flatMap fun it => it.2.2)).1
      simp only [List.length_append] at hm2
      rw [List.append_nil, List.getLast?_eq_some_getLast hne, Option.getD_some, if_pos (by omega)] at e
      rw [e, limited8]
      simp

theorem items8_streams {u : Byte} {ps : List Packet} (h : ∀ p ∈ ps, IsSysex8 p ∧ stream8 p = u) :
    ∀ it ∈ ps.map fun p => (formatCode p, stream8 p, payload8 p), it.2.1 = u := by
  intro it hit
  rw [List.mem_map] at hit
  obtain ⟨p, hp, rfl⟩ := hit
  exact (h p hp).2

/-- C23 for 8 bit sysex: a message that is dropped before its last packet does not disturb the following message, if it is fed
to a new collector. The condition says that there is a packet before the last one whose payload does not fit in addition to
the data before it. -/
theorem C23_dropped_early_then_exact8 (n : Nat) (hn : n ≠ 0) (ps qs : List Packet) (s t : Byte)
    (hps : ∀ p ∈ ps, IsSysex8 p ∧ stream8 p = s) (hpf : Framed (ps.map formatCode)) (i : Nat) (hi : i + 1 < ps.length)
    (hlong : n < (message8 ((ps.take i).flatMap payload8)).data.length + (payload8 ps[i]).length)
    (hqs : ∀ p ∈ qs, IsSysex8 p ∧ stream8 p = t) (hqf : Framed (qs.map formatCode))
    (hfit : (qs.flatMap payload8).length ≤ n) :
    ∃ c, (({} : Collector8).setMaxSize n).feedAll (ps ++ qs) = .ok (c, [(message8 (qs.flatMap payload8), t)]) := by
  obtain ⟨c, h⟩ := C22_limited_exactly8 n hn (ps ++ qs)
  refine ⟨c, ?_⟩
  rw [h, items8_append, items8_all fun p hp => (hps p hp).1, items8_all fun p hp => (hqs p hp).1]
  have hlast : ∀ u, limited8 n false u [] (qs.map fun p => (formatCode p, stream8 p, payload8 p)) = [(qs.flatMap payload8, t)] := by
    intro u
    rw [limited8_framed _ u [] (by rw [map_fst_items8]; exact hqf) (items8_streams hqs)
      (by rw [flatMap_items8]; exact hfit), flatMap_items8]
    rfl
  suffices limited8 n false 0 [] ((ps.map fun p => (formatCode p, stream8 p, payload8 p)) ++
      qs.map fun p => (formatCode p, stream8 p, payload8 p)) =
      limited8 n false 0 [] (qs.map fun p => (formatCode p, stream8 p, payload8 p)) by rw [this, hlast]; rfl
  rcases hpf with hpf | ⟨k, hpf⟩
  · have := congrArg List.length hpf
    simp at this
    omega
  · match ps, hpf with
    | p :: ps, hpf =>
      rw [List.map_cons, List.cons.injEq] at hpf
      obtain ⟨h1, hpf⟩ := hpf
      have hs : stream8 p = s := (hps p (List.mem_cons_self ..)).2
      have hst := items8_streams fun q hq => hps q (List.mem_cons_of_mem p hq)
      rw [List.map_cons, List.cons_append, limited8, h1, hs, if_neg (by simp), if_neg (by simp)]
      simp only [Bool.false_eq_true, and_false, if_false, List.nil_append]
      have e0 : (message8 []).data.length = 0 := rfl
      have hpf' : (ps.map fun p => (formatCode p, stream8 p, payload8 p)).map Prod.fst = List.replicate k 2 ++ [3] := by
        rw [map_fst_items8]; exact hpf
      by_cases hc : (payload8 p).length ≤ n
      · rw [e0, Nat.zero_add, if_pos hc, if_neg (by omega)]
        cases i with
        | zero =>
          simp only [List.take_zero, List.flatMap_nil, List.getElem_cons_zero, e0] at hlong
          omega
        | succ i =>
          simp only [List.length_cons] at hi
          refine limited8_early k _ _ (payload8 p) i (by simp; omega) hpf' hst ?_
          rw [List.getElem_map, ← List.map_take, flatMap_items8]
          simpa using hlong
      · rw [e0, Nat.zero_add, if_neg hc]
        exact limited8_orphans k _ _ _ _ hpf'

/-- C23 for 8 bit sysex is false for every message that fits without its last packet, but does not fit with it: all its other
packets are left over, and are delivered as the begin of the following message if that still fits, even if that is on another
stream. -/
theorem C23_dropped_late_leaks8 (n : Nat) (hn : n ≠ 0) (ps qs : List Packet) (last : Packet) (s t : Byte)
    (hps : ∀ p ∈ ps ++ [last], IsSysex8 p ∧ stream8 p = s) (hpf : Framed ((ps ++ [last]).map formatCode)) (hne : ps ≠ [])
    (hfits : (ps.flatMap payload8).length ≤ n)
    (hlong : n < (message8 (ps.flatMap payload8)).data.length + (payload8 last).length)
    (hqs : ∀ p ∈ qs, IsSysex8 p ∧ stream8 p = t) (hqf : Framed (qs.map formatCode))
    (hfit : (ps.flatMap payload8 ++ qs.flatMap payload8).length ≤ n) :
    ∃ c, (({} : Collector8).setMaxSize n).feedAll (ps ++ [last] ++ qs) =
      .ok (c, [(message8 (ps.flatMap payload8 ++ qs.flatMap payload8), t)]) := by
  obtain ⟨c, h⟩ := C22_limited_exactly8 n hn (ps ++ [last] ++ qs)
  refine ⟨c, ?_⟩
  rw [h, items8_append, items8_all fun p hp => (hps p hp).1, items8_all fun p hp => (hqs p hp).1]
  have hlast : limited8 n false s (ps.flatMap payload8) (qs.map fun p => (formatCode p, stream8 p, payload8 p)) =
      [(ps.flatMap payload8 ++ qs.flatMap payload8, t)] := by
    rw [limited8_framed _ _ _ (by rw [map_fst_items8]; exact hqf) (items8_streams hqs)
      (by rw [flatMap_items8]; exact hfit), flatMap_items8]
  rcases hpf with hpf | ⟨k, hpf⟩
  · have h1 := congrArg List.length hpf
    have h2 := List.length_pos_iff.2 hne
    rw [List.length_map, List.length_append, List.length_singleton, List.length_singleton] at h1
    omega
  · match ps, hpf, hne with
    | p :: ps, hpf, _ =>
      rw [List.cons_append, List.map_cons, List.cons.injEq] at hpf
      obtain ⟨h1, hpf⟩ := hpf
      have hs : stream8 p = s := (hps p (List.mem_cons_self ..)).2
      have hst := items8_streams (u := s) (ps := ps ++ [last]) fun q hq => hps q (List.mem_cons_of_mem p hq)
      rw [List.cons_append, List.map_cons, List.cons_append, limited8, h1, hs, if_neg (by simp), if_neg (by simp)]
      simp only [Bool.false_eq_true, and_false, if_false, List.nil_append]
      have e0 : (message8 []).data.length = 0 := rfl
      rw [List.flatMap_cons] at hfits hlong hlast hfit ⊢
      simp only [List.length_append] at hfits hfit
      rw [e0, Nat.zero_add, if_pos (by omega), if_neg (by omega)]
      have e := limited8_rest (n := n) k ((ps ++ [last]).map fun p => (formatCode p, stream8 p, payload8 p))
        (qs.map fun p => (formatCode p, stream8 p, payload8 p)) (payload8 p) (by rw [map_fst_items8]; exact hpf) hst (by
          rw [← List.map_dropLast, flatMap_items8, List.dropLast_concat, List.length_append]; omega)
      rw [← List.map_dropLast, flatMap_items8, List.dropLast_concat, if_neg (by
        rw [List.map_append, List.map_cons, List.map_nil, List.getLast?_concat, Option.getD_some]; dsimp only; omega)] at e
      rw [e, hlast]
      rfl

-- the hypotheses of both, with limits of 4 and 5 bytes
example : let ps : List Packet := [⟨0x50150700, 0x7E010200, 0, 0⟩, ⟨0x50240703, 0x04050000, 0, 0⟩, ⟨0x50320706, 0, 0, 0⟩]
    (∀ p ∈ ps, IsSysex8 p ∧ stream8 p = 7) ∧ ps.map formatCode = [1, 2, 3] ∧
    4 < (message8 ((ps.take 1).flatMap payload8)).data.length + (payload8 ps[1]).length := by decide
example : let ps : List Packet := [⟨0x50150700, 0x7E010200, 0, 0⟩]
    let last : Packet := ⟨0x50350703, 0x04050600, 0, 0⟩
    (∀ p ∈ ps ++ [last], IsSysex8 p ∧ stream8 p = 7) ∧ (ps ++ [last]).map formatCode = [1, 3] ∧
    (ps.flatMap payload8).length ≤ 5 ∧
    5 < (message8 (ps.flatMap payload8)).data.length + (payload8 last).length := by decide

end Midi

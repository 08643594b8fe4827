import Verif.Lemmas.Machine7

/-!
# C18, C21, C22, C23: the sysex7 collector
-/

namespace Midi
open Spec

/-! ## Auxiliary facts -/

theorem rel7_fresh : Rel7 0 {} (false, []) := ⟨rfl, rfl, Nat.le_refl _, rfl, Or.inl rfl, rfl⟩

theorem rel7_limit {lim n : Nat} {c : Collector7} {st : Bool × List Byte} (h : Rel7 lim c st) (hn : n ≠ 0)
    (hc : c.capacity ≤ n) : Rel7 n (c.setMaxSize n) st := by
  obtain ⟨h1, h2, h3, h4, h5, h6⟩ := h
  unfold Collector7.setMaxSize
  rw [if_pos hn]
  refine ⟨h1, h2, ?_, rfl, Or.inr ?_, h6⟩
  · simp only [vecReserve]; omega
  · simp only [vecReserve]; omega

theorem items7_codes (ps : List Packet) : ∀ x ∈ items7 ps, x.1 ≤ 3 := by
  intro x hx
  simp only [items7, List.mem_map, List.mem_filter, decide_eq_true_eq] at hx
  obtain ⟨p, ⟨_, hp⟩, rfl⟩ := hx
  exact hp.2.1

theorem items7_all {ps : List Packet} (h : ∀ p ∈ ps, IsSysex7 p) :
    items7 ps = ps.map fun p => (formatCode p, payload7 p) := by
  unfold items7
  rw [List.filter_eq_self.2]
  intro p hp
  exact decide_eq_true (h p hp)

theorem items7_of_filter {qs ps : List Packet} (h : qs.filter (fun p => decide (IsSysex7 p)) = ps) :
    items7 qs = ps.map fun p => (formatCode p, payload7 p) := by
  unfold items7; rw [h]

theorem map_fst_items (ps : List Packet) : (ps.map fun p => (formatCode p, payload7 p)).map Prod.fst = ps.map formatCode := by
  rw [List.map_map]; rfl

theorem flatMap_snd_items (ps : List Packet) : (ps.map fun p => (formatCode p, payload7 p)).flatMap Prod.snd = ps.flatMap payload7 := by
  rw [List.flatMap_map]

/-! ## C21 -/

/-- C21: whatever packets are fed into a new collector, the messages delivered are exactly those of the reference
decoder: one for each complete packet, one for each run start, continue, .., continue, end of consecutive sysex7 packets.
No packet causes a fault. -/
theorem C21_collector_decodes (ps : List Packet) :
    ∃ c, ({} : Collector7).feedAll ps = .ok (c, (decode (items7 ps)).map message7) := by
  obtain ⟨c, h, _⟩ := feedAll7_rel ps rel7_fresh
  exact ⟨c, by rw [h, (absRun7_decode _ (items7_codes ps)).1]⟩

/-- C21: a start packet, an utility packet, a continue packet, an end packet, and an orphaned end packet. -/
example : ∃ c, ({} : Collector7).feedAll [⟨0x30167E01, 0x02030405, 0, 0⟩, ⟨0x00000000, 0, 0, 0⟩, ⟨0x30220607, 0, 0, 0⟩,
    ⟨0x30310800, 0, 0, 0⟩, ⟨0x30310900, 0, 0, 0⟩] = .ok (c, [⟨0x7E0000, [1, 2, 3, 4, 5, 6, 7, 8]⟩]) := ⟨_, rfl⟩

example : decode [(1, [0x7E, 1, 2, 3, 4, 5]), (2, [6, 7]), (3, [8]), (3, [9])] = [[0x7E, 1, 2, 3, 4, 5, 6, 7, 8]] := by
  rw [decode_start]; simp [takeRun, decode]

theorem collectLoop7_ok (p : Packet) (n : Nat) : ∀ (b : Nat) (c : Collector7), 2 + b + n ≤ 16 →
    ∃ d, c.collectLoop p b n = .ok d ∧ d.hasCallback = c.hasCallback := by
  induction n with
  | zero => intro b c _; exact ⟨c, rfl, rfl⟩
  | succ n ih =>
    intro b c hb
    unfold Collector7.collectLoop
    rw [sysex7PayloadByte, Packet.getByte_lt _ (by omega), ok_bind]
    obtain ⟨d, hd, hcb⟩ := ih (b + 1) (c.collect (p.byteAt (2 + b))) (by omega)
    refine ⟨d, hd, ?_⟩
    rw [hcb]
    unfold Collector7.collect
    split
    · split <;> rfl
    · rfl
    · rfl
    · rfl

theorem feed7_ok (c : Collector7) (p : Packet) :
    ∃ d out, c.feed p = .ok (d, out) ∧ d.hasCallback = c.hasCallback ∧ (c.hasCallback = false → out = []) := by
  have pay : ∀ c : Collector7, isSysex7Packet p = true →
      ∃ d out, c.feedPayload p = .ok (d, out) ∧ d.hasCallback = c.hasCallback ∧ (c.hasCallback = false → out = []) := by
    intro c hb
    have hn : sysex7PayloadSize p ≤ 6 := (C15_view_payload p hb).1
    unfold Collector7.feedPayload
    dsimp only
    generalize ensureCapacity c.capacity c.maxSize c.sysex.data.length (sysex7PayloadSize p) = ec
    obtain ⟨cap, acc⟩ := ec
    dsimp only
    cases acc
    · exact ⟨_, _, rfl, rfl, fun _ => rfl⟩
    · obtain ⟨d, hd, hcb⟩ := collectLoop7_ok p (sysex7PayloadSize p) 0 { c with capacity := cap } (by omega)
      rw [hd]
      simp only [Bool.not_true, Bool.false_eq_true, if_false, ok_bind]
      split
      · refine ⟨_, _, rfl, hcb, ?_⟩
        intro h
        rw [show d.hasCallback = c.hasCallback from hcb, h]; rfl
      · exact ⟨_, _, rfl, hcb, fun _ => rfl⟩
  unfold Collector7.feed
  by_cases hb : isSysex7Packet p = true
  · simp only [hb, Bool.not_true, Bool.false_eq_true, if_false, sysex7View]
    rw [assert_ok rfl]
    simp only [ok_bind, pure_eq_ok]
    split
    · split
      · exact pay c.reset hb
      · exact pay c hb
    · split
      · exact ⟨_, _, rfl, rfl, fun _ => rfl⟩
      · exact pay c hb
  · simp only [hb, Bool.not_false, if_true]
    exact ⟨_, _, rfl, rfl, fun _ => rfl⟩

/-- C21: from no state whatsoever does a packet sequence cause a fault, and without a callback nothing is delivered. -/
theorem C21_never_faults (ps : List Packet) : ∀ c : Collector7,
    ∃ d out, c.feedAll ps = .ok (d, out) ∧ (c.hasCallback = false → out = []) := by
  induction ps with
  | nil => intro c; exact ⟨c, [], rfl, fun _ => rfl⟩
  | cons p ps ih =>
    intro c
    obtain ⟨d, out, h, hcb, hout⟩ := feed7_ok c p
    obtain ⟨d', out', h', hout'⟩ := ih d
    refine ⟨d', out ++ out', ?_, ?_⟩
    · unfold Collector7.feedAll
      rw [h, ok_bind]; dsimp only
      rw [h']; rfl
    · intro hc
      rw [hout hc, hout' (by rw [hcb, hc])]; rfl

/-! ## C18 -/

/-- A message `send_sysex7` can carry, together with a group. -/
def Spec.Sendable7 (m : Sysex × Byte) : Prop :=
  GenuineId m.1.manufacturerID ∧ (∀ b ∈ m.1.data, b < 0x80) ∧ m.2 < 16

instance (m : Sysex × Byte) : Decidable (Sendable7 m) := inferInstanceAs (Decidable (_ ∧ _))

theorem map_and7F {d : List Byte} (h : ∀ b ∈ d, b < 0x80) : d.map (· &&& 0x7F) = d := by
  conv_rhs => rw [← List.map_id d]
  apply List.map_congr_left
  intro b hb
  have h' := h b hb
  clear h hb
  revert b
  decide +kernel

/-- The packets sent for a list of messages, one after the other. -/
theorem sent_items7 (ms : List (Sysex × Byte)) (h : ∀ m ∈ ms, Sendable7 m) (sent : List (List Packet))
    (hs : ms.mapM (fun m => sendSysex7 m.1 m.2) = .ok sent) :
    ∃ its : List (List (Nat × List Byte)), sent.flatten.map (fun p => (formatCode p, payload7 p)) = its.flatten ∧
      (∀ p ∈ sent.flatten, IsSysex7 p) ∧
      (∀ it ∈ its, Framed (it.map Prod.fst)) ∧
      its.map (fun it => it.flatMap Prod.snd) = ms.map (fun m => idBytes7 m.1.manufacturerID ++ m.1.data) := by
  induction ms generalizing sent with
  | nil =>
    simp only [List.mapM_nil] at hs
    obtain rfl := Except.ok.inj hs
    exact ⟨[], rfl, by simp, by simp, rfl⟩
  | cons m ms ih =>
    obtain ⟨hid, hd, hg⟩ := h m (by simp)
    obtain ⟨ps, hps, h1, h2, _, h4⟩ := C17_send_sysex7 m.1 m.2 hg hid
    rw [List.mapM_cons, hps, ok_bind] at hs
    cases hr : ms.mapM (fun m => sendSysex7 m.1 m.2) with
    | error e => rw [hr] at hs; simp at hs
    | ok rest =>
      rw [hr, ok_bind] at hs
      obtain rfl := Except.ok.inj hs
      obtain ⟨its, i1, i2, i3, i4⟩ := ih (fun x hx => h x (by simp [hx])) rest hr
      refine ⟨(ps.map fun p => (formatCode p, payload7 p)) :: its, ?_, ?_, ?_, ?_⟩
      · rw [List.flatten_cons, List.map_append, i1, List.flatten_cons]
      · intro p hp
        rw [List.flatten_cons, List.mem_append] at hp
        rcases hp with hp | hp
        · exact (h1 p hp).1
        · exact i2 p hp
      · intro it hit
        rcases List.mem_cons.1 hit with rfl | hit
        · rw [map_fst_items]; exact h2
        · exact i3 it hit
      · rw [List.map_cons, List.map_cons, i4, flatMap_snd_items, h4, map_and7F hd]

theorem messages_back7 (ms : List (Sysex × Byte)) (h : ∀ m ∈ ms, Sendable7 m) :
    (ms.map fun m => idBytes7 m.1.manufacturerID ++ m.1.data).map message7 = ms.map Prod.fst := by
  rw [List.map_map]
  apply List.map_congr_left
  intro m hm
  exact message7_id _ (h m hm).1 _

/-- C18: the packets of `send_sysex7` for any list of messages, possibly with other packets in between, fed into a
collector without size limit that was fed anything before, deliver exactly these messages. -/
theorem C18_sysex7_round_trip (hist : List Packet) (ms : List (Sysex × Byte)) (hms : ∀ m ∈ ms, Sendable7 m)
    (sent : List (List Packet)) (hs : ms.mapM (fun m => sendSysex7 m.1 m.2) = .ok sent)
    (qs : List Packet) (hq : qs.filter (fun p => decide (IsSysex7 p)) = sent.flatten) :
    ∃ c before c', ({} : Collector7).feedAll hist = .ok (c, before) ∧ c.feedAll qs = .ok (c', ms.map Prod.fst) := by
  obtain ⟨c, h1, hrel⟩ := feedAll7_rel hist rel7_fresh
  obtain ⟨c', h2, _⟩ := feedAll7_rel qs hrel
  refine ⟨c, _, c', h1, ?_⟩
  obtain ⟨its, i1, _, i3, i4⟩ := sent_items7 ms hms sent hs
  rw [h2, items7_of_filter hq, i1, absRun7_framed_seq its (absRun7_clean _ _ (Or.inr rfl)) fun it hit => ⟨i3 it hit, fits_zero _⟩,
    i4, messages_back7 ms hms]

/-- C18: sending such messages always succeeds. -/
theorem C18_send_succeeds (ms : List (Sysex × Byte)) (hms : ∀ m ∈ ms, Sendable7 m) :
    ∃ sent, ms.mapM (fun m => sendSysex7 m.1 m.2) = .ok sent ∧
      sent.flatten.filter (fun p => decide (IsSysex7 p)) = sent.flatten := by
  have hok : ∃ sent, ms.mapM (fun m => sendSysex7 m.1 m.2) = .ok sent := by
    induction ms with
    | nil => exact ⟨[], rfl⟩
    | cons m ms ih =>
      obtain ⟨rest, hr⟩ := ih fun x hx => hms x (by simp [hx])
      obtain ⟨hid, hd, hg⟩ := hms m (by simp)
      obtain ⟨ps, hps, _⟩ := C17_send_sysex7 m.1 m.2 hg hid
      exact ⟨ps :: rest, by rw [List.mapM_cons, hps, ok_bind, hr]; rfl⟩
  obtain ⟨sent, hs⟩ := hok
  refine ⟨sent, hs, List.filter_eq_self.2 ?_⟩
  obtain ⟨_, _, h, _⟩ := sent_items7 ms hms sent hs
  intro p hp
  exact decide_eq_true (h p hp)

example : ∀ m ∈ ([(⟨0x7E0000, [1, 2, 3, 4, 5, 6, 7]⟩, 3), (⟨0x2109, []⟩, 15)] : List (Sysex × Byte)), Sendable7 m := by decide

/-! ## C22 -/

/-- C22, partial: a limit set while the collector's storage is not larger yet, as in a new collector, is obeyed: no
message with more data is delivered, and the storage does not grow beyond the limit. What is missing: a limit smaller than
the storage the collector has already allocated, see `C22_limit_set_late`. -/
theorem C22_size_limit_partial (hist ps : List Packet) (n : Nat) (hn : n ≠ 0) (c : Collector7) (before : List Sysex)
    (hc : ({} : Collector7).feedAll hist = .ok (c, before)) (hcap : c.capacity ≤ n) :
    ∃ c' out, (c.setMaxSize n).feedAll ps = .ok (c', out) ∧ (∀ m ∈ out, m.data.length ≤ n) ∧ c'.capacity ≤ n := by
  obtain ⟨d, h1, hrel⟩ := feedAll7_rel hist rel7_fresh
  rw [h1] at hc
  obtain ⟨rfl, _⟩ := Prod.mk.inj (Except.ok.inj hc)
  obtain ⟨c', h2, hr2⟩ := feedAll7_rel ps (rel7_limit hrel hn hcap)
  refine ⟨c', _, h2, ?_, ?_⟩
  · intro m hm
    rw [List.mem_map] at hm
    obtain ⟨pl, hpl, rfl⟩ := hm
    exact absRun7_limit hn _ _ pl hpl
  · rcases hr2.cap with h | h
    · exact absurd h hn
    · exact h

example : ({} : Collector7).feedAll [] = .ok ({}, []) ∧ ({} : Collector7).capacity ≤ 1 := ⟨rfl, by decide⟩

/-- C22: with a limit, all messages that fit including their manufacturer id are delivered, whatever other packets are in
between. -/
theorem C22_fitting_delivered (n : Nat) (hn : n ≠ 0) (ms : List (Sysex × Byte)) (hms : ∀ m ∈ ms, Sendable7 m)
    (hfit : ∀ m ∈ ms, m.1.totalDataSize ≤ n)
    (sent : List (List Packet)) (hs : ms.mapM (fun m => sendSysex7 m.1 m.2) = .ok sent)
    (qs : List Packet) (hq : qs.filter (fun p => decide (IsSysex7 p)) = sent.flatten) :
    ∃ c, (({} : Collector7).setMaxSize n).feedAll qs = .ok (c, ms.map Prod.fst) := by
  obtain ⟨c', h2, _⟩ := feedAll7_rel qs (rel7_limit rel7_fresh hn (Nat.zero_le n))
  refine ⟨c', ?_⟩
  obtain ⟨its, i1, _, i3, i4⟩ := sent_items7 ms hms sent hs
  rw [h2, items7_of_filter hq, i1, absRun7_framed_seq its (Or.inr rfl) fun it hit => ⟨i3 it hit, ?_⟩,
    i4, messages_back7 ms hms]
  have := List.mem_map_of_mem (f := fun it : List (Nat × List Byte) => it.flatMap Prod.snd) hit
  rw [i4, List.mem_map] at this
  obtain ⟨m, hm, he⟩ := this
  have hf := hfit m hm
  rw [totalDataSize_genuine m.1 (hms m hm).1] at hf
  right
  rw [← he]
  simpa using hf

example : ∀ m ∈ ([(⟨0x7E0000, [1, 2, 3, 4, 5, 6, 7]⟩, 3), (⟨0x2109, []⟩, 15)] : List (Sysex × Byte)),
    Sendable7 m ∧ m.1.totalDataSize ≤ 8 := by decide

/-- C22 is false: with a limit of 1 set after a message has been collected, a message with seven bytes of data is still
delivered. -/
theorem C22_limit_set_late : ∃ c before c', ({} : Collector7).feedAll [⟨0x30017E00, 0, 0, 0⟩] = .ok (c, before) ∧
    (c.setMaxSize 1).feedAll [⟨0x30167E01, 0x02030405, 0, 0⟩, ⟨0x30320607, 0, 0, 0⟩] =
      .ok (c', [⟨0x7E0000, [1, 2, 3, 4, 5, 6, 7]⟩]) := ⟨_, _, _, rfl, rfl⟩

/-- C22: a message with exactly as many data bytes as the limit allows can be rejected, because the bytes of the
manufacturer id in the same packet are counted too. -/
theorem C22_id_counts : ∃ c, (({} : Collector7).setMaxSize 5).feedAll [⟨0x30067E01, 0x02030405, 0, 0⟩] = .ok (c, []) :=
  ⟨_, rfl⟩

/-! ## C23 -/

/-- C23, partial: in a collector with size limit that was fed anything before, a message whose packets without the last
one already carry more than the limit (and the three bytes a manufacturer id may have) is dropped, and a following message
that fits is delivered exactly. What is missing: messages dropped at their last packet, see
`C23_dropped_message_leaks`. -/
theorem C23_dropped_then_exact_partial (n : Nat) (hn : n ≠ 0) (hist ps qs : List Packet)
    (hps : ∀ p ∈ ps, IsSysex7 p) (hpf : Framed (ps.map formatCode)) (hlong : n + 3 < (ps.dropLast.flatMap payload7).length)
    (hqs : ∀ p ∈ qs, IsSysex7 p) (hqf : Framed (qs.map formatCode)) (hfit : (qs.flatMap payload7).length ≤ n) :
    ∃ c before c', (({} : Collector7).setMaxSize n).feedAll hist = .ok (c, before) ∧
      c.feedAll (ps ++ qs) = .ok (c', [message7 (qs.flatMap payload7)]) := by
  obtain ⟨c, h1, hrel⟩ := feedAll7_rel hist (rel7_limit rel7_fresh hn (Nat.zero_le n))
  obtain ⟨c', h2, _⟩ := feedAll7_rel (ps ++ qs) hrel
  refine ⟨c, _, c', h1, ?_⟩
  rw [h2, items7_append, items7_all hps, items7_all hqs, absRun7_append, absRun7_dropped_framed hn (ps.map _) _
    (by rw [map_fst_items]; exact hpf)
    (by rw [← List.map_dropLast, flatMap_snd_items]; exact hlong),
    absRun7_framed (Or.inr rfl) (qs.map _) (by rw [map_fst_items]; exact hqf)
      (Or.inr (by rw [flatMap_snd_items]; exact hfit)), flatMap_snd_items]
  rfl

example : let ps : List Packet := [⟨0x30167E01, 0x02030405, 0, 0⟩, ⟨0x30260607, 0x08090A0B, 0, 0⟩, ⟨0x30310C00, 0, 0, 0⟩]
    (∀ p ∈ ps, IsSysex7 p) ∧ ps.map formatCode = [1, 2, 3] ∧ 8 + 3 < (ps.dropLast.flatMap payload7).length := by decide

/-- C23: after `reset()` nothing is left of the packets fed before, whatever they were: a message that fits is delivered
exactly. -/
theorem C23_reset_then_exact (n : Nat) (hn : n ≠ 0) (hist qs : List Packet)
    (hqs : ∀ p ∈ qs, IsSysex7 p) (hqf : Framed (qs.map formatCode)) (hfit : (qs.flatMap payload7).length ≤ n) :
    ∃ c before c', (({} : Collector7).setMaxSize n).feedAll hist = .ok (c, before) ∧
      c.reset.feedAll qs = .ok (c', [message7 (qs.flatMap payload7)]) := by
  obtain ⟨c, h1, hrel⟩ := feedAll7_rel hist (rel7_limit rel7_fresh hn (Nat.zero_le n))
  obtain ⟨c', h2, _⟩ := feedAll7_rel qs (reset_rel7 hrel)
  refine ⟨c, _, c', h1, ?_⟩
  rw [h2, items7_all hqs,
    absRun7_framed (Or.inr rfl) _ (by rw [map_fst_items]; exact hqf) (Or.inr (by rw [flatMap_snd_items]; exact hfit)),
    flatMap_snd_items]
  rfl

example : let qs : List Packet := [⟨0x30167E01, 0x02030405, 0, 0⟩, ⟨0x30310600, 0, 0, 0⟩]
    (∀ p ∈ qs, IsSysex7 p) ∧ qs.map formatCode = [1, 3] ∧ (qs.flatMap payload7).length ≤ 8 := by decide

/-- C23 is false: with a limit of ten bytes, a message that is dropped at its end packet leaves its bytes behind, and the
next message, which fits, is delivered with the wrong manufacturer id and with the bytes of the dropped one. -/
theorem C23_dropped_message_leaks : ∃ c,
    (({} : Collector7).setMaxSize 10).feedAll [⟨0x30167E01, 0x02030405, 0, 0⟩, ⟨0x30360607, 0x08090A0B, 0, 0⟩,
      ⟨0x30024155, 0, 0, 0⟩] = .ok (c, [⟨0x7E0000, [1, 2, 3, 4, 5, 0x41, 0x55]⟩]) := ⟨_, rfl⟩

end Midi

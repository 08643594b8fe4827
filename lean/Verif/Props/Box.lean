import Verif.Props.Actions
import Verif.Props.ByteStreamNormal
import Verif.Props.TranslationChain
import Verif.Spec.Box

/-!
# C101: programs between two MIDI 1 cables, in particular a MIDI 2 connection
-/

namespace Midi
open Spec Packet

/-! ## Helper lemmas -/

/-- What one byte causes: no event or one packet; if this is a short message, it is the real time message of the byte itself or
the parser is not within sysex afterwards. -/
theorem step_shape {g : Byte} (hg : g < 16) (st : StreamState) (hst : GoodState [g] st) (b : Byte) :
    (stepByte ⟨g, false, true⟩ st b).2 = [] ∨
    ∃ x, (stepByte ⟨g, false, true⟩ st b).2 = [.packet x] ∧
      (IsShort x → (IsRealTimePacket x ∧ (stepByte ⟨g, false, true⟩ st b).1 = st) ∨
        ∀ st2', Follows g (stepByte ⟨g, false, true⟩ st b).1 st2') := by
  generalize hc : (⟨g, false, true⟩ : Settings) = c
  have hcg : c.group = g := by rw [← hc]
  have hcb : c.sysexCallback = false := by rw [← hc]
  have hon : c.enabled = true := by rw [← hc]
  have data : ∀ k d, ¬ IsShort (sysexPacket g k d) := by
    intro k d h
    have h0 : (sysexPacket g k d).byteAt 0 = 0x30 + g := byteAt_sysexPacket_0 _ _ _
    have h3 := sysexHead_type hg
    unfold IsShort at h
    rw [h0] at h
    omega
  by_cases h1 : b ≥ 0xF8
  · rw [step_rt c st h1, if_pos hon]
    dsimp only
    split
    · exact .inl rfl
    · exact .inr ⟨_, rfl, fun hs => .inl ⟨⟨hs, by rw [byteAt_short_1]; exact h1⟩, rfl⟩⟩
  by_cases h2 : b < 0x80
  · match st, hst with
    | .idle, _ => rw [step_idle c h2]; exact .inl rfl
    | .message g' s d, hst =>
      rw [step_message c _ s d h2]
      by_cases hn : d.length + 1 = dataBytes s
      · rw [if_pos hn, if_pos hon]
        exact .inr ⟨_, rfl, fun _ => .inr (by intro st2'; dsimp only; split <;> trivial)⟩
      · rw [if_neg hn]; exact .inl rfl
    | .sysex g' w d, hst =>
      obtain ⟨hg', hd⟩ := hst
      simp only [List.mem_singleton] at hg'; subst hg'
      rw [step_sysex_packet c _ w d h2 hcb]
      split
      · exact .inr ⟨_, rfl, fun h => absurd h (data _ _)⟩
      · exact .inl rfl
  by_cases h3 : b = 0xF7
  · subst h3
    match st, hst with
    | .idle, _ | .message .., _ => rw [step_end_other _ _ (by simp)]; exact .inl rfl
    | .sysex g' w d, hst =>
      obtain ⟨hg', hd⟩ := hst
      simp only [List.mem_singleton] at hg'; subst hg'
      rw [step_end_packet c _ w d hcb, if_pos hon]
      dsimp only
      split
      · exact .inl rfl
      · split
        · exact .inr ⟨_, rfl, fun h => absurd h (data _ _)⟩
        · exact .inr ⟨_, rfl, fun h => absurd h (data _ _)⟩
  by_cases h4 : b = 0xF0
  · subst h4; rw [step_start]; exact .inl rfl
  by_cases h5 : b = 0xF6
  · subst h5; rw [step_tune, if_pos hon]
    exact .inr ⟨_, rfl, fun _ => .inr fun _ => trivial⟩
  by_cases h6 : b = 0xF4 ∨ b = 0xF5
  · rw [step_undefined _ _ h6]; exact .inl rfl
  · have : dataBytes b ≠ 0 := by
      have hx : ¬ (b ≥ 0xF8 ∨ b < 0x80 ∨ b = 0xF7 ∨ b = 0xF0 ∨ b = 0xF6 ∨ b = 0xF4 ∨ b = 0xF5) := by
        simp only [not_or] at h6 ⊢; exact ⟨h1, h2, h3, h4, h5, h6⟩
      clear h1 h2 h3 h4 h5 h6; revert hx; revert b; decide +kernel
    rw [step_new c st h1 this]; exact .inl rfl

/-- Short messages are understood in every state. -/
theorem steps_short {g : Byte} (hg : g < 16) : ∀ (qs : List Packet), (∀ q ∈ qs, WellFormed1 [g] q ∧ IsShort q) → ∀ st,
    (stepBytes ⟨g, false, true⟩ st (qs.flatMap streamBytes)).2 = qs.map .packet := by
  intro qs
  induction qs with
  | nil => intro _ st; rfl
  | cons q qs ih =>
    intro h st
    obtain ⟨s, d, h1, h2, h3, h4, h5⟩ := wellFormed_eq hg (h q (by simp)).1 (h q (by simp)).2
    rw [List.flatMap_cons, stepBytes_append, h5]
    dsimp only
    rw [stepBytes_short _ rfl st h1 h2 h3, ih (fun q hq => h q (by simp [hq])), h4]
    rfl

/-- Real time messages leave the state as it is. -/
theorem steps_realTime {g : Byte} (hg : g < 16) (st : StreamState) : ∀ (qs : List Packet),
    (∀ q ∈ qs, WellFormed1 [g] q ∧ IsRealTimePacket q) →
    (stepBytes ⟨g, false, true⟩ st (qs.flatMap streamBytes)).1 = st := by
  intro qs
  induction qs with
  | nil => intro _; rfl
  | cons q qs ih =>
    intro h
    obtain ⟨s, d, h1, h2, h3, h4, h5⟩ := wellFormed_eq hg (h q (by simp)).1 (h q (by simp)).2.1
    have h8 : s ≥ 0xF8 := by have := (h q (by simp)).2.2; rwa [h4, byteAt_short_1] at this
    have h0 : d = [] := by
      rw [← List.length_eq_zero_iff, h2]
      clear h2 h4 h5; revert h8; revert s; decide +kernel
    subst h0
    rw [List.flatMap_cons, stepBytes_append, h5, stepBytes_cons, step_rt _ st h8]
    exact ih fun q hq => h q (by simp [hq])

theorem box_step {f : Packet → List Packet} {g : Byte} (hg : g < 16) (hb : Box g f)
    (hx7 : ∀ p, WellFormed1 [g] p → IsSysex7 p → f p = [p]) (st st' : StreamState) (hst : GoodState [g] st)
    (hf : Follows g st st') (b : Byte) :
    ∃ st2', stepBytes ⟨g, false, true⟩ st' (((packetsOf (stepByte ⟨g, false, true⟩ st b).2).flatMap f).flatMap streamBytes) =
      (st2', ((packetsOf (stepByte ⟨g, false, true⟩ st b).2).flatMap f).map .packet) ∧
      Follows g (stepByte ⟨g, false, true⟩ st b).1 st2' := by
  obtain ⟨st2', e, hf'⟩ := follows_step hg st st' hst hf b
  have good := (step_good [g] ⟨g, false, true⟩ (by simp) st hst b).2
  rcases step_shape hg st hst b with h | ⟨x, h, hx⟩
  · rw [h] at e ⊢
    exact ⟨st2', e, hf'⟩
  · have gx := good (.packet x) (by rw [h]; simp)
    rw [h] at e ⊢
    simp only [packetsOf, List.filterMap_cons, List.filterMap_nil, List.flatMap_cons, List.flatMap_nil, List.append_nil,
      List.map_cons, List.map_nil, List.flatten_cons, List.flatten_nil] at e ⊢
    generalize hev : Event.packet x = ev at gx
    cases gx with
    | short g' s d hg' hs hl hd =>
      simp only [List.mem_singleton] at hg'; subst hg'
      simp only [Event.packet.injEq] at hev; subst hev
      have hw := wellFormed_short [g'] (by simp) hg hs hl hd
      have hS : IsShort (shortMessage g' s d) := by
        rcases hw.kind with h | h
        · exact h
        · exfalso
          have := h.1
          rw [byteAt_short_0, shortHead_type hg] at this
          split at this <;> omega
      have hout := hb.short _ hw hS
      refine ⟨_, Prod.ext rfl (steps_short hg _ hout st'), ?_⟩
      rcases hx hS with ⟨hr, hsame⟩ | hfree
      · have h' := steps_realTime hg st' (f (shortMessage g' s d)) fun q hq => ⟨(hout q hq).1, hb.realTime _ hw hr q hq⟩
        rw [hsame]
        exact (congrArg (Follows g' st) h').mpr hf
      · exact hfree _
    | data g' k d hg' hl hd hc =>
      simp only [List.mem_singleton] at hg'; subst hg'
      simp only [Event.packet.injEq] at hev; subst hev
      have hw := wellFormed_sysex [g'] k (by simp) hg hl hd
      rw [hx7 _ hw (chunk_facts hg (k, d) hl).1]
      exact ⟨st2', by simpa using e, hf'⟩
    | sysex d hd hc => simp at hev

theorem box_steps {f : Packet → List Packet} {g : Byte} (hg : g < 16) (hb : Box g f)
    (hx7 : ∀ p, WellFormed1 [g] p → IsSysex7 p → f p = [p]) (bs : List Byte) : ∀ st st' : StreamState,
    GoodState [g] st → Follows g st st' →
    (stepBytes ⟨g, false, true⟩ st' (((packetsOf (stepBytes ⟨g, false, true⟩ st bs).2).flatMap f).flatMap streamBytes)).2 =
      ((packetsOf (stepBytes ⟨g, false, true⟩ st bs).2).flatMap f).map .packet := by
  induction bs with
  | nil => intro st st' _ _; rfl
  | cons b bs ih =>
    intro st st' hst hf
    obtain ⟨st2', e, hf'⟩ := box_step hg hb hx7 st st' hst hf b
    have hgood := (step_good [g] ⟨g, false, true⟩ (by simp) st hst b).1
    rw [stepBytes_cons]
    dsimp only
    rw [packetsOf_append, List.flatMap_append, List.flatMap_append, stepBytes_append, e]
    dsimp only
    rw [ih _ st2' hgood hf', List.map_append]

theorem wellFormed_words {g : Byte} {p : Packet} (h : WellFormed1 [g] p) (h2 : (p.byteAt 0).toNat / 16 = 2) :
    p.w1 = 0 ∧ p.w2 = 0 ∧ p.w3 = 0 := by
  have hd := dataBytes_le (p.byteAt 1)
  have z : ∀ i, 4 ≤ i → i < 16 → p.byteAt i = 0 := fun i h4 h16 => h.unused i h16 (by rw [if_neg (by omega)]; omega)
  have e : p = ⟨p.w0, 0, 0, 0⟩ := by
    apply Packet.ext_bytes
    intro i hi
    by_cases h4 : 4 ≤ i
    · rw [z i h4 hi]
      have hc : i = 4 ∨ i = 5 ∨ i = 6 ∨ i = 7 ∨ i = 8 ∨ i = 9 ∨ i = 10 ∨ i = 11 ∨ i = 12 ∨ i = 13 ∨ i = 14 ∨ i = 15 := by omega
      rcases hc with rfl | rfl | rfl | rfl | rfl | rfl | rfl | rfl | rfl | rfl | rfl | rfl <;> simp [Packet.byteAt, Packet.word]
    · have hc : i = 0 ∨ i = 1 ∨ i = 2 ∨ i = 3 := by omega
      rcases hc with rfl | rfl | rfl | rfl <;> rfl
  rw [e]; exact ⟨rfl, rfl, rfl⟩

theorem wellFormed_midi1 {g : Byte} {p : Packet} (h : WellFormed1 [g] p) (h2 : (p.byteAt 0).toNat / 16 = 2) : WellFormedMidi1 p := by
  have hS : 0x80 ≤ p.byteAt 1 ∧ p.byteAt 1 < 0xF0 := by
    rcases h.kind with (k | k) | k
    · omega
    · exact k.2
    · have := k.1; omega
  rw [BitVec.le_def, BitVec.lt_def] at hS
  have h1 := byteAt_status p
  refine ⟨?_, ?_, ?_, ?_, ?_, ?_⟩
  · rw [type_toNat] at h2; exact BitVec.eq_of_toNat_eq h2
  · rw [← h1]; simp at hS; omega
  · rw [← h1]; simp at hS; omega
  · rw [← byteAt_3]; exact h.data 2 (by omega) (by omega)
  · rw [← byteAt_4]; exact h.data 3 (by omega) (by omega)
  · intro hk
    rw [← byteAt_4]
    refine h.unused 3 (by omega) ?_
    rw [if_neg (by omega)]
    rw [← h1] at hk
    have : dataBytes (p.byteAt 1) = 1 := by
      revert hk
      generalize p.byteAt 1 = s
      revert s; decide +kernel
    omega

theorem words_eq {p q : Packet} (h0 : p.w0 = q.w0) (h1 : p.w1 = 0 ∧ p.w2 = 0 ∧ p.w3 = 0) (h2 : q.w1 = 0 ∧ q.w2 = 0 ∧ q.w3 = 0) :
    p = q := by
  cases p; cases q
  obtain ⟨a, b, c⟩ := h1
  obtain ⟨d, e, f⟩ := h2
  simp only at *
  subst h0 a b c d e f
  rfl

theorem group_of_wellFormed {g : Byte} {p : Packet} (h : WellFormed1 [g] p) : p.group = g := by
  obtain ⟨x, hx, e⟩ := h.group
  obtain rfl := List.mem_singleton.1 hx
  apply BitVec.eq_of_toNat_eq
  rw [← e, groupOf, group_eq, toNat_and0F]

/-- Into MIDI 2 and back. -/
theorem bridge_packet {g : Byte} {p : Packet} (h : WellFormed1 [g] p) :
    ∃ u, intoMidi2 p = .ok u ∧ outOfMidi2 u = viaMidi2 p ∧ WellFormed1 [g] (viaMidi2 p) ∧ (IsShort p → IsShort (viaMidi2 p)) ∧
      (isMidi1CV u = true → p.status.toNat / 16 = 0xB ∧ p.byte3.toNat ∈ sequenceControllers ∧ u = p) := by
  by_cases h2 : (p.byteAt 0).toNat / 16 = 2
  · have hw := wellFormed_words h h2
    have hm := wellFormed_midi1 h h2
    have t1 : isMidi1CV p = true := by unfold isMidi1CV; rw [hm.1]; rfl
    have e1 : ∀ o, asMidi2 p = .ok o → intoMidi2 p = .ok (o.getD p) := by
      intro o ho; unfold intoMidi2; rw [if_pos t1, ho]; rfl
    have e2 : ∀ u r, u.type = 4 → asMidi1 u = some r → outOfMidi2 u = r := by
      intro u r hu hr; unfold outOfMidi2 isMidi2CV; rw [hu, hr]; rfl
    by_cases hs : p.status.toNat / 16 = 0xB ∧ p.byte3.toNat ∈ sequenceControllers
    · have ev : viaMidi2 p = p := by unfold viaMidi2; rw [if_neg (by rw [byteAt_status]; omega)]
      rw [ev]
      refine ⟨p, e1 _ ((C09_untranslated p hm).2 hs), ?_, h, id, fun _ => ⟨hs.1, hs.2, rfl⟩⟩
      unfold outOfMidi2 isMidi2CV
      rw [hm.1, if_neg (by decide)]
    · by_cases hz : p.status.toNat / 16 = 9 ∧ p.byte4 = 0
      · obtain ⟨u, r, a1, a2, a3, a4, a5, a6, a7, a8, a9, a10, a11⟩ := C09_zero_velocity p hz.1 hm.2.2.2.1 hz.2
        have w := (C10_well_formed u r a5).2.2.2
        have hr := wellFormed1_of_translation a5
        rw [a4, group_of_wellFormed h] at hr
        suffices hv : r = viaMidi2 p by
          rw [← hv]
          exact ⟨u, e1 _ a1, e2 u r a2 a5, hr.1, fun _ => hr.2, fun k => absurd (a2.symm.trans (beq_iff_eq.1 k)) (by decide)⟩
        unfold viaMidi2
        rw [if_pos ⟨h2, by rw [byteAt_status]; exact hz.1, by rw [byteAt_4]; exact hz.2⟩]
        refine words_eq ?_ ⟨w.1, w.2.1, w.2.2.1⟩ hw
        have n6 := congrArg BitVec.toNat a6
        have n7 := congrArg BitVec.toNat a7
        have n10 := congrArg BitVec.toNat a10
        have n11 := congrArg BitVec.toNat a11
        have m1 := congrArg BitVec.toNat hm.1
        have m2 := congrArg BitVec.toNat hz.2
        have m3 := hz.1
        rw [toNat_type] at n6 m1
        rw [toNat_group, toNat_group] at n7
        rw [toNat_status] at a8 m3
        rw [toNat_status, toNat_status] at a9
        rw [toNat_byte3, toNat_byte3] at n10
        rw [toNat_byte4] at n11 m2
        have l1 := r.w0.isLt
        have l2 := p.w0.isLt
        apply BitVec.eq_of_toNat_eq
        show r.w0.toNat = (p.w0 - 0x00100000 + 0x00000040 : Word).toNat
        rw [BitVec.toNat_add, BitVec.toNat_sub]
        simp at *
        omega
      · obtain ⟨u, r, a1, a2, -, -, a5, a6⟩ := C09_round_trip p hm (fun k hk => hs ⟨k, hk⟩) (fun k hk => hz ⟨k, hk⟩)
        have w := (C10_well_formed u r a5).2.2.2
        have ev : viaMidi2 p = p := by
          unfold viaMidi2
          rw [if_neg (fun k => hz ⟨by rw [← byteAt_status]; exact k.2.1, by rw [← byteAt_4]; exact k.2.2⟩)]
        rw [ev]
        refine ⟨u, e1 _ a1, (e2 u r a2 a5).trans ?_, h, id, fun k => absurd (a2.symm.trans (beq_iff_eq.1 k)) (by decide)⟩
        exact words_eq (eqv_w0 a6) ⟨w.1, w.2.1, w.2.2.1⟩ hw
  · have h4 : (p.byteAt 0).toNat / 16 ≠ 4 := by
      rcases h.kind with (k | k) | k <;> (have := k.1; omega)
    rw [type_toNat] at h2 h4
    have ev : viaMidi2 p = p := by unfold viaMidi2; rw [if_neg (by rw [type_toNat]; exact fun e => h2 e.1)]
    rw [ev]
    refine ⟨p, ?_, ?_, h, id, fun e => absurd (congrArg BitVec.toNat (beq_iff_eq.1 e)) h2⟩
    · unfold intoMidi2
      rw [if_neg]
      intro e; exact h2 (congrArg BitVec.toNat (beq_iff_eq.1 e))
    · unfold outOfMidi2
      rw [if_neg (fun (e : isMidi2CV p = true) => h4 (congrArg BitVec.toNat (beq_iff_eq.1 e)))]

theorem byteAt_toNat (r : Packet) (i : Nat) (hi : i < 4) : (r.byteAt i).toNat = r.w0.toNat / 2 ^ ((3 - i) * 8) % 256 := by
  rw [← toNat_byteOf r.w0 i]
  have : i = 0 ∨ i = 1 ∨ i = 2 ∨ i = 3 := by omega
  rcases this with rfl | rfl | rfl | rfl <;> rfl

theorem layout2_bytes {r : Packet} {g o c d1 d2 w : Nat} (h : Midi2Layout r g o c d1 d2 w) (hg : g < 16) (ho : o < 16) (hc : c < 16)
    (h1 : d1 < 256) (h2 : d2 < 256) : (r.byteAt 0).toNat / 16 = 4 ∧ (r.byteAt 1).toNat / 16 = o ∧ (r.byteAt 2).toNat = d1 ∧
      (r.byteAt 3).toNat = d2 := by
  have e := h.1
  have t := byteAt_toNat r
  rw [t 0 (by omega), t 1 (by omega), t 2 (by omega), t 3 (by omega), e]
  simp only [Nat.reduceSub, Nat.reduceMul, Nat.reducePow]
  omega

theorem bridge_played {g : Byte} {p u : Packet} (h : WellFormed1 [g] p) (hu : intoMidi2 p = .ok u) : played u = played p := by
  unfold intoMidi2 at hu
  by_cases t1 : isMidi1CV p = true
  · rw [if_pos t1] at hu
    have ht : p.type = 2 := beq_iff_eq.1 t1
    have h2 : (p.byteAt 0).toNat / 16 = 2 := by rw [type_toNat, ht]; rfl
    obtain ⟨-, hlo, hhi, h3, h4, hz⟩ := wellFormed_midi1 h h2
    have c := C09_translation p h3 h4
    rw [BitVec.lt_def] at h3 h4
    have gl : p.group.toNat < 16 := p.group_lt
    generalize hm : midi2DataOfMidi1 (p.status.toNat / 16) p.byte3.toNat p.byte4.toNat = m at c
    rcases m with _ | ⟨o, i, d⟩
    · rw [show asMidi2 p = .ok none from c] at hu
      cases hu; rfl
    · obtain ⟨q, e, l⟩ := c
      rw [e] at hu
      obtain rfl : q = u := Except.ok.inj hu
      have hi : i < 128 ∧ o < 16 := by
        unfold midi2DataOfMidi1 at hm
        have h3 : p.byte3.toNat < 128 := h3
        split at hm <;> (try split at hm) <;> simp at hm <;> omega
      obtain ⟨b0, b1, b2, b3⟩ := layout2_bytes l gl hi.2 (by omega) (by omega) (by omega)
      unfold played
      rw [h2, b0, b1, b2, b3, byteAt_status, byteAt_3, byteAt_4]
      show midi2Action _ _ _ q.w1.toNat = midi1Action _ _ _
      rw [l.2.1]
      generalize p.status.toNat / 16 = o' at *
      have hk' : o' = 8 ∨ o' = 9 ∨ o' = 10 ∨ o' = 11 ∨ o' = 12 ∨ o' = 13 ∨ o' = 14 := by omega
      have hp : ∀ v : Nat, v * 2 ^ 16 / 2 ^ 16 = v := fun v => by omega
      rcases hk' with rfl | rfl | rfl | rfl | rfl | rfl | rfl <;>
        simp only [midi2DataOfMidi1] at hm <;> (try split at hm) <;> (try cases hm) <;>
        simp only [midi1Action, midi2Action, hp, Nat.mod_eq_of_lt (show p.byte3.toNat < 128 from h3)]
      · rename_i hh; rw [if_pos hh]; rfl
      · rename_i hh; rw [if_neg hh, if_neg (by decide)]
  · rw [if_neg t1] at hu
    cases hu; rfl

theorem via_played (p : Packet) : played (viaMidi2 p) = played p := by
  unfold viaMidi2
  split
  · rename_i hc
    obtain ⟨c0, c1, c3⟩ := hc
    have t := byteAt_toNat p
    have t' := byteAt_toNat { p with w0 := p.w0 - 0x00100000 + 0x00000040 }
    have hl := p.w0.isLt
    have c3 := congrArg BitVec.toNat c3
    have c2 := byteAt_toNat p 2 (by omega)
    rw [t 0 (by omega)] at c0
    rw [t 1 (by omega)] at c1
    rw [t 3 (by omega)] at c3
    have hw : (p.w0 - 0x00100000 + 0x00000040 : Word).toNat = p.w0.toNat - 0x00100000 + 0x40 := by
      rw [BitVec.toNat_add, BitVec.toNat_sub]
      simp at *
      omega
    have d0 : (Packet.byteAt { p with w0 := p.w0 - 0x00100000 + 0x00000040 } 0).toNat / 16 = 2 := by
      rw [t' 0 (by omega)]; show (p.w0 - 0x00100000 + 0x00000040 : Word).toNat / _ % _ / _ = _; rw [hw]; simp at *; omega
    have d1 : (Packet.byteAt { p with w0 := p.w0 - 0x00100000 + 0x00000040 } 1).toNat / 16 = 8 := by
      rw [t' 1 (by omega)]; show (p.w0 - 0x00100000 + 0x00000040 : Word).toNat / _ % _ / _ = _; rw [hw]; simp at *; omega
    have d2 : (Packet.byteAt { p with w0 := p.w0 - 0x00100000 + 0x00000040 } 2).toNat = (p.byteAt 2).toNat := by
      rw [t' 2 (by omega)]; show (p.w0 - 0x00100000 + 0x00000040 : Word).toNat / _ % _ = _; rw [hw]; simp at *; omega
    have d3 : (Packet.byteAt { p with w0 := p.w0 - 0x00100000 + 0x00000040 } 3).toNat = 64 := by
      rw [t' 3 (by omega)]; show (p.w0 - 0x00100000 + 0x00000040 : Word).toNat / _ % _ = _; rw [hw]; simp at *; omega
    unfold played
    rw [d0, d1, d2, d3, t 0 (by omega), c0, t 1 (by omega), c1, t 3 (by omega), c3]
    rfl
  · rfl

/-- The packets of a parser are well formed. -/
theorem packets_wellFormed {g : Byte} (hg : g < 16) (bs : List Byte) :
    ∀ x ∈ packetsOf (stepBytes ⟨g, false, true⟩ .idle bs).2, WellFormed1 [g] x := by
  have h := (stepBytes_good [g] ⟨g, false, true⟩ (by simp) bs .idle trivial).2
  intro x hx
  simp only [packetsOf, List.mem_filterMap] at hx
  obtain ⟨e, he, hx⟩ := hx
  have ge := h e he
  cases ge with
  | short g' s d hg' hs hl hd =>
    simp only [List.mem_singleton] at hg'; subst hg'
    cases hx
    exact wellFormed_short [g'] (by simp) hg hs hl hd
  | data g' k d hg' hl hd hc =>
    simp only [List.mem_singleton] at hg'; subst hg'
    cases hx
    exact wellFormed_sysex [g'] k (by simp) hg hl hd
  | sysex d hd hc => cases hx

theorem flatMap_one {α β : Type} (f : α → β) : ∀ l : List α, l.flatMap (fun a => [f a]) = l.map f
  | [] => rfl
  | a :: l => by rw [List.flatMap_cons, flatMap_one f l]; rfl

theorem via_box (g : Byte) : Box g fun p => [viaMidi2 p] where
  short p h hs q hq := by
    obtain ⟨-, -, -, h1, h2, -⟩ := bridge_packet h
    rw [List.mem_singleton.1 hq]
    exact ⟨h1, h2 hs⟩
  realTime p h hr q hq := by
    rw [List.mem_singleton.1 hq]
    have h1 := hr.2
    rw [ge_iff_le, BitVec.le_def] at h1
    unfold viaMidi2
    rw [if_neg (by simp at h1; omega)]
    exact hr
  sysex := .inl fun p _ h => by
    have := h.1
    unfold viaMidi2
    rw [if_neg (by omega)]

/-! ## C101 -/

/-- C101: any bytes on the first cable, any program that does something with the packets: the parser at the end of the second
cable, in any state, delivers exactly the packets the program has made of those that were received. -/
theorem C101_box (g : Byte) (hg : g < 16) (f : Packet → List Packet) (hf : Box g f) (bs : List Byte) (q : Parser) (hq : Reached q)
    (hqg : q.group = g) (hcb : q.hasSysexCallback = false) (hon : q.invokeCallbacks = true) :
    ∃ p es bss q', (Parser.new g false true).feedAll bs = .ok (p, es) ∧
      ((packetsOf es).flatMap f).mapM toMidi1ByteStream = .ok bss ∧
      q.feedAll bss.flatten = .ok (q', ((packetsOf es).flatMap f).map .packet) := by
  obtain ⟨p, e⟩ := C26_parser_bytes g false bs hg
  obtain ⟨st, r, _⟩ := reached_rel hq
  rw [hqg, hcb, hon] at r
  obtain ⟨q', e', _⟩ := feedAll_rel ((((packetsOf (stepBytes ⟨g, false, true⟩ .idle bs).2).flatMap f).map streamBytes).flatten) r
  refine ⟨p, _, _, q', e, mapM_stream _, ?_⟩
  rw [e', ← List.flatMap_def]
  rcases hf.sysex with hx | hx
  · rw [box_steps hg hf hx bs .idle st trivial trivial]
  · rw [steps_short hg]
    intro x hx'
    obtain ⟨y, hy, hxy⟩ := List.mem_flatMap.1 hx'
    have hw := packets_wellFormed hg bs y hy
    rcases hw.kind with k | k
    · exact hf.short y hw k x hxy
    · rw [hx y hw k] at hxy; cases hxy

/-- C101: a filter. Dropping any messages other than sysex, by any rule, leaves exactly the other ones, including the sysex messages
among which the dropped ones were. -/
theorem C101_filter (g : Byte) (hg : g < 16) (keep : Packet → Bool) (hk : ∀ p, IsSysex7 p → keep p = true) (bs : List Byte)
    (q : Parser) (hq : Reached q) (hqg : q.group = g) (hcb : q.hasSysexCallback = false) (hon : q.invokeCallbacks = true) :
    ∃ p es bss q', (Parser.new g false true).feedAll bs = .ok (p, es) ∧
      ((packetsOf es).filter keep).mapM toMidi1ByteStream = .ok bss ∧
      q.feedAll bss.flatten = .ok (q', ((packetsOf es).filter keep).map .packet) := by
  have hb : Box g fun p => if keep p then [p] else [] :=
    { short := fun p h hs q hq => by
        split at hq
        · rw [List.mem_singleton.1 hq]; exact ⟨h, hs⟩
        · cases hq
      realTime := fun p _ hr q hq => by
        split at hq
        · rw [List.mem_singleton.1 hq]; exact hr
        · cases hq
      sysex := .inl fun p _ h => if_pos (hk p h) }
  have e : ∀ ps : List Packet, ps.flatMap (fun p => if keep p then [p] else []) = ps.filter keep := by
    intro ps
    induction ps with
    | nil => rfl
    | cons p ps ih =>
      rw [List.flatMap_cons, ih, List.filter_cons]
      split <;> rfl
  have := C101_box g hg _ hb bs q hq hqg hcb hon
  simpa only [e] using this

/-- C101: MIDI 2 in between. Any bytes are parsed, translated to MIDI 2, sent as packets, translated back, sent as bytes and parsed by a
parser in any state: all steps are defined and what is delivered are the packets of the first parser, with note off in place of note
on with velocity zero. In between, all channel voice messages are MIDI 2 messages, but for the controllers that MIDI 2 has
messages of its own for. The documented message processor plays the same for the packets of the first parser, for those in between and
for those of the second parser. -/
theorem C101_bridge (g : Byte) (hg : g < 16) (bs : List Byte) (q : Parser) (hq : Reached q) (hqg : q.group = g)
    (hcb : q.hasSysexCallback = false) (hon : q.invokeCallbacks = true) :
    ∃ p es us bss q' as, (Parser.new g false true).feedAll bs = .ok (p, es) ∧ (packetsOf es).mapM intoMidi2 = .ok us ∧
      (us.map outOfMidi2).mapM toMidi1ByteStream = .ok bss ∧
      q.feedAll bss.flatten = .ok (q', ((packetsOf es).map viaMidi2).map .packet) ∧
      (∀ u ∈ us, isMidi1CV u = true → (u.byteAt 1).toNat / 16 = 0xB ∧ (u.byteAt 2).toNat ∈ sequenceControllers) ∧
      (packetsOf es).mapM processor = .ok as ∧ us.mapM processor = .ok as ∧
      ((packetsOf es).map viaMidi2).mapM processor = .ok as := by
  obtain ⟨p, es, bss, q', e1, e2, e3⟩ := C101_box g hg _ (via_box g) bs q hq hqg hcb hon
  obtain ⟨p', e⟩ := C26_parser_bytes g false bs hg
  rw [e] at e1
  cases e1
  have hw := packets_wellFormed hg bs
  generalize hps : packetsOf (stepBytes ⟨g, false, true⟩ StreamState.idle bs).2 = ps at e2 e3 hw
  rw [show ps.flatMap (fun p => [viaMidi2 p]) = ps.map viaMidi2 from flatMap_one _ _] at e2 e3
  have hsafe : ∀ x, WellFormed1 [g] x → processor x = .ok (played x) := fun x hx =>
    C97_played x fun _ => ⟨hx.data 2 (by omega) (by omega), hx.data 3 (by omega) (by omega)⟩
  have key : ∀ ps : List Packet, (∀ x ∈ ps, WellFormed1 [g] x) → ∃ us, ps.mapM intoMidi2 = .ok us ∧
      us.map outOfMidi2 = ps.map viaMidi2 ∧ us.mapM processor = .ok (ps.map played) ∧
      ∀ u ∈ us, isMidi1CV u = true → (u.byteAt 1).toNat / 16 = 0xB ∧ (u.byteAt 2).toNat ∈ sequenceControllers := by
    intro ps
    induction ps with
    | nil => intro _; exact ⟨[], rfl, rfl, rfl, by simp⟩
    | cons x ps ih =>
      intro h
      obtain ⟨us, i1, i2, i3, i4⟩ := ih fun y hy => h y (by simp [hy])
      obtain ⟨u, h1, h2, h3, h4, h5⟩ := bridge_packet (h x (by simp))
      have hp : processor u = .ok (played x) := by
        rw [← bridge_played (h x (by simp)) h1]
        refine C97_played u fun hu => ?_
        have hc : isMidi1CV u = true := by
          rw [type_toNat] at hu
          exact beq_iff_eq.2 (BitVec.eq_of_toNat_eq hu)
        obtain ⟨-, -, rfl⟩ := h5 hc
        exact ⟨(h u (by simp)).data 2 (by omega) (by omega), (h u (by simp)).data 3 (by omega) (by omega)⟩
      refine ⟨u :: us, ?_, ?_, ?_, ?_⟩
      · rw [List.mapM_cons, h1, ok_bind, i1]; rfl
      · rw [List.map_cons, List.map_cons, h2, i2]
      · rw [List.mapM_cons, hp, ok_bind, i3]; rfl
      · intro v hv hc
        rcases List.mem_cons.1 hv with rfl | hv
        · obtain ⟨a, b, rfl⟩ := h5 hc
          rw [byteAt_status, byteAt_3]; exact ⟨a, b⟩
        · exact i4 v hv hc
  obtain ⟨us, i1, i2, i3, i4⟩ := key ps hw
  refine ⟨p, _, us, bss, q', ps.map played, e, by rw [hps]; exact i1, by rw [i2]; exact e2, by rw [hps]; exact e3, i4, ?_, i3, ?_⟩
  · rw [hps]; exact mapM_ok fun x hx => hsafe x (hw x hx)
  · rw [hps, mapM_ok (g := played), List.map_map]
    · congr 1; exact List.map_congr_left fun x _ => via_played x
    · intro y hy
      obtain ⟨x, hx, rfl⟩ := List.mem_map.1 hy
      obtain ⟨-, -, -, h3, -⟩ := bridge_packet (hw x hx)
      exact hsafe _ h3

/-- C101: running status, a note on with velocity zero, a sequence controller (6), and sysex with a clock in between. -/
example : ∃ p us bss q' as, (Parser.new 2 false true).feedAll [0x90, 60, 100, 60, 0, 0xB0, 6, 1, 0xF0, 1, 2, 3, 4, 5, 6, 7, 0xF8, 8, 0xF7] =
      .ok (p, [.packet ⟨0x22903C64, 0, 0, 0⟩, .packet ⟨0x22903C00, 0, 0, 0⟩, .packet ⟨0x22B00601, 0, 0, 0⟩,
        .packet ⟨0x32160102, 0x03040506, 0, 0⟩, .packet ⟨0x12F80000, 0, 0, 0⟩, .packet ⟨0x32320708, 0, 0, 0⟩]) ∧
    us = [⟨0x42903C00, 0xC9240000, 0, 0⟩, ⟨0x42803C00, 0x80000000, 0, 0⟩, ⟨0x22B00601, 0, 0, 0⟩, ⟨0x32160102, 0x03040506, 0, 0⟩,
        ⟨0x12F80000, 0, 0, 0⟩, ⟨0x32320708, 0, 0, 0⟩] ∧
    (us.map outOfMidi2).mapM toMidi1ByteStream = .ok bss ∧
    (Parser.new 2 false true).feedAll bss.flatten = .ok (q', [.packet ⟨0x22903C64, 0, 0, 0⟩, .packet ⟨0x22803C40, 0, 0, 0⟩,
        .packet ⟨0x22B00601, 0, 0, 0⟩, .packet ⟨0x32160102, 0x03040506, 0, 0⟩, .packet ⟨0x12F80000, 0, 0, 0⟩,
        .packet ⟨0x32320708, 0, 0, 0⟩]) ∧ us.mapM processor = .ok as := by
  obtain ⟨p, es, us, bss, q', as, e1, e2, e3, e4, -, -, e5, -⟩ := C101_bridge 2 (by decide)
    [0x90, 60, 100, 60, 0, 0xB0, 6, 1, 0xF0, 1, 2, 3, 4, 5, 6, 7, 0xF8, 8, 0xF7] (Parser.new 2 false true)
    ⟨2, false, true, [], [], by decide, by simp [ValidGroups], rfl⟩ rfl rfl rfl
  have hes : es = [.packet ⟨0x22903C64, 0, 0, 0⟩, .packet ⟨0x22903C00, 0, 0, 0⟩, .packet ⟨0x22B00601, 0, 0, 0⟩,
        .packet ⟨0x32160102, 0x03040506, 0, 0⟩, .packet ⟨0x12F80000, 0, 0, 0⟩, .packet ⟨0x32320708, 0, 0, 0⟩] := by
    have h := congrArg (fun r : Except Fault (Parser × List Event) => r.toOption.map Prod.snd) e1
    have h' : ((Parser.new 2 false true).feedAll [0x90, 60, 100, 60, 0, 0xB0, 6, 1, 0xF0, 1, 2, 3, 4, 5, 6, 7, 0xF8, 8, 0xF7]).toOption.map
        Prod.snd = some [.packet ⟨0x22903C64, 0, 0, 0⟩, .packet ⟨0x22903C00, 0, 0, 0⟩, .packet ⟨0x22B00601, 0, 0, 0⟩,
        .packet ⟨0x32160102, 0x03040506, 0, 0⟩, .packet ⟨0x12F80000, 0, 0, 0⟩, .packet ⟨0x32320708, 0, 0, 0⟩] := by decide +kernel
    exact (Option.some.inj (h'.symm.trans h)).symm
  subst hes
  refine ⟨p, us, bss, q', as, e1, ?_, e3, e4, e5⟩
  have h : [⟨0x22903C64, 0, 0, 0⟩, ⟨0x22903C00, 0, 0, 0⟩, ⟨0x22B00601, 0, 0, 0⟩, ⟨0x32160102, 0x03040506, 0, 0⟩, ⟨0x12F80000, 0, 0, 0⟩,
    ⟨0x32320708, 0, 0, 0⟩].mapM intoMidi2 = .ok [⟨0x42903C00, 0xC9240000, 0, 0⟩, ⟨0x42803C00, 0x80000000, 0, 0⟩, ⟨0x22B00601, 0, 0, 0⟩,
    ⟨0x32160102, 0x03040506, 0, 0⟩, ⟨0x12F80000, 0, 0, 0⟩, ⟨0x32320708, 0, 0, 0⟩] := by decide +kernel
  exact (Except.ok.inj (h.symm.trans e2)).symm

/-- C101: a filter for channel 3 that also drops the clock. -/
example : (∀ p, IsSysex7 p → (fun p : Packet => (p.byteAt 0).toNat / 16 == 3 || (p.byteAt 1).toNat % 16 == 3 && p.byteAt 1 < 0xF0) p = true) ∧
    ∃ p q', (Parser.new 0 false true).feedAll [0x93, 1, 2, 0x94, 1, 2, 0xF8] =
      .ok (p, [.packet ⟨0x20930102, 0, 0, 0⟩, .packet ⟨0x20940102, 0, 0, 0⟩, .packet ⟨0x10F80000, 0, 0, 0⟩]) ∧
    (Parser.new 0 false true).feedAll [0x93, 1, 2] = .ok (q', [.packet ⟨0x20930102, 0, 0, 0⟩]) :=
  ⟨fun p h => by have := h.1; simp [this], _, _, rfl, rfl⟩

/-- C101: a program that sends the clock twice and drops sysex. -/
example : Box 0 fun p =>
    if (p.byteAt 0).toNat / 16 = 3 then [] else if p = ⟨0x10F80000, 0, 0, 0⟩ then [p, p] else [p] where
  short p h hs q hq := by
    split at hq
    · cases hq
    · split at hq <;> simp at hq <;> subst hq <;> exact ⟨h, hs⟩
  realTime p h hr q hq := by
    split at hq
    · cases hq
    · split at hq <;> simp at hq <;> subst hq <;> exact hr
  sysex := .inr fun p _ h => if_pos h.1

/-- C101: the conditions are needed. A program that answers the clock with a note, in the middle of a sysex message: the sysex message
is broken, its last bytes are taken for the data of a note. -/
theorem C101_needs_realTime :
    let f : Packet → List Packet := fun p => if p = ⟨0x10F80000, 0, 0, 0⟩ then [⟨0x20903C40, 0, 0, 0⟩] else [p]
    ∃ p q', (Parser.new 0 false true).feedAll [0xF0, 1, 2, 3, 4, 5, 6, 0xF8, 7, 8, 0xF7] =
        .ok (p, [.packet ⟨0x30160102, 0x03040506, 0, 0⟩, .packet ⟨0x10F80000, 0, 0, 0⟩, .packet ⟨0x30320708, 0, 0, 0⟩]) ∧
      ([⟨0x30160102, 0x03040506, 0, 0⟩, ⟨0x10F80000, 0, 0, 0⟩, ⟨0x30320708, 0, 0, 0⟩].flatMap f).mapM toMidi1ByteStream =
        .ok [[0xF0, 1, 2, 3, 4, 5, 6], [0x90, 60, 64], [7, 8, 0xF7]] ∧
      (Parser.new 0 false true).feedAll [0xF0, 1, 2, 3, 4, 5, 6, 0x90, 60, 64, 7, 8, 0xF7] =
        .ok (q', [.packet ⟨0x30160102, 0x03040506, 0, 0⟩, .packet ⟨0x20903C40, 0, 0, 0⟩, .packet ⟨0x20900708, 0, 0, 0⟩]) :=
  ⟨_, _, rfl, by decide +kernel, rfl⟩

/-- C101: nor may a program drop some of the packets of a sysex message: without the first one, the data bytes of the others are
taken for those of the last note, in running status. -/
theorem C101_needs_sysex :
    ∃ p q', (Parser.new 0 false true).feedAll [0x90, 60, 64, 0xF0, 1, 2, 3, 4, 5, 6, 7, 8, 0xF7] =
        .ok (p, [.packet ⟨0x20903C40, 0, 0, 0⟩, .packet ⟨0x30160102, 0x03040506, 0, 0⟩, .packet ⟨0x30320708, 0, 0, 0⟩]) ∧
      [⟨0x20903C40, 0, 0, 0⟩, ⟨0x30320708, 0, 0, 0⟩].mapM toMidi1ByteStream = .ok [[0x90, 60, 64], [7, 8, 0xF7]] ∧
      (Parser.new 0 false true).feedAll [0x90, 60, 64, 7, 8, 0xF7] =
        .ok (q', [.packet ⟨0x20903C40, 0, 0, 0⟩, .packet ⟨0x20900708, 0, 0, 0⟩]) :=
  ⟨_, _, rfl, by decide +kernel, rfl⟩

end Midi

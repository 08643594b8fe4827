import Verif.Props.Endpoint
import Verif.Props.Sounding
import Verif.Props.Dispatch
import Verif.Props.Panel
import Verif.Spec.Performance

/-!
# C118: an endpoint that plays, in the protocol it is asked for
-/

namespace Midi
open Spec Packet

/-! ## Helper lemmas -/

theorem upgrade_stream (p : Packet) (h : p.type = 2 → p.byte3 < 128 ∧ p.byte4 < 128) (qs : List Packet) (e : upgrade p = .ok qs)
    (h15 : p.type ≠ 15) : ∀ q ∈ qs, q.type ≠ 15 := by
  unfold upgrade asMidi1View isMidi1CV at e
  by_cases ht : p.type = 2
  swap
  · rw [if_neg (by simpa [PacketType.midi1ChannelVoice] using ht)] at e
    obtain rfl := Except.ok.inj e
    simpa using h15
  rw [if_pos (by simp [PacketType.midi1ChannelVoice, ht])] at e
  rw [show midi1View p = .ok p by unfold midi1View isMidi1CV; rw [ht]; rfl] at e
  obtain ⟨h3, h4⟩ := h ht
  have c := C09_translation p h3 h4
  have gl : p.group.toNat < 16 := by have := Packet.group_lt p; rw [BitVec.lt_def] at this; exact this
  have e : (asMidi2 p >>= fun o => pure o.toList) = .ok qs := e
  rw [BitVec.lt_def] at h3 h4
  have h3 : p.byte3.toNat < 128 := h3
  have h4 : p.byte4.toNat < 128 := h4
  have hs := p.status.isLt
  generalize hm : midi2DataOfMidi1 (p.status.toNat / 16) p.byte3.toNat p.byte4.toNat = m at c
  rcases m with _ | ⟨o, i, d⟩
  · rw [show asMidi2 p = .ok none from c] at e
    obtain rfl := Except.ok.inj e
    simp
  · obtain ⟨q, e2, l⟩ := c
    rw [e2] at e
    obtain rfl := Except.ok.inj e
    have ho : o < 16 ∧ i < 128 := by
      unfold midi2DataOfMidi1 at hm
      split at hm <;> (try split at hm) <;> simp at hm <;> omega
    obtain ⟨lw, -⟩ := l
    have q1 := toNat_type q
    rw [lw] at q1
    have e1 : q.type.toNat = 4 := by omega
    intro x hx h
    obtain rfl : x = q := by simpa using hx
    rw [h] at e1
    exact absurd e1 (by decide)

theorem downgrade_stream (p : Packet) (qs : List Packet) (e : downgrade p = .ok qs) (h15 : p.type ≠ 15) : ∀ q ∈ qs, q.type ≠ 15 := by
  unfold downgrade asMidi2View isMidi2CV at e
  by_cases ht : p.type = 4
  swap
  · rw [if_neg (by simpa [PacketType.midi2ChannelVoice] using ht)] at e
    obtain rfl := Except.ok.inj e
    simpa using h15
  rw [if_pos (by simp [PacketType.midi2ChannelVoice, ht])] at e
  rw [show midi2View p = .ok p by unfold midi2View; rw [ht]; rfl] at e
  have e : (.ok (asMidi1 p).toList : Except Fault (List Packet)) = .ok qs := e
  obtain rfl := Except.ok.inj e
  intro q hq h
  cases hr : asMidi1 p with
  | none => rw [hr] at hq; simp at hq
  | some r =>
    rw [hr] at hq
    obtain rfl : q = r := by simpa using hq
    have := (C10_well_formed p q hr).1.1
    rw [h] at this
    exact absurd this (by decide)

/-- After this the client knows which protocol is in use. -/
def Configured (x : Except Fault Known) : Prop := ∀ k', x = .ok k' → k'.config ≠ none

theorem Configured.bind {α : Type} {x : Except Fault α} {f : α → Except Fault Known} (h : ∀ a, Configured (f a)) : Configured (x >>= f) := by
  intro k' hk'
  cases x with
  | error e => cases hk'
  | ok a => exact h a k' hk'

theorem Configured.ok {k : Known} (h : k.config ≠ none) : Configured (.ok k) := fun _ hk' => Except.ok.inj hk' ▸ h

theorem hear_config {k k' : Known} {p : Packet} (h : k.hear p = .ok k') (hk : k.config ≠ none) : k'.config ≠ none := by
  rw [hear_eq] at h
  revert h k'
  show Configured _
  repeat' split
  · exact .bind fun _ => .bind fun _ => .bind fun _ => .bind fun _ => .ok hk
  · exact .ok hk
  · exact .bind fun _ => .ok hk
  · exact .bind fun _ => .ok hk
  · exact .bind fun _ => .bind fun _ => .bind fun _ => .bind fun _ => .bind fun _ => .ok hk
  · exact .bind fun _ => .ok hk
  · exact .ok (by simp)
  · exact .ok hk

theorem hearAll_cons (k : Known) (p : Packet) (ps : List Packet) : k.hearAll (p :: ps) = k.hear p >>= fun k' => k'.hearAll ps := rfl

theorem hearAll_config (ps : List Packet) {k k' : Known} (h : k.hearAll ps = .ok k') (hk : k.config ≠ none) : k'.config ≠ none := by
  induction ps generalizing k with
  | nil => exact Except.ok.inj h ▸ hk
  | cons p ps ih =>
    rw [hearAll_cons] at h
    cases h1 : k.hear p with
    | error x => rw [h1] at h; cases h
    | ok k1 => rw [h1] at h; exact ih h (hear_config h1 hk)

/-- Every channel voice message among the packets is in the protocol which the client knows to be in use when it hears it. -/
def Announced (k : Known) : List Packet → Prop
  | [] => True
  | q :: qs => (∀ pr, protocolOf q = some pr → ∃ x, k.config = some (pr, x)) ∧ ∃ k', k.hear q = .ok k' ∧ Announced k' qs

theorem Announced.append {k k1 : Known} {ps qs : List Packet} (h : Announced k ps) (h1 : k.hearAll ps = .ok k1) (h2 : Announced k1 qs) :
    Announced k (ps ++ qs) := by
  induction ps generalizing k with
  | nil => exact Except.ok.inj h1 ▸ h2
  | cons p ps ih =>
    obtain ⟨h3, k', h4, h5⟩ := h
    refine ⟨h3, k', h4, ih h5 ?_⟩
    rw [hearAll_cons, h4] at h1
    exact h1

theorem Announced.split {k : Known} {a b : List Packet} {q : Packet} (h : Announced k (a ++ q :: b)) :
    ∃ k', k.hearAll a = .ok k' ∧ ∀ pr, protocolOf q = some pr → ∃ x, k'.config = some (pr, x) := by
  induction a generalizing k with
  | nil => exact ⟨k, rfl, h.1⟩
  | cons p a ih =>
    obtain ⟨-, k1, h4, h5⟩ := h
    obtain ⟨k', h6, h7⟩ := ih h5
    refine ⟨k', ?_, h7⟩
    rw [hearAll_cons, h4]; exact h6

theorem stream_type {q : Packet} (h : Told q) : q.type = 15 := by
  obtain ⟨s, -, h⟩ := h
  have h1 := h.1
  rw [type_toNat] at h1
  exact BitVec.eq_of_toNat_eq h1

theorem announced_told (ps : List Packet) (h : ∀ q ∈ ps, Told q) {k k' : Known} (hk : k.hearAll ps = .ok k') : Announced k ps := by
  induction ps generalizing k with
  | nil => trivial
  | cons p ps ih =>
    rw [hearAll_cons] at hk
    cases h1 : k.hear p with
    | error x => rw [h1] at hk; cases hk
    | ok k1 =>
      rw [h1] at hk
      refine ⟨fun pr hpr => ?_, k1, h1, ih (fun q hq => h q (List.mem_cons_of_mem _ hq)) hk⟩
      unfold protocolOf at hpr
      rw [stream_type (h p (by simp))] at hpr
      cases hpr

theorem announced_played (ps : List Packet) (h : ∀ q ∈ ps, q.type ≠ 15) (k : Known)
    (hpr : ∀ q ∈ ps, ∀ pr, protocolOf q = some pr → ∃ x, k.config = some (pr, x)) : k.hearAll ps = .ok k ∧ Announced k ps := by
  induction ps with
  | nil => exact ⟨rfl, trivial⟩
  | cons p ps ih =>
    obtain ⟨h1, h2⟩ := ih (fun q hq => h q (List.mem_cons_of_mem _ hq)) (fun q hq => hpr q (List.mem_cons_of_mem _ hq))
    have h3 : k.hear p = .ok k := (C102_other_traffic p (by
      rw [type_toNat]
      intro h4
      exact h p (by simp) (BitVec.eq_of_toNat_eq h4)) exampleEndpoint k).2
    refine ⟨?_, hpr p (by simp), k, h3, h2⟩
    rw [hearAll_cons, h3]; exact h1

theorem told_silent {s : Sounding} {q : Packet} (h : Told q) : heard s q = s := by
  have ht := stream_type h
  obtain ⟨m1, m2⟩ := C11_meaning q
  rw [ht] at m1 m2
  exact heard_nothing (bool_no m1 (by simp)) (bool_no m2 (by simp))

theorem told_silent_all (ps : List Packet) (h : ∀ q ∈ ps, Told q) (s : Sounding) : ps.foldl heard s = s := by
  induction ps generalizing s with
  | nil => rfl
  | cons p ps ih => rw [List.foldl_cons, told_silent (h p (by simp)), ih fun q hq => h q (List.mem_cons_of_mem _ hq)]

/-- One packet is played. -/
theorem play_ok (e : Endpoint) (he : e.Valid) (p : Packet) (h7 : p.type = 2 → p.byte3 < 128 ∧ p.byte4 < 128) (h15 : p.type ≠ 15) :
    ∃ qs, e.play p = .ok qs ∧ (∀ q ∈ qs, q.type ≠ 15) ∧ (∀ q ∈ qs, ∀ pr, protocolOf q = some pr → pr = e.protocol) ∧
      ∀ s, hasAttribute p = false → qs.foldl heard s = heard s p := by
  unfold Endpoint.play
  by_cases h1 : e.protocol = 1
  · rw [if_pos h1]
    obtain ⟨qs, e1, e2, e3⟩ := downgrade_ok p
    refine ⟨qs, e1, downgrade_stream p qs e1 h15, fun q hq pr hpr => ?_, fun s hs => ?_⟩
    · unfold protocolOf at hpr
      rw [if_neg (e2 q hq)] at hpr
      split at hpr
      · rw [h1]; exact (Option.some.inj hpr).symm
      · cases hpr
    · rw [e3, hs]; rfl
  · rw [if_neg h1]
    obtain ⟨qs, e1, e2, -, e3⟩ := upgrade_ok p h7
    have h2 : e.protocol = 2 := he.2.2.2.2.2.2.1.1.resolve_left h1
    refine ⟨qs, e1, upgrade_stream p h7 qs e1 h15, fun q hq pr hpr => ?_, fun s _ => e3 s⟩
    unfold protocolOf at hpr
    rw [if_neg (e2 q hq)] at hpr
    split at hpr
    · rw [h2]; exact (Option.some.inj hpr).symm
    · cases hpr

theorem perform_ok (ms : List Moment) : ∀ (e : Endpoint), e.Valid → Playable ms → ∀ k : Known, k.Correct e →
    ∃ e' qs k', e.perform ms = .ok (e', qs) ∧ e'.Valid ∧ k.hearAll qs = .ok k' ∧ k'.Correct e' ∧ (k.config ≠ none → Announced k qs) ∧
      ∀ s, (∀ p ∈ music ms, hasAttribute p = false) → qs.foldl heard s = (music ms).foldl heard s := by
  induction ms with
  | nil => intro e he _ k hk; exact ⟨e, [], k, rfl, he, rfl, hk, fun _ => trivial, fun _ _ => rfl⟩
  | cons m ms ih =>
    intro e he hp k hk
    cases m with
    | play p =>
      have hm : music (.play p :: ms) = p :: music ms := rfl
      unfold Playable at hp
      rw [hm] at hp ⊢
      obtain ⟨h15, h7⟩ := hp p (by simp)
      obtain ⟨ps, e1, e2, e3, e4⟩ := play_ok e he p h7 h15
      obtain ⟨e', qs, k', f1, f2, f3, f4, f5, f6⟩ := ih e he (fun q hq => hp q (List.mem_cons_of_mem _ hq)) k hk
      have hpl : ∀ c, k.config = some c → k.hearAll ps = .ok k ∧ Announced k ps := fun c hc => announced_played ps e2 k (fun q hq pr hpr => by
        rcases hk.2.2.2.2.1 with h | h
        · rw [hc] at h; cases h
        · exact ⟨_, by rw [h, e3 q hq pr hpr]⟩)
      have hsame : k.hearAll ps = .ok k := by
        rw [C102_interleaved]
        have : (ps.filter fun p => (p.byteAt 0).toNat / 16 = 15) = [] := by
          rw [List.filter_eq_nil_iff]
          intro q hq h
          rw [decide_eq_true_eq, type_toNat] at h
          exact e2 q hq (BitVec.eq_of_toNat_eq h)
        rw [this]; rfl
      refine ⟨e', ps ++ qs, k', ?_, f2, hearAll_trans hsame f3, f4, fun hc => ?_, fun s hs => ?_⟩
      · unfold Endpoint.perform Endpoint.moment
        dsimp only
        rw [e1]
        simp only [ok_bind, pure_bind]
        rw [f1]; rfl
      · obtain ⟨c, hc'⟩ := Option.ne_none_iff_exists'.1 hc
        exact (hpl c hc').2.append hsame (f5 hc)
      · rw [List.foldl_append, e4 s (hs p (by simp)), f6 _ fun q hq => hs q (List.mem_cons_of_mem _ hq)]; rfl
    | receive p =>
      have hm : music (.receive p :: ms) = music ms := rfl
      unfold Playable at hp
      rw [hm] at hp ⊢
      obtain ⟨e1, ps, k1, a1, a2, a3, a4, a5⟩ := receive_told he p k
      obtain ⟨e', qs, k', f1, f2, f3, f4, f5, f6⟩ := ih e1 a2 hp k1 (a5 hk)
      refine ⟨e', ps ++ qs, k', ?_, f2, hearAll_trans a4 f3, f4, fun hc => ?_, fun s hs => ?_⟩
      · unfold Endpoint.perform Endpoint.moment
        dsimp only
        rw [a1]
        simp only [ok_bind]
        rw [f1]; rfl
      · exact (announced_told ps a3 a4).append a4 (f5 (hearAll_config ps a4 hc))
      · rw [List.foldl_append, told_silent_all ps a3, f6 s hs]

theorem turned_coarse_congr {s t : Panel} {g c : Nat} {k : Knob} (h : k.coarse (s g c k) = k.coarse (t g c k)) (p : Packet) :
    k.coarse (turned s p g c k) = k.coarse (turned t p g c k) := by
  unfold turned
  rcases knobOf p.type.toNat (p.status.toNat / 16) p.byte3.toNat p.byte4.toNat p.w1.toNat with _ | ⟨k', v⟩
  · exact h
  · unfold Panel.turn; dsimp only; split
    · rfl
    · exact h

theorem turned_coarse_all (ps : List Packet) (h : ∀ q ∈ ps, (q.type = 2 → q.byte3 < 128 ∧ q.byte4 < 128) ∧ q.type ≠ 4) (s : Panel) :
    ps.foldl turned s.coarse = (ps.foldl turned s).coarse := by
  induction ps generalizing s with
  | nil => rfl
  | cons p ps ih =>
    obtain ⟨h1, h2⟩ := h p (by simp)
    rw [List.foldl_cons, List.foldl_cons, turned_coarse s h1 h2, ih fun q hq => h q (List.mem_cons_of_mem _ hq)]

theorem told_unset (ps : List Packet) (h : ∀ q ∈ ps, Told q) (s : Panel) : ps.foldl turned s = s := by
  induction ps generalizing s with
  | nil => rfl
  | cons p ps ih =>
    rw [List.foldl_cons]
    have : turned s p = s := by
      unfold turned
      rw [stream_type (h p (by simp))]
      rfl
    rw [this, ih fun q hq => h q (List.mem_cons_of_mem _ hq)]

/-- What a packet, played in one of the protocols, sets: nothing else than the packet, and nothing if it is left out. -/
theorem play_panel (e : Endpoint) (p : Packet) (h7 : p.type = 2 → p.byte3 < 128 ∧ p.byte4 < 128) :
    ∃ qs, e.play p = .ok qs ∧ (∀ q ∈ qs, q.type = 2 → q.byte3 < 128 ∧ q.byte4 < 128) ∧
      ∃ left : Bool, (left = true → sequenceControl 2 p = true ∨ sequenceControl 4 p = true ∨ programWithBank p = true) ∧
        ∀ s : Panel, (qs.foldl turned s).coarse = (if left then s else turned s p).coarse := by
  unfold Endpoint.play
  by_cases h1 : e.protocol = 1
  · rw [if_pos h1]
    obtain ⟨qs, e1, e2, e3, e4⟩ := panel_downgrade p h7
    refine ⟨qs, e1, e3, sequenceControl 4 p || programWithBank p, fun h => ?_, fun s => ?_⟩
    · rw [Bool.or_eq_true] at h; exact .inr h
    · rw [← e4 s, turned_coarse_all qs fun q hq => ⟨e3 q hq, e2 q hq⟩]
  · rw [if_neg h1]
    obtain ⟨qs, e1, e2, -, e4⟩ := panel_upgrade p h7
    exact ⟨qs, e1, fun q hq h => absurd h (e2 q hq), sequenceControl 2 p, fun h => .inl h, fun s => by rw [e4 s]⟩

theorem perform_panel (ms : List Moment) : ∀ (e : Endpoint), e.Valid → Playable ms →
    ∃ e' qs, e.perform ms = .ok (e', qs) ∧ (∀ q ∈ qs, q.type = 2 → q.byte3 < 128 ∧ q.byte4 < 128) ∧
      ∀ (g c : Nat) (k : Knob), k.kept = true → (k = .program → ∀ p ∈ music ms, programWithBank p = false) → ∀ s t : Panel,
        k.coarse (s g c k) = k.coarse (t g c k) → k.coarse (qs.foldl turned s g c k) = k.coarse ((music ms).foldl turned t g c k) := by
  induction ms with
  | nil => intro e he _; exact ⟨e, [], rfl, by simp, fun _ _ _ _ _ _ _ h => h⟩
  | cons m ms ih =>
    intro e he hp
    cases m with
    | play p =>
      have hm : music (.play p :: ms) = p :: music ms := rfl
      unfold Playable at hp
      rw [hm] at hp ⊢
      obtain ⟨-, h7⟩ := hp p (by simp)
      obtain ⟨ps, e1, e2, left, e3, e4⟩ := play_panel e p h7
      obtain ⟨e', qs, f1, f2, f3⟩ := ih e he fun q hq => hp q (List.mem_cons_of_mem _ hq)
      refine ⟨e', ps ++ qs, ?_, fun q hq => (List.mem_append.1 hq).elim (e2 q) (f2 q), fun g c k hk hb s t hst => ?_⟩
      · unfold Endpoint.perform Endpoint.moment
        dsimp only
        rw [e1]
        simp only [ok_bind, pure_bind]
        rw [f1]; rfl
      · rw [List.foldl_append, List.foldl_cons]
        refine f3 g c k hk (fun h q hq => hb h q (List.mem_cons_of_mem _ hq)) _ _ ?_
        have e5 : k.coarse (ps.foldl turned s g c k) = k.coarse ((if left then s else turned s p) g c k) := congrFun (congrFun (congrFun (e4 s) g) c) k
        rw [e5]
        cases left with
        | false => exact turned_coarse_congr hst p
        | true =>
          rw [if_pos rfl, turned_other (s := t) (p := p) fun k' v hk' hkk => ?_]
          · exact hst
          · subst hkk
            rcases e3 rfl with h | h | h
            · exact absurd (sequence_knob h hk') (by rw [hk]; decide)
            · exact absurd (sequence_knob h hk') (by rw [hk]; decide)
            · have := hb (bank_knob h hk') p (by simp)
              rw [this] at h; cases h
    | receive p =>
      have hm : music (.receive p :: ms) = music ms := rfl
      unfold Playable at hp
      rw [hm] at hp ⊢
      obtain ⟨e1, ps, -, a1, a2, a3, -⟩ := receive_told he p {}
      obtain ⟨e', qs, f1, f2, f3⟩ := ih e1 a2 hp
      refine ⟨e', ps ++ qs, ?_, fun q hq => (List.mem_append.1 hq).elim (fun h ht => ?_) (f2 q), fun g c k hk hb s t hst => ?_⟩
      · unfold Endpoint.perform Endpoint.moment
        dsimp only
        rw [a1]
        simp only [ok_bind]
        rw [f1]; rfl
      · rw [stream_type (a3 q h)] at ht; exact absurd ht (by decide)
      · rw [List.foldl_append, told_unset ps a3]
        exact f3 g c k hk hb s t hst

/-! ## The theorems -/

/-- C118: whatever clients send, at whatever moments, and whatever is played meanwhile: nothing fails, and a client that hears everything
never knows anything wrong about the endpoint. -/
theorem C118_performance (e : Endpoint) (he : e.Valid) (ms : List Moment) (hm : Playable ms) (k : Known) (hk : k.Correct e) :
    ∃ e' qs k', e.perform ms = .ok (e', qs) ∧ e'.Valid ∧ k.hearAll qs = .ok k' ∧ k'.Correct e' := by
  obtain ⟨e', qs, k', h1, h2, h3, h4, -⟩ := perform_ok ms e he hm k hk
  exact ⟨e', qs, k', h1, h2, h3, h4⟩

/-- C118: a client that knows in the beginning which protocol is in use knows it at every channel voice message it hears. -/
theorem C118_protocol (e : Endpoint) (he : e.Valid) (ms : List Moment) (hm : Playable ms) (k : Known) (hk : k.Correct e) (hc : k.config ≠ none)
    (e' : Endpoint) (a b : List Packet) (q : Packet) (h : e.perform ms = .ok (e', a ++ q :: b)) (pr : Byte) (hq : protocolOf q = some pr) :
    ∃ k' x, k.hearAll a = .ok k' ∧ k'.config = some (pr, x) := by
  obtain ⟨e1, qs, k1, h1, -, -, -, h5, -⟩ := perform_ok ms e he hm k hk
  obtain rfl := (Prod.mk.inj (Except.ok.inj (h.symm.trans h1))).2
  obtain ⟨k', h6, h7⟩ := (h5 hc).split
  obtain ⟨x, hx⟩ := h7 pr hq
  exact ⟨k', x, h6, hx⟩

/-- C118: the notes that sound at the client are those that are played, however often and at whatever moments the protocol is changed. -/
theorem C118_notes (e : Endpoint) (he : e.Valid) (ms : List Moment) (hm : Playable ms) (ha : ∀ p ∈ music ms, hasAttribute p = false) (s : Sounding) :
    ∃ e' qs, e.perform ms = .ok (e', qs) ∧ soundingAfter s qs = soundingAfter s (music ms) := by
  obtain ⟨e', qs, -, h1, -, -, -, -, h6⟩ := perform_ok ms e he hm {} (C102_knows_nothing e)
  refine ⟨e', qs, h1, ?_⟩
  rw [soundingAfter_eq, soundingAfter_eq, h6 s ha]

/-- C118: and the client is set to what is played, as far as it remains in MIDI 1 (which of the values are more precise than that depends on
the moments at which they were played): pressures, pitch bend, every controller that is not part of a sequence, and the program if no
program change has a bank. -/
theorem C118_settings (e : Endpoint) (he : e.Valid) (ms : List Moment) (hm : Playable ms) (s : Panel) :
    ∃ e' qs s1 s2, e.perform ms = .ok (e', qs) ∧ panelAfter s (music ms) = .ok s1 ∧ panelAfter s qs = .ok s2 ∧
      ∀ (g c : Nat) (k : Knob), k.kept = true → (k = .program → ∀ p ∈ music ms, programWithBank p = false) → k.coarse (s2 g c k) = k.coarse (s1 g c k) := by
  obtain ⟨e', qs, h1, h2, h3⟩ := perform_panel ms e he hm
  exact ⟨e', qs, _, _, h1, panelAfter_eq s _ fun p hp => (hm p hp).2, panelAfter_eq s qs h2, fun g c k hk hb => h3 g c k hk hb s s rfl⟩

/-- C118: a client gets what it asks for: after a request for a protocol which the endpoint supports there is one answer, which says so,
and everything that is played from then on, until another request comes, is in that protocol. -/
theorem C118_asked (e : Endpoint) (he : e.Valid) (protocol extensions : Byte) (hp : protocol = 1 ∨ protocol = 2) (hx : extensions < 4)
    (hs : e.supports protocol = true) (ps : List Packet) (hm : Playable (ps.map .play)) (k : Known) :
    ∃ d e' answer qs, makeStreamConfigurationRequest protocol extensions = .ok d ∧
      e.perform (.receive d :: ps.map .play) = .ok (e', answer :: qs) ∧ e'.protocol = protocol ∧
      k.hear answer = .ok { k with config := some (protocol, extensions) } ∧ ∀ q ∈ qs, protocolOf q = none ∨ protocolOf q = some protocol := by
  obtain ⟨d, -, e1, -, -, -, hd, -, a, b, -⟩ := (C45_stream_configuration protocol extensions hx).1 hp
  have hc : configured e d = { e with protocol := protocol, streamExtensions := extensions } := by
    unfold configured; rw [a, b, if_pos hs]
  have hv := configured_valid he d
  obtain ⟨n, n1, n2, n3⟩ := told_config hp hx k
  have hrec : e.receive d = .ok (configured e d, [n]) := by
    rw [receive_eq, if_neg (ne_of_isStream hd (by decide)), if_neg (ne_of_isStream hd (by decide)), if_pos hd]
    have : single (makeStreamConfigurationNotification (configured e d).protocol (configured e d).streamExtensions) = .ok [n] := by
      rw [hc]; dsimp only; rw [n1]; rfl
    rw [this]; rfl
  have key : ∀ (ps : List Packet) (e : Endpoint), e.Valid → Playable (ps.map .play) → ∃ qs, e.perform (ps.map .play) = .ok (e, qs) ∧
      ∀ q ∈ qs, protocolOf q = none ∨ protocolOf q = some e.protocol := by
    intro ps
    induction ps with
    | nil => intro e _ _; exact ⟨[], rfl, by simp⟩
    | cons p ps ih =>
      intro e he hm
      obtain ⟨h15, h7⟩ := hm p (by show p ∈ p :: music (ps.map .play); simp)
      obtain ⟨qs, f1, -, f3, -⟩ := play_ok e he p h7 h15
      obtain ⟨rs, g1, g2⟩ := ih e he fun q hq => hm q (by show q ∈ p :: music (ps.map .play); exact List.mem_cons_of_mem _ hq)
      refine ⟨qs ++ rs, ?_, fun q hq => ?_⟩
      · rw [List.map_cons]
        unfold Endpoint.perform Endpoint.moment
        dsimp only
        rw [f1]
        simp only [ok_bind, pure_bind]
        rw [g1]; rfl
      · rcases List.mem_append.1 hq with hq | hq
        · cases hpr : protocolOf q with
          | none => exact .inl rfl
          | some pr => rw [f3 q hq pr hpr]; exact .inr rfl
        · exact g2 q hq
  obtain ⟨qs, f1, f2⟩ := key ps (configured e d) hv hm
  refine ⟨d, configured e d, n, qs, e1, ?_, by rw [hc], n3, ?_⟩
  · unfold Endpoint.perform Endpoint.moment
    dsimp only
    rw [hrec]
    simp only [ok_bind]
    rw [f1]; rfl
  · rw [hc] at f2; exact f2

/-! ## A case -/

/-- A note is begun in MIDI 2, the protocol is changed to MIDI 1, a controller is turned, and the note is ended. -/
def performance (request : Packet) : List Moment :=
  [.play (makeMidi2NoteOn 1 2 60 0x8000), .receive request, .play (makeMidi2ControlChange 1 2 7 0x81234567), .play (makeMidi1NoteOff 1 2 60 0x40)]

example : ((makeStreamConfigurationRequest 1 0).toOption.map fun r => decide (Playable (performance r) ∧ ∀ p ∈ music (performance r), hasAttribute p = false))
    = some true := by decide +kernel

example : exampleEndpoint.Valid ∧ exampleEndpoint.supports 1 = true ∧ exampleEndpoint.protocol = 2 := by decide

example : ({ config := some (2, 0) } : Known).Correct exampleEndpoint ∧ ({ config := some (2, 0) } : Known).config ≠ none :=
  ⟨⟨.inl rfl, .inl rfl, .inl rfl, .inl rfl, .inr rfl, fun _ => .inl rfl, fun _ => .inl rfl⟩, by simp⟩

/-- What the client hears: a MIDI 2 message, the answer, and MIDI 1 messages. -/
example : ((do exampleEndpoint.perform (performance (← makeStreamConfigurationRequest 1 0)) : Except Fault (Endpoint × List Packet)).toOption.map fun x => x.2.map protocolOf)
    = some [some 2, none, some 1, some 1] := by decide +kernel

end Midi

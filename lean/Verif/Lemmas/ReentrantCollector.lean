import Verif.Spec.Reentrant
import Verif.Props.CollectorExact

/-!
# Lemmas: callbacks of collectors that use the collector
-/

namespace Midi
open Spec

/-! ## The reference machine of 7 bit sysex -/

/-- A reaction of the reference machine and one of the collector that do the same. -/
def Sim7 (rs : Held7 → Held7 × List (List Byte)) (rp : Collector7 → Except Fault (Collector7 × List Sysex)) : Prop :=
  ∀ s, Good7 s → rp (conc7 s) = .ok (conc7 (rs s).1, (rs s).2.map message7) ∧ Good7 (rs s).1

theorem add7R_exact (s : Held7) (hs : Good7 s) (p : Packet) (hp : IsSysex7 p) {rs rp} (hr : Sim7 rs rp) :
    (conc7 s).feedPayloadR p rp =
      .ok (conc7 (s.addR (decide (formatCode p = 0 ∨ formatCode p = 3)) (payload7 p) rs).1,
        (s.addR (decide (formatCode p = 0 ∨ formatCode p = 3)) (payload7 p) rs).2.map message7) ∧
    Good7 (s.addR (decide (formatCode p = 0 ∨ formatCode p = 3)) (payload7 p) rs).1 := by
  have hlen : (payload7 p).length = sysex7PayloadSize p := by rw [payload7_eq_range']; simp
  have hn : sysex7PayloadSize p ≤ 6 := (C15_view_payload p ((C15_is_sysex7_packet_iff p).2 hp)).1
  have hdata : (conc7 s).sysex.data = (message7 s.held).data := by
    rw [← parse7_message]; rfl
  have hcode : (sysex7ViewStatus p = 0x00 ∨ sysex7ViewStatus p = 0x30) ↔ (formatCode p = 0 ∨ formatCode p = 3) := by
    rw [(code_iff p hp).1, (code_iff p hp).2.2.2]
  unfold Good7 at hs
  unfold Collector7.feedPayloadR Held7.addR
  dsimp only
  rw [show (conc7 s).capacity = s.storage from rfl, show (conc7 s).maxSize = s.limit from rfl, hdata, hlen,
    ensureCapacity_exact hs (by omega)]
  dsimp only
  have hrg := @room_grown s.limit s.storage (message7 s.held).data.length (sysex7PayloadSize p) hs (by omega)
  have hge := @grown_le s.limit s.storage ((message7 s.held).data.length + sysex7PayloadSize p)
  generalize grown s.limit s.storage ((message7 s.held).data.length + sysex7PayloadSize p) = g at hrg hge ⊢
  cases hrm : room s.limit s.storage ((message7 s.held).data.length + sysex7PayloadSize p)
  · refine ⟨?_, le_trans hs hge⟩
    simp only [Bool.not_false, if_true, Bool.false_eq_true, if_false, pure_eq_ok, List.map_nil]
    rfl
  · have hg := hrg hrm
    simp only [Bool.not_true, Bool.false_eq_true, if_false, if_true]
    rw [collectLoop7_eq p _ 0 _ (by omega) (by show (conc7 s).sysex.data.length + _ ≤ g; rw [hdata]; exact hg)]
    simp only [ok_bind]
    have hfold : ((List.range' 0 (sysex7PayloadSize p)).map fun i => p.byteAt (2 + i)).foldl coll7
        ((conc7 s).sysex, (conc7 s).idRead) = parse7 (s.held ++ payload7 p) := by
      rw [← payload7_eq_range', parse7, List.foldl_append]; rfl
    rw [hfold]
    have hsz : (message7 (s.held ++ payload7 p)).data.length ≤ g := by
      have := coll7_foldl_length (payload7 p) (parse7 s.held)
      rw [parse7, ← List.foldl_append] at this
      have e1 := parse7_message (s.held ++ payload7 p)
      have e2 := parse7_message s.held
      rw [parse7] at e1 e2
      rw [e1, e2, hlen] at this
      omega
    by_cases hd : formatCode p = 0 ∨ formatCode p = 3
    · rw [if_pos (hcode.2 hd)]
      simp only [hd, decide_true, if_true]
      by_cases hc : s.callback = true
      · rw [if_pos (show (conc7 s).hasCallback = true from hc), if_pos hc]
        obtain ⟨e, -⟩ := hr ({ s with storage := g, held := s.held ++ payload7 p }) hsz
        refine ⟨?_, good7_cleared _⟩
        refine (congrArg (· >>= _) e).trans ?_
        rw [ok_bind, pure_eq_ok]
        dsimp only
        rw [conc7_reset _ (conc7 _) rfl rfl rfl, List.map_cons, parse7_message]
      · rw [if_neg (show ¬ (conc7 s).hasCallback = true from hc), if_neg hc]
        exact ⟨rfl, good7_cleared _⟩
    · rw [if_neg fun x => hd (hcode.1 x)]
      simp only [hd, decide_false, Bool.false_eq_true, if_false]
      exact ⟨rfl, hsz⟩

theorem packet7R_exact (s : Held7) (hs : Good7 s) (p : Packet) (hp : IsSysex7 p) {rs rp} (hr : Sim7 rs rp) :
    (conc7 s).feedR p rp = .ok (conc7 (s.packetR (formatCode p) (payload7 p) rs).1,
      (s.packetR (formatCode p) (payload7 p) rs).2.map message7) ∧
    Good7 (s.packetR (formatCode p) (payload7 p) rs).1 := by
  have hb : isSysex7Packet p = true := (C15_is_sysex7_packet_iff p).2 hp
  have h3 : formatCode p ≤ 3 := hp.2.1
  obtain ⟨c0, c1, c2, c3⟩ := code_iff p hp
  unfold Collector7.feedR sysex7View Held7.packetR
  rw [assert_ok hb]
  simp only [hb, Bool.not_true, Bool.false_eq_true, if_false, ok_bind, pure_eq_ok]
  by_cases hlow : formatCode p = 0 ∨ formatCode p = 1
  · rw [if_pos (show sysex7ViewStatus p = 0x00 ∨ sysex7ViewStatus p = 0x10 by rw [c0, c1]; exact hlow), if_pos hlow]
    have e : decide (formatCode p = 0 ∨ formatCode p = 3) = decide (formatCode p = 0) := by
      rw [decide_eq_decide]; omega
    cases hrun : s.running
    · rw [if_neg (by simp [conc7, hrun])]
      have := add7R_exact s hs p hp hr
      rw [e] at this
      exact this
    · rw [if_pos (by simp [conc7, hrun])]
      rw [conc7_reset s (conc7 s) rfl rfl rfl]
      have := add7R_exact s.cleared (good7_cleared s) p hp hr
      rw [e] at this
      exact this
  · rw [if_neg (show ¬ (sysex7ViewStatus p = 0x00 ∨ sysex7ViewStatus p = 0x10) by rw [c0, c1]; exact hlow), if_neg hlow]
    have e : decide (formatCode p = 0 ∨ formatCode p = 3) = decide (formatCode p = 3) := by
      rw [decide_eq_decide]; omega
    cases hrun : s.running
    · rw [if_pos (by simp [conc7, hrun])]
      rw [conc7_reset s (conc7 s) rfl rfl rfl]
      exact ⟨rfl, good7_cleared s⟩
    · rw [if_neg (by simp [conc7, hrun])]
      have := add7R_exact s hs p hp hr
      rw [e] at this
      exact this

mutual
theorem call7_exact : ∀ (o : CollectorCall), Sim7 (fun s => s.call o) (fun c => c.perform o)
  | .feed p l => by
    intro s hs
    have ih := calls7_exact l
    simp only [Held7.call, Collector7.perform]
    by_cases hp : IsSysex7 p
    · rw [if_pos hp]
      exact packet7R_exact s hs p hp ih
    · rw [if_neg hp]
      have hb : isSysex7Packet p = false := by
        rw [← Bool.not_eq_true, C15_is_sysex7_packet_iff]; exact hp
      unfold Collector7.feedR
      simp only [hb, Bool.not_false, if_true]
      exact ⟨rfl, hs⟩
  | .setMaxSize n => by
    intro s hs
    refine ⟨?_, le_trans hs (Nat.le_max_left _ _)⟩
    simp only [Held7.call, Collector7.perform]
    unfold Collector7.setMaxSize
    by_cases hn : n = 0
    · subst hn; simp [conc7]
    · rw [if_pos hn]; rfl
  | .reset => by
    intro s _
    refine ⟨?_, good7_cleared s⟩
    simp only [Held7.call, Collector7.perform]
    rw [conc7_reset s (conc7 s) rfl rfl rfl]; rfl

theorem calls7_exact : ∀ (l : List CollectorCall), Sim7 (fun s => s.calls l) (fun c => c.performAll l)
  | [] => by
    intro s hs
    simp only [Held7.calls, Collector7.performAll]
    exact ⟨rfl, hs⟩
  | o :: l => by
    intro s hs
    obtain ⟨e1, h1⟩ := call7_exact o s hs
    obtain ⟨e2, h2⟩ := calls7_exact l _ h1
    simp only [Held7.calls, Collector7.performAll]
    refine ⟨?_, h2⟩
    dsimp only at e1 e2
    rw [e1, ok_bind]
    dsimp only
    rw [e2, ok_bind, List.map_append]; rfl
end

/-! ## The reference machine of 8 bit sysex -/

/-- A reaction of the reference machine and one of the collector that do the same. -/
def Sim8 (rs : Held8 → Held8 × List (List Byte × Byte)) (rp : Collector8 → Except Fault (Collector8 × List (Sysex × Byte))) : Prop :=
  ∀ s, Good8 s → rp (conc8 s) = .ok (conc8 (rs s).1, (rs s).2.map fun m => (message8 m.1, m.2)) ∧ Good8 (rs s).1

theorem add8R_exact (s : Held8) (hs : Good8 s) (p : Packet) (hp : IsSysex8 p) {rs rp} (hr : Sim8 rs rp) :
    (conc8 s).feedPayloadR p rp =
      .ok (conc8 (s.addR (decide (formatCode p = 0 ∨ formatCode p = 3)) (payload8 p) rs).1,
        (s.addR (decide (formatCode p = 0 ∨ formatCode p = 3)) (payload8 p) rs).2.map fun m => (message8 m.1, m.2)) ∧
    Good8 (s.addR (decide (formatCode p = 0 ∨ formatCode p = 3)) (payload8 p) rs).1 := by
  have hlen : (payload8 p).length = sysex8PayloadSize p := by rw [payload8_eq_range' p hp]; simp
  have hn : sysex8PayloadSize p ≤ 13 := (C16_view_payload p ((C16_is_sysex8_packet_iff p).2 hp)).1
  have hdata : (conc8 s).sysex.data = (message8 s.held).data := by
    rw [← parse8_message]; rfl
  have hcode : (sysex8Format p = .complete ∨ sysex8Format p = .fin) ↔ (formatCode p = 0 ∨ formatCode p = 3) := by
    rw [(format8_iff p hp).1, (format8_iff p hp).2.2.2]
  unfold Good8 at hs
  unfold Collector8.feedPayloadR Held8.addR
  dsimp only
  rw [show (conc8 s).capacity = s.storage from rfl, show (conc8 s).maxSize = s.limit from rfl, hdata, hlen,
    ensureCapacity_exact hs (by omega)]
  dsimp only
  have hrg := @room_grown s.limit s.storage (message8 s.held).data.length (sysex8PayloadSize p) hs (by omega)
  have hge := @grown_le s.limit s.storage ((message8 s.held).data.length + sysex8PayloadSize p)
  generalize grown s.limit s.storage ((message8 s.held).data.length + sysex8PayloadSize p) = g at hrg hge ⊢
  cases hrm : room s.limit s.storage ((message8 s.held).data.length + sysex8PayloadSize p)
  · refine ⟨?_, le_trans hs hge⟩
    simp only [Bool.not_false, if_true, Bool.false_eq_true, if_false, pure_eq_ok, List.map_nil]
    rfl
  · have hg := hrg hrm
    simp only [Bool.not_true, Bool.false_eq_true, if_false, if_true]
    rw [collectLoop8_eq p _ 0 _ (by omega) (by show (conc8 s).sysex.data.length + _ ≤ g; rw [hdata]; exact hg)]
    simp only [ok_bind]
    have hfold : ((List.range' 0 (sysex8PayloadSize p)).map fun i => p.byteAt (3 + i)).foldl coll8
        ((conc8 s).sysex, (conc8 s).idState) = parse8 (s.held ++ payload8 p) := by
      rw [← payload8_eq_range' p hp, parse8, List.foldl_append]; rfl
    rw [hfold]
    have hsz : (message8 (s.held ++ payload8 p)).data.length ≤ g := by
      have := coll8_foldl_length (payload8 p) (parse8 s.held)
      rw [parse8, ← List.foldl_append] at this
      have e1 := parse8_message (s.held ++ payload8 p)
      have e2 := parse8_message s.held
      rw [parse8] at e1 e2
      rw [e1, e2, hlen] at this
      omega
    by_cases hd : formatCode p = 0 ∨ formatCode p = 3
    · rw [if_pos (hcode.2 hd)]
      simp only [hd, decide_true, if_true]
      by_cases hc : s.callback = true
      · rw [if_pos (show (conc8 s).hasCallback = true from hc), if_pos hc]
        obtain ⟨e, -⟩ := hr ({ s with storage := g, held := s.held ++ payload8 p }) hsz
        refine ⟨?_, good8_cleared _⟩
        refine (congrArg (· >>= _) e).trans ?_
        rw [ok_bind, pure_eq_ok]
        dsimp only
        rw [conc8_reset _ (conc8 _) rfl rfl rfl, List.map_cons, parse8_message]
        rfl
      · rw [if_neg (show ¬ (conc8 s).hasCallback = true from hc), if_neg hc]
        exact ⟨rfl, good8_cleared _⟩
    · rw [if_neg fun x => hd (hcode.1 x)]
      simp only [hd, decide_false, Bool.false_eq_true, if_false]
      exact ⟨rfl, hsz⟩

theorem packet8R_exact (s : Held8) (hs : Good8 s) (p : Packet) (hp : IsSysex8 p) {rs rp} (hr : Sim8 rs rp) :
    (conc8 s).feedR p rp = .ok (conc8 (s.packetR (formatCode p) (stream8 p) (payload8 p) rs).1,
      (s.packetR (formatCode p) (stream8 p) (payload8 p) rs).2.map fun m => (message8 m.1, m.2)) ∧
    Good8 (s.packetR (formatCode p) (stream8 p) (payload8 p) rs).1 := by
  have hb : isSysex8Packet p = true := (C16_is_sysex8_packet_iff p).2 hp
  have h3 : formatCode p ≤ 3 := hp.2.1
  obtain ⟨c0, c1, c2, c3⟩ := format8_iff p hp
  unfold Collector8.feedR sysex8View Held8.packetR
  rw [assert_ok hb]
  simp only [(C16_view_payload p hb).2.2.1, hb, Bool.not_true, Bool.false_eq_true, if_false, ok_bind, pure_eq_ok]
  by_cases hlow : formatCode p = 0 ∨ formatCode p = 1
  · rw [if_pos (show sysex8Format p = .complete ∨ sysex8Format p = .start by rw [c0, c1]; exact hlow), if_pos hlow]
    have e : decide (formatCode p = 0 ∨ formatCode p = 3) = decide (formatCode p = 0) := by
      rw [decide_eq_decide]; omega
    cases hrun : s.running
    · have := add8R_exact { s with stream := stream8 p } hs p hp hr
      rw [e] at this
      have hst : ¬ (conc8 s).state ≠ .start := by simp [conc8, hrun]
      simp only [if_neg hst, Bool.false_eq_true, if_false]
      exact this
    · have := add8R_exact { s.cleared with stream := stream8 p } (good8_cleared s) p hp hr
      rw [e] at this
      have hst : (conc8 s).state ≠ .start := by simp [conc8, hrun]
      simp only [if_pos hst, if_true, conc8_reset s (conc8 s) rfl rfl rfl]
      exact this
  · rw [if_neg (show ¬ (sysex8Format p = .complete ∨ sysex8Format p = .start) by rw [c0, c1]; exact hlow), if_neg hlow]
    have e : decide (formatCode p = 0 ∨ formatCode p = 3) = decide (formatCode p = 3) := by
      rw [decide_eq_decide]; omega
    cases hrun : s.running
    · rw [if_pos (by simp [conc8, hrun])]
      rw [conc8_reset s (conc8 s) rfl rfl rfl]
      exact ⟨rfl, good8_cleared s⟩
    · rw [if_neg (by simp [conc8, hrun])]
      simp only [if_true]
      by_cases hi : stream8 p = s.stream
      · rw [if_neg (fun h => h hi), if_pos hi]
        have := add8R_exact s hs p hp hr
        rw [e] at this
        exact this
      · rw [if_pos (show stream8 p ≠ (conc8 s).streamId from hi), if_neg hi]
        exact ⟨rfl, hs⟩

mutual
theorem call8_exact : ∀ (o : CollectorCall), Sim8 (fun s => s.call o) (fun c => c.perform o)
  | .feed p l => by
    intro s hs
    have ih := calls8_exact l
    simp only [Held8.call, Collector8.perform]
    by_cases hp : IsSysex8 p
    · rw [if_pos hp]
      exact packet8R_exact s hs p hp ih
    · rw [if_neg hp]
      have hb : isSysex8Packet p = false := by
        rw [← Bool.not_eq_true, C16_is_sysex8_packet_iff]; exact hp
      unfold Collector8.feedR
      simp only [hb, Bool.not_false, if_true]
      exact ⟨rfl, hs⟩
  | .setMaxSize n => by
    intro s hs
    refine ⟨?_, le_trans hs (Nat.le_max_left _ _)⟩
    simp only [Held8.call, Collector8.perform]
    unfold Collector8.setMaxSize
    by_cases hn : n = 0
    · subst hn; simp [conc8]
    · rw [if_pos hn]; rfl
  | .reset => by
    intro s _
    refine ⟨?_, good8_cleared s⟩
    simp only [Held8.call, Collector8.perform]
    rw [conc8_reset s (conc8 s) rfl rfl rfl]; rfl

theorem calls8_exact : ∀ (l : List CollectorCall), Sim8 (fun s => s.calls l) (fun c => c.performAll l)
  | [] => by
    intro s hs
    simp only [Held8.calls, Collector8.performAll]
    exact ⟨rfl, hs⟩
  | o :: l => by
    intro s hs
    obtain ⟨e1, h1⟩ := call8_exact o s hs
    obtain ⟨e2, h2⟩ := calls8_exact l _ h1
    simp only [Held8.calls, Collector8.performAll]
    refine ⟨?_, h2⟩
    dsimp only at e1 e2
    rw [e1, ok_bind]
    dsimp only
    rw [e2, ok_bind, List.map_append]; rfl
end


/-! ## 7 bit sysex: what the callback sees -/

theorem collect7_state (c : Collector7) (b : Byte) : (c.collect b).state = c.state ∧ (c.collect b).hasCallback = c.hasCallback := by
  unfold Collector7.collect
  repeat' split
  all_goals first | exact ⟨rfl, rfl⟩ | (unfold Collector7.push; exact ⟨rfl, rfl⟩)

theorem collectLoop7_state (p : Packet) (k : Nat) : ∀ (c : Collector7) (b : Nat) (d : Collector7), c.collectLoop p b k = .ok d →
    d.state = c.state ∧ d.hasCallback = c.hasCallback := by
  induction k with
  | zero => intro c b d h; cases h; exact ⟨rfl, rfl⟩
  | succ k ih =>
    intro c b d h
    unfold Collector7.collectLoop at h
    cases hb : sysex7PayloadByte p b with
    | error e => rw [hb, error_bind] at h; cases h
    | ok x =>
      rw [hb, ok_bind] at h
      obtain ⟨h1, h2⟩ := ih _ _ _ h
      exact ⟨h1.trans (collect7_state c x).1, h2.trans (collect7_state c x).2⟩

theorem feedPayloadR7_spec (c : Collector7) (p : Packet) (r : Collector7 → Except Fault (Collector7 × List Sysex)) :
    (∃ c', c.feedPayload p = .ok (c', []) ∧ c.feedPayloadR p r = .ok (c', [])) ∨
    (∃ d : Collector7, c.feedPayload p = .ok (d.reset, [d.sysex]) ∧
      (c.feedPayloadR p r = do let (e, out) ← r d; return (e.reset, d.sysex :: out)) ∧ d.state = c.state) ∨
    (∃ f, c.feedPayload p = .error f ∧ c.feedPayloadR p r = .error f) := by
  unfold Collector7.feedPayload Collector7.feedPayloadR
  dsimp only
  split
  · exact Or.inl ⟨_, rfl, rfl⟩
  · cases hl : ({ c with capacity := (ensureCapacity c.capacity c.maxSize c.sysex.data.length (sysex7PayloadSize p)).1 } :
        Collector7).collectLoop p 0 (sysex7PayloadSize p) with
    | error f => exact Or.inr (Or.inr ⟨f, by rw [error_bind], by rw [error_bind]⟩)
    | ok d =>
      have hst := (collectLoop7_state p _ _ _ _ hl).1
      simp only [ok_bind]
      split
      · by_cases hc : d.hasCallback = true
        · rw [if_pos hc, if_pos hc]
          exact Or.inr (Or.inl ⟨d, rfl, rfl, hst⟩)
        · rw [if_neg hc, if_neg hc]
          exact Or.inl ⟨_, rfl, rfl⟩
      · exact Or.inl ⟨_, rfl, rfl⟩

/-- What `feed` does with a callback that uses the collector, in terms of `feed` with one that does not: `d` is the collector
while the callback runs. -/
theorem feedR7_spec (c : Collector7) (p : Packet) (r : Collector7 → Except Fault (Collector7 × List Sysex)) :
    (∃ c', c.feed p = .ok (c', []) ∧ c.feedR p r = .ok (c', [])) ∨
    (∃ d : Collector7, c.feed p = .ok (d.reset, [d.sysex]) ∧ (c.feedR p r = do let (e, out) ← r d; return (e.reset, d.sysex :: out)) ∧
      (¬ (sysex7ViewStatus p = 0x00 ∨ sysex7ViewStatus p = 0x10) → d.state = 0x20)) ∨
    (∃ f, c.feed p = .error f ∧ c.feedR p r = .error f) := by
  unfold Collector7.feed Collector7.feedR
  cases hb : isSysex7Packet p
  · exact Or.inl ⟨c, rfl, rfl⟩
  · simp only [Bool.not_true, Bool.false_eq_true, if_false, sysex7View, assert_ok hb, ok_bind, pure_eq_ok]
    by_cases h1 : sysex7ViewStatus p = 0x00 ∨ sysex7ViewStatus p = 0x10
    · simp only [if_pos h1]
      split
      · rcases feedPayloadR7_spec c.reset p r with h | ⟨d, e1, e2, -⟩ | h
        · exact Or.inl h
        · exact Or.inr (Or.inl ⟨d, e1, e2, fun h => absurd h1 h⟩)
        · exact Or.inr (Or.inr h)
      · rcases feedPayloadR7_spec c p r with h | ⟨d, e1, e2, -⟩ | h
        · exact Or.inl h
        · exact Or.inr (Or.inl ⟨d, e1, e2, fun h => absurd h1 h⟩)
        · exact Or.inr (Or.inr h)
    · simp only [if_neg h1]
      split
      · exact Or.inl ⟨_, rfl, rfl⟩
      · next h2 =>
        rcases feedPayloadR7_spec c p r with h | ⟨d, e1, e2, e3⟩ | h
        · exact Or.inl h
        · exact Or.inr (Or.inl ⟨d, e1, e2, fun _ => e3.trans (by simpa using h2)⟩)
        · exact Or.inr (Or.inr h)

theorem reset7_reset (c : Collector7) : c.reset.reset = c.reset := by
  unfold Collector7.reset Sysex.clear vecClearCap
  dsimp only
  congr 1
  split <;> [rfl; simp_all]

/-! ## 8 bit sysex: what the callback sees -/

theorem collect8_state (c : Collector8) (b : Byte) : (c.collect b).state = c.state ∧ (c.collect b).hasCallback = c.hasCallback := by
  unfold Collector8.collect
  repeat' split
  all_goals first | exact ⟨rfl, rfl⟩ | (unfold Collector8.push; exact ⟨rfl, rfl⟩)

theorem collectLoop8_state (p : Packet) (k : Nat) : ∀ (c : Collector8) (b : Nat) (d : Collector8), c.collectLoop p b k = .ok d →
    d.state = c.state ∧ d.hasCallback = c.hasCallback := by
  induction k with
  | zero => intro c b d h; cases h; exact ⟨rfl, rfl⟩
  | succ k ih =>
    intro c b d h
    unfold Collector8.collectLoop at h
    cases hb : sysex8PayloadByte p b with
    | error e => rw [hb, error_bind] at h; cases h
    | ok x =>
      rw [hb, ok_bind] at h
      obtain ⟨h1, h2⟩ := ih _ _ _ h
      exact ⟨h1.trans (collect8_state c x).1, h2.trans (collect8_state c x).2⟩

theorem feedPayloadR8_spec (c : Collector8) (p : Packet) (r : Collector8 → Except Fault (Collector8 × List (Sysex × Byte))) :
    (∃ c', c.feedPayload p = .ok (c', []) ∧ c.feedPayloadR p r = .ok (c', [])) ∨
    (∃ d : Collector8, c.feedPayload p = .ok (d.reset, [(d.sysex, d.streamId)]) ∧
      (c.feedPayloadR p r = do let (e, out) ← r d; return (e.reset, (d.sysex, d.streamId) :: out)) ∧ d.state = c.state) ∨
    (∃ f, c.feedPayload p = .error f ∧ c.feedPayloadR p r = .error f) := by
  unfold Collector8.feedPayload Collector8.feedPayloadR
  dsimp only
  split
  · exact Or.inl ⟨_, rfl, rfl⟩
  · cases hl : ({ c with capacity := (ensureCapacity c.capacity c.maxSize c.sysex.data.length (sysex8PayloadSize p)).1 } :
        Collector8).collectLoop p 0 (sysex8PayloadSize p) with
    | error f => exact Or.inr (Or.inr ⟨f, by rw [error_bind], by rw [error_bind]⟩)
    | ok d =>
      have hst := (collectLoop8_state p _ _ _ _ hl).1
      simp only [ok_bind]
      split
      · by_cases hc : d.hasCallback = true
        · rw [if_pos hc, if_pos hc]
          exact Or.inr (Or.inl ⟨d, rfl, rfl, hst⟩)
        · rw [if_neg hc, if_neg hc]
          exact Or.inl ⟨_, rfl, rfl⟩
      · exact Or.inl ⟨_, rfl, rfl⟩

/-- What `feed` does with a callback that uses the collector, in terms of `feed` with one that does not: `d` is the collector
while the callback runs. -/
theorem feedR8_spec (c : Collector8) (p : Packet) (r : Collector8 → Except Fault (Collector8 × List (Sysex × Byte))) :
    (∃ c', c.feed p = .ok (c', []) ∧ c.feedR p r = .ok (c', [])) ∨
    (∃ d : Collector8, c.feed p = .ok (d.reset, [(d.sysex, d.streamId)]) ∧ (c.feedR p r = do let (e, out) ← r d; return (e.reset, (d.sysex, d.streamId) :: out)) ∧
      (¬ (sysex8Format p = .complete ∨ sysex8Format p = .start) → d.state = .cont)) ∨
    (∃ f, c.feed p = .error f ∧ c.feedR p r = .error f) := by
  unfold Collector8.feed Collector8.feedR
  cases hb : isSysex8Packet p
  · exact Or.inl ⟨c, rfl, rfl⟩
  · simp only [Bool.not_true, Bool.false_eq_true, if_false, sysex8View, assert_ok hb, ok_bind, pure_eq_ok]
    cases hs : sysex8StreamId p with
    | error f => exact Or.inr (Or.inr ⟨f, by rw [error_bind], by rw [error_bind]⟩)
    | ok st =>
    simp only [ok_bind]
    by_cases h1 : sysex8Format p = .complete ∨ sysex8Format p = .start
    · simp only [if_pos h1]
      rcases feedPayloadR8_spec { (if c.state ≠ .start then c.reset else c) with streamId := st } p r with h | ⟨d, e1, e2, -⟩ | h
      · exact Or.inl h
      · exact Or.inr (Or.inl ⟨d, e1, e2, fun h => absurd h1 h⟩)
      · exact Or.inr (Or.inr h)
    · simp only [if_neg h1]
      split
      · exact Or.inl ⟨_, rfl, rfl⟩
      · next h2 =>
        split
        · exact Or.inl ⟨_, rfl, rfl⟩
        · rcases feedPayloadR8_spec c p r with h | ⟨d, e1, e2, e3⟩ | h
          · exact Or.inl h
          · exact Or.inr (Or.inl ⟨d, e1, e2, fun _ => e3.trans (by simpa using h2)⟩)
          · exact Or.inr (Or.inr h)

theorem reset8_reset (c : Collector8) : c.reset.reset = c.reset := by
  unfold Collector8.reset Sysex.clear vecClearCap
  dsimp only
  congr 1
  split <;> [rfl; simp_all]

end Midi

import Verif.Spec.Exceptions
import Verif.Lemmas.ReentrantCollector

/-!
# Lemmas: exceptions and the collectors
-/

namespace Midi
open Spec

theorem ensureAllocates_exact (cap lim size n : Nat) :
    ensureAllocates cap lim size n = decide (cap < grown lim cap (size + n)) := by
  unfold ensureAllocates grown vecReserveAllocates
  by_cases h : size + n > cap
  · rw [if_pos h, if_neg (show ¬ size + n ≤ cap by omega)]
    by_cases hl : lim > 0
    · have h0 : lim ≠ 0 := by omega
      simp only [hl, if_true, h0, if_false]
      rw [decide_eq_decide]
      omega
    · have h0 : lim = 0 := by omega
      subst h0
      simp
  · rw [if_neg h, if_pos (show size + n ≤ cap by omega)]
    simp

/-! ## 7 bit sysex -/

theorem collect7_size (c : Collector7) (b : Byte) : (c.collect b).sysex.data.length ≤ c.sysex.data.length + 1 := by
  unfold Collector7.collect
  split
  · split <;> simp
  · simp
  · simp
  · simp [Collector7.push]

theorem collect7_capacity {c : Collector7} (h : c.sysex.data.length < c.capacity) (b : Byte) :
    (c.collect b).capacity = c.capacity := by
  unfold Collector7.collect
  split
  · split <;> simp
  · simp
  · simp
  · simp [Collector7.push, vecPushCap, h]

/-- With sufficient capacity, the loop does not allocate. -/
theorem tryCollectLoop7_eq (p : Packet) (memory : Bool) (k : Nat) : ∀ (c : Collector7) (b : Nat),
    c.sysex.data.length + k ≤ c.capacity → c.tryCollectLoop p memory b k = (c.collectLoop p b k).map fun c => (c, false) := by
  induction k with
  | zero => intro c b _; rfl
  | succ k ih =>
    intro c b h
    unfold Collector7.tryCollectLoop Collector7.collectLoop
    cases hb : sysex7PayloadByte p b with
    | error f => rfl
    | ok v =>
      rw [ok_bind, ok_bind]
      rw [if_neg (by simp [vecPushAllocates]; omega)]
      apply ih
      have := collect7_size c v
      rw [collect7_capacity (by omega)]
      omega

theorem tryAdd7_exact (s : Held7) (hs : Good7 s) (p : Packet) (hp : IsSysex7 p) (t : Trouble) :
    (conc7 s).tryFeedPayload p t =
      .ok (conc7 (s.tryAdd (decide (formatCode p = 0 ∨ formatCode p = 3)) (payload7 p) t).1,
        (s.tryAdd (decide (formatCode p = 0 ∨ formatCode p = 3)) (payload7 p) t).2.1.map message7,
        (s.tryAdd (decide (formatCode p = 0 ∨ formatCode p = 3)) (payload7 p) t).2.2) ∧
    Good7 (s.tryAdd (decide (formatCode p = 0 ∨ formatCode p = 3)) (payload7 p) t).1 := by
  obtain ⟨eadd, gadd⟩ := add7_exact s hs p hp
  have hlen : (payload7 p).length = sysex7PayloadSize p := by rw [payload7_eq_range']; simp
  have hn : sysex7PayloadSize p ≤ 6 := (C15_view_payload p ((C15_is_sysex7_packet_iff p).2 hp)).1
  have hdata : (conc7 s).sysex.data = (message7 s.held).data := by
    rw [← parse7_message]; rfl
  have hcode : (sysex7ViewStatus p = 0x00 ∨ sysex7ViewStatus p = 0x30) ↔ (formatCode p = 0 ∨ formatCode p = 3) := by
    rw [(code_iff p hp).1, (code_iff p hp).2.2.2]
  have hs' := hs
  unfold Good7 at hs
  unfold Collector7.tryFeedPayload Held7.tryAdd
  unfold Collector7.feedPayload at eadd
  dsimp only at eadd ⊢
  rw [show (conc7 s).capacity = s.storage from rfl, show (conc7 s).maxSize = s.limit from rfl, hdata,
    ensureCapacity_exact hs (by omega)] at eadd ⊢
  rw [hlen, ensureAllocates_exact]
  by_cases hm : t.memory = true ∧ s.storage < grown s.limit s.storage ((message7 s.held).data.length + sysex7PayloadSize p)
  · rw [if_pos hm, if_pos (by simp [hm.1, hm.2])]
    exact ⟨rfl, hs'⟩
  · rw [if_neg hm, if_neg (by simpa using hm)]
    dsimp only at eadd ⊢
    have hrg := @room_grown s.limit s.storage (message7 s.held).data.length (sysex7PayloadSize p) hs (by omega)
    generalize grown s.limit s.storage ((message7 s.held).data.length + sysex7PayloadSize p) = g at hrg hm eadd ⊢
    cases hrm : room s.limit s.storage ((message7 s.held).data.length + sysex7PayloadSize p)
    · rw [hrm] at eadd
      simp only [Bool.not_false, if_true, pure_eq_ok] at eadd
      simp only [Bool.not_false, if_true, Bool.false_eq_true, and_false, if_false, pure_eq_ok]
      refine ⟨?_, gadd⟩
      have e1 := congrArg (fun x => Except.map Prod.fst x) eadd
      have e2 := congrArg (fun x => Except.map Prod.snd x) eadd
      simp only [Except.map, Except.ok.injEq] at e1 e2
      rw [← e1, ← e2]
    · have hg := hrg hrm
      rw [hrm] at eadd
      rw [tryCollectLoop7_eq p _ _ _ 0 (by show (conc7 s).sysex.data.length + _ ≤ g; rw [hdata]; exact hg)]
      rw [collectLoop7_eq p _ 0 _ (by omega) (by show (conc7 s).sysex.data.length + _ ≤ g; rw [hdata]; exact hg)] at eadd ⊢
      simp only [Bool.not_true, Bool.false_eq_true, if_false, ok_bind] at eadd
      simp only [Bool.not_true, Bool.false_eq_true, if_false, Except.map, ok_bind]
      have hfold : ((List.range' 0 (sysex7PayloadSize p)).map fun i => p.byteAt (2 + i)).foldl coll7
          ((conc7 s).sysex, (conc7 s).idRead) = parse7 (s.held ++ payload7 p) := by
        rw [← payload7_eq_range', parse7, List.foldl_append]; rfl
      rw [hfold] at eadd ⊢
      have hsz : (message7 (s.held ++ payload7 p)).data.length ≤ g := by
        have := coll7_foldl_length (payload7 p) (parse7 s.held)
        rw [parse7, ← List.foldl_append] at this
        have e1 := parse7_message (s.held ++ payload7 p)
        have e2 := parse7_message s.held
        rw [parse7] at e1 e2
        rw [e1, e2, hlen] at this
        omega
      have e1 := congrArg (fun x => Except.map Prod.fst x) eadd
      have e2 := congrArg (fun x => Except.map Prod.snd x) eadd
      by_cases hd : formatCode p = 0 ∨ formatCode p = 3
      · rw [if_pos (hcode.2 hd)] at e1 e2 ⊢
        simp only [Except.map, pure_eq_ok, Except.ok.injEq] at e1 e2
        by_cases hc : s.callback = true
        · rw [if_pos (show (conc7 s).hasCallback = true from hc)] at e2 ⊢
          by_cases ht : t.callback = true
          · rw [if_pos ht, if_pos (by simp [hd, hc, ht])]
            refine ⟨?_, hsz⟩
            rw [pure_eq_ok, List.map_singleton, ← parse7_message]
            rfl
          · rw [if_neg ht, if_neg (by simp [ht])]
            refine ⟨?_, gadd⟩
            rw [pure_eq_ok, ← e1, ← e2]
        · rw [if_neg (show ¬ (conc7 s).hasCallback = true from hc)] at e2 ⊢
          rw [if_neg (by simp [hc])]
          refine ⟨?_, gadd⟩
          rw [pure_eq_ok, ← e1, ← e2]
      · rw [if_neg fun x => hd (hcode.1 x)] at e1 e2 ⊢
        simp only [Except.map, pure_eq_ok, Except.ok.injEq] at e1 e2
        rw [if_neg (by simp [hd])]
        refine ⟨?_, gadd⟩
        rw [pure_eq_ok, ← e1, ← e2]

theorem tryPacket7_exact (s : Held7) (hs : Good7 s) (p : Packet) (hp : IsSysex7 p) (t : Trouble) :
    (conc7 s).tryFeed p t = .ok (conc7 (s.tryPacket (formatCode p) (payload7 p) t).1,
      (s.tryPacket (formatCode p) (payload7 p) t).2.1.map message7, (s.tryPacket (formatCode p) (payload7 p) t).2.2) ∧
    Good7 (s.tryPacket (formatCode p) (payload7 p) t).1 := by
  have hb : isSysex7Packet p = true := (C15_is_sysex7_packet_iff p).2 hp
  have h3 : formatCode p ≤ 3 := hp.2.1
  obtain ⟨c0, c1, c2, c3⟩ := code_iff p hp
  unfold Collector7.tryFeed sysex7View Held7.tryPacket
  rw [assert_ok hb]
  simp only [hb, Bool.not_true, Bool.false_eq_true, if_false, ok_bind, pure_eq_ok]
  by_cases hlow : formatCode p = 0 ∨ formatCode p = 1
  · rw [if_pos (show sysex7ViewStatus p = 0x00 ∨ sysex7ViewStatus p = 0x10 by rw [c0, c1]; exact hlow), if_pos hlow]
    have e : decide (formatCode p = 0 ∨ formatCode p = 3) = decide (formatCode p = 0) := by
      rw [decide_eq_decide]; omega
    cases hrun : s.running
    · rw [if_neg (by simp [conc7, hrun])]
      have := tryAdd7_exact s hs p hp t
      rw [e] at this
      exact this
    · rw [if_pos (by simp [conc7, hrun])]
      rw [conc7_reset s (conc7 s) rfl rfl rfl]
      have := tryAdd7_exact s.cleared (good7_cleared s) p hp t
      rw [e] at this
      exact this
  · rw [if_neg (show ¬ (sysex7ViewStatus p = 0x00 ∨ sysex7ViewStatus p = 0x10) by rw [c0, c1]; exact hlow), if_neg hlow]
    have e : decide (formatCode p = 0 ∨ formatCode p = 3) = decide (formatCode p = 3) := by
      rw [decide_eq_decide]; omega
    cases hrun : s.running
    · rw [if_pos (by simp [conc7, hrun])]
      rw [conc7_reset s (conc7 s) rfl rfl rfl]
      exact ⟨rfl, good7_cleared s⟩
    · rw [if_neg (by simp [conc7, hrun])]
      have := tryAdd7_exact s hs p hp t
      rw [e] at this
      exact this

theorem try7_exact (s : Held7) (hs : Good7 s) (o : CollectorTry) :
    (conc7 s).tryOne o = .ok (conc7 (s.tryOne o).1, (s.tryOne o).2.1.map message7, (s.tryOne o).2.2) ∧
    Good7 (s.tryOne o).1 := by
  cases o with
  | feed p t =>
    by_cases hp : IsSysex7 p
    · have := tryPacket7_exact s hs p hp t
      simp only [Held7.tryOne, Collector7.tryOne, if_pos hp]
      exact this
    · have hb : isSysex7Packet p = false := by
        rw [← Bool.not_eq_true, C15_is_sysex7_packet_iff]; exact hp
      simp only [Held7.tryOne, Collector7.tryOne, if_neg hp]
      unfold Collector7.tryFeed
      simp only [hb, Bool.not_false, if_true]
      exact ⟨rfl, hs⟩
  | setMaxSize n m =>
    simp only [Held7.tryOne, Collector7.tryOne, Collector7.trySetMaxSize]
    rw [show (conc7 s).capacity = s.storage from rfl]
    by_cases hn : n = 0
    · subst hn
      rw [if_neg (show ¬ (0 : Nat) ≠ 0 by simp), if_neg (show ¬ (m = true ∧ s.storage < 0) by omega)]
      exact ⟨by simp [conc7], le_trans hs (Nat.le_max_left _ _)⟩
    · rw [if_pos hn]
      by_cases hm : m = true ∧ s.storage < n
      · rw [if_pos hm, if_pos (by simp [vecReserveAllocates, hm.1, hm.2])]
        exact ⟨rfl, hs⟩
      · rw [if_neg hm, if_neg (by simpa [vecReserveAllocates] using hm)]
        exact ⟨rfl, le_trans hs (Nat.le_max_left _ _)⟩
  | setCallback b => exact ⟨rfl, hs⟩
  | reset =>
    simp only [Held7.tryOne, Collector7.tryOne]
    rw [conc7_reset s (conc7 s) rfl rfl rfl]
    exact ⟨rfl, good7_cleared s⟩

theorem tries7_exact (os : List CollectorTry) : ∀ (s : Held7), Good7 s →
    (conc7 s).tryAll os = .ok (conc7 (s.tries os).1, (s.tries os).2.map message7) ∧ Good7 (s.tries os).1 := by
  induction os with
  | nil => intro s hs; exact ⟨rfl, hs⟩
  | cons o os ih =>
    intro s hs
    obtain ⟨e1, h1⟩ := try7_exact s hs o
    obtain ⟨e2, h2⟩ := ih _ h1
    refine ⟨?_, h2⟩
    rw [Collector7.tryAll, e1, ok_bind]
    dsimp only
    rw [e2, ok_bind, Held7.tries, List.map_append]; rfl

/-! ## 8 bit sysex -/

theorem collect8_size (c : Collector8) (b : Byte) : (c.collect b).sysex.data.length ≤ c.sysex.data.length + 1 := by
  unfold Collector8.collect
  split
  · split <;> simp
  · simp
  · simp
  · simp
  · simp [Collector8.push]

theorem collect8_capacity {c : Collector8} (h : c.sysex.data.length < c.capacity) (b : Byte) :
    (c.collect b).capacity = c.capacity := by
  unfold Collector8.collect
  split
  · split <;> simp
  · simp
  · simp
  · simp
  · simp [Collector8.push, vecPushCap, h]

/-- With sufficient capacity, the loop does not allocate. -/
theorem tryCollectLoop8_eq (p : Packet) (memory : Bool) (k : Nat) : ∀ (c : Collector8) (b : Nat),
    c.sysex.data.length + k ≤ c.capacity → c.tryCollectLoop p memory b k = (c.collectLoop p b k).map fun c => (c, false) := by
  induction k with
  | zero => intro c b _; rfl
  | succ k ih =>
    intro c b h
    unfold Collector8.tryCollectLoop Collector8.collectLoop
    cases hb : sysex8PayloadByte p b with
    | error f => rfl
    | ok v =>
      rw [ok_bind, ok_bind]
      rw [if_neg (by simp [vecPushAllocates]; omega)]
      apply ih
      have := collect8_size c v
      rw [collect8_capacity (by omega)]
      omega

theorem tryAdd8_exact (s : Held8) (hs : Good8 s) (p : Packet) (hp : IsSysex8 p) (t : Trouble) :
    (conc8 s).tryFeedPayload p t =
      .ok (conc8 (s.tryAdd (decide (formatCode p = 0 ∨ formatCode p = 3)) (payload8 p) t).1,
        (s.tryAdd (decide (formatCode p = 0 ∨ formatCode p = 3)) (payload8 p) t).2.1.map fun m => (message8 m.1, m.2),
        (s.tryAdd (decide (formatCode p = 0 ∨ formatCode p = 3)) (payload8 p) t).2.2) ∧
    Good8 (s.tryAdd (decide (formatCode p = 0 ∨ formatCode p = 3)) (payload8 p) t).1 := by
  obtain ⟨eadd, gadd⟩ := add8_exact s hs p hp
  have hlen : (payload8 p).length = sysex8PayloadSize p := by rw [payload8_eq_range' p hp]; simp
  have hn : sysex8PayloadSize p ≤ 13 := (C16_view_payload p ((C16_is_sysex8_packet_iff p).2 hp)).1
  have hdata : (conc8 s).sysex.data = (message8 s.held).data := by
    rw [← parse8_message]; rfl
  have hcode : (sysex8Format p = .complete ∨ sysex8Format p = .fin) ↔ (formatCode p = 0 ∨ formatCode p = 3) := by
    rw [(format8_iff p hp).1, (format8_iff p hp).2.2.2]
  have hs' := hs
  unfold Good8 at hs
  unfold Collector8.tryFeedPayload Held8.tryAdd
  unfold Collector8.feedPayload at eadd
  dsimp only at eadd ⊢
  rw [show (conc8 s).capacity = s.storage from rfl, show (conc8 s).maxSize = s.limit from rfl, hdata,
    ensureCapacity_exact hs (by omega)] at eadd ⊢
  rw [hlen, ensureAllocates_exact]
  by_cases hm : t.memory = true ∧ s.storage < grown s.limit s.storage ((message8 s.held).data.length + sysex8PayloadSize p)
  · rw [if_pos hm, if_pos (by simp [hm.1, hm.2])]
    exact ⟨rfl, hs'⟩
  · rw [if_neg hm, if_neg (by simpa using hm)]
    dsimp only at eadd ⊢
    have hrg := @room_grown s.limit s.storage (message8 s.held).data.length (sysex8PayloadSize p) hs (by omega)
    generalize grown s.limit s.storage ((message8 s.held).data.length + sysex8PayloadSize p) = g at hrg hm eadd ⊢
    cases hrm : room s.limit s.storage ((message8 s.held).data.length + sysex8PayloadSize p)
    · rw [hrm] at eadd
      simp only [Bool.not_false, if_true, pure_eq_ok] at eadd
      simp only [Bool.not_false, if_true, Bool.false_eq_true, and_false, if_false, pure_eq_ok]
      refine ⟨?_, gadd⟩
      have e1 := congrArg (fun x => Except.map Prod.fst x) eadd
      have e2 := congrArg (fun x => Except.map Prod.snd x) eadd
      simp only [Except.map, Except.ok.injEq] at e1 e2
      rw [← e1, ← e2]
    · have hg := hrg hrm
      rw [hrm] at eadd
      rw [tryCollectLoop8_eq p _ _ _ 0 (by show (conc8 s).sysex.data.length + _ ≤ g; rw [hdata]; exact hg)]
      rw [collectLoop8_eq p _ 0 _ (by omega) (by show (conc8 s).sysex.data.length + _ ≤ g; rw [hdata]; exact hg)] at eadd ⊢
      simp only [Bool.not_true, Bool.false_eq_true, if_false, ok_bind] at eadd
      simp only [Bool.not_true, Bool.false_eq_true, if_false, Except.map, ok_bind]
      have hfold : ((List.range' 0 (sysex8PayloadSize p)).map fun i => p.byteAt (3 + i)).foldl coll8
          ((conc8 s).sysex, (conc8 s).idState) = parse8 (s.held ++ payload8 p) := by
        rw [← payload8_eq_range' p hp, parse8, List.foldl_append]; rfl
      rw [hfold] at eadd ⊢
      have hsz : (message8 (s.held ++ payload8 p)).data.length ≤ g := by
        have := coll8_foldl_length (payload8 p) (parse8 s.held)
        rw [parse8, ← List.foldl_append] at this
        have e1 := parse8_message (s.held ++ payload8 p)
        have e2 := parse8_message s.held
        rw [parse8] at e1 e2
        rw [e1, e2, hlen] at this
        omega
      have e1 := congrArg (fun x => Except.map Prod.fst x) eadd
      have e2 := congrArg (fun x => Except.map Prod.snd x) eadd
      by_cases hd : formatCode p = 0 ∨ formatCode p = 3
      · rw [if_pos (hcode.2 hd)] at e1 e2 ⊢
        simp only [Except.map, pure_eq_ok, Except.ok.injEq] at e1 e2
        by_cases hc : s.callback = true
        · rw [if_pos (show (conc8 s).hasCallback = true from hc)] at e2 ⊢
          by_cases ht : t.callback = true
          · rw [if_pos ht, if_pos (by simp [hd, hc, ht])]
            refine ⟨?_, hsz⟩
            rw [pure_eq_ok, List.map_singleton, ← parse8_message]
            rfl
          · rw [if_neg ht, if_neg (by simp [ht])]
            refine ⟨?_, gadd⟩
            rw [pure_eq_ok, ← e1, ← e2]
        · rw [if_neg (show ¬ (conc8 s).hasCallback = true from hc)] at e2 ⊢
          rw [if_neg (by simp [hc])]
          refine ⟨?_, gadd⟩
          rw [pure_eq_ok, ← e1, ← e2]
      · rw [if_neg fun x => hd (hcode.1 x)] at e1 e2 ⊢
        simp only [Except.map, pure_eq_ok, Except.ok.injEq] at e1 e2
        rw [if_neg (by simp [hd])]
        refine ⟨?_, gadd⟩
        rw [pure_eq_ok, ← e1, ← e2]

theorem tryPacket8_exact (s : Held8) (hs : Good8 s) (p : Packet) (hp : IsSysex8 p) (t : Trouble) :
    (conc8 s).tryFeed p t = .ok (conc8 (s.tryPacket (formatCode p) (stream8 p) (payload8 p) t).1,
      (s.tryPacket (formatCode p) (stream8 p) (payload8 p) t).2.1.map (fun m => (message8 m.1, m.2)), (s.tryPacket (formatCode p) (stream8 p) (payload8 p) t).2.2) ∧
    Good8 (s.tryPacket (formatCode p) (stream8 p) (payload8 p) t).1 := by
  have hb : isSysex8Packet p = true := (C16_is_sysex8_packet_iff p).2 hp
  have h3 : formatCode p ≤ 3 := hp.2.1
  obtain ⟨c0, c1, c2, c3⟩ := format8_iff p hp
  unfold Collector8.tryFeed sysex8View Held8.tryPacket
  rw [assert_ok hb]
  simp only [(C16_view_payload p hb).2.2.1, hb, Bool.not_true, Bool.false_eq_true, if_false, ok_bind, pure_eq_ok]
  by_cases hlow : formatCode p = 0 ∨ formatCode p = 1
  · rw [if_pos (show sysex8Format p = .complete ∨ sysex8Format p = .start by rw [c0, c1]; exact hlow), if_pos hlow]
    have e : decide (formatCode p = 0 ∨ formatCode p = 3) = decide (formatCode p = 0) := by
      rw [decide_eq_decide]; omega
    cases hrun : s.running
    · have := tryAdd8_exact { s with stream := stream8 p } hs p hp t
      rw [e] at this
      have hst : ¬ (conc8 s).state ≠ .start := by simp [conc8, hrun]
      simp only [if_neg hst, Bool.false_eq_true, if_false]
      exact this
    · have := tryAdd8_exact { s.cleared with stream := stream8 p } (good8_cleared s) p hp t
      rw [e] at this
      have hst : (conc8 s).state ≠ .start := by simp [conc8, hrun]
      simp only [if_pos hst, if_true, conc8_reset s (conc8 s) rfl rfl rfl]
      exact this
  · rw [if_neg (show ¬ (sysex8Format p = .complete ∨ sysex8Format p = .start) by rw [c0, c1]; exact hlow), if_neg hlow]
    have e : decide (formatCode p = 0 ∨ formatCode p = 3) = decide (formatCode p = 3) := by
      rw [decide_eq_decide]; omega
    cases hrun : s.running
    · rw [if_pos (by simp [conc8, hrun])]
      rw [conc8_reset s (conc8 s) rfl rfl rfl]
      exact ⟨rfl, good8_cleared s⟩
    · rw [if_neg (by simp [conc8, hrun])]
      simp only [if_true]
      by_cases hi : stream8 p = s.stream
      · rw [if_neg (fun h => h hi), if_pos hi]
        have := tryAdd8_exact s hs p hp t
        rw [e] at this
        exact this
      · rw [if_pos (show stream8 p ≠ (conc8 s).streamId from hi), if_neg hi]
        exact ⟨rfl, hs⟩

theorem try8_exact (s : Held8) (hs : Good8 s) (o : CollectorTry) :
    (conc8 s).tryOne o = .ok (conc8 (s.tryOne o).1, (s.tryOne o).2.1.map fun m => (message8 m.1, m.2), (s.tryOne o).2.2) ∧
    Good8 (s.tryOne o).1 := by
  cases o with
  | feed p t =>
    by_cases hp : IsSysex8 p
    · have := tryPacket8_exact s hs p hp t
      simp only [Held8.tryOne, Collector8.tryOne, if_pos hp]
      exact this
    · have hb : isSysex8Packet p = false := by
        rw [← Bool.not_eq_true, C16_is_sysex8_packet_iff]; exact hp
      simp only [Held8.tryOne, Collector8.tryOne, if_neg hp]
      unfold Collector8.tryFeed
      simp only [hb, Bool.not_false, if_true]
      exact ⟨rfl, hs⟩
  | setMaxSize n m =>
    simp only [Held8.tryOne, Collector8.tryOne, Collector8.trySetMaxSize]
    rw [show (conc8 s).capacity = s.storage from rfl]
    by_cases hn : n = 0
    · subst hn
      rw [if_neg (show ¬ (0 : Nat) ≠ 0 by simp), if_neg (show ¬ (m = true ∧ s.storage < 0) by omega)]
      exact ⟨by simp [conc8], le_trans hs (Nat.le_max_left _ _)⟩
    · rw [if_pos hn]
      by_cases hm : m = true ∧ s.storage < n
      · rw [if_pos hm, if_pos (by simp [vecReserveAllocates, hm.1, hm.2])]
        exact ⟨rfl, hs⟩
      · rw [if_neg hm, if_neg (by simpa [vecReserveAllocates] using hm)]
        exact ⟨rfl, le_trans hs (Nat.le_max_left _ _)⟩
  | setCallback b => exact ⟨rfl, hs⟩
  | reset =>
    simp only [Held8.tryOne, Collector8.tryOne]
    rw [conc8_reset s (conc8 s) rfl rfl rfl]
    exact ⟨rfl, good8_cleared s⟩

theorem tries8_exact (os : List CollectorTry) : ∀ (s : Held8), Good8 s →
    (conc8 s).tryAll os = .ok (conc8 (s.tries os).1, (s.tries os).2.map fun m => (message8 m.1, m.2)) ∧ Good8 (s.tries os).1 := by
  induction os with
  | nil => intro s hs; exact ⟨rfl, hs⟩
  | cons o os ih =>
    intro s hs
    obtain ⟨e1, h1⟩ := try8_exact s hs o
    obtain ⟨e2, h2⟩ := ih _ h1
    refine ⟨?_, h2⟩
    rw [Collector8.tryAll, e1, ok_bind]
    dsimp only
    rw [e2, ok_bind, Held8.tries, List.map_append]; rfl

end Midi

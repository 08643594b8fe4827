import Verif.Model.ParserMemory
import Verif.Props.CollectorExact
import Verif.Spec.Memory

/-!
# Property C96: memory in use
-/

namespace Midi
open Spec

/-! ## Collectors -/

/-- Without limit: when no message is running nothing is held, and the storage is small; when one is running, what is held is not more
than what has been received of it, and the storage not more than twice that. -/
def Small7 (s : Held7) (n : Nat) : Prop :=
  s.limit = 0 ∧ (s.running = false → s.held = [] ∧ s.storage ≤ 16384) ∧ s.held.length ≤ n ∧ s.storage ≤ max 16384 (2 * n)

theorem small7_cleared {s : Held7} {n : Nat} (h : s.limit = 0) : Small7 s.cleared n := by
  unfold Small7 Held7.cleared
  refine ⟨h, fun _ => ⟨rfl, ?_⟩, Nat.zero_le _, ?_⟩ <;> dsimp only <;> split <;> omega

theorem grown_small {storage need n : Nat} (h : storage ≤ max 16384 (2 * n)) (hn : need ≤ n) : grown 0 storage need ≤ max 16384 (2 * n) := by
  unfold grown
  split
  · exact h
  · rw [if_pos rfl]; omega

theorem small7_add {s : Held7} {n : Nat} {d : List Byte} (c : Bool) (h : s.limit = 0) (h1 : s.held.length + d.length ≤ n)
    (h2 : s.storage ≤ max 16384 (2 * n)) : Small7 (s.add c d).1 n := by
  unfold Held7.add
  have hroom : room s.limit s.storage ((message7 s.held).data.length + d.length) = true := by simp [room, h]
  simp only [hroom, if_true]
  have := (message7_length s.held).1
  cases c with
  | true => exact small7_cleared h
  | false =>
    rw [if_neg (by simp)]
    refine ⟨h, fun e => (by cases e), by simpa using h1, ?_⟩
    show grown s.limit s.storage _ ≤ _
    rw [h]
    exact grown_small h2 (by omega)

theorem small7_packet {s : Held7} {n : Nat} (f : Nat) (d : List Byte) (h : Small7 s n) :
    Small7 (s.packet f d).1 (if f ≤ 1 then d.length else n + d.length) := by
  obtain ⟨h0, h1, h2, h3⟩ := h
  unfold Held7.packet
  by_cases hf : f = 0 ∨ f = 1
  · rw [if_pos hf, if_pos (show f ≤ 1 by omega)]
    by_cases hr : s.running = true
    · rw [if_pos hr]
      have hc := small7_cleared (n := 0) h0
      exact small7_add _ hc.1 (by rw [(hc.2.1 rfl).1]; simp) (le_trans (hc.2.1 rfl).2 (le_max_left _ _))
    · rw [if_neg hr]
      have := h1 (by simpa using hr)
      exact small7_add _ h0 (by rw [this.1]; simp) (le_trans this.2 (le_max_left _ _))
  · rw [if_neg hf, if_neg (show ¬ f ≤ 1 by omega)]
    split
    · exact small7_add _ h0 (by omega) (by omega)
    · exact small7_cleared h0

theorem small7_packets (ps : List Packet) : ∀ {s : Held7} {n : Nat}, Small7 s n → Small7 (s.packets (items7 ps)).1
    (ps.foldl (fun n p => if IsSysex7 p then if formatCode p ≤ 1 then (payload7 p).length else n + (payload7 p).length else n) n) := by
  induction ps with
  | nil => intro s n h; exact h
  | cons p ps ih =>
    intro s n h
    rw [List.foldl_cons]
    by_cases hp : IsSysex7 p
    · rw [if_pos hp]
      unfold items7
      rw [List.filter_cons_of_pos (by simpa using hp), List.map_cons]
      exact ih (small7_packet _ _ h)
    · rw [if_neg hp]
      unfold items7
      rw [List.filter_cons_of_neg (by simpa using hp)]
      exact ih h

theorem small7_history (ops : List CollectorOp) (hl : ∀ k, .setMaxSize k ∉ ops) : ∀ {s : Held7} {n : Nat}, Small7 s n →
    Small7 (s.history ops).1 ((fedPackets ops).foldl
      (fun n p => if IsSysex7 p then if formatCode p ≤ 1 then (payload7 p).length else n + (payload7 p).length else n) n) := by
  induction ops with
  | nil => intro s n h; exact h
  | cons op ops ih =>
    intro s n h
    have ih := @ih fun k hk => hl k (List.mem_cons_of_mem _ hk)
    cases op with
    | feed ps =>
      show Small7 _ ((ps ++ fedPackets ops).foldl _ n)
      rw [List.foldl_append]
      exact ih (small7_packets ps h)
    | setMaxSize k => exact absurd List.mem_cons_self (hl k)
    | setCallback b => exact ih (n := n) h
    | reset => exact ih (small7_cleared h.1)

/-- C96: without a limit, the storage of a sysex7 collector is never larger than 16384 bytes or twice the number of payload bytes received
of the message that was begun last, whichever is more. -/
theorem C96_collector7 (ops : List CollectorOp) (hl : ∀ k, .setMaxSize k ∉ ops) :
    ∃ c out, ({} : Collector7).run ops = .ok (c, out) ∧ c.capacity ≤ max 16384 (2 * inProgress7 (fedPackets ops)) := by
  have h := (history7_exact ops {} (Nat.le_refl _)).1
  have hb := small7_history ops hl (s := {}) (n := 0) ⟨rfl, fun _ => ⟨rfl, Nat.zero_le _⟩, Nat.le_refl _, Nat.zero_le _⟩
  exact ⟨_, _, h, hb.2.2.2⟩

example := C96_collector7 [.feed [⟨0x30167E01, 0x02030405, 0, 0⟩], .setCallback false, .feed [⟨0x30261, 0, 0, 0⟩], .reset] (by simp)
example : inProgress7 (fedPackets [.feed [⟨0x30167E01, 0x02030405, 0, 0⟩], .setCallback false,
    .feed [⟨0x20903C40, 0, 0, 0⟩, ⟨0x30260607, 0x08090A0B, 0, 0⟩]]) = 12 := by decide

/-- Likewise for 8 bit sysex. -/
def Small8 (s : Held8) (n : Nat) : Prop :=
  s.limit = 0 ∧ (s.running = false → s.held = [] ∧ s.storage ≤ 16384) ∧ s.held.length ≤ n ∧ s.storage ≤ max 16384 (2 * n)

theorem small8_cleared {s : Held8} {n : Nat} (h : s.limit = 0) : Small8 s.cleared n := by
  unfold Small8 Held8.cleared
  refine ⟨h, fun _ => ⟨rfl, ?_⟩, Nat.zero_le _, ?_⟩ <;> dsimp only <;> split <;> omega

theorem small8_add {s : Held8} {n : Nat} {d : List Byte} (c : Bool) (h : s.limit = 0) (h1 : s.held.length + d.length ≤ n)
    (h2 : s.storage ≤ max 16384 (2 * n)) : Small8 (s.add c d).1 n := by
  unfold Held8.add
  have hroom : room s.limit s.storage ((message8 s.held).data.length + d.length) = true := by simp [room, h]
  simp only [hroom, if_true]
  have := (message8_length s.held).1
  cases c with
  | true => exact small8_cleared h
  | false =>
    rw [if_neg (by simp)]
    refine ⟨h, fun e => (by cases e), by simpa using h1, ?_⟩
    show grown s.limit s.storage _ ≤ _
    rw [h]
    exact grown_small h2 (by omega)

theorem small8_packet {s : Held8} {n : Nat} (f : Nat) (i : Byte) (d : List Byte) (h : Small8 s n) :
    Small8 (s.packet f i d).1 (if f ≤ 1 then d.length else n + d.length) := by
  have h' := h
  obtain ⟨h0, h1, h2, h3⟩ := h
  unfold Held8.packet
  by_cases hf : f = 0 ∨ f = 1
  · rw [if_pos hf, if_pos (show f ≤ 1 by omega)]
    by_cases hr : s.running = true
    · rw [if_pos hr]
      have hc := small8_cleared (n := 0) h0
      exact small8_add _ hc.1 (by show (Held8.cleared s).held.length + _ ≤ _; rw [(hc.2.1 rfl).1]; simp) (le_trans (hc.2.1 rfl).2 (le_max_left _ _))
    · rw [if_neg hr]
      have := h1 (by simpa using hr)
      exact small8_add _ h0 (by show s.held.length + _ ≤ _; rw [this.1]; simp) (le_trans this.2 (le_max_left _ _))
  · rw [if_neg hf, if_neg (show ¬ f ≤ 1 by omega)]
    split
    · split
      · exact small8_add _ h0 (by omega) (by omega)
      · exact ⟨h0, h1, by show s.held.length ≤ _; omega, by show s.storage ≤ _; omega⟩
    · exact small8_cleared h0

theorem small8_packets (ps : List Packet) : ∀ {s : Held8} {n : Nat}, Small8 s n → Small8 (s.packets (items8 ps)).1
    (ps.foldl (fun n p => if IsSysex8 p then if formatCode p ≤ 1 then (payload8 p).length else n + (payload8 p).length else n) n) := by
  induction ps with
  | nil => intro s n h; exact h
  | cons p ps ih =>
    intro s n h
    rw [List.foldl_cons]
    by_cases hp : IsSysex8 p
    · rw [if_pos hp]
      unfold items8
      rw [List.filter_cons_of_pos (by simpa using hp), List.map_cons]
      exact ih (small8_packet _ _ _ h)
    · rw [if_neg hp]
      unfold items8
      rw [List.filter_cons_of_neg (by simpa using hp)]
      exact ih h

theorem small8_history (ops : List CollectorOp) (hl : ∀ k, .setMaxSize k ∉ ops) : ∀ {s : Held8} {n : Nat}, Small8 s n →
    Small8 (s.history ops).1 ((fedPackets ops).foldl
      (fun n p => if IsSysex8 p then if formatCode p ≤ 1 then (payload8 p).length else n + (payload8 p).length else n) n) := by
  induction ops with
  | nil => intro s n h; exact h
  | cons op ops ih =>
    intro s n h
    have ih := @ih fun k hk => hl k (List.mem_cons_of_mem _ hk)
    cases op with
    | feed ps =>
      show Small8 _ ((ps ++ fedPackets ops).foldl _ n)
      rw [List.foldl_append]
      exact ih (small8_packets ps h)
    | setMaxSize k => exact absurd List.mem_cons_self (hl k)
    | setCallback b => exact ih (n := n) h
    | reset => exact ih (small8_cleared h.1)

/-- C96: likewise for a sysex8 collector. -/
theorem C96_collector8 (ops : List CollectorOp) (hl : ∀ k, .setMaxSize k ∉ ops) :
    ∃ c out, ({} : Collector8).run ops = .ok (c, out) ∧ c.capacity ≤ max 16384 (2 * inProgress8 (fedPackets ops)) := by
  have h := (history8_exact ops {} (Nat.le_refl _)).1
  have hb := small8_history ops hl (s := {}) (n := 0) ⟨rfl, fun _ => ⟨rfl, Nat.zero_le _⟩, Nat.le_refl _, Nat.zero_le _⟩
  exact ⟨_, _, h, hb.2.2.2⟩

example := C96_collector8 [.feed [⟨0x501E0000, 0x7E010203, 0x04050607, 0x08090A0B⟩], .reset] (by simp)
example : inProgress8 (fedPackets [.feed [⟨0x501E0000, 0x7E010203, 0x04050607, 0x08090A0B⟩]]) = 13 := by decide

theorem vecClearCap_le (n : Nat) : vecClearCap n ≤ 16384 := by unfold vecClearCap; split <;> omega

/-- C96: in whatever state, and with or without limit, a sysex7 collector keeps at most 16384 bytes of storage when it has delivered a
message, and when it was reset. -/
theorem C96_released7 (c : Collector7) :
    (∀ p c' out, c.feed p = .ok (c', out) → out ≠ [] → c'.capacity ≤ 16384) ∧ c.reset.capacity ≤ 16384 := by
  refine ⟨fun p c' out h hout => ?_, vecClearCap_le _⟩
  have pay : ∀ (c : Collector7) (m : Packet), c.feedPayload m = .ok (c', out) → c'.capacity ≤ 16384 := by
    intro c m h
    unfold Collector7.feedPayload at h
    dsimp only at h
    split at h
    · cases h; exact absurd rfl hout
    · cases hl : Collector7.collectLoop { c with capacity := (ensureCapacity c.capacity c.maxSize c.sysex.data.length (sysex7PayloadSize m)).1 }
        m 0 (sysex7PayloadSize m) with
      | error _ => rw [hl] at h; cases h
      | ok d =>
        rw [hl] at h
        dsimp only [ok_bind] at h
        split at h
        · cases h; exact vecClearCap_le _
        · cases h; exact absurd rfl hout
  unfold Collector7.feed at h
  split at h
  · cases h; exact absurd rfl hout
  · cases hv : sysex7View p with
    | error _ => rw [hv] at h; cases h
    | ok m =>
      rw [hv] at h
      dsimp only [ok_bind] at h
      split at h
      · split at h <;> exact pay _ _ h
      · split at h
        · cases h; exact absurd rfl hout
        · exact pay _ _ h

example : ∃ c' out, ({ capacity := 40000, maxSize := 40000, state := 0x20, idRead := 3 } : Collector7).feed ⟨0x30320102, 0, 0, 0⟩ = .ok (c', out) ∧
    out ≠ [] ∧ c'.capacity ≤ 16384 := by
  refine ⟨_, _, rfl, ?_, ?_⟩ <;> decide

/-- C96: likewise for a sysex8 collector. -/
theorem C96_released8 (c : Collector8) :
    (∀ p c' out, c.feed p = .ok (c', out) → out ≠ [] → c'.capacity ≤ 16384) ∧ c.reset.capacity ≤ 16384 := by
  refine ⟨fun p c' out h hout => ?_, vecClearCap_le _⟩
  have pay : ∀ (c : Collector8) (m : Packet), c.feedPayload m = .ok (c', out) → c'.capacity ≤ 16384 := by
    intro c m h
    unfold Collector8.feedPayload at h
    dsimp only at h
    split at h
    · cases h; exact absurd rfl hout
    · cases hl : Collector8.collectLoop { c with capacity := (ensureCapacity c.capacity c.maxSize c.sysex.data.length (sysex8PayloadSize m)).1 }
        m 0 (sysex8PayloadSize m) with
      | error _ => rw [hl] at h; cases h
      | ok d =>
        rw [hl] at h
        dsimp only [ok_bind] at h
        split at h
        · cases h; exact vecClearCap_le _
        · cases h; exact absurd rfl hout
  unfold Collector8.feed at h
  split at h
  · cases h; exact absurd rfl hout
  · cases hv : sysex8View p with
    | error _ => rw [hv] at h; cases h
    | ok m =>
      rw [hv] at h
      dsimp only [ok_bind] at h
      cases hs : sysex8StreamId m with
      | error _ => rw [hs] at h; cases h
      | ok st =>
        rw [hs] at h
        dsimp only [ok_bind] at h
        split at h
        · exact pay _ _ h
        · split at h
          · cases h; exact absurd rfl hout
          · split at h
            · cases h; exact absurd rfl hout
            · exact pay _ _ h

example : ∃ c' out, ({ capacity := 40000, maxSize := 40000, state := .cont, idState := .done } : Collector8).feed ⟨0x50330001, 0x02000000, 0, 0⟩ =
    .ok (c', out) ∧ out ≠ [] ∧ c'.capacity ≤ 16384 := by
  refine ⟨_, _, rfl, ?_, ?_⟩ <;> decide

/-! ## Parser -/

/-- What is known about a parser and its storage after `n` data bytes since the last F0. -/
def SmallP (cb : Bool) (s : Parser) (cap n : Nat) : Prop :=
  s.hasSysexCallback = cb ∧ (cb = false → s.sysex.data = [] ∧ cap = 0) ∧ s.sysex.data.length ≤ n ∧ cap ≤ max 16384 (2 * n)

theorem feedStatus_keeps {s t : Parser} {b : Byte} {es : List Event} (e : s.feedStatus b = .ok (t, es)) :
    t.hasSysexCallback = s.hasSysexCallback ∧
      t.sysex = if b = 0xF0 ∧ s.hasSysexCallback = true then s.sysex.clear else s.sysex := by
  unfold Parser.feedStatus at e
  by_cases h0 : b = 0xF0
  · rw [if_pos h0] at e
    unfold Parser.sysexStart at e
    cases hm : makeSysex7 .start s.group with
    | error _ => rw [hm] at e; cases e
    | ok q =>
      rw [hm] at e
      dsimp only [ok_bind] at e
      split at e <;> rename_i hcb
      · rw [if_pos (And.intro h0 hcb)]; cases e; exact ⟨rfl, rfl⟩
      · rw [if_neg (fun h => hcb h.2)]; cases e; exact ⟨rfl, rfl⟩
  · rw [if_neg h0] at e
    rw [if_neg (fun h => h0 h.1)]
    split at e
    · injection e with e
      unfold Parser.systemCommon at e
      dsimp only at e
      split at e
      · cases e; exact ⟨rfl, rfl⟩
      · split at e
        · cases e; exact ⟨rfl, rfl⟩
        · split at e <;> cases e <;> exact ⟨rfl, rfl⟩
    · split at e
      · injection e with e
        unfold Parser.channelVoice at e
        dsimp only at e
        split at e
        · cases e; exact ⟨rfl, rfl⟩
        · split at e <;> cases e <;> exact ⟨rfl, rfl⟩
      · unfold Parser.dataByte at e
        split at e
        · cases hm : s.packet.setByte s.packetByte.toNat b with
          | error _ => rw [hm] at e; cases e
          | ok q =>
            rw [hm] at e
            dsimp only [ok_bind] at e
            split at e
            · injection e with e
              injection e with e _
              subst e
              repeat' split
              all_goals exact ⟨rfl, rfl⟩
            · cases e; exact ⟨rfl, rfl⟩
        · cases e; exact ⟨rfl, rfl⟩

theorem smallP_feed {cb : Bool} {s t : Parser} {cap n : Nat} {b : Byte} {es : List Event} (h : SmallP cb s cap n)
    (e : s.feed b = .ok (t, es)) :
    SmallP cb t (s.storageFeed cap b) (if b = 0xF0 then 0 else if b < 0x80 then n + 1 else n) := by
  obtain ⟨h0, h1, h2, h3⟩ := h
  have status : ∀ u : Parser, u.hasSysexCallback = cb → u.sysex = s.sysex → u.feedStatus b = .ok (t, es) →
      SmallP cb t (if b = 0xF0 then s.storageStart cap else cap) (if b = 0xF0 then 0 else if b < 0x80 then n + 1 else n) := by
    intro u hu hsx e
    obtain ⟨k1, k2⟩ := feedStatus_keeps e
    rw [hu] at k1 k2
    rw [hsx] at k2
    by_cases hb : b = 0xF0
    · rw [if_pos hb, if_pos hb]
      unfold Parser.storageStart
      rw [h0]
      cases cb with
      | false =>
        rw [if_neg (by simp)]
        rw [if_neg (by simp)] at k2
        exact ⟨k1, fun _ => ⟨by rw [k2]; exact (h1 rfl).1, (h1 rfl).2⟩, by rw [k2, (h1 rfl).1]; simp, by rw [(h1 rfl).2]; simp⟩
      | true =>
        rw [if_pos ⟨hb, rfl⟩] at k2
        have := vecClearCap_le cap
        refine ⟨k1, fun hc => (by cases hc), by rw [k2]; exact Nat.zero_le _, ?_⟩
        simp only [if_true]
        unfold vecReserve
        split <;> omega
    · rw [if_neg (fun h => hb h.1)] at k2
      rw [if_neg hb, if_neg hb]
      refine ⟨k1, fun hc => ⟨by rw [k2]; exact (h1 hc).1, (h1 hc).2⟩, ?_, ?_⟩
      · rw [k2]; split <;> omega
      · split <;> omega
  unfold Parser.feed at e
  unfold Parser.storageFeed
  by_cases hrt : b ≥ SystemStatus.clock
  · rw [if_pos hrt] at e ⊢
    have hb0 : b ≠ 0xF0 := by rintro rfl; exact absurd hrt (by decide)
    rw [if_neg hb0]
    injection e with e
    unfold Parser.systemRealtime at e
    have ht : t = s := by
      split at e <;> cases e <;> rfl
    subst ht
    refine ⟨h0, h1, ?_, ?_⟩ <;> split <;> omega
  · rw [if_neg hrt] at e ⊢
    by_cases hty : s.packet.type = PacketType.data
    · rw [if_pos hty] at e
      by_cases hlt : b < 0x80
      · rw [if_pos hlt] at e
        have hb0 : b ≠ 0xF0 := by rintro rfl; exact absurd hlt (by decide)
        rw [if_pos ⟨hty, hlt⟩, if_neg hb0, if_pos hlt]
        by_cases hc : s.hasSysexCallback = true
        · rw [if_pos hc] at e ⊢
          injection e with e
          injection e with e _
          have hcb : cb = true := h0.symm.trans hc
          unfold Parser.sysexContinueCallback at e
          unfold Parser.storageContinue
          by_cases p01 : s.packetByte = 0 ∨ s.packetByte = 1
          · rw [if_pos p01] at e
            rw [if_pos (by tauto)]
            subst e
            exact ⟨h0, h1, by omega, by omega⟩
          · rw [if_neg p01] at e
            by_cases p2 : s.packetByte = 2
            · rw [if_pos p2] at e
              rw [if_pos (by tauto)]
              subst e
              exact ⟨h0, h1, Nat.le_succ_of_le h2, by omega⟩
            · rw [if_neg p2] at e
              rw [if_neg (by tauto)]
              by_cases p3 : (s.packetByte = 3 ∨ s.packetByte = 4) ∧ s.sysex.manufacturerID &&& 0xFF0000 = 0
              · rw [if_pos p3] at e ⊢
                subst e
                exact ⟨h0, h1, Nat.le_succ_of_le h2, by omega⟩
              · rw [if_neg p3] at e ⊢
                subst e
                refine ⟨h0, fun hf => (by rw [hcb] at hf; cases hf), by simpa using h2, ?_⟩
                dsimp only
                unfold vecPushCap vecReserve
                split <;> split <;> omega
        · rw [if_neg hc] at e ⊢
          have hcb : cb = false := by rw [← h0]; simpa using hc
          have ht : t.hasSysexCallback = s.hasSysexCallback ∧ t.sysex = s.sysex := by
            unfold Parser.sysexContinuePacket at e
            cases hm : s.packet.setByte s.packetByte.toNat b with
            | error _ => rw [hm] at e; cases e
            | ok q =>
              rw [hm] at e
              dsimp only [ok_bind] at e
              split at e
              · split at e
                · cases hq : q.setByte 1 ((q.status &&& 0xF0) + 6) with
                  | error _ => rw [hq] at e; cases e
                  | ok r =>
                    rw [hq] at e
                    cases hk : makeSysex7 .cont s.group with
                    | error _ => simp only [hk, ok_bind, pure_eq_ok] at e; cases e
                    | ok v => simp only [hk, ok_bind, pure_eq_ok] at e; cases e; exact ⟨rfl, rfl⟩
                · cases hk : makeSysex7 .cont s.group with
                  | error _ => simp only [hk, ok_bind, pure_eq_ok] at e; cases e
                  | ok v => simp only [hk, ok_bind, pure_eq_ok] at e; cases e; exact ⟨rfl, rfl⟩
              · cases e; exact ⟨rfl, rfl⟩
          refine ⟨ht.1.trans h0, fun hf => by rw [ht.2]; exact h1 hf, by rw [ht.2]; omega, by omega⟩
      · rw [if_neg hlt] at e
        rw [if_neg (fun h => hlt h.2)]
        by_cases h7 : b = 0xF7
        · rw [if_neg (by simpa using h7)] at e
          rw [if_pos ⟨hty, h7⟩, if_neg (show b ≠ 0xF0 by rw [h7]; decide), if_neg hlt]
          by_cases hc : s.hasSysexCallback = true
          · rw [if_pos hc] at e ⊢
            injection e with e
            have hcb : cb = true := h0.symm.trans hc
            unfold Parser.sysexEndCallback at e
            dsimp only at e
            unfold Parser.storageEnd
            split at e <;> rename_i hz
            · rw [if_pos hz]; cases e; exact ⟨h0, h1, h2, h3⟩
            · rw [if_neg hz]; cases e
              exact ⟨h0, fun hf => (by rw [hcb] at hf; cases hf), Nat.zero_le _, le_trans (vecClearCap_le _) (le_max_left _ _)⟩
          · rw [if_neg hc] at e ⊢
            unfold Parser.sysexEndPacket at e
            dsimp only at e
            split at e
            · cases e; exact ⟨h0, h1, h2, h3⟩
            · revert e
              generalize (s.packet.setByte 1 _) = x
              intro e
              cases x with
              | error _ => cases e
              | ok q => cases e; exact ⟨h0, h1, h2, h3⟩
        · rw [if_pos h7] at e
          rw [if_neg (fun h => h7 h.2)]
          exact status { s with packet := {} } h0 rfl e
    · rw [if_neg hty] at e
      rw [if_neg (fun h => hty h.1), if_neg (fun h => hty h.1)]
      exact status _ h0 rfl e

theorem smallP_feedAll (bs : List Byte) : ∀ {cb : Bool} {s t : Parser} {cap n : Nat} {es : List Event}, SmallP cb s cap n →
    s.feedAll bs = .ok (t, es) → ∃ cap', s.storageFeedAll cap bs = .ok (t, cap') ∧
      SmallP cb t cap' (bs.foldl (fun n b => if b = 0xF0 then 0 else if b < 0x80 then n + 1 else n) n) := by
  induction bs with
  | nil => intro cb s t cap n es h e; cases e; exact ⟨cap, rfl, h⟩
  | cons b bs ih =>
    intro cb s t cap n es h e
    rw [Parser.feedAll] at e
    cases hb : s.feed b with
    | error _ => rw [hb] at e; cases e
    | ok x =>
      obtain ⟨u, o⟩ := x
      rw [hb] at e
      cases hr : u.feedAll bs with
      | error _ => simp only [ok_bind, hr] at e; cases e
      | ok y =>
        obtain ⟨v, o'⟩ := y
        simp only [ok_bind, hr] at e
        cases e
        obtain ⟨cap', e1, e2⟩ := ih (smallP_feed h hb) hr
        refine ⟨cap', ?_, e2⟩
        rw [Parser.storageFeedAll, hb]
        exact e1

theorem smallP_run (ops : List Parser.Op) : ∀ {cb : Bool} {s t : Parser} {cap n : Nat} {es : List Event}, SmallP cb s cap n →
    s.run ops = .ok (t, es) → ∃ cap', s.storageRun cap ops = .ok (t, cap') ∧
      SmallP cb t cap' ((bytesFed ops).foldl (fun n b => if b = 0xF0 then 0 else if b < 0x80 then n + 1 else n) n) := by
  induction ops with
  | nil => intro cb s t cap n es h e; cases e; exact ⟨cap, rfl, h⟩
  | cons o ops ih =>
    intro cb s t cap n es h e
    rw [Parser.run] at e
    cases hb : s.op o with
    | error _ => rw [hb] at e; cases e
    | ok x =>
      obtain ⟨u, o1⟩ := x
      rw [hb] at e
      cases hr : u.run ops with
      | error _ => simp only [ok_bind, hr] at e; cases e
      | ok y =>
        obtain ⟨v, o'⟩ := y
        simp only [ok_bind, hr] at e
        cases e
        cases o with
        | feed bs =>
          obtain ⟨c1, e1, k1⟩ := smallP_feedAll bs h hb
          obtain ⟨c2, e2, k2⟩ := ih k1 hr
          refine ⟨c2, ?_, ?_⟩
          · rw [Parser.storageRun, e1]; exact e2
          · show SmallP cb _ _ ((bs ++ bytesFed ops).foldl _ n)
            rw [List.foldl_append]; exact k2
        | setGroup g => cases hb; exact ih (n := n) h hr
        | enable on => cases hb; exact ih (n := n) h hr
        | reset =>
          cases hb
          refine ih (n := n) ⟨h.1, fun hc => ⟨rfl, ?_⟩, Nat.zero_le _, ?_⟩ hr
          · rw [(h.2.1 hc).2]; rfl
          · exact le_trans (vecClearCap_le _) (le_max_left _ _)

/-- C96: the storage a byte stream parser keeps for sysex messages is never larger than 16384 bytes or twice the number of data bytes since
the last F0, whichever is more; without sysex callback it needs none. -/
theorem C96_parser (g : Byte) (cb on : Bool) (ops : List Parser.Op) (p : Parser) (es : List Event)
    (h : (Parser.new g cb on).run ops = .ok (p, es)) :
    ∃ cap, (Parser.new g cb on).storageRun 0 ops = .ok (p, cap) ∧ cap ≤ max 16384 (2 * dataSinceF0 (bytesFed ops)) ∧
      (cb = false → cap = 0) := by
  obtain ⟨cap, e, k⟩ := smallP_run ops (cb := cb) (s := Parser.new g cb on) (cap := 0) (n := 0) ⟨rfl, fun _ => ⟨rfl, rfl⟩, Nat.le_refl _, Nat.zero_le _⟩ h
  refine ⟨cap, e, k.2.2.2, fun hc => (k.2.1 hc).2⟩

example := C96_parser 3 true true [.feed [0xF0, 0x7E, 1, 2], .setGroup 4, .feed [3, 0xF8, 4, 0xF7], .reset] _ _ rfl
example : dataSinceF0 (bytesFed [.feed [0xF0, 0x7E, 1, 2], .setGroup 4, .feed [3, 0xF8, 4, 0xF7], .reset]) = 5 := by decide

/-- C96: in whatever state, a parser that has called back with a sysex message keeps at most 16384 bytes of storage. -/
theorem C96_parser_released (s t : Parser) (cap : Nat) (b : Byte) (es : List Event) (m : Sysex) (h : s.feed b = .ok (t, es))
    (hm : .sysex m ∈ es) : s.storageFeed cap b ≤ 16384 := by
  have post : ∀ (u : Parser) (q : Packet), Event.sysex m ∉ u.post q := by
    intro u q
    unfold Parser.post
    split <;> simp
  have status : ∀ u : Parser, u.feedStatus b = .ok (t, es) → False := by
    intro u e
    unfold Parser.feedStatus at e
    split at e
    · unfold Parser.sysexStart at e
      cases hk : makeSysex7 .start u.group with
      | error _ => rw [hk] at e; cases e
      | ok q =>
        rw [hk] at e
        dsimp only [ok_bind] at e
        split at e <;> cases e <;> cases hm
    · split at e
      · injection e with e
        unfold Parser.systemCommon at e
        dsimp only at e
        split at e
        · cases e; cases hm
        · split at e
          · cases e; cases hm
          · split at e
            · cases e; exact post _ _ hm
            · cases e; cases hm
      · split at e
        · injection e with e
          unfold Parser.channelVoice at e
          dsimp only at e
          split at e
          · cases e; cases hm
          · split at e
            · cases e; cases hm
            · cases e; exact post _ _ hm
        · unfold Parser.dataByte at e
          split at e
          · cases hk : u.packet.setByte u.packetByte.toNat b with
            | error _ => rw [hk] at e; cases e
            | ok q =>
              rw [hk] at e
              dsimp only [ok_bind] at e
              split at e
              · injection e with e
                injection e with _ e
                subst e
                exact post _ _ hm
              · cases e; cases hm
          · cases e; cases hm
  unfold Parser.feed at h
  unfold Parser.storageFeed
  split at h <;> rename_i hrt
  · injection h with h
    unfold Parser.systemRealtime at h
    split at h
    · cases h; cases hm
    · cases h; exact absurd hm (post _ _)
  · rw [if_neg hrt]
    split at h <;> rename_i hty
    · split at h <;> rename_i hlt
      · split at h
        · cases h; cases hm
        · unfold Parser.sysexContinuePacket at h
          exfalso
          cases hk : s.packet.setByte s.packetByte.toNat b with
          | error _ => rw [hk] at h; cases h
          | ok q =>
            rw [hk] at h
            dsimp only [ok_bind] at h
            split at h
            · split at h
              · cases hq : q.setByte 1 ((q.status &&& 0xF0) + 6) with
                | error _ => rw [hq] at h; cases h
                | ok r =>
                  rw [hq] at h
                  cases hk : makeSysex7 .cont s.group with
                  | error _ => simp only [hk, ok_bind, pure_eq_ok] at h; cases h
                  | ok v => simp only [hk, ok_bind, pure_eq_ok] at h; cases h; simp at hm
              · cases hk : makeSysex7 .cont s.group with
                | error _ => simp only [hk, ok_bind, pure_eq_ok] at h; cases h
                | ok v => simp only [hk, ok_bind, pure_eq_ok] at h; cases h; cases hm
            · cases h; cases hm
      · rw [if_neg (fun h => hlt h.2)]
        split at h <;> rename_i h7
        · exact (status _ h).elim
        · rw [if_pos ⟨hty, by simpa using h7⟩]
          split at h <;> rename_i hc
          · rw [if_pos hc]
            injection h with h
            unfold Parser.sysexEndCallback at h
            dsimp only at h
            unfold Parser.storageEnd
            split at h <;> rename_i hz
            · cases h; cases hm
            · rw [if_neg hz]; exact vecClearCap_le _
          · exfalso
            unfold Parser.sysexEndPacket at h
            dsimp only at h
            split at h
            · cases h; cases hm
            · revert h
              generalize (s.packet.setByte 1 _) = x
              intro h
              cases x with
              | error _ => cases h
              | ok q => cases h; exact post _ _ hm
    · exact (status _ h).elim

example := C96_parser_released
  { group := 3, hasSysexCallback := true, packet := ⟨0x33100000, 0, 0, 0⟩, sysex := ⟨0x7E0000, [1, 2]⟩, packetByte := 3 } _ 40000 0xF7 _
  ⟨0x7E0000, [1, 2]⟩ rfl (by simp)

/-- C96: the storage for a message that is interrupted, by any status byte other than F0 and F7, is kept until the next F0, or a reset. -/
theorem C96_interrupted_kept (s : Parser) (cap : Nat) (b : Byte) (hb : 0x80 ≤ b) (h0 : b ≠ 0xF0) (h7 : b ≠ 0xF7) :
    s.storageFeed cap b = cap ∧ (s.hasSysexCallback = true → s.storageFeed cap 0xF0 ≤ 16384) := by
  constructor
  · unfold Parser.storageFeed
    have hlt : ¬ b < 0x80 := by rw [BitVec.not_lt]; exact hb
    split
    · rfl
    · rw [if_neg (fun h => hlt h.2), if_neg (fun h => h7 h.2)]
  · intro hc
    unfold Parser.storageFeed
    rw [if_neg (by decide), if_neg (fun h => absurd h.2 (by decide)), if_neg (fun h => absurd h.2 (by decide)), if_pos rfl]
    unfold Parser.storageStart vecReserve
    rw [if_pos hc]
    have := vecClearCap_le cap
    dsimp only
    split <;> omega

example := C96_interrupted_kept { group := 3, hasSysexCallback := true } 40000 0x90 (by decide) (by decide) (by decide)

/-- C96: so the storage of a parser that has no message in progress can be of any size. -/
theorem C96_interrupted_any_size (n : Nat) : ∃ p cap, (Parser.new 0 true true).storageRun 0
    [.feed (0xF0 :: 0x7E :: List.replicate n 1 ++ [0x90])] = .ok (p, cap) ∧ p.packet.type ≠ PacketType.data ∧ n ≤ cap := by
  have grow : ∀ (n : Nat) (s : Parser) (cap : Nat), s.packet.type = PacketType.data → s.hasSysexCallback = true → s.packetByte = 3 →
      s.sysex.manufacturerID = 0x7E0000 → s.sysex.data.length ≤ cap →
      ∃ p cap', s.storageFeedAll cap (List.replicate n 1 ++ [0x90]) = .ok (p, cap') ∧ p.packet.type ≠ PacketType.data ∧
        s.sysex.data.length + n ≤ cap' := by
    intro n
    induction n with
    | zero =>
      intro s cap h1 h2 h3 h4 h5
      refine ⟨(Parser.channelVoice { s with packet := {} } 0x90).1, cap, ?_, ?_, h5⟩
      · simp only [List.replicate_zero, List.nil_append, Parser.storageFeedAll, Parser.feed, Parser.storageFeed, h1]
        rfl
      · unfold Parser.channelVoice
        have key : (midi1Message s.group 0x90 0 0).type ≠ PacketType.data := by rw [type_midi1Message]; decide
        dsimp only
        split
        · exact key
        · split <;> exact key
    | succ n ih =>
      intro s cap h1 h2 h3 h4 h5
      have hf : s.feed 1 = .ok ({ s with sysex := { s.sysex with data := s.sysex.data ++ [1] } }, []) := by
        unfold Parser.feed
        rw [if_neg (by decide), if_pos h1, if_pos (by decide), if_pos h2]
        unfold Parser.sysexContinueCallback
        rw [h3, h4]
        rfl
      have hs : s.storageFeed cap 1 = vecPushCap (if s.sysex.data.length = cap then vecReserve cap (cap * 2) else cap) s.sysex.data.length := by
        unfold Parser.storageFeed
        rw [if_neg (by decide), if_pos ⟨h1, by decide⟩, if_pos h2]
        unfold Parser.storageContinue
        rw [h3, h4]
        rfl
      rw [List.replicate_succ, List.cons_append, Parser.storageFeedAll, hf]
      obtain ⟨p, cap', e1, e2, e3⟩ := ih { s with sysex := { s.sysex with data := s.sysex.data ++ [1] } } (s.storageFeed cap 1) h1 h2 h3 h4 (by
        rw [hs]
        unfold vecPushCap vecReserve
        simp only [List.length_append, List.length_singleton]
        split <;> split <;> omega)
      refine ⟨p, cap', e1, e2, ?_⟩
      simp only [List.length_append, List.length_singleton] at e3
      omega
  obtain ⟨p, cap, e1, e2, e3⟩ := grow n { group := 0, hasSysexCallback := true, packet := ⟨0x30100000, 0, 0, 0⟩, sysex := ⟨0x7E0000, []⟩, packetByte := 3 }
    1024 rfl rfl rfl rfl (by simp)
  refine ⟨p, cap, ?_, e2, by simpa using e3⟩
  have e0 : (Parser.new 0 true true).storageFeedAll 0 (0xF0 :: 0x7E :: List.replicate n 1 ++ [0x90]) = .ok (p, cap) := e1
  rw [Parser.storageRun, e0]; rfl

end Midi

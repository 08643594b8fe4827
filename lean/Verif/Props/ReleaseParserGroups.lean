import Verif.Props.ReleaseParser

/-!
# C88: groups from 40h on, with any calls
-/

namespace Midi
open Spec

/-- A block of bytes for a parser with a group from 40h on. -/
theorem wrong_block : ∀ (bs : List (Byte × Trouble)) {c : Settings} {st : StreamState} {p : Parser}, (∀ x ∈ bs, x.2 = {}) →
    Wrong c st p → (∀ g w d, st = .sysex g w d → g < 16) →
    Wrong c (stepBytes c st (bs.map Prod.fst)).1 (Release.tryBlock p bs).1 ∧
      (Release.tryBlock p bs).2.1 = (stepBytes c st (bs.map Prod.fst)).2.filter (fun e => !sysexEvent e) ∧
      ∀ g w d, (stepBytes c st (bs.map Prod.fst)).1 = .sysex g w d → g < 16 := by
  intro bs
  induction bs with
  | nil => intro c st p _ h hg; exact ⟨h, rfl, hg⟩
  | cons x bs ih =>
    obtain ⟨b, t⟩ := x
    intro c st p hx h hg
    obtain rfl : t = {} := hx (b, t) (by simp)
    obtain ⟨a1, a2, a3⟩ := wrong_step h hg b
    obtain ⟨b1, b2, b3⟩ := ih (fun x h => hx x (by simp [h])) a1 a3
    have e : Release.tryBlock p ((b, {}) :: bs) = ((Release.tryBlock (Release.tryFeed p b {}).1 bs).1,
        (stepByte c st b).2.filter (fun e => !sysexEvent e) ++ (Release.tryBlock (Release.tryFeed p b {}).1 bs).2.1,
        (Release.tryBlock (Release.tryFeed p b {}).1 bs).2.2) := by
      simp only [Release.tryBlock]
      rw [congrArg Prod.snd a2, congrArg Prod.fst a2]
      rfl
    rw [e, List.map_cons, stepBytes]
    refine ⟨b1, ?_, b3⟩
    dsimp only
    rw [b2, List.filter_append]

/-- C88: with groups from 40h on, whatever is called, as long as callbacks do not throw and allocations do not fail, the parser of
a build without assertions delivers what it delivers with all groups reduced to four bits, except for sysex: neither packets of
type 3 nor sysex messages are delivered. In a build with assertions the first F0 ends the program. -/
theorem C88_sysex_lost (g : Byte) (cb on : Bool) (os : List Parser.Try) (hg : 0x40 ≤ g)
    (hv : ∀ k, Parser.Try.setGroup k ∈ os → 0x40 ≤ k) (hc : ∀ o ∈ os, CalmCall o) :
    (Release.tryAll (Parser.new g cb on) os).2 =
      (Release.tryAll (Parser.new (g &&& 0x0F) cb on) (os.map fourBits)).2.filter fun e => !decide (IsSysexEvent e) := by
  have hlt : g &&& 0x0F < 16 := Release.and15_lt g
  have hf : (fun e => !decide (IsSysexEvent e)) = fun e => !sysexEvent e := by
    funext e
    cases e with
    | packet q => rfl
    | sysex s => exact congrArg (!·) (decide_eq_true (show IsSysexEvent (.sysex s) from trivial))
  have hcalm : ∀ o ∈ os.map fourBits, CalmCall o := by
    intro o ho
    obtain ⟨o', h, rfl⟩ := List.mem_map.1 ho
    have := hc o' h
    cases o' <;> exact this
  have hgr : TryGroups (os.map fourBits) := by
    intro k hk
    obtain ⟨o', h, e⟩ := List.mem_map.1 hk
    cases o' with
    | setGroup j =>
      cases e
      exact Release.and15_lt j
    | feed _ => cases e
    | enable _ => cases e
    | reset => cases e
  rw [(C88_normal_use (g &&& 0x0F) cb on (os.map fourBits) hlt hgr hcalm).1, hf]
  have key : ∀ (os : List Parser.Try) {c : Settings} {st : StreamState} {p : Parser},
      (∀ k, Parser.Try.setGroup k ∈ os → 0x40 ≤ k) → (∀ o ∈ os, CalmCall o) → Wrong c st p →
      (∀ g w d, st = .sysex g w d → g < 16) →
      (Release.tryAll p os).2 = (opEvents c st (untroubledCalls (os.map fourBits))).filter (fun e => !sysexEvent e) := by
    intro os
    induction os with
    | nil => intro c st p _ _ _ _; rfl
    | cons o os ih =>
      intro c st p hv hc h hgr
      have hv' : ∀ k, Parser.Try.setGroup k ∈ os → 0x40 ≤ k := fun k hk => hv k (by simp [hk])
      have hc' : ∀ o ∈ os, CalmCall o := fun o ho => hc o (by simp [ho])
      cases o with
      | feed bs =>
        obtain ⟨a1, a2, a3⟩ := wrong_block bs (hc (.feed bs) (by simp)) h hgr
        have := ih hv' hc' a1 a3
        show (Release.tryBlock p bs).2.1 ++ (Release.tryAll (Release.tryBlock p bs).1 os).2 =
          ((stepBytes c st (bs.map Prod.fst)).2 ++ opEvents c (stepBytes c st (bs.map Prod.fst)).1 _).filter _
        rw [this, a2, List.filter_append]
      | setGroup k =>
        have hk := hv k (by simp)
        have hw : Wrong { c with group := k &&& 0x0F } st (p.setGroup k) := by
          refine ⟨hk, rfl, h.cb, h.on, ?_⟩
          have hs := h.state
          match st with
          | .sysex _ _ _ => exact hs
          | .idle => exact ⟨rfl, hs.cb, hs.on, Release.and15_lt k, hs.state⟩
          | .message _ _ _ => exact ⟨rfl, hs.cb, hs.on, Release.and15_lt k, hs.state⟩
        exact ih hv' hc' hw hgr
      | enable on' =>
        have hw : Wrong { c with enabled := on' } st (p.enableCallbacks on') := by
          refine ⟨h.big, h.group, h.cb, rfl, ?_⟩
          have hs := h.state
          match st with
          | .sysex _ _ _ => exact hs
          | .idle => exact ⟨hs.group, hs.cb, rfl, hs.lt, hs.state⟩
          | .message _ _ _ => exact ⟨hs.group, hs.cb, rfl, hs.lt, hs.state⟩
        exact ih hv' hc' hw hgr
      | reset =>
        have hw : Wrong c .idle p.reset := ⟨h.big, h.group, h.cb, h.on, ⟨h.group, h.cb, h.on, h.lt, rfl⟩⟩
        exact ih hv' hc' hw (by intro _ _ _ h; cases h)
  exact key os (c := ⟨g &&& 0x0F, cb, on⟩) (st := .idle) (p := Parser.new g cb on) hv hc
    ⟨hg, rfl, rfl, rfl, ⟨rfl, rfl, rfl, hlt, rfl⟩⟩ (by intro _ _ _ h; cases h)

/-- C88: a note on is delivered, the sysex message in front of it is not; with assertions F0 ends the program. -/
example : (0x40 : Byte) ≤ 0x42 ∧ (Release.feedAll (Parser.new 0x42 false true) [0xF0, 1, 2, 0xF7, 0x90, 1, 2]).2 =
      [.packet ⟨0x22900102, 0, 0, 0⟩] ∧
    (Release.feedAll (Parser.new 2 false true) [0xF0, 1, 2, 0xF7, 0x90, 1, 2]).2 =
      [.packet ⟨0x32020102, 0, 0, 0⟩, .packet ⟨0x22900102, 0, 0, 0⟩] ∧
    (Parser.new 0x42 false true).feedAll [0xF0] = .error .assertFailed := ⟨by decide, by decide +kernel, by decide +kernel, rfl⟩

/-- C88: two messages in running status; sysex is lost with both groups. -/
example : (Release.tryAll (Parser.new 0x42 false true) [.feed [(0xF0, {}), (1, {}), (0x90, {}), (60, {}), (100, {})], .setGroup 0x75,
      .feed [(62, {}), (100, {}), (0xF0, {}), (1, {}), (0xF7, {})]]).2 =
    [.packet ⟨0x22903C64, 0, 0, 0⟩, .packet ⟨0x22903E64, 0, 0, 0⟩] := by decide +kernel

/-! ## Exceptions -/

/-- A parser with a group from 40h on, whatever went wrong: there is no sysex packet in the making. -/
structure NoSysex (p : Parser) : Prop where
  big : 0x40 ≤ p.group
  type : p.packet.type ≠ PacketType.data
  tidy : p.missing ≠ 0 → 2 ≤ p.packetByte.toNat

theorem not_sysex_packet {q : Packet} (h : q.type ≠ PacketType.data) : ¬ IsSysexEvent (.packet q) := by
  intro x
  apply h
  rw [Packet.type_eq]
  apply BitVec.eq_of_toNat_eq
  rw [BitVec.toNat_ushiftRight, Nat.shiftRight_eq_div_pow]
  exact x

theorem call_not_sysex {p : Parser} {q : Packet} (h : q.type ≠ PacketType.data) (t : Trouble) :
    ∀ e ∈ (p.tryCall (.packet q) t).1, ¬ IsSysexEvent e := by
  unfold Parser.tryCall
  split
  · intro e he; simp at he; subst he; exact not_sysex_packet h
  · simp

theorem noSysex_feed {p : Parser} (h : NoSysex p) (b : Byte) (t : Trouble) :
    NoSysex (Release.tryFeed p b t).1 ∧ ∀ e ∈ (Release.tryFeed p b t).2.1, ¬ IsSysexEvent e := by
  have hset := (release_settings p b t).1
  have big : 0x40 ≤ (Release.tryFeed p b t).1.group := by rw [hset]; exact h.big
  have tidy := tidy_feed (tidy_of_type h.type h.tidy) b t
  suffices hh : (Release.tryFeed p b t).1.packet.type ≠ PacketType.data ∧ ∀ e ∈ (Release.tryFeed p b t).2.1, ¬ IsSysexEvent e from
    ⟨⟨big, hh.1, tidy.2⟩, hh.2⟩
  unfold Release.tryFeed
  split
  · unfold Parser.trySystemRealtime
    split
    · exact ⟨h.type, fun _ h => absurd h List.not_mem_nil⟩
    · exact ⟨h.type, call_not_sysex (type_makeSystem p.group b 0 0) t⟩
  · rw [if_neg h.type]
    unfold Release.tryFeedStatus
    split_ifs
    · unfold Release.trySysexStart
      have : (Release.makeSysex7 .start p.group).type ≠ PacketType.data := makeSysex7_lost .start _ h.big
      dsimp only
      split_ifs <;> exact ⟨this, fun _ h => absurd h List.not_mem_nil⟩
    · have hm := type_makeSystem p.group b 0 0
      unfold Parser.trySystemCommon
      dsimp only
      split_ifs
      all_goals first
        | exact ⟨hm, fun _ h => absurd h List.not_mem_nil⟩
        | exact ⟨type_empty, fun _ h => absurd h List.not_mem_nil⟩
        | exact ⟨hm, call_not_sysex hm t⟩
        | exact ⟨type_empty, call_not_sysex hm t⟩
    · have hm := type_midi1 p.group b 0 0
      unfold Parser.tryChannelVoice
      dsimp only
      split_ifs
      all_goals first
        | exact ⟨hm, fun _ h => absurd h List.not_mem_nil⟩
        | exact ⟨hm, call_not_sysex hm t⟩
    · unfold Release.tryDataByte
      by_cases h1 : p.packet.status ≠ 0 ∧ p.missing ≠ 0 ∧ p.packetByte < 4
      · rw [if_pos h1]
        have hq : (Release.setByte p.packet p.packetByte.toNat b).type ≠ PacketType.data := by
          rw [type_putByte _ _ _ (by have := h.tidy h1.2.1; omega)]; exact h.type
        dsimp only
        generalize Release.setByte p.packet p.packetByte.toNat b = q at hq
        split_ifs
        all_goals first
          | exact ⟨hq, fun _ h => absurd h List.not_mem_nil⟩
          | exact ⟨hq, call_not_sysex hq t⟩
          | exact ⟨type_empty, call_not_sysex hq t⟩
      · rw [if_neg h1]; exact ⟨h.type, fun _ h => absurd h List.not_mem_nil⟩

/-- C88: with groups from 40h on, no sysex is delivered whatever is called, whichever callbacks throw and whichever allocations
fail. -/
theorem C88_no_sysex (g : Byte) (cb on : Bool) (os : List Parser.Try) (hg : 0x40 ≤ g)
    (hv : ∀ k, Parser.Try.setGroup k ∈ os → 0x40 ≤ k) :
    ∀ e ∈ (Release.tryAll (Parser.new g cb on) os).2, ¬ IsSysexEvent e := by
  have block : ∀ (bs : List (Byte × Trouble)) {p : Parser}, NoSysex p →
      NoSysex (Release.tryBlock p bs).1 ∧ ∀ e ∈ (Release.tryBlock p bs).2.1, ¬ IsSysexEvent e := by
    intro bs
    induction bs with
    | nil => intro p h; exact ⟨h, by simp [Release.tryBlock]⟩
    | cons x bs ih =>
      obtain ⟨b, t⟩ := x
      intro p h
      obtain ⟨k1, k2⟩ := noSysex_feed h b t
      simp only [Release.tryBlock]
      split_ifs
      · exact ⟨k1, k2⟩
      · obtain ⟨k3, k4⟩ := ih k1
        refine ⟨k3, fun e he => ?_⟩
        rcases List.mem_append.1 he with he | he
        · exact k2 e he
        · exact k4 e he
  have all : ∀ (os : List Parser.Try) {p : Parser}, (∀ k, Parser.Try.setGroup k ∈ os → 0x40 ≤ k) → NoSysex p →
      ∀ e ∈ (Release.tryAll p os).2, ¬ IsSysexEvent e := by
    intro os
    induction os with
    | nil => intro p _ _; simp [Release.tryAll]
    | cons o os ih =>
      intro p hv h e he
      have hv' : ∀ k, Parser.Try.setGroup k ∈ os → 0x40 ≤ k := fun k hk => hv k (by simp [hk])
      have fin : NoSysex (Release.tryOne p o).1 ∧ ∀ e ∈ (Release.tryOne p o).2.1, ¬ IsSysexEvent e := by
        cases o with
        | feed bs => exact block bs h
        | setGroup k => exact ⟨⟨hv k (by simp), h.type, h.tidy⟩, by simp [Release.tryOne]⟩
        | enable on => exact ⟨⟨h.big, h.type, h.tidy⟩, by simp [Release.tryOne]⟩
        | reset => exact ⟨⟨h.big, type_empty, fun h => absurd rfl h⟩, by simp [Release.tryOne]⟩
      simp only [Release.tryAll] at he
      rcases List.mem_append.1 he with he | he
      · exact fin.2 e he
      · exact ih hv' fin.1 e he
  exact all os hv ⟨hg, type_empty, fun h => absurd rfl h⟩

/-- C88: sysex, with a callback of a note that throws. -/
example : (Release.tryAll (Parser.new 0x42 false true) [.feed [(0xF0, {}), (1, {}), (0x90, {}), (60, {}), (100, { callback := true }),
      (0xF0, {}), (1, {}), (0xF7, {})], .feed [(0xF0, {}), (1, {}), (0xF7, {}), (0xF6, {})]]).2 =
    [.packet ⟨0x22903C64, 0, 0, 0⟩, .packet ⟨0x12F60000, 0, 0, 0⟩] := by decide +kernel

end Midi

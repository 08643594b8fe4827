import Verif.Lemmas.ReleaseParser

/-!
# Helper lemmas: what the byte stream parser delivers in a build without assertions
-/

namespace Midi
open Spec

/-- In sysex no data bytes of a short message are missing, and otherwise they are not put into the header of the packet. -/
def Tidy (p : Parser) : Prop := (p.packet.type = PacketType.data → p.missing = 0) ∧ (p.missing ≠ 0 → 2 ≤ p.packetByte.toNat)

theorem type_putByte (p : Packet) (b : Nat) (v : Byte) (h : 1 ≤ b) : (Release.setByte p b v).type = p.type := by
  unfold Release.setByte
  split
  · next hb => rw [Packet.type_eq, Packet.type_eq, Packet.byteAt_putByte _ hb (by omega), if_neg (by omega)]
  · rfl

theorem type_makeSystem (g a b c : Byte) : (makeSystem g a b c).type ≠ PacketType.data := by
  rw [← makeSystem_reduced]
  have : (makeSystem (g &&& 0x0F) a b c).type = 1 := by
    rw [Packet.type_eq]; unfold makeSystem Packet.byteAt Packet.word; bits
  rw [this]; decide

theorem type_midi1 (g a b c : Byte) : (midi1Message g a b c).type ≠ PacketType.data := by
  have : (midi1Message g a b c).type = 2 := by
    rw [Packet.type_eq]; unfold midi1Message Packet.byteAt Packet.word; bits
  rw [this]; decide

theorem tidy_of_type {p : Parser} (h : p.packet.type ≠ PacketType.data) (h' : p.missing ≠ 0 → 2 ≤ p.packetByte.toNat) : Tidy p :=
  ⟨fun x => absurd x h, h'⟩

theorem two_le : 2 ≤ (2 : Byte).toNat := by decide

theorem tidy_common (p : Parser) (b : Byte) (t : Trouble) : Tidy (p.trySystemCommon b t).1 := by
  have h := type_makeSystem p.group b 0 0
  unfold Parser.trySystemCommon
  dsimp only
  split_ifs
  all_goals first
    | exact tidy_of_type h (fun _ => two_le)
    | exact tidy_of_type type_empty (fun _ => two_le)

theorem tidy_voice (p : Parser) (b : Byte) (t : Trouble) : Tidy (p.tryChannelVoice b t).1 := by
  have h := type_midi1 p.group b 0 0
  unfold Parser.tryChannelVoice
  dsimp only
  split_ifs <;> exact tidy_of_type h (fun _ => two_le)

theorem tidy_data {p : Parser} (h : Tidy p) (hp : p.packet.type ≠ PacketType.data) (b : Byte) (t : Trouble) :
    Tidy (Release.tryDataByte p b t).1 := by
  unfold Release.tryDataByte
  by_cases h1 : p.packet.status ≠ 0 ∧ p.missing ≠ 0 ∧ p.packetByte < 4
  · rw [if_pos h1]
    have h2 := h.2 h1.2.1
    have hq : (Release.setByte p.packet p.packetByte.toNat b).type ≠ PacketType.data := by
      rw [type_putByte _ _ _ (by omega)]; exact hp
    dsimp only
    generalize Release.setByte p.packet p.packetByte.toNat b = q at hq
    have h4 : p.packetByte.toNat < 4 := by have := h1.2.2; rwa [BitVec.lt_def] at this
    have h3 : 2 ≤ (p.packetByte + 1).toNat := by rw [BitVec.toNat_add]; simp; omega
    split_ifs
    all_goals first
      | exact tidy_of_type hq (fun _ => two_le)
      | exact tidy_of_type hq (fun _ => h2)
      | exact tidy_of_type type_empty (fun _ => two_le)
      | exact tidy_of_type type_empty (fun _ => h2)
      | (refine tidy_of_type hq (fun _ => h3))
  · rw [if_neg h1]; exact h

theorem tidy_start (p : Parser) (t : Trouble) : Tidy (Release.trySysexStart p t).1 := by
  unfold Release.trySysexStart
  dsimp only
  split_ifs <;> exact ⟨fun _ => rfl, fun h => absurd rfl h⟩

theorem tidy_status {p : Parser} (h : Tidy p) (hp : p.packet.type ≠ PacketType.data) (b : Byte) (t : Trouble) :
    Tidy (Release.tryFeedStatus p b t).1 := by
  unfold Release.tryFeedStatus
  split_ifs
  · exact tidy_start p t
  · exact tidy_common p b t
  · exact tidy_voice p b t
  · exact tidy_data h hp b t

theorem tidy_zero {p : Parser} (h : p.missing = 0) : Tidy p := ⟨fun _ => h, fun h' => absurd h h'⟩

theorem tidy_feed {p : Parser} (h : Tidy p) (b : Byte) (t : Trouble) : Tidy (Release.tryFeed p b t).1 := by
  unfold Release.tryFeed
  split_ifs with h1 h2 h3 h4 h5 h6
  · unfold Parser.trySystemRealtime; split_ifs <;> exact h
  · unfold Parser.trySysexContinueCallback; split_ifs <;> exact tidy_zero (h.1 h2)
  · unfold Release.trySysexContinuePacket; dsimp only; split_ifs <;> exact tidy_zero (h.1 h2)
  · exact tidy_status (p := { p with packet := {} }) (tidy_zero (h.1 h2)) type_empty b t
  · unfold Parser.trySysexEndCallback; dsimp only; split_ifs <;> exact tidy_zero (h.1 h2)
  · unfold Release.trySysexEndPacket; dsimp only; split_ifs <;> exact tidy_zero (h.1 h2)
  · exact tidy_status h h2 b t

/-- The header bytes behind the first and the payload of a packet in the making are below 80h. -/
def Data7 (q : Packet) : Prop := ∀ i, 1 ≤ i → i < 8 → q.byteAt i < 0x80

/-- A parser that has got more data bytes for a packet than there is space, or has gone on behind that. -/
structure Lost (G : List Byte) (p : Parser) : Prop where
  group : p.group ∈ G
  cb : p.hasSysexCallback = false
  missing : p.missing = 0
  data : p.packet.type = PacketType.data → Data7 p.packet

/-- The events there can be: those of well formed streams, and data packets that may be anything but have 7 bit data. -/
def AnyEvent (G : List Byte) (cb : Bool) (e : Event) : Prop :=
  LooseEvent G cb e ∨ cb = false ∧ ∃ q, e = .packet q ∧ q.type = PacketType.data ∧ Data7 q

/-- The states of a parser there can be. -/
def Known (G : List Byte) (p : Parser) : Prop :=
  Tidy p ∧ ((∃ c st, c.group ∈ G ∧ InnerRel c st p ∧ GoodInner G st ∧ (IsPlain st ∨ c.sysexCallback = false)) ∨ Lost G p)

theorem data7_put {q : Packet} (h : Data7 q) {v : Byte} (hv : v < 0x80) (n : Nat) : Data7 (Release.setByte q n v) := by
  intro i h1 h8
  unfold Release.setByte
  split
  · next hn =>
    rw [Packet.byteAt_putByte _ hn (by omega)]
    split
    · exact hv
    · exact h i h1 h8
  · exact h i h1 h8

theorem data7_sent {g : Byte} {f n : Nat} {d : List Byte} (hf : f < 4) (hn : n < 16) (hd : ∀ b ∈ d, b < 0x80) : Data7 (sentPk g f n d) := by
  intro i h1 h8
  rw [byteAt_sentPk _ _ _ _ (by omega), if_neg (by omega)]
  split
  · interval_cases f <;> interval_cases n <;> decide
  · rw [List.getD_eq_getElem?_getD]
    cases h : d[i - 2]? with
    | none => decide
    | some x => exact hd x (List.mem_of_getElem? h)

theorem data7_make (f : Format) {g : Byte} (hg : g < 16) : Data7 (Release.makeSysex7 f g) := by
  intro i h1 h8
  revert hg
  cases f <;> interval_cases i <;> (revert g; decide +kernel)

/-- The parser without a packet in the making is that of the grammar. -/
theorem Lost.idle {G : List Byte} (hG : ∀ k ∈ G, k < 16) {p : Parser} (h : Lost G p) :
    InnerRel ⟨p.group, p.hasSysexCallback, p.invokeCallbacks⟩ (.plain .idle) { p with packet := {} } :=
  Or.inl ⟨rfl, rfl, rfl, hG _ h.group, rfl⟩

/-- A byte in a state of the grammar, if no assertion would fail. -/
theorem known_step {G : List Byte} {c : Settings} {st : InnerState} {p : Parser} (hc : c.group ∈ G) (h : InnerRel c st p)
    (hst : GoodInner G st) (hp : IsPlain st ∨ c.sysexCallback = false) {b : Byte} {t : Trouble} (hn : tryByte c st b t ≠ none) :
    (∃ c st, c.group ∈ G ∧ InnerRel c st (Release.tryFeed p b t).1 ∧ GoodInner G st ∧ (IsPlain st ∨ c.sysexCallback = false)) ∧
      ∀ e ∈ (Release.tryFeed p b t).2.1, AnyEvent G p.hasSysexCallback e := by
  cases e : tryByte c st b t with
  | none => exact absurd e hn
  | some x =>
    obtain ⟨st', es, th⟩ := x
    obtain ⟨p', f, r⟩ := (tryByte_rel hc (fun s hs => by subst hs; exact hst) h b t).1 _ _ _ e
    obtain ⟨o1, o2, o3⟩ := tryByte_outcome hc hst hp e
    rw [release_feed f]
    exact ⟨⟨c, st', hc, r, o1, o2⟩, fun e he => Or.inl (by rw [h.cb]; exact o3 e he)⟩

theorem plain_some (c : Settings) (st : StreamState) (b : Byte) (t : Trouble) : tryByte c (.plain st) b t ≠ none := by
  unfold tryByte
  split_ifs <;> simp

theorem lost_step {G : List Byte} (hG : ∀ k ∈ G, k < 16) {p : Parser} (ht : Tidy p) (h : Lost G p) (b : Byte) (t : Trouble) :
    Known G (Release.tryFeed p b t).1 ∧ ∀ e ∈ (Release.tryFeed p b t).2.1, AnyEvent G p.hasSysexCallback e := by
  have hidle := h.idle hG
  have ht' := tidy_feed ht b t
  have hst : ∀ (hb : ¬ b < 0x80), ¬ b ≥ 0xF8 → Release.tryFeed p b t = Release.tryFeedStatus p b t ∨
      Release.tryFeed p b t = Release.tryFeedStatus { p with packet := {} } b t →
      Known G (Release.tryFeed p b t).1 ∧ ∀ e ∈ (Release.tryFeed p b t).2.1, AnyEvent G p.hasSysexCallback e := by
    intro hb h8 he
    have he : Release.tryFeed p b t = Release.tryFeed { p with packet := {} } b t := by
      have e1 : Release.tryFeed ({ p with packet := {} } : Parser) b t = Release.tryFeedStatus { p with packet := {} } b t := by
        unfold Release.tryFeed
        rw [if_neg (show ¬ b ≥ SystemStatus.clock from h8), if_neg (show ¬ ({ p with packet := {} } : Parser).packet.type = PacketType.data from type_empty)]
      have e2 : Release.tryFeedStatus p b t = Release.tryFeedStatus { p with packet := {} } b t := by
        unfold Release.tryFeedStatus
        split_ifs with x1 x2 x3
        · rfl
        · rfl
        · rfl
        · exfalso; clear * - hb x3; revert hb x3; revert b; decide +kernel
      rw [e1]
      rcases he with he | he
      · rw [he, e2]
      · exact he
    obtain ⟨k1, k2⟩ := known_step h.group hidle trivial (Or.inl ⟨_, rfl⟩) (plain_some _ _ b t)
    rw [he] at ht' ⊢
    exact ⟨⟨ht', Or.inl k1⟩, k2⟩
  by_cases h8 : b ≥ 0xF8
  · have e : Release.tryFeed p b t = p.trySystemRealtime b t := by unfold Release.tryFeed; rw [if_pos (show b ≥ SystemStatus.clock from h8)]
    have e' : Release.tryFeed ({ p with packet := {} } : Parser) b t = ({ p with packet := {} } : Parser).trySystemRealtime b t := by
      unfold Release.tryFeed; rw [if_pos (show b ≥ SystemStatus.clock from h8)]
    obtain ⟨-, k2⟩ := known_step h.group hidle trivial (Or.inl ⟨_, rfl⟩) (plain_some _ _ b t)
    rw [e'] at k2
    rw [e] at ht' ⊢
    have e1 : (p.trySystemRealtime b t).1 = p := by unfold Parser.trySystemRealtime; split_ifs <;> rfl
    have e2 : (p.trySystemRealtime b t).2.1 = (({ p with packet := {} } : Parser).trySystemRealtime b t).2.1 := by
      unfold Parser.trySystemRealtime; split_ifs <;> rfl
    rw [e1, e2]
    exact ⟨⟨ht, Or.inr h⟩, k2⟩
  have hcb : ¬ p.hasSysexCallback = true := by rw [h.cb]; simp
  by_cases hty : p.packet.type = PacketType.data
  · by_cases h2 : b < 0x80
    · have e : Release.tryFeed p b t = Release.trySysexContinuePacket p b t := by
        unfold Release.tryFeed; rw [if_neg (show ¬ b ≥ SystemStatus.clock from h8), if_pos hty, if_pos h2, if_neg hcb]
      rw [e] at ht' ⊢
      have hd := data7_put (h.data hty) h2 p.packetByte.toNat
      have hd0 : p.packetByte + 1 = 8 → (Release.setByte p.packet p.packetByte.toNat b).type = PacketType.data := by
        intro h7
        have : p.packetByte = 7 := by
          have : ∀ x : Byte, x + 1 = 8 → x = 7 := by decide +kernel
          exact this _ h7
        rw [this, type_putByte _ _ _ (by decide)]; exact hty
      unfold Release.trySysexContinuePacket at ht' ⊢
      dsimp only at ht' ⊢
      generalize Release.setByte p.packet p.packetByte.toNat b = q at hd hd0 ht' ⊢
      by_cases h7 : p.packetByte + 1 = 8
      · rw [if_pos h7] at ht' ⊢
        have hq := hd0 h7
        have hd2 : Data7 (Release.setByte q 1 ((q.status &&& 0xF0) + 6)) := by
          refine data7_put hd ?_ 1
          have := hd 1 (by omega) (by omega)
          rw [← Packet.status_eq] at this
          revert this
          generalize q.status = x
          revert x; decide +kernel
        have hty2 : (Release.setByte q 1 ((q.status &&& 0xF0) + 6)).type = PacketType.data := by
          rw [type_putByte _ _ _ (by decide)]; exact hq
        have hlt := hG _ h.group
        by_cases hi : p.invokeCallbacks = true
        · rw [if_pos hi] at ht' ⊢
          unfold Parser.tryCall at ht' ⊢
          dsimp only at ht' ⊢
          rw [if_pos hi] at ht' ⊢
          have hev : ∀ e ∈ [Event.packet (Release.setByte q 1 ((q.status &&& 0xF0) + 6))], AnyEvent G p.hasSysexCallback e := by
            intro e he
            simp only [List.mem_singleton] at he
            exact Or.inr ⟨h.cb, _, he, hty2, hd2⟩
          cases hth : t.callback with
          | true =>
            rw [hth] at ht'
            exact ⟨⟨ht', Or.inr ⟨h.group, h.cb, h.missing, fun _ => hd2⟩⟩, hev⟩
          | false =>
            rw [hth] at ht'
            exact ⟨⟨ht', Or.inr ⟨h.group, h.cb, h.missing, fun _ => data7_make .cont hlt⟩⟩, hev⟩
        · rw [if_neg hi] at ht' ⊢
          rw [tryCall_off (by simpa using hi)] at ht' ⊢
          exact ⟨⟨ht', Or.inr ⟨h.group, h.cb, h.missing, fun _ => data7_make .cont hlt⟩⟩, by simp⟩
      · rw [if_neg h7] at ht' ⊢
        exact ⟨⟨ht', Or.inr ⟨h.group, h.cb, h.missing, fun _ => hd⟩⟩, by simp⟩
    · by_cases h7 : b = 0xF7
      · have e : Release.tryFeed p b t = Release.trySysexEndPacket p t := by
          unfold Release.tryFeed
          rw [if_neg (show ¬ b ≥ SystemStatus.clock from h8), if_pos hty, if_neg h2, if_neg (by simp [h7]), if_neg hcb]
        rw [e] at ht' ⊢
        unfold Release.trySysexEndPacket at ht' ⊢
        dsimp only at ht' ⊢
        have hst : ∀ s n : Byte, (s = Format.complete.status ∨ s = Format.fin.status) → s + (n &&& 0x0F) < 0x80 := by
          rintro s n (rfl | rfl) <;> (revert n; decide +kernel)
        have hd2 := data7_put (h.data hty) (hst (if p.packet.status &&& 0xF0 = Format.start.status then Format.complete.status
          else Format.fin.status) (p.packetByte - 2) (by split_ifs <;> simp)) 1
        have hty2 : (Release.setByte p.packet 1 ((if p.packet.status &&& 0xF0 = Format.start.status then Format.complete.status
            else Format.fin.status) + ((p.packetByte - 2) &&& 0x0F))).type = PacketType.data := by
          rw [type_putByte _ _ _ (by decide)]; exact hty
        generalize Release.setByte p.packet 1 ((if p.packet.status &&& 0xF0 = Format.start.status then Format.complete.status
            else Format.fin.status) + ((p.packetByte - 2) &&& 0x0F)) = q at hd2 hty2 ht' ⊢
        have hno : ∀ {r : Parser}, r.group = p.group → r.hasSysexCallback = p.hasSysexCallback → r.missing = p.missing → r.packet = {} →
            Lost G r := by
          intro r a1 a2 a3 a4
          exact ⟨a1 ▸ h.group, a2.trans h.cb, a3.trans h.missing, fun x => absurd (a4 ▸ x) type_empty⟩
        split_ifs at ht' ⊢ with x1 x2
        · exact ⟨⟨ht', Or.inr (hno rfl rfl rfl rfl)⟩, by simp⟩
        · refine ⟨⟨ht', Or.inr ⟨h.group, h.cb, h.missing, fun _ => hd2⟩⟩, ?_⟩
          intro e he
          unfold Parser.tryCall at he
          split_ifs at he
          · simp only [List.mem_singleton] at he; exact Or.inr ⟨h.cb, _, he, hty2, hd2⟩
          · simp at he
        · refine ⟨⟨ht', Or.inr (hno rfl rfl rfl rfl)⟩, ?_⟩
          intro e he
          unfold Parser.tryCall at he
          split_ifs at he
          · simp only [List.mem_singleton] at he; exact Or.inr ⟨h.cb, _, he, hty2, hd2⟩
          · simp at he
      · refine hst h2 h8 (Or.inr ?_)
        unfold Release.tryFeed
        rw [if_neg (show ¬ b ≥ SystemStatus.clock from h8), if_pos hty, if_neg h2, if_pos h7]
  · have e : Release.tryFeed p b t = Release.tryFeedStatus p b t := by
      unfold Release.tryFeed; rw [if_neg (show ¬ b ≥ SystemStatus.clock from h8), if_neg hty]
    by_cases h2 : b < 0x80
    · have e1 : Release.tryFeedStatus p b t = (p, [], false) := by
        unfold Release.tryFeedStatus
        rw [if_neg (by rintro rfl; exact absurd h2 (by decide)), if_neg (by clear * - h2; revert h2; revert b; decide +kernel),
          if_neg (by clear * - h2; revert h2; revert b; decide +kernel)]
        unfold Release.tryDataByte
        rw [if_neg (by intro x; exact x.2.1 h.missing)]
      rw [e, e1]
      exact ⟨⟨ht, Or.inr h⟩, by simp⟩
    · exact hst h2 h8 (Or.inl e)

theorem known_feed {G : List Byte} (hG : ∀ k ∈ G, k < 16) {p : Parser} (h : Known G p) (b : Byte) (t : Trouble) :
    Known G (Release.tryFeed p b t).1 ∧ ∀ e ∈ (Release.tryFeed p b t).2.1, AnyEvent G p.hasSysexCallback e := by
  obtain ⟨ht, ⟨c, st, hc, r, hst, hp⟩ | h⟩ := h
  · by_cases hn : tryByte c st b t = none
    · match st with
      | .plain s => exact absurd hn (plain_some c s b t)
      | .sent g f d =>
        have r : SentRel c g f d p := r
        obtain ⟨n, hn, hpk⟩ := r.packet
        have hl : Lost G p := by
          refine ⟨?_, ?_, ht.1 r.type, fun _ => ?_⟩
          · rw [show p.group = c.group from r.rest.group]; exact hc
          · rw [show p.hasSysexCallback = c.sysexCallback from r.rest.cb]; exact r.cb
          · rw [hpk]; exact data7_sent r.ft hn hst.2.2.2
        exact lost_step hG ht hl b t
    · obtain ⟨k1, k2⟩ := known_step hc r hst hp hn
      exact ⟨⟨tidy_feed ht b t, Or.inl k1⟩, k2⟩
  · exact lost_step hG ht h b t

theorem known_block {G : List Byte} (hG : ∀ k ∈ G, k < 16) : ∀ (bs : List (Byte × Trouble)) {p : Parser}, Known G p →
    Known G (Release.tryBlock p bs).1 ∧ ∀ e ∈ (Release.tryBlock p bs).2.1, AnyEvent G p.hasSysexCallback e := by
  intro bs
  induction bs with
  | nil => intro p h; exact ⟨h, by simp [Release.tryBlock]⟩
  | cons x bs ih =>
    obtain ⟨b, t⟩ := x
    intro p h
    obtain ⟨k1, k2⟩ := known_feed hG h b t
    simp only [Release.tryBlock]
    split_ifs
    · exact ⟨k1, k2⟩
    · obtain ⟨k3, k4⟩ := ih k1
      refine ⟨k3, fun e he => ?_⟩
      rcases List.mem_append.1 he with he | he
      · exact k2 e he
      · rw [← (release_settings p b t).2.1]; exact k4 e he

theorem known_all {G : List Byte} (hG : ∀ k ∈ G, k < 16) : ∀ (os : List Parser.Try) {p : Parser},
    (∀ k, Parser.Try.setGroup k ∈ os → k ∈ G) → Known G p →
    ∀ e ∈ (Release.tryAll p os).2, AnyEvent G p.hasSysexCallback e := by
  intro os
  induction os with
  | nil => intro p _ h; simp [Release.tryAll]
  | cons o os ih =>
    intro p hv h e he
    have hv' : ∀ k, Parser.Try.setGroup k ∈ os → k ∈ G := fun g hg => hv g (by simp [hg])
    simp only [Release.tryAll] at he
    have fin : Known G (Release.tryOne p o).1 ∧ (Release.tryOne p o).1.hasSysexCallback = p.hasSysexCallback ∧
        ∀ e ∈ (Release.tryOne p o).2.1, AnyEvent G p.hasSysexCallback e := by
      cases o with
      | feed bs =>
        obtain ⟨k1, k2⟩ := known_block hG bs h
        exact ⟨k1, (release_block_settings bs p).2.1, k2⟩
      | setGroup g =>
        have hg := hv g (by simp)
        refine ⟨⟨h.1, ?_⟩, rfl, by simp [Release.tryOne]⟩
        rcases h.2 with ⟨c, st, hc, r, hst, hp⟩ | h
        · refine Or.inl ⟨{ c with group := g }, st, hg, r.setGroup (hG g hg), hst, hp⟩
        · exact Or.inr ⟨hg, h.cb, h.missing, h.data⟩
      | enable on =>
        refine ⟨⟨h.1, ?_⟩, rfl, by simp [Release.tryOne]⟩
        rcases h.2 with ⟨c, st, hc, r, hst, hp⟩ | h
        · refine Or.inl ⟨{ c with enabled := on }, st, hc, r.enable on, hst, hp⟩
        · exact Or.inr ⟨h.group, h.cb, h.missing, h.data⟩
      | reset =>
        refine ⟨⟨tidy_zero rfl, Or.inl ?_⟩, rfl, by simp [Release.tryOne]⟩
        have hr : ∃ c : Settings, c.group ∈ G ∧ ParserRel c .idle { p with packet := {} } := by
          rcases h.2 with ⟨c, st, hc, r, hst, hp⟩ | h
          · exact ⟨c, hc, r.forget⟩
          · exact ⟨⟨p.group, p.hasSysexCallback, p.invokeCallbacks⟩, h.group, ⟨rfl, rfl, rfl, hG _ h.group, rfl⟩⟩
        obtain ⟨c, hc, r⟩ := hr
        refine ⟨c, .plain .idle, hc, Or.inl ?_, trivial, Or.inl ⟨_, rfl⟩⟩
        exact ⟨r.group, r.cb, r.on, r.lt, rfl⟩
    rcases List.mem_append.1 he with he | he
    · exact fin.2.2 e he
    · rw [← fin.2.1]; exact ih hv' fin.1 e he

/-! ## Groups from 40h on: sysex is lost -/

/-- Is the event a packet of type 3 or a sysex message. -/
def sysexEvent : Event → Bool
  | .packet q => decide ((q.byteAt 0).toNat / 16 = 3)
  | .sysex _ => true

/-- A parser with a group from 40h on. While sysex is received, there is a packet of a wrong type in the making. -/
structure Wrong (c : Settings) (st : StreamState) (p : Parser) : Prop where
  big : 0x40 ≤ p.group
  group : p.group &&& 0x0F = c.group
  cb : p.hasSysexCallback = c.sysexCallback
  on : p.invokeCallbacks = c.enabled
  state : match st with
    | .sysex _ _ _ => p.missing = 0 ∧ p.packet.type ≠ PacketType.data
    | st => ParserRel c st (reduced p)

theorem Wrong.lt {c : Settings} {st : StreamState} {p : Parser} (h : Wrong c st p) : c.group < 16 := by
  rw [← h.group]
  have : ∀ g : Byte, g &&& 0x0F < 16 := by decide +kernel
  exact this _

theorem Wrong.idle {c : Settings} {st : StreamState} {p : Parser} (h : Wrong c st p) : Wrong c .idle { p with packet := {} } :=
  ⟨h.big, h.group, h.cb, h.on, ⟨h.group, h.cb, h.on, h.lt, rfl⟩⟩

theorem sysexEvent_short {g : Byte} (hg : g < 16) (s : Byte) (d : List Byte) : sysexEvent (.packet (shortMessage g s d)) = false := by
  simp only [sysexEvent, shortMessage, byteAt_packetOf _ (show 0 < 16 by omega), List.getD_cons_zero]
  split
  · revert hg; revert g; decide +kernel
  · revert hg; revert g; decide +kernel

theorem sysexEvent_data {g : Byte} (hg : g < 16) (f : Nat) (d : List Byte) : sysexEvent (.packet (sysexPacket g f d)) = true := by
  simp only [sysexEvent, sysexPacket, byteAt_packetOf _ (show 0 < 16 by omega), List.getD_cons_zero]
  revert hg; revert g; decide +kernel

/-- Outside of sysex, with all but a sysex start, no sysex comes out. -/
theorem short_step {c : Settings} (hc : c.group < 16) {st : StreamState} (h : NotSysex st) (hg : ∀ g s d, st = .message g s d → g < 16)
    {b : Byte} (hb : b ≠ 0xF0) : ∀ e ∈ (stepByte c st b).2, sysexEvent e = false := by
  have one : ∀ {x : Bool} {g : Byte} (_ : g < 16) (s : Byte) (d : List Byte), ∀ e ∈ (if x then [Event.packet (shortMessage g s d)] else []),
      sysexEvent e = false := by
    intro x g hg s d e he
    cases x with
    | true => simp only [if_true, List.mem_singleton] at he; subst he; exact sysexEvent_short hg s d
    | false => simp at he
  by_cases h1 : b ≥ 0xF8
  · rw [step_rt c st h1]
    by_cases hu : b = 0xF9 ∨ b = 0xFD
    · simp only [if_pos hu]; simp
    · simp only [if_neg hu]; exact one hc _ _
  by_cases h2 : b < 0x80
  · match st with
    | .idle => rw [step_idle c h2]; simp
    | .message g s d =>
      rw [step_message c g s d h2]
      split
      · exact one (hg g s d rfl) _ _
      · simp
    | .sysex g w d => exact absurd rfl (h g w d)
  by_cases h7 : b = 0xF7
  · subst h7; rw [step_end_other c st h]; simp
  by_cases h6 : b = 0xF6
  · subst h6; rw [step_tune c st]; exact one hc _ _
  by_cases h4 : b = 0xF4 ∨ b = 0xF5
  · rw [step_undefined c st h4]; simp
  · rw [step_new c st h1 (by clear * - hb h1 h2 h7 h6 h4; revert hb h1 h2 h7 h6 h4; revert b; decide +kernel)]; simp

theorem filter_short {es : List Event} (h : ∀ e ∈ es, sysexEvent e = false) : es.filter (fun e => !sysexEvent e) = es :=
  List.filter_eq_self.2 fun e he => by rw [h e he]; rfl

theorem filter_lost {es : List Event} (h : ∀ e ∈ es, sysexEvent e = true) : es.filter (fun e => !sysexEvent e) = [] :=
  List.filter_eq_nil_iff.2 fun e he => by rw [h e he]; simp

theorem one_sysex {x : Bool} {es : List Event} (h : ∀ e ∈ es, sysexEvent e = true) :
    ∀ e ∈ (if x then es else []), sysexEvent e = true := by
  cases x with
  | true => simpa using h
  | false => simp

/-- A byte outside of sysex, other than sysex start. -/
theorem wrong_plain {c : Settings} {st : StreamState} {p : Parser} (h : Wrong c st p) (hst : NotSysex st) {b : Byte} (hb : b ≠ 0xF0) :
    Wrong c (stepByte c st b).1 (Release.tryFeed p b {}).1 ∧
      (Release.tryFeed p b {}).2 = ((stepByte c st b).2, false) ∧ ∀ e ∈ (stepByte c st b).2, sysexEvent e = false := by
  have r : ParserRel c st (reduced p) := by
    have := h.state
    match st with
    | .idle => exact this
    | .message g s d => exact this
    | .sysex g w d => exact absurd rfl (hst g w d)
  have hty : p.packet.type ≠ PacketType.data := r.type_ne hst
  obtain ⟨q, e, rq⟩ := feed_rel r b
  have e1 : (reduced p).tryFeed b {} = .ok (q, (stepByte c st b).2, false) := by rw [tryFeed_calm, e]; rfl
  have e2 := release_feed e1
  have e3 : Release.tryFeed (reduced p) b {} = (reduced (Release.tryFeed p b {}).1, (Release.tryFeed p b {}).2) := by
    unfold Release.tryFeed
    rw [show (reduced p).packet = p.packet from rfl, if_neg hty, if_neg hty]
    split_ifs
    · exact reduced_realtime p b {}
    · exact reduced_status p b (Or.inr hb) {}
  rw [e3] at e2
  obtain ⟨e4, e5⟩ := Prod.mk.inj e2
  have hs := release_settings p b {}
  refine ⟨⟨hs.1 ▸ h.big, hs.1 ▸ h.group, hs.2.1.trans h.cb, hs.2.2.trans h.on, ?_⟩, e5, ?_⟩
  · have hn := step_notSysex (c := c) hst hb
    rw [← e4] at rq
    generalize (stepByte c st b).1 = st' at hn rq
    match st' with
    | .idle => exact rq
    | .message g s d => exact rq
    | .sysex g w d => exact absurd rfl (hn g w d)
  · refine short_step h.lt hst (fun g s d hs => ?_) hb
    subst hs
    have := r.state
    exact this.1

theorem wrong_step {c : Settings} {st : StreamState} {p : Parser} (h : Wrong c st p) (hgr : ∀ g w d, st = .sysex g w d → g < 16) (b : Byte) :
    Wrong c (stepByte c st b).1 (Release.tryFeed p b {}).1 ∧
      (Release.tryFeed p b {}).2 = ((stepByte c st b).2.filter (fun e => !sysexEvent e), false) ∧
      ∀ g w d, (stepByte c st b).1 = .sysex g w d → g < 16 := by
  have hlt := h.lt
  have plain : ∀ {st : StreamState} {p : Parser}, Wrong c st p → NotSysex st → b ≠ 0xF0 →
      Wrong c (stepByte c st b).1 (Release.tryFeed p b {}).1 ∧
      (Release.tryFeed p b {}).2 = ((stepByte c st b).2.filter (fun e => !sysexEvent e), false) ∧
      ∀ g w d, (stepByte c st b).1 = .sysex g w d → g < 16 := by
    intro st p h hst hb
    obtain ⟨a1, a2, a3⟩ := wrong_plain h hst hb
    refine ⟨a1, ?_, fun g w d e => absurd e (step_notSysex hst hb g w d)⟩
    rw [a2, filter_short a3]
  by_cases h0 : b = 0xF0
  · subst h0
    rw [step_start]
    have hs := release_settings p 0xF0 {}
    have key : Release.tryFeed p 0xF0 {} = Release.trySysexStart p {} ∨
        Release.tryFeed p 0xF0 {} = Release.trySysexStart { p with packet := {} } {} := by
      unfold Release.tryFeed
      rw [if_neg (by decide)]
      by_cases hty : p.packet.type = PacketType.data
      · rw [if_pos hty, if_neg (by decide), if_pos (by decide)]; exact Or.inr rfl
      · rw [if_neg hty]; exact Or.inl rfl
    have key : Release.tryFeed p 0xF0 {} = Release.trySysexStart p {} := by
      rcases key with key | key
      · exact key
      · rw [key]; rfl
    refine ⟨⟨hs.1 ▸ h.big, hs.1 ▸ h.group, hs.2.1.trans h.cb, hs.2.2.trans h.on, ?_⟩, ?_, ?_⟩
    · rw [key]
      have := makeSysex7_lost .start p.group h.big
      unfold Release.trySysexStart
      dsimp only
      split_ifs <;> exact ⟨rfl, this⟩
    · rw [key]
      unfold Release.trySysexStart
      dsimp only
      split_ifs <;> simp_all
    · rintro g w d hh; cases hh; exact hlt
  by_cases hst : NotSysex st
  · exact plain h hst h0
  · obtain ⟨g, w, d, rfl⟩ : ∃ g w d, st = .sysex g w d := by
      by_contra hh; exact hst fun g w d e => hh ⟨g, w, d, e⟩
    have hg := hgr g w d rfl
    obtain ⟨hm, hty⟩ := h.state
    by_cases h8 : b ≥ 0xF8
    · have e1 : Release.tryFeed p b {} = p.trySystemRealtime b {} := by
        unfold Release.tryFeed; rw [if_pos (show b ≥ SystemStatus.clock from h8)]
      have e2 : Release.tryFeed ({ p with packet := {} } : Parser) b {} = ({ p with packet := {} } : Parser).trySystemRealtime b {} := by
        unfold Release.tryFeed; rw [if_pos (show b ≥ SystemStatus.clock from h8)]
      obtain ⟨-, k2, -⟩ := plain h.idle (by intro g w d hh; cases hh) h0
      rw [step_rt c _ h8] at k2 ⊢
      rw [e2] at k2
      rw [e1]
      have e3 : (p.trySystemRealtime b {}).1 = p := by unfold Parser.trySystemRealtime; split_ifs <;> rfl
      have e4 : (p.trySystemRealtime b {}).2 = (({ p with packet := {} } : Parser).trySystemRealtime b {}).2 := by
        unfold Parser.trySystemRealtime; split_ifs <;> rfl
      rw [e3, e4]
      exact ⟨h, k2, hgr⟩
    · have e : Release.tryFeed p b {} = Release.tryFeedStatus p b {} := by
        unfold Release.tryFeed; rw [if_neg (show ¬ b ≥ SystemStatus.clock from h8), if_neg hty]
      by_cases h2 : b < 0x80
      · have e1 : Release.tryFeedStatus p b {} = (p, [], false) := by
          unfold Release.tryFeedStatus
          rw [if_neg h0, if_neg (by clear * - h2; revert h2; revert b; decide +kernel),
            if_neg (by clear * - h2; revert h2; revert b; decide +kernel)]
          unfold Release.tryDataByte
          rw [if_neg (by intro x; exact x.2.1 hm)]
        rw [e, e1]
        have hstate : ∀ g' d', Wrong c (.sysex g' w d') p := fun g' d' => ⟨h.big, h.group, h.cb, h.on, hm, hty⟩
        cases hc : c.sysexCallback with
        | true =>
          rw [step_sysex_cb c g w d h2 hc]
          refine ⟨hstate _ _, rfl, ?_⟩
          rintro g' w' d' hh; cases hh; exact hg
        | false =>
          rw [step_sysex_packet c g w d h2 hc]
          by_cases h6 : (d.length + 1) % 6 = 0
          · rw [if_pos h6]
            refine ⟨hstate _ _, ?_, ?_⟩
            · have := filter_lost (es := if c.enabled = true then
                  [Event.packet (sysexPacket g (if d.length < 6 then 1 else 2) ((d ++ [b]).drop (d.length + 1 - 6)))] else [])
                (one_sysex fun e he => by simp only [List.mem_singleton] at he; subst he; exact sysexEvent_data hg _ _)
              exact Prod.ext this.symm rfl
            · rintro g' w' d' hh; cases hh; exact hlt
          · rw [if_neg h6]
            refine ⟨hstate _ _, rfl, ?_⟩
            rintro g' w' d' hh; cases hh; exact hg
      · have e2 : Release.tryFeedStatus p b {} = Release.tryFeed { p with packet := {} } b {} := by
          have e1 : Release.tryFeed ({ p with packet := {} } : Parser) b {} = Release.tryFeedStatus { p with packet := {} } b {} := by
            unfold Release.tryFeed
            rw [if_neg (show ¬ b ≥ SystemStatus.clock from h8),
              if_neg (show ¬ ({ p with packet := {} } : Parser).packet.type = PacketType.data from type_empty)]
          rw [e1]
          unfold Release.tryFeedStatus
          split_ifs with x1 x2
          · rfl
          · rfl
          · exfalso; clear * - h2 x1 x2; revert h2 x1 x2; revert b; decide +kernel
        have := plain h.idle (by intro g w d hh; cases hh) h0
        rw [e, e2]
        by_cases h7 : b = 0xF7
        · subst h7
          obtain ⟨k1, k2, k3⟩ := this
          rw [step_end_other c .idle (by intro g w d hh; cases hh)] at k1 k2 k3
          cases hc : c.sysexCallback with
          | true =>
            rw [step_end_cb c g w d hc]
            refine ⟨k1, ?_, by rintro _ _ _ hh; cases hh⟩
            rw [k2]
            refine Prod.ext (Eq.symm (filter_lost ?_)) rfl
            refine one_sysex fun e he => ?_
            split_ifs at he
            · simp only [List.mem_singleton] at he; subst he; rfl
            · simp at he
          | false =>
            rw [step_end_packet c g w d hc]
            refine ⟨k1, ?_, by rintro _ _ _ hh; cases hh⟩
            rw [k2]
            refine Prod.ext (Eq.symm (filter_lost ?_)) rfl
            refine one_sysex fun e he => ?_
            split_ifs at he
            · simp at he
            · simp only [List.mem_singleton] at he; subst he; exact sysexEvent_data hg _ _
            · simp only [List.mem_singleton] at he; subst he; exact sysexEvent_data hg _ _
        · rw [step_status c _ h8 h2 h7]
          exact this

end Midi

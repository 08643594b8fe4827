import Verif.Props.ExceptionsParser
import Verif.Lemmas.ReleaseParserLost

/-!
# C88: the MIDI 1 byte stream parser in a build without assertions

The functions of `Midi.Release` are the ones of the library compiled with `NDEBUG`. They always have a result: whatever the
parser is fed, whatever throws and whichever group it is given, it reads and writes nothing but itself.
-/

namespace Midi
open Spec

/-- C88: calls that violate no assertion have the same effect in a build without assertions: same state, same packets and
messages delivered, in the same order. -/
theorem C88_same (p : Parser) (os : List Parser.Try) (q : Parser) (es : List Event) (h : p.tryAll os = .ok (q, es)) :
    Release.tryAll p os = (q, es) := release_all os h

theorem release_feedAll {p q : Parser} {bs : List Byte} {es : List Event} (h : p.feedAll bs = .ok (q, es)) :
    Release.feedAll p bs = (q, es) := by
  have e : p.tryBlock (bs.map fun b => (b, {})) = .ok (q, es, false) := by
    rw [tryBlock_calm _ _ (by simp), List.map_map, show (Prod.fst ∘ fun b : Byte => ((b, {}) : Byte × Trouble)) = id from rfl,
      List.map_id, h]
    rfl
  rw [Release.feedAll, release_block _ e]

theorem valid_untroubled : ∀ (os : List Parser.Try), TryGroups os → ValidGroups (untroubledCalls os) := by
  intro os
  induction os with
  | nil => intro _ g hg; simp [untroubledCalls] at hg
  | cons o os ih =>
    intro hv g hg
    have ih := ih (fun g hg => hv g (by simp [hg])) g
    cases o with
    | setGroup k =>
      simp only [untroubledCalls, List.mem_cons] at hg
      rcases hg with hg | hg
      · cases hg; exact hv _ (by simp)
      · exact ih hg
    | feed bs | enable on | reset =>
      simp only [untroubledCalls, List.mem_cons, reduceCtorEq, false_or] at hg
      exact ih hg

/-- C88: so with groups below 16 and callbacks that do not throw, the parser of a build without assertions delivers what the
specification of the byte stream parser says. -/
theorem C88_normal_use (g : Byte) (cb on : Bool) (os : List Parser.Try) (hg : g < 16) (hv : TryGroups os) (hc : ∀ o ∈ os, CalmCall o) :
    (Release.tryAll (Parser.new g cb on) os).2 = opEvents ⟨g, cb, on⟩ .idle (untroubledCalls os) ∧
    (Parser.new g cb on).tryAll os = .ok (Release.tryAll (Parser.new g cb on) os) := by
  obtain ⟨p, e⟩ := C26_parser_grammar g cb on (untroubledCalls os) hg (valid_untroubled os hv)
  rw [← C69_plain os hc] at e
  rw [C88_same _ _ _ _ e]
  exact ⟨rfl, e⟩

-- a note on, a sysex message and a change of the group
example : TryGroups [.feed [(0x90, {}), (60, {}), (100, {})], .setGroup 4, .feed [(0xF0, {}), (1, {}), (0xF7, {})]] ∧
    (Release.tryAll (Parser.new 2 false true)
      [.feed [(0x90, {}), (60, {}), (100, {})], .setGroup 4, .feed [(0xF0, {}), (1, {}), (0xF7, {})]]).2 =
    [.packet ⟨0x22903C64, 0, 0, 0⟩, .packet ⟨0x34010100, 0, 0, 0⟩] := ⟨by intro g hg; simp at hg; subst hg; decide, by decide +kernel⟩

/-! ## Exceptions -/

/-- C88: whatever is fed, whichever callbacks throw and whichever allocations fail, and however the caller goes on: all
packets delivered are those that can be delivered in a build with assertions or, if the parser was made without a sysex
callback, packets of type 3 with 7 bit data bytes. All sysex messages delivered consist of 7 bit bytes. Partial, as the
latter packets need not be well formed, nor in one of the groups the parser was given: see `C88_header_lost`. -/
theorem C88_delivered_partial (g : Byte) (cb on : Bool) (os : List Parser.Try) (G : List Byte) (hG : ∀ k ∈ G, k < 16) (hg : g ∈ G)
    (hv : ∀ k, Parser.Try.setGroup k ∈ os → k ∈ G) :
    (∀ q, .packet q ∈ (Release.tryAll (Parser.new g cb on) os).2 → WellFormed1 G q ∧ (cb = true → ¬ IsSysex7 q) ∨
      cb = false ∧ (q.byteAt 0).toNat / 16 = 3 ∧ ∀ i, 1 ≤ i → i < 8 → q.byteAt i < 0x80) ∧
    (∀ s, .sysex s ∈ (Release.tryAll (Parser.new g cb on) os).2 → cb = true ∧ Is7Bit s) := by
  have key : ∀ e ∈ (Release.tryAll (Parser.new g cb on) os).2, AnyEvent G cb e := known_all hG os hv (p := Parser.new g cb on) ⟨tidy_zero rfl, Or.inl ⟨⟨g, cb, on⟩, .plain .idle, hg,
    Or.inl (new_rel (hG g hg) cb on), trivial, Or.inl ⟨_, rfl⟩⟩⟩
  refine ⟨fun q hq => ?_, fun s hs => ?_⟩
  · rcases key _ hq with (he | ⟨hcb, k, f, d, hk, hf, h6, h14, hd, he⟩) | ⟨hcb, q', he, ht, h7⟩
    · exact Or.inl ((events_good hG (es := [.packet q]) (by simpa using he)).1 q (by simp))
    · cases he
      refine Or.inr ⟨hcb, ?_, ?_⟩
      · have := sysexEvent_data (hG k hk) f d
        simpa [sysexEvent] using this
      · rw [sysexPacket_sentPk]
        exact data7_sent hf (by omega) hd
    · cases he
      refine Or.inr ⟨hcb, ?_, h7⟩
      rw [Packet.type_eq] at ht
      revert ht
      generalize q.byteAt 0 = x
      revert x; decide +kernel
  · rcases key _ hs with (he | ⟨-, k, f, d, -, -, -, -, -, he⟩) | ⟨-, q', he, -⟩
    · exact (events_good hG (es := [.sysex s]) (by simpa using he)).2 s (by simp)
    · cases he
    · cases he

example := C88_delivered_partial 2 false true [.feed [(0xF0, { callback := true })], .setGroup 7, .feed [(1, {}), (0xF7, {})]] [2, 7] (by decide) (by decide)
  (by intro k hk; simp at hk; simp [hk])

/-- C88: the callback for a sysex packet throws and the caller goes on feeding the rest of the message. The data bytes are
counted with 8 bits, so the 249th data byte behind the exception becomes the header of the packet: the parser, set to group 2
all the time, delivers a packet for group 5. In a build with assertions the program ends at the 9th data byte
(`C69_overflow`). -/
theorem C88_header_lost : (Release.tryAll (Parser.new 2 false true)
      [.feed [(0xF0, {}), (1, {}), (2, {}), (3, {}), (4, {}), (5, {}), (6, { callback := true })],
       .feed (List.replicate 248 (0x20, {})), .feed [(0x35, {}), (0x10, {}), (1, {}), (2, {}), (3, {}), (4, {}), (5, {}), (6, {})],
       .feed [(7, {}), (0xF7, {})]]).2 =
    [.packet ⟨0x32160102, 0x03040506, 0, 0⟩, .packet ⟨0x35160102, 0x03040506, 0x20202020, 0x20202020⟩,
     .packet ⟨0x32310700, 0, 0, 0⟩] := by decide +kernel

/-- C88: if the data byte does not look like the header of a sysex packet, the rest of the message is not delivered. -/
theorem C88_rest_lost : (Release.tryAll (Parser.new 2 false true)
      [.feed [(0xF0, {}), (1, {}), (2, {}), (3, {}), (4, {}), (5, {}), (6, { callback := true })],
       .feed (List.replicate 248 (0x20, {})), .feed [(0x45, {}), (0x10, {}), (1, {}), (2, {}), (3, {}), (4, {}), (5, {}), (6, {})],
       .feed [(7, {}), (0xF7, {})], .feed [(0x90, {}), (1, {}), (2, {})]]).2 =
    [.packet ⟨0x32160102, 0x03040506, 0, 0⟩, .packet ⟨0x22900102, 0, 0, 0⟩] := by decide +kernel

theorem release_tryAll_settings : ∀ (os : List Parser.Try) (p : Parser),
    (⟨(Release.tryAll p os).1.group, (Release.tryAll p os).1.hasSysexCallback, (Release.tryAll p os).1.invokeCallbacks⟩ : Settings) =
      settingsAfter ⟨p.group, p.hasSysexCallback, p.invokeCallbacks⟩ os := by
  intro os
  induction os with
  | nil => intro p; rfl
  | cons o os ih =>
    intro p
    simp only [Release.tryAll]
    rw [ih]
    cases o with
    | feed bs =>
      obtain ⟨h1, h2, h3⟩ := release_block_settings bs p
      simp only [Release.tryOne, h1, h2, h3, settingsAfter]
    | setGroup g => rfl
    | enable on => rfl
    | reset => rfl

theorem release_forget {g : Byte} {cb on : Bool} {os : List Parser.Try} (hg : g < 16) (hv : TryGroups os) :
    ParserRel (settingsAfter ⟨g, cb, on⟩ os) .idle { (Release.tryAll (Parser.new g cb on) os).1 with packet := {} } ∧
      (settingsAfter ⟨g, cb, on⟩ os).group < 16 ∧ (settingsAfter ⟨g, cb, on⟩ os).sysexCallback = cb := by
  have hs := release_tryAll_settings os (Parser.new g cb on)
  have hs : _ = settingsAfter ⟨g, cb, on⟩ os := hs
  have hok := settingsAfter_ok os ⟨g, cb, on⟩ hv hg
  refine ⟨?_, hok⟩
  rw [← hs] at hok ⊢
  exact ⟨rfl, rfl, rfl, hok.1, rfl⟩

/-- C88: whatever happened before, also beyond the point where a build with assertions would have ended: behind `reset()` the
parser delivers what a new one with the same settings delivers. -/
theorem C88_reset (g : Byte) (cb on : Bool) (os more : List Parser.Try) (hg : g < 16) (hv : TryGroups os) (hv' : TryGroups more)
    (hc : ∀ o ∈ more, CalmCall o) :
    (Release.tryAll (Release.tryAll (Parser.new g cb on) os).1 (.reset :: more)).2 =
      (Release.tryAll (Parser.new (settingsAfter ⟨g, cb, on⟩ os).group cb (settingsAfter ⟨g, cb, on⟩ os).enabled) more).2 := by
  obtain ⟨r, hlt, hcb⟩ := release_forget (g := g) (cb := cb) (on := on) hg hv
  generalize (Release.tryAll (Parser.new g cb on) os).1 = p at r ⊢
  have a : Alike p.reset (Parser.new (settingsAfter ⟨g, cb, on⟩ os).group cb (settingsAfter ⟨g, cb, on⟩ os).enabled) :=
    alike_of_rel (c := settingsAfter ⟨g, cb, on⟩ os) (st := .idle) ⟨r.group, r.cb, r.on, r.lt, rfl⟩ ⟨rfl, hcb.symm, rfl, hlt, rfl⟩
  obtain ⟨p', q', es, e1, e2⟩ := a _ (valid_untroubled more hv')
  rw [← C69_plain more hc] at e1 e2
  simp only [Release.tryAll, Release.tryOne, List.nil_append]
  rw [C88_same _ _ _ _ e1, C88_same _ _ _ _ e2]

/-- C88: the same holds from the next status byte on, other than real time bytes and sysex end. -/
theorem C88_next_status (g : Byte) (cb on : Bool) (os : List Parser.Try) (hg : g < 16) (hv : TryGroups os)
    (s : Byte) (hs : 0x80 ≤ s ∧ s < 0xF8 ∧ s ≠ 0xF7) (rest : List Byte) :
    (Release.feedAll (Release.tryAll (Parser.new g cb on) os).1 (s :: rest)).2 =
      (Release.feedAll (Parser.new (settingsAfter ⟨g, cb, on⟩ os).group cb (settingsAfter ⟨g, cb, on⟩ os).enabled) (s :: rest)).2 := by
  obtain ⟨r, hlt, hcb⟩ := release_forget (g := g) (cb := cb) (on := on) hg hv
  generalize (Release.tryAll (Parser.new g cb on) os).1 = p at r ⊢
  have hn : ParserRel (settingsAfter ⟨g, cb, on⟩ os) .idle
      (Parser.new (settingsAfter ⟨g, cb, on⟩ os).group cb (settingsAfter ⟨g, cb, on⟩ os).enabled) :=
    ⟨rfl, hcb.symm, rfl, hlt, rfl⟩
  obtain ⟨q, e, -⟩ := feedAll_rel (s :: rest) r
  obtain ⟨q', e', -⟩ := feedAll_rel (s :: rest) hn
  have e : p.feedAll (s :: rest) = .ok (q, (stepBytes (settingsAfter ⟨g, cb, on⟩ os) .idle (s :: rest)).2) := by
    rw [← e]; simp only [Parser.feedAll, feed_status_forgets p hs]
  rw [release_feedAll e, release_feedAll e']

-- as in `C88_rest_lost`, with the group set in between
example : (0x80 : Byte) ≤ 0x90 ∧ (0x90 : Byte) < 0xF8 ∧ (0x90 : Byte) ≠ 0xF7 ∧
    settingsAfter ⟨2, false, true⟩ [.feed [(0xF0, { callback := true })], .setGroup 7, .feed (List.replicate 300 (0x20, {}))] =
      ⟨7, false, true⟩ := by decide

/-! ## Groups that are out of range -/

/-- The call, with the group reduced to four bits. -/
def fourBits : Parser.Try → Parser.Try
  | .setGroup g => .setGroup (g &&& 0x0F)
  | o => o

theorem release_group (o : Parser.Try) (p : Parser) (h : p.group < 0x40) (ho : ∀ k, o = .setGroup k → k < 0x40) :
    (Release.tryOne p o).1.group < 0x40 := by
  cases o with
  | feed bs => rw [show (Release.tryOne p (.feed bs)).1.group = p.group from (release_block_settings bs p).1]; exact h
  | setGroup g => exact ho g rfl
  | enable on => exact h
  | reset => exact h

theorem reduced_one (o : Parser.Try) (p : Parser) (h : p.group < 0x40) :
    Release.tryOne (reduced p) (fourBits o) = (reduced (Release.tryOne p o).1, (Release.tryOne p o).2) := by
  cases o with
  | feed bs => exact reduced_block bs p h
  | setGroup g => rfl
  | enable on => rfl
  | reset => rfl

theorem reduced_all : ∀ (os : List Parser.Try) (p : Parser), p.group < 0x40 → (∀ k, Parser.Try.setGroup k ∈ os → k < 0x40) →
    (Release.tryAll (reduced p) (os.map fourBits)).2 = (Release.tryAll p os).2 := by
  intro os
  induction os with
  | nil => intro p _ _; rfl
  | cons o os ih =>
    intro p h hv
    simp only [List.map_cons, Release.tryAll]
    rw [reduced_one o p h]
    dsimp only
    rw [ih _ (release_group o p h fun k hk => hv k (by simp [hk])) (fun k hk => hv k (by simp [hk]))]

/-- C88: in a build without assertions a group below 40h acts as its lower four bits: with any calls, throwing callbacks and
failing allocations included, the same is delivered as with all groups reduced to four bits. -/
theorem C88_groups (g : Byte) (cb on : Bool) (os : List Parser.Try) (hg : g < 0x40) (hv : ∀ k, Parser.Try.setGroup k ∈ os → k < 0x40) :
    (Release.tryAll (Parser.new g cb on) os).2 = (Release.tryAll (Parser.new (g &&& 0x0F) cb on) (os.map fourBits)).2 :=
  (reduced_all os (Parser.new g cb on) hg hv).symm

-- groups 17h and 3Fh
example : (Release.tryAll (Parser.new 0x17 false true) [.feed [(0xF0, {}), (1, {}), (0xF7, {})], .setGroup 0x3F, .feed [(0xF8, {})]]).2 =
    [.packet ⟨0x37010100, 0, 0, 0⟩, .packet ⟨0x1FF80000, 0, 0, 0⟩] := by decide +kernel

/-- A packet of type 3 or a sysex message. -/
def IsSysexEvent : Event → Prop
  | .packet q => (q.byteAt 0).toNat / 16 = 3
  | .sysex _ => True

instance : DecidablePred IsSysexEvent := fun e => by cases e <;> unfold IsSysexEvent <;> infer_instance

end Midi

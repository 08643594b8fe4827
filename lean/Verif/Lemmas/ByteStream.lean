import Verif.Spec.ByteStream
import Verif.Lemmas.Sysex
import Verif.Lemmas.Collector7

/-!
# Helper lemmas: the byte stream parser refines the byte stream grammar
-/

namespace Midi
open Spec

theorem wordOfBytes_eq (a b c d : Byte) : wordOfBytes a b c d = wordOf a b c d := by
  apply BitVec.eq_of_toNat_eq
  rw [toNat_wordOf, wordOfBytes, BitVec.toNat_ofNat]
  have := a.isLt; have := b.isLt; have := c.isLt; have := d.isLt
  omega

theorem packetOf_eq (l : List Byte) : packetOf l = mkBytes fun i => l.getD i 0 := by
  simp only [packetOf, mkBytes, wordOfBytes_eq]

theorem byteAt_packetOf (l : List Byte) {i : Nat} (hi : i < 16) : (packetOf l).byteAt i = l.getD i 0 := by
  rw [packetOf_eq, byteAt_mkBytes _ hi]

theorem add_or_16 {k g : Byte} (hk : k = 0x10 ∨ k = 0x20 ∨ k = 0x30) (hg : g < 16) : k + g = k ||| g := by
  rcases hk with rfl | rfl | rfl <;> (revert hg; revert g; decide +kernel)

theorem sysexPacket_eq (f : Format) {g : Byte} (hg : g < 16) {pl : List Byte} (h : pl.length ≤ 6) :
    sysexPacket g f.code.toNat pl = mk7 f g pl := by
  rw [sysexPacket, packetOf_eq, mk7]
  congr 1
  funext i
  match i with
  | 0 => simp only [List.getD_cons_zero, if_true]; exact add_or_16 (by decide) hg
  | 1 =>
    simp only [List.getD_cons_succ, List.getD_cons_zero]
    rw [if_neg (by omega), if_pos trivial]
    generalize pl.length = n at h
    interval_cases n <;> cases f <;> rfl
  | i + 2 =>
    simp only [List.getD_cons_succ]
    rw [if_neg (by omega), if_neg (by omega)]; rfl

/-- A packet with four bytes. -/
theorem packetOf4 (a b c d : Byte) : packetOf [a, b, c, d] = ⟨wordOf a b c d, 0, 0, 0⟩ := by
  simp only [packetOf, wordOfBytes_eq]
  have z : wordOf 0 0 0 0 = 0 := by decide
  simp only [List.getD_cons_zero, List.getD_cons_succ, List.getD_nil, z]

theorem packetOf3 (a b c : Byte) : packetOf [a, b, c] = ⟨wordOf a b c 0, 0, 0, 0⟩ := packetOf4 a b c 0
theorem packetOf2 (a b : Byte) : packetOf [a, b] = ⟨wordOf a b 0 0, 0, 0, 0⟩ := packetOf4 a b 0 0

/-- The first byte of a short message. -/
def shortHead (g s : Byte) : Byte := (if s < 0xF0 then 0x20 else 0x10) + g

/-- A short message with stale data bytes. -/
def shortPk (g s x y : Byte) : Packet := ⟨wordOf (shortHead g s) s x y, 0, 0, 0⟩

theorem shortMessage_two (g s x y : Byte) : shortMessage g s [x, y] = shortPk g s x y := packetOf4 _ _ _ _
theorem shortMessage_one (g s x : Byte) : shortMessage g s [x] = shortPk g s x 0 := packetOf3 _ _ _
theorem shortMessage_nil (g s : Byte) : shortMessage g s [] = shortPk g s 0 0 := packetOf2 _ _

theorem shortHead_sys {g s : Byte} (hg : g < 16) (hs : ¬ s < 0xF0) : (1 : Byte) <<< 4 ||| (g &&& 0x0F) = shortHead g s := by
  rw [shortHead, if_neg hs, add_or_16 (by decide) hg, and0F_of_lt hg]; rfl

theorem shortHead_cv {g s : Byte} (hg : g < 16) (hs : s < 0xF0) : (2 : Byte) <<< 4 ||| (g &&& 0x0F) = shortHead g s := by
  rw [shortHead, if_pos hs, add_or_16 (by decide) hg, and0F_of_lt hg]; rfl

theorem makeSystem_short {g s : Byte} (hg : g < 16) (hs : ¬ s < 0xF0) : makeSystem g s 0 0 = shortPk g s 0 0 := by
  rw [makeSystem_eq, shortHead_sys hg hs]; rfl

theorem midi1_short {g s : Byte} (hg : g < 16) (hs : s < 0xF0) : midi1Message g s 0 0 = shortPk g s 0 0 := by
  rw [midi1Message_eq, shortHead_cv hg hs]; rfl

theorem status_shortPk (g s x y : Byte) : (shortPk g s x y).status = s := by simp [shortPk]

theorem type_shortPk {g s : Byte} (hg : g < 16) (x y : Byte) : (shortPk g s x y).type ≠ PacketType.data := by
  simp only [shortPk, Packet.type_wordOf]
  by_cases hs : s < 0xF0
  · rw [← shortHead_cv hg hs, typ_or 2 g (by decide)]; decide
  · rw [← shortHead_sys hg hs, typ_or 1 g (by decide)]; decide

theorem putByte2_shortPk (g s x y b : Byte) : (shortPk g s x y).putByte 2 b = shortPk g s b y := by
  apply Packet.ext_bytes
  intro c hc
  rw [Packet.byteAt_putByte _ (by omega) hc]
  simp only [Packet.byteAt_eq, shortPk]
  interval_cases c <;> simp [Packet.word]

theorem putByte3_shortPk (g s x y b : Byte) : (shortPk g s x y).putByte 3 b = shortPk g s x b := by
  apply Packet.ext_bytes
  intro c hc
  rw [Packet.byteAt_putByte _ (by omega) hc]
  simp only [Packet.byteAt_eq, shortPk]
  interval_cases c <;> simp [Packet.word]

/-- The number of data bytes depends on the status byte only and is at most two. -/
theorem dataBytes_le (s : Byte) : dataBytes s ≤ 2 := by
  unfold dataBytes; split
  · omega
  · split <;> omega

/-- A sysex packet under construction: data bytes, but not yet the size. -/
def part7 (f : Format) (g : Byte) (pl : List Byte) : Packet := (mk7 f g pl).putByte 1 f.status

theorem byteAt_part7 (f : Format) (g : Byte) (pl : List Byte) {c : Nat} (hc : c < 16) :
    (part7 f g pl).byteAt c = if c = 1 then f.status else (mk7 f g pl).byteAt c :=
  Packet.byteAt_putByte _ (by omega) hc _

theorem part7_nil (f : Format) (g : Byte) : part7 f g [] = mk7 f g [] := by
  apply Packet.ext_bytes
  intro c hc
  rw [byteAt_part7 _ _ _ hc]
  split
  · next h => subst h; rw [byteAt_mk7_1]; simp
  · rfl

theorem status_part7 (f : Format) (g : Byte) (pl : List Byte) : (part7 f g pl).status = f.status := by
  rw [Packet.status_eq, byteAt_part7 _ _ _ (by omega)]; rfl

theorem type_part7 (f : Format) {g : Byte} (hg : g < 16) (pl : List Byte) : (part7 f g pl).type = PacketType.data := by
  rw [Packet.type_eq, byteAt_part7 _ _ _ (by omega), if_neg (by omega), byteAt_mk7_0, (hi3 hg).2.2.2]; rfl

theorem part7_put (f : Format) (g : Byte) {pl : List Byte} (h : pl.length < 14) (b : Byte) :
    (part7 f g pl).putByte (2 + pl.length) b = part7 f g (pl ++ [b]) := by
  apply Packet.ext_bytes
  intro c hc
  rw [Packet.byteAt_putByte _ (by omega) hc, byteAt_part7 _ _ _ hc, byteAt_part7 _ _ _ hc]
  by_cases h1 : c = 1
  · subst h1; rw [if_neg (by omega), if_pos rfl, if_pos rfl]
  · rw [if_neg h1, if_neg h1]
    by_cases h0 : c = 0
    · subst h0; rw [if_neg (by omega), byteAt_mk7_0, byteAt_mk7_0]
    · obtain ⟨i, rfl⟩ : ∃ i, c = 2 + i := ⟨c - 2, by omega⟩
      rw [byteAt_mk7_data _ _ _ (by omega), byteAt_mk7_data _ _ _ (by omega)]
      simp only [List.getD_eq_getElem?_getD, List.getElem?_append]
      by_cases hi : i < pl.length
      · rw [if_neg (by omega), if_pos hi]
      · rw [if_neg hi]
        by_cases he : i = pl.length
        · subst he; simp
        · rw [if_neg (by omega)]
          rw [List.getElem?_eq_none (by omega), List.getElem?_eq_none (by simp; omega)]

/-- Setting the second byte of a sysex packet under construction gives a finished one, of whatever format. -/
theorem part7_finish (f f' : Format) (g : Byte) (pl : List Byte) (h : pl.length ≤ 14) :
    (part7 f g pl).putByte 1 (f'.status + BitVec.ofNat 8 pl.length) = mk7 f' g pl := by
  apply Packet.ext_bytes
  intro c hc
  rw [Packet.byteAt_putByte _ (by omega) hc, byteAt_part7 _ _ _ hc]
  by_cases h1 : c = 1
  · subst h1; rw [if_pos rfl, byteAt_mk7_1]
  · rw [if_neg h1, if_neg h1]
    by_cases h0 : c = 0
    · subst h0; rw [byteAt_mk7_0, byteAt_mk7_0]
    · obtain ⟨i, rfl⟩ : ∃ i, c = 2 + i := ⟨c - 2, by omega⟩
      rw [byteAt_mk7_data _ _ _ (by omega), byteAt_mk7_data _ _ _ (by omega)]

/-- `m_packet_byte` after some data bytes of sysex in callback mode. -/
def idPos (d : List Byte) : Nat :=
  match d with
  | [] => 2
  | a :: t => if a = 0 then 3 + min 2 t.length else 3

theorem message7_snoc (a b : Byte) (t : List Byte) : message7 (a :: t ++ [b]) =
    if a = 0 ∧ t.length < 2 then
      ⟨(message7 (a :: t)).manufacturerID + (b.setWidth 32 <<< ((1 - t.length) * 8)), (message7 (a :: t)).data⟩
    else ⟨(message7 (a :: t)).manufacturerID, (message7 (a :: t)).data ++ [b]⟩ := by
  by_cases ha : a = 0
  · subst ha
    match t with
    | [] => simp [message7, shl8_ofNat]
    | [x] =>
      simp only [List.cons_append, List.nil_append, message7, if_true]
      rw [if_pos ⟨trivial, by simp⟩]
      congr 1
      apply BitVec.eq_of_toNat_eq
      have := x.isLt; have := b.isLt
      simp
    | x :: y :: t => simp [message7]
  · have ha' : ¬ a = 0#8 := ha
    rw [if_neg (fun h => ha h.1)]; simp [message7, ha']

theorem message7_id_hi (a : Byte) (t : List Byte) :
    ((message7 (a :: t)).manufacturerID &&& 0xFF0000 = 0) ↔ a = 0 := by
  by_cases ha : a = 0
  · subst ha
    refine iff_of_true ?_ rfl
    match t with
    | [] => simp [message7]
    | [x] => simp only [message7, if_true, ← shl8_ofNat]; bits
    | x :: y :: t => simp only [message7, if_true, ← shl8_or_ofNat]; bits
  · simp only [message7, ha, if_false, iff_false, ← shl16_ofNat]
    clear t
    revert ha; revert a; decide +kernel

theorem idPos_bounds (d : List Byte) : 2 ≤ idPos d ∧ idPos d ≤ 5 := by
  unfold idPos; split
  · omega
  · split <;> omega

/-- Data bytes of sysex in callback mode. -/
theorem continueCallback_eq (s : Parser) (d : List Byte) (b : Byte) (hp : s.packetByte = BitVec.ofNat 8 (idPos d))
    (hs : s.sysex = message7 d) :
    s.sysexContinueCallback b =
      { s with sysex := message7 (d ++ [b]), packetByte := BitVec.ofNat 8 (idPos (d ++ [b])) } := by
  unfold Parser.sysexContinueCallback
  match d with
  | [] =>
    have h2 : s.packetByte = 2 := hp
    rw [h2, if_neg (by decide), if_pos rfl, hs]
    by_cases hb : b = 0
    · subst hb; simp [message7, idPos]
    · have hb' : ¬ b = 0#8 := hb
      simp [message7, idPos, hb', shl16_ofNat]
  | a :: t =>
    rw [hp, hs, message7_snoc]
    by_cases ha : a = 0
    · subst ha
      have hid := (message7_id_hi 0 t).2 rfl
      match t with
      | [] =>
        have e : idPos [0] = 3 := rfl
        have e' : idPos ([0] ++ [b]) = 4 := rfl
        rw [e, e', if_neg (by decide), if_neg (by decide), if_pos ⟨by decide, hid⟩, if_pos ⟨rfl, by simp⟩]; rfl
      | [x] =>
        have e : idPos [0, x] = 4 := rfl
        have e' : idPos ([0, x] ++ [b]) = 5 := rfl
        rw [e, e', if_neg (by decide), if_neg (by decide), if_pos ⟨by decide, hid⟩, if_pos ⟨rfl, by simp⟩]; rfl
      | x :: y :: t =>
        have e : idPos (0 :: x :: y :: t) = 5 := by simp [idPos]
        have e' : idPos (0 :: x :: y :: t ++ [b]) = 5 := by simp [idPos]
        rw [e, e', if_neg (by decide), if_neg (by decide), if_neg (by intro h; exact absurd h.1 (by decide)),
          if_neg (by simp)]
    · have ha' : ¬ a = 0#8 := ha
      have hid : ¬ ((message7 (a :: t)).manufacturerID &&& 0xFF0000 = 0) := fun h => ha ((message7_id_hi a t).1 h)
      have e : idPos (a :: t) = 3 := by simp [idPos, ha']
      have e' : idPos (a :: t ++ [b]) = 3 := by simp [idPos, ha']
      rw [e, e', if_neg (by decide), if_neg (by decide), if_neg (fun h => hid h.2), if_neg (fun h => ha h.1)]

/-- The condition for delivering sysex in callback mode. -/
theorem endCallback_cond (d : List Byte) :
    ((message7 d).manufacturerID &&& 0xFF0000 = 0 ∧ BitVec.ofNat 8 (idPos d) < 5) ↔ ¬ HasId d := by
  match d with
  | [] => simp [message7, idPos, HasId]
  | a :: t =>
    rw [message7_id_hi]
    by_cases ha : a = 0
    · subst ha
      match t with
      | [] => simp [idPos, HasId]
      | [x] => simp [idPos, HasId]
      | x :: y :: t =>
        have e : idPos (0 :: x :: y :: t) = 5 := by simp [idPos]
        rw [e]; simp [HasId]
    · have ha' : ¬ a = 0#8 := ha
      simp [ha', HasId]

/-- The relation between a parser and the state of the grammar. -/
structure ParserRel (c : Settings) (st : StreamState) (p : Parser) : Prop where
  group : p.group = c.group
  cb : p.hasSysexCallback = c.sysexCallback
  on : p.invokeCallbacks = c.enabled
  lt : c.group < 16
  state : match st with
    | .idle => p.packet = {}
    | .message g s d => g < 16 ∧ 0x80 ≤ s ∧ d.length < dataBytes s ∧ p.packetByte = BitVec.ofNat 8 (2 + d.length) ∧
        p.missing = BitVec.ofNat 8 (dataBytes s - d.length) ∧
        ∃ x y, p.packet = shortPk g s x y ∧ (dataBytes s = 1 → y = 0) ∧ (∀ a, d = [a] → x = a)
    | .sysex g w d => g < 16 ∧
        if c.sysexCallback then p.packet = mk7 .start g [] ∧
          (if w then p.packetByte = BitVec.ofNat 8 (idPos d) ∧ p.sysex = message7 d
            else p.packetByte = 0 ∧ p.sysex = ⟨0, []⟩)
        else p.packetByte = BitVec.ofNat 8 (2 + d.length % 6) ∧
          p.packet = part7 (if d.length < 6 then .start else .cont) g (d.drop (d.length / 6 * 6))

theorem type_empty : ({} : Packet).type ≠ PacketType.data := by decide

/-- Outside sysex the packet under construction is not a data message. -/
theorem ParserRel.type_ne {c : Settings} {st : StreamState} {p : Parser} (h : ParserRel c st p)
    (hst : ∀ g w d, st ≠ .sysex g w d) : p.packet.type ≠ PacketType.data := by
  have hs := h.state
  match st with
  | .idle => dsimp only at hs; rw [hs]; exact type_empty
  | .message g s d =>
    dsimp only at hs
    obtain ⟨hg, _, _, _, _, x, y, e, _⟩ := hs
    rw [e]; exact type_shortPk hg x y
  | .sysex g w d => exact absurd rfl (hst g w d)

theorem ParserRel.type_sysex {c : Settings} {g : Byte} {w : Bool} {d : List Byte} {p : Parser}
    (h : ParserRel c (.sysex g w d) p) : p.packet.type = PacketType.data := by
  have hs := h.state
  dsimp only at hs
  obtain ⟨hg, hs⟩ := hs
  split at hs
  · rw [hs.1, ← part7_nil]; exact type_part7 _ hg _
  · rw [hs.2]; exact type_part7 _ hg _

theorem ParserRel.idle {c : Settings} {st : StreamState} {p : Parser} (h : ParserRel c st p) :
    ParserRel c .idle { p with packet := {} } := ⟨h.group, h.cb, h.on, h.lt, rfl⟩

/-- Status bytes that start a message: the state before does not matter. -/
theorem feedStatus_rel {c : Settings} {st : StreamState} {p : Parser} (h : ParserRel c st p) {b : Byte}
    (h1 : ¬ b ≥ 0xF8) (h2 : ¬ b < 0x80) (h3 : b ≠ 0xF7) :
    ∃ p', p.feedStatus b = .ok (p', (stepByte c st b).2) ∧ ParserRel c (stepByte c st b).1 p' := by
  have hc : byteEvents c st b = if b = 0xF0 then (.sysex c.group c.enabled [], [])
      else if b = 0xF6 then (.idle, [.packet (shortMessage c.group b [])])
      else if b = 0xF4 ∨ b = 0xF5 then (.idle, [])
      else (.message c.group b [], []) := by
    unfold byteEvents; rw [if_neg h1, if_neg h2, if_neg h3]
  unfold stepByte
  unfold Parser.feedStatus
  by_cases hF0 : b = 0xF0
  · -- sysex start
    rw [hc, if_pos hF0, if_pos hF0]
    unfold Parser.sysexStart
    rw [h.group, makeSysex7_eq _ h.lt]
    simp only [ok_bind]
    by_cases hcb : p.hasSysexCallback = true
    · rw [if_pos hcb]
      simp only [pure_eq_ok, ite_self]
      refine ⟨_, rfl, ⟨rfl, h.cb, h.on, h.lt, h.lt, ?_⟩⟩
      dsimp only
      rw [if_pos (by rw [← h.cb]; exact hcb)]
      refine ⟨?_, ?_⟩
      · rfl
      · rw [← h.on]
        split <;> simp_all [idPos, message7, Sysex.clear]
    · rw [if_neg hcb]
      simp only [pure_eq_ok, ite_self]
      refine ⟨_, rfl, ⟨rfl, h.cb, h.on, h.lt, h.lt, ?_⟩⟩
      dsimp only
      rw [if_neg (by rw [← h.cb]; exact hcb)]
      refine ⟨rfl, ?_⟩
      rw [if_pos (by simp), List.drop_nil, part7_nil]
  · rw [if_neg hF0] at hc ⊢
    by_cases hsc : b > 0xF0
    · -- system common
      rw [if_pos hsc]
      have hlt : ¬ b < 0xF0 := by simp only [BitVec.not_lt]; exact BitVec.le_of_lt hsc
      have hcases : b = 0xF1 ∨ b = 0xF2 ∨ b = 0xF3 ∨ b = 0xF4 ∨ b = 0xF5 ∨ b = 0xF6 := by
        clear hc h2 hlt hF0; revert h1 h3 hsc; revert b; decide +kernel
      unfold Parser.systemCommon
      rw [h.group, makeSystem_short h.lt hlt]
      simp only [status_shortPk]
      have msg : ∀ (b : Byte) (n : Nat), dataBytes b = n → n ≠ 0 → 0x80 ≤ b → ParserRel c (.message c.group b [])
          { p with group := c.group, packet := shortPk c.group b 0 0, packetByte := 2, missing := BitVec.ofNat 8 n } := by
        intro b n hn h0 hb
        refine ⟨rfl, h.cb, h.on, h.lt, h.lt, hb, ?_, rfl, ?_, 0, 0, rfl, fun _ => rfl, by simp⟩
        · rw [hn]; exact Nat.pos_of_ne_zero h0
        · rw [hn]; rfl
      rcases hcases with rfl | rfl | rfl | rfl | rfl | rfl
      · rw [show byteEvents c st 0xF1 = (.message c.group 0xF1 [], []) from hc, if_pos (by decide), ite_self]
        exact ⟨_, rfl, msg 0xF1 1 (by decide) (by decide) (by decide)⟩
      · rw [show byteEvents c st 0xF2 = (.message c.group 0xF2 [], []) from hc, if_neg (by decide), if_pos (by decide),
          ite_self]
        exact ⟨_, rfl, msg 0xF2 2 (by decide) (by decide) (by decide)⟩
      · rw [show byteEvents c st 0xF3 = (.message c.group 0xF3 [], []) from hc, if_pos (by decide), ite_self]
        exact ⟨_, rfl, msg 0xF3 1 (by decide) (by decide) (by decide)⟩
      · rw [show byteEvents c st 0xF4 = (.idle, []) from hc, if_neg (by decide), if_neg (by decide), if_neg (by decide),
          ite_self]
        exact ⟨_, rfl, rfl, h.cb, h.on, h.lt, rfl⟩
      · rw [show byteEvents c st 0xF5 = (.idle, []) from hc, if_neg (by decide), if_neg (by decide), if_neg (by decide),
          ite_self]
        exact ⟨_, rfl, rfl, h.cb, h.on, h.lt, rfl⟩
      · rw [show byteEvents c st 0xF6 = (.idle, [.packet (shortMessage c.group 0xF6 [])]) from hc, if_neg (by decide),
          if_neg (by decide), if_pos (by decide), shortMessage_nil, Parser.post]
        dsimp only
        rw [h.on]
        exact ⟨_, rfl, rfl, h.cb, rfl, h.lt, rfl⟩
    · -- channel voice
      rw [if_neg hsc, if_pos (by simpa using h2)]
      have hb : b < 0xF0 ∧ 0x80 ≤ b := by
        clear hc h; revert h2 hF0 hsc; revert b; decide +kernel
      unfold Parser.channelVoice
      rw [h.group, midi1_short h.lt hb.1]
      simp only [status_shortPk]
      rw [if_neg (by rintro rfl; exact absurd hb.1 (by decide)),
        if_neg (by rintro (rfl | rfl) <;> exact absurd hb.1 (by decide))] at hc
      rw [hc]
      have hn : dataBytes b = (if b &&& 0xF0 = CVStatus.noteOff ∨ b &&& 0xF0 = CVStatus.noteOn ∨
          b &&& 0xF0 = CVStatus.polyPressure ∨ b &&& 0xF0 = CVStatus.controlChange ∨ b &&& 0xF0 = CVStatus.pitchBend then 2
          else 1) ∧ ((b &&& 0xF0 = CVStatus.noteOff ∨ b &&& 0xF0 = CVStatus.noteOn ∨
          b &&& 0xF0 = CVStatus.polyPressure ∨ b &&& 0xF0 = CVStatus.controlChange ∨ b &&& 0xF0 = CVStatus.pitchBend) ∨
          (b &&& 0xF0 = CVStatus.programChange ∨ b &&& 0xF0 = CVStatus.channelPressure)) := by
        clear hc h h1 h2 h3 hF0 hsc; revert hb; revert b; decide +kernel
      have msg : ∀ n, dataBytes b = n → n ≠ 0 → ParserRel c (.message c.group b [])
          { p with group := c.group, packet := shortPk c.group b 0 0, packetByte := 2, missing := BitVec.ofNat 8 n } := by
        intro n hn h0
        refine ⟨rfl, h.cb, h.on, h.lt, h.lt, hb.2, ?_, rfl, ?_, 0, 0, rfl, fun _ => rfl, by simp⟩
        · rw [hn]; exact Nat.pos_of_ne_zero h0
        · rw [hn]; rfl
      obtain ⟨hn, hor⟩ := hn
      by_cases h2b : b &&& 0xF0 = CVStatus.noteOff ∨ b &&& 0xF0 = CVStatus.noteOn ∨
          b &&& 0xF0 = CVStatus.polyPressure ∨ b &&& 0xF0 = CVStatus.controlChange ∨ b &&& 0xF0 = CVStatus.pitchBend
      · rw [if_pos h2b] at hn ⊢
        rw [ite_self]
        exact ⟨_, rfl, msg 2 hn (by decide)⟩
      · rw [if_neg h2b] at hn ⊢
        rw [if_pos (by tauto)]
        rw [ite_self]
        exact ⟨_, rfl, msg 1 hn (by decide)⟩

/-- Data bytes outside of sysex. -/
theorem dataByte_rel {c : Settings} {st : StreamState} {p : Parser} (h : ParserRel c st p) {b : Byte}
    (h2 : b < 0x80) (hst : ∀ g w d, st ≠ .sysex g w d) :
    ∃ p', p.dataByte b = .ok (p', (stepByte c st b).2) ∧ ParserRel c (stepByte c st b).1 p' := by
  have h1 : ¬ b ≥ 0xF8 := by
    clear h; revert h2; revert b; decide +kernel
  have hs := h.state
  match st with
  | .idle =>
    dsimp only at hs
    unfold Parser.dataByte
    rw [hs, if_neg (by intro hh; exact hh.1 rfl)]
    have hev : byteEvents c .idle b = (.idle, []) := by unfold byteEvents; rw [if_neg h1, if_pos h2]
    unfold stepByte
    rw [hev, ite_self]
    exact ⟨p, rfl, h⟩
  | .message g s d =>
    dsimp only at hs
    obtain ⟨hg, hs80, hlen, hpb, hmiss, x, y, hp, hy, hx⟩ := hs
    have hle := dataBytes_le s
    have hev : byteEvents c (.message g s d) b = if d.length + 1 = dataBytes s then
        (if s < 0xF0 then .message g s [] else .idle, [.packet (shortMessage g s (d ++ [b]))])
      else (.message g s (d ++ [b]), []) := by
      unfold byteEvents; rw [if_neg h1, if_pos h2]
    unfold stepByte
    rw [hev]
    unfold Parser.dataByte
    have hs0 : s ≠ 0 := by rintro rfl; exact absurd hs80 (by decide)
    match d with
    | [] =>
      simp only [List.length_nil, Nat.zero_add, Nat.sub_zero, Nat.add_zero] at *
      rw [hp, hpb, hmiss, status_shortPk]
      by_cases hn : dataBytes s = 1
      · rw [hn, if_pos ⟨hs0, by decide, by decide⟩]
        rw [show (BitVec.ofNat 8 2).toNat = 2 from rfl, Packet.setByte_lt _ (by omega), ok_bind, putByte2_shortPk]
        rw [if_pos (by decide)]
        simp only [status_shortPk]
        have hy0 := hy hn
        subst hy0
        simp only [List.nil_append, shortMessage_one, if_true]
        by_cases hF : s < 0xF0
        · simp only [hF, if_true, status_shortPk, pure_eq_ok]
          rw [if_neg (by simpa using hF)]
          simp only [Parser.post, ← h.on]
          refine ⟨_, rfl, h.group, h.cb, h.on, h.lt, hg, hs80, by simp [hn], rfl, ?_, b, 0, rfl, fun _ => rfl, by simp⟩
          rw [hn]; rfl
        · simp only [hF, if_false, status_shortPk, pure_eq_ok]
          rw [if_pos (by simpa using hF)]
          simp only [Parser.post, ← h.on]
          exact ⟨_, rfl, h.group, h.cb, h.on, h.lt, rfl⟩
      · have hn2 : dataBytes s = 2 := by omega
        rw [hn2, if_pos ⟨hs0, by decide, by decide⟩]
        rw [show (BitVec.ofNat 8 2).toNat = 2 from rfl, Packet.setByte_lt _ (by omega), ok_bind, putByte2_shortPk]
        rw [if_neg (by decide)]
        simp only [pure_eq_ok, show ¬ (1 = 2) by omega, if_false, List.nil_append]
        simp only [ite_self]
        refine ⟨_, rfl, h.group, h.cb, h.on, h.lt, hg, hs80, by simp [hn2], rfl, ?_, b, y, rfl, by omega, by simp⟩
        rw [hn2]; show (2#8 - 1 : Byte) = BitVec.ofNat 8 (2 - 1); decide
    | [a] =>
      have hn2 : dataBytes s = 2 := by simp at hlen; omega
      simp only [List.length_singleton] at *
      rw [hp, hpb, hmiss, status_shortPk, hn2, if_pos ⟨hs0, by decide, by decide⟩]
      rw [show (BitVec.ofNat 8 (2 + 1)).toNat = 3 from rfl, Packet.setByte_lt _ (by omega), ok_bind, putByte3_shortPk]
      rw [if_pos (by decide)]
      have hxa := hx a rfl
      subst hxa
      simp only [List.cons_append, List.nil_append, shortMessage_two, status_shortPk, if_true]
      by_cases hF : s < 0xF0
      · simp only [hF, if_true, status_shortPk, pure_eq_ok]
        rw [if_neg (by simpa using hF)]
        simp only [Parser.post, ← h.on]
        refine ⟨_, rfl, h.group, h.cb, h.on, h.lt, hg, hs80, by simp [hn2], rfl, ?_, x, b, rfl, by omega, by simp⟩
        rw [hn2]; rfl
      · simp only [hF, if_false, status_shortPk, pure_eq_ok]
        rw [if_pos (by simpa using hF)]
        simp only [Parser.post, ← h.on]
        exact ⟨_, rfl, h.group, h.cb, h.on, h.lt, rfl⟩
    | _ :: _ :: _ => simp at hlen; omega
  | .sysex g w d => exact absurd rfl (hst g w d)

/-- One data byte of sysex in packet mode. -/
theorem continuePacket_rel {c : Settings} {g : Byte} {w : Bool} {d : List Byte} {p : Parser}
    (h : ParserRel c (.sysex g w d) p) {b : Byte} (h2 : b < 0x80) (hcb : c.sysexCallback = false) :
    ∃ p', p.sysexContinuePacket b = .ok (p', (stepByte c (.sysex g w d) b).2) ∧
      ParserRel c (stepByte c (.sysex g w d) b).1 p' := by
  have h1 : ¬ b ≥ 0xF8 := by
    clear h; revert h2; revert b; decide +kernel
  have hs := h.state
  dsimp only at hs
  rw [if_neg (by simp [hcb])] at hs
  obtain ⟨hg, hpb, hp⟩ := hs
  have hev : byteEvents c (.sysex g w d) b = if c.sysexCallback = false ∧ (d.length + 1) % 6 = 0 then
        (.sysex c.group w (d ++ [b]),
          [.packet (sysexPacket g (if d.length < 6 then 1 else 2) ((d ++ [b]).drop (d.length + 1 - 6)))])
      else (.sysex g w (d ++ [b]), []) := by
    unfold byteEvents; rw [if_neg h1, if_pos h2]
  unfold stepByte
  unfold Parser.sysexContinuePacket
  have hlt : d.length % 6 < 6 := Nat.mod_lt _ (by omega)
  have hdl : (d.drop (d.length / 6 * 6)).length = d.length % 6 := by
    rw [List.length_drop]; omega
  rw [hpb, hp, BitVec.toNat_ofNat, Nat.mod_eq_of_lt (by omega), Packet.setByte_lt _ (by omega), ok_bind, ← hdl,
    part7_put _ _ (by omega)]
  dsimp only
  by_cases h6 : (d.length + 1) % 6 = 0
  · have h5 : d.length % 6 = 5 := by omega
    rw [if_pos ⟨hcb, h6⟩] at hev
    rw [hev]
    have h8 : BitVec.ofNat 8 (2 + (d.drop (d.length / 6 * 6)).length) + 1 = 8 := by rw [hdl, h5]; decide
    rw [if_pos h8]
    have hdrop : (d ++ [b]).drop (d.length + 1 - 6) = d.drop (d.length / 6 * 6) ++ [b] := by
      rw [show d.length + 1 - 6 = d.length / 6 * 6 by omega, List.drop_append_of_le_length (by omega)]
    rw [hdrop]
    generalize hpl : d.drop (d.length / 6 * 6) ++ [b] = pl
    have hl : pl.length = 6 := by rw [← hpl]; simp [hdl, h5]
    have hst : (part7 (if d.length < 6 then .start else .cont) g pl).status &&& 0xF0 =
        (if d.length < 6 then Format.start else .cont).status := by
      rw [status_part7]; split <;> rfl
    have hfin : (part7 (if d.length < 6 then .start else .cont) g pl).putByte 1
        ((if d.length < 6 then Format.start else .cont).status + 6) = sysexPacket g (if d.length < 6 then 1 else 2) pl := by
      have e := part7_finish (if d.length < 6 then .start else .cont) (if d.length < 6 then .start else .cont) g pl (by omega)
      rw [hl] at e
      have e6 : (6 : Byte) = BitVec.ofNat 8 6 := rfl
      rw [e6, e, ← sysexPacket_eq _ hg (by omega)]
      congr 1
      split <;> rfl
    rw [h.group, makeSysex7_eq _ h.lt, Packet.setByte_lt _ (by omega), hst, hfin]
    have rel : ParserRel c (.sysex c.group w (d ++ [b]))
        { p with group := c.group, packet := mk7 .cont c.group [], packetByte := 2 } := by
      refine ⟨rfl, h.cb, h.on, h.lt, h.lt, ?_⟩
      rw [if_neg (by simp [hcb])]
      have hl' : (d ++ [b]).length = d.length + 1 := by simp
      rw [hl', h6]
      refine ⟨rfl, ?_⟩
      rw [if_neg (by omega), List.drop_eq_nil_of_le (by rw [hl']; omega), part7_nil]
    by_cases hon : p.invokeCallbacks = true
    · rw [if_pos hon, if_pos (show c.enabled = true by rw [← h.on]; exact hon)]
      simp only [ok_bind, pure_eq_ok]
      exact ⟨_, rfl, by simpa using rel⟩
    · rw [if_neg hon, if_neg (show ¬ c.enabled = true by rw [← h.on]; exact hon)]
      simp only [ok_bind, pure_eq_ok]
      exact ⟨_, rfl, by simpa using rel⟩
  · rw [if_neg (by simp [h6])] at hev
    rw [hev, if_neg ?_]
    · simp only [ite_self]
      refine ⟨_, rfl, h.group, h.cb, h.on, h.lt, hg, ?_⟩
      rw [if_neg (by simp [hcb])]
      have hl' : (d ++ [b]).length = d.length + 1 := by simp
      have hdiv : (d.length + 1) / 6 = d.length / 6 := by omega
      have hmod : (d.length + 1) % 6 = d.length % 6 + 1 := by omega
      rw [hl', hdiv, hmod]
      refine ⟨?_, ?_⟩
      · dsimp only
        rw [hdl]
        apply BitVec.eq_of_toNat_eq; simp; omega
      · dsimp only
        rw [List.drop_append_of_le_length (by omega)]
        congr 1
        by_cases h5 : d.length < 6
        · rw [if_pos h5, if_pos (by omega)]
        · rw [if_neg h5, if_neg (by omega)]
    · rw [hdl]
      intro e
      have := congrArg BitVec.toNat e
      simp at this
      omega

/-- Sysex end in packet mode. -/
theorem endPacket_rel {c : Settings} {g : Byte} {w : Bool} {d : List Byte} {p : Parser}
    (h : ParserRel c (.sysex g w d) p) (hcb : c.sysexCallback = false) :
    ∃ p', p.sysexEndPacket = .ok (p', (stepByte c (.sysex g w d) 0xF7).2) ∧
      ParserRel c (stepByte c (.sysex g w d) 0xF7).1 p' := by
  have hs := h.state
  dsimp only at hs
  rw [if_neg (by simp [hcb])] at hs
  obtain ⟨hg, hpb, hp⟩ := hs
  have hev : byteEvents c (.sysex g w d) 0xF7 = (.idle,
        if c.sysexCallback then if w ∧ HasId d then [.sysex (message7 d)] else []
        else if d = [] then []
        else if d.length < 6 then [.packet (sysexPacket g 0 d)]
        else [.packet (sysexPacket g 3 (d.drop (d.length / 6 * 6)))]) := by
    unfold byteEvents; rw [if_neg (by decide), if_neg (by decide), if_pos rfl]
  unfold stepByte
  rw [hev, if_neg (by simp [hcb])]
  unfold Parser.sysexEndPacket
  have hlt : d.length % 6 < 6 := Nat.mod_lt _ (by omega)
  have hdl : (d.drop (d.length / 6 * 6)).length = d.length % 6 := by
    rw [List.length_drop]; omega
  have hsize : (BitVec.ofNat 8 (2 + d.length % 6) - 2) &&& 0x0F = BitVec.ofNat 8 (d.length % 6) := by
    generalize d.length % 6 = k at hlt; interval_cases k <;> rfl
  have hst : (part7 (if d.length < 6 then .start else .cont) g (d.drop (d.length / 6 * 6))).status &&& 0xF0 =
      (if d.length < 6 then Format.start else .cont).status := by
    rw [status_part7]; split <;> rfl
  rw [hpb, hp, hst, hsize]
  dsimp only
  by_cases h6 : d.length < 6
  · simp only [h6, if_true]
    have hdrop : d.drop (d.length / 6 * 6) = d := by rw [show d.length / 6 * 6 = 0 by omega, List.drop_zero]
    have hmod : d.length % 6 = d.length := Nat.mod_eq_of_lt h6
    rw [hdrop, hmod]
    by_cases h0 : d = []
    · subst h0
      rw [if_pos ⟨trivial, by decide⟩]
      rw [pure_eq_ok, if_pos rfl, ite_self]
      exact ⟨_, rfl, h.group, h.cb, h.on, h.lt, rfl⟩
    · have hpos : 0 < d.length := List.length_pos_iff.2 h0
      have hge : ¬ BitVec.ofNat 8 (2 + d.length) < 3 := by
        generalize d.length = k at h6 hpos; interval_cases k <;> decide
      rw [if_neg (by intro e; exact hge e.2), if_neg h0]
      rw [Packet.setByte_lt _ (by omega), ok_bind, part7_finish _ _ _ _ (by omega), ← sysexPacket_eq _ hg (by omega)]
      simp only [pure_eq_ok, Parser.post, ← h.on]
      exact ⟨_, rfl, h.group, h.cb, h.on, h.lt, rfl⟩
  · simp only [h6, if_false]
    rw [if_neg (by intro e; exact absurd e.1 (by decide)), if_neg (by decide),
      if_neg (show ¬ d = [] by rintro rfl; simp at h6), Packet.setByte_lt _ (by omega), ok_bind]
    have e := part7_finish .cont .fin g (d.drop (d.length / 6 * 6)) (by omega)
    rw [hdl] at e
    rw [e, ← sysexPacket_eq _ hg (by omega)]
    simp only [pure_eq_ok, Parser.post, ← h.on]
    exact ⟨_, rfl, h.group, h.cb, h.on, h.lt, rfl⟩

/-- One byte: the parser does what the grammar says. -/
theorem feed_rel {c : Settings} {st : StreamState} {p : Parser} (h : ParserRel c st p) (b : Byte) :
    ∃ p', p.feed b = .ok (p', (stepByte c st b).2) ∧ ParserRel c (stepByte c st b).1 p' := by
  unfold Parser.feed
  by_cases h1 : b ≥ SystemStatus.clock
  · -- real time
    rw [if_pos h1]
    have h1' : b ≥ 0xF8 := h1
    have hF : ¬ b < 0xF0 := by clear h h1; revert h1'; revert b; decide +kernel
    unfold stepByte byteEvents
    rw [if_pos h1']
    unfold Parser.systemRealtime
    split
    · exact ⟨p, by simp, h⟩
    · rw [h.group, makeSystem_short h.lt hF, shortMessage_nil]
      exact ⟨p, by simp only [Parser.post, h.on], h⟩
  · rw [if_neg h1]
    have h1' : ¬ b ≥ 0xF8 := h1
    match st with
    | .sysex g w d =>
      rw [if_pos h.type_sysex]
      by_cases h2 : b < 0x80
      · rw [if_pos h2]
        by_cases hcb : p.hasSysexCallback = true
        · rw [if_pos hcb]
          have hc : c.sysexCallback = true := by rw [← h.cb]; exact hcb
          have hs := h.state
          dsimp only at hs
          rw [if_pos hc] at hs
          obtain ⟨hg, ht, hs⟩ := hs
          have hev : stepByte c (.sysex g w d) b = (.sysex g w (d ++ [b]), []) := by
            unfold stepByte byteEvents; rw [if_neg h1', if_pos h2]; simp [hc]
          rw [hev]
          cases w with
          | true =>
            simp only [if_true] at hs
            rw [continueCallback_eq p d b hs.1 hs.2]
            refine ⟨_, rfl, h.group, h.cb, h.on, h.lt, hg, ?_⟩
            rw [if_pos hc]
            exact ⟨ht, rfl, rfl⟩
          | false =>
            have hs : p.packetByte = 0 ∧ p.sysex = ⟨0, []⟩ := hs
            unfold Parser.sysexContinueCallback
            rw [if_pos (Or.inl hs.1)]
            refine ⟨_, rfl, h.group, h.cb, h.on, h.lt, hg, ?_⟩
            rw [if_pos hc]
            exact ⟨ht, hs⟩
        · rw [if_neg hcb]
          exact continuePacket_rel h h2 (by rw [← h.cb]; simpa using hcb)
      · rw [if_neg h2]
        by_cases h3 : b ≠ 0xF7
        · rw [if_pos h3]
          obtain ⟨p', e, r⟩ := feedStatus_rel h.idle h1' h2 h3
          have hev : stepByte c .idle b = stepByte c (.sysex g w d) b := by
            unfold stepByte byteEvents
            rw [if_neg h1', if_neg h2, if_neg h3, if_neg h1', if_neg h2, if_neg h3]
          rw [hev] at e r
          exact ⟨p', e, r⟩
        · rw [if_neg h3]
          have h3 : b = 0xF7 := by simpa using h3
          subst h3
          by_cases hcb : p.hasSysexCallback = true
          · rw [if_pos hcb]
            have hc : c.sysexCallback = true := by rw [← h.cb]; exact hcb
            have hs := h.state
            dsimp only at hs
            rw [if_pos hc] at hs
            obtain ⟨hg, ht, hs⟩ := hs
            have hev : byteEvents c (.sysex g w d) 0xF7 =
                (.idle, if w ∧ HasId d then [.sysex (message7 d)] else []) := by
              unfold byteEvents; rw [if_neg h1', if_neg h2, if_pos rfl]; simp [hc]
            unfold stepByte
            unfold Parser.sysexEndCallback
            cases w with
            | true =>
              simp only [if_true] at hs
              dsimp only
              rw [hs.1, hs.2]
              by_cases hid : HasId d
              · rw [if_pos ⟨rfl, hid⟩] at hev
                rw [hev, if_neg (by rw [endCallback_cond]; simpa using hid), ← h.on]
                exact ⟨_, rfl, h.group, h.cb, h.on, h.lt, rfl⟩
              · rw [if_neg (by simp [hid])] at hev
                rw [hev, if_pos (by rw [endCallback_cond]; exact hid), ite_self]
                exact ⟨_, rfl, h.group, h.cb, h.on, h.lt, rfl⟩
            | false =>
              have hs : p.packetByte = 0 ∧ p.sysex = ⟨0, []⟩ := hs
              dsimp only
              rw [if_neg (by simp)] at hev
              rw [hev, hs.1, hs.2, if_pos ⟨by decide, by decide⟩, ite_self]
              exact ⟨_, rfl, h.group, h.cb, h.on, h.lt, rfl⟩
          · rw [if_neg hcb]
            exact endPacket_rel h (by rw [← h.cb]; simpa using hcb)
    | .idle | .message .. =>
      rw [if_neg (h.type_ne (by simp))]
      by_cases h2 : b < 0x80
      · unfold Parser.feedStatus
        have hn : b ≠ 0xF0 ∧ ¬ b > 0xF0 ∧ ¬ b ≥ 0x80 := by
          clear h h1 h1'; revert h2; revert b; decide +kernel
        rw [if_neg hn.1, if_neg hn.2.1, if_neg hn.2.2]
        exact dataByte_rel h h2 (by simp)
      · by_cases h3 : b = 0xF7
        · subst h3
          unfold Parser.feedStatus
          rw [if_neg (by decide), if_pos (by decide)]
          unfold Parser.systemCommon
          rw [h.group, makeSystem_short h.lt (by decide)]
          simp only [status_shortPk]
          unfold stepByte
          rw [show byteEvents c _ 0xF7 = (.idle, []) from rfl, ite_self, if_neg (by decide), if_neg (by decide),
            if_neg (by decide)]
          exact ⟨_, rfl, rfl, h.cb, h.on, h.lt, rfl⟩
        · exact feedStatus_rel h h1' h2 h3

/-- A sequence of bytes. -/
theorem feedAll_rel (bs : List Byte) : ∀ {c : Settings} {st : StreamState} {p : Parser}, ParserRel c st p →
    ∃ p', p.feedAll bs = .ok (p', (stepBytes c st bs).2) ∧ ParserRel c (stepBytes c st bs).1 p' := by
  induction bs with
  | nil => intro c st p h; exact ⟨p, rfl, h⟩
  | cons b bs ih =>
    intro c st p h
    obtain ⟨p', e, r⟩ := feed_rel h b
    obtain ⟨p'', e', r'⟩ := ih r
    refine ⟨p'', ?_, r'⟩
    rw [Parser.feedAll, e, ok_bind]
    dsimp only
    rw [e', ok_bind]; rfl

/-- A new parser is idle. -/
theorem new_rel {g : Byte} (hg : g < 16) (cb on : Bool) : ParserRel ⟨g, cb, on⟩ .idle (Parser.new g cb on) :=
  ⟨rfl, rfl, rfl, hg, rfl⟩

end Midi

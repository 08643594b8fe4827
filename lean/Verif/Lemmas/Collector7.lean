import Verif.Props.SysexPackets
import Verif.Model.Collector
import Verif.Spec.Collector

/-!
# Helper lemmas: the sysex7 collector as an abstract machine on payloads
-/

namespace Midi
open Spec

/-- What `Collector7.collect` does to the message and the number of manufacturer id bytes. -/
def coll7 (s : Sysex × Nat) (byte : Byte) : Sysex × Nat :=
  match s.2 with
  | 0 => if byte ≠ 0 then (⟨byte.setWidth 32 <<< 16, s.1.data⟩, 3) else (s.1, 1)
  | 1 => (⟨byte.setWidth 32 <<< 8, s.1.data⟩, 2)
  | 2 => (⟨s.1.manufacturerID ||| byte.setWidth 32, s.1.data⟩, 3)
  | _ => (⟨s.1.manufacturerID, s.1.data ++ [byte]⟩, s.2)

/-- Message and number of id bytes after collecting a payload. -/
def parse7 (pl : List Byte) : Sysex × Nat := pl.foldl coll7 (⟨0, []⟩, 0)

theorem coll7_done (l : List Byte) : ∀ (i : Word) (d : List Byte), l.foldl coll7 (⟨i, d⟩, 3) = (⟨i, d ++ l⟩, 3) := by
  induction l with
  | nil => intro i d; simp
  | cons b l ih => intro i d; rw [List.foldl_cons]; simp only [coll7]; rw [ih]; simp

theorem shl16_ofNat (b : Byte) : b.setWidth 32 <<< 16 = BitVec.ofNat 32 (b.toNat * 65536) := by
  apply BitVec.eq_of_toNat_eq
  simp [BitVec.toNat_shiftLeft, Nat.shiftLeft_eq]

theorem shl8_ofNat (b : Byte) : b.setWidth 32 <<< 8 = BitVec.ofNat 32 (b.toNat * 256) := by
  apply BitVec.eq_of_toNat_eq
  simp [BitVec.toNat_shiftLeft, Nat.shiftLeft_eq]

theorem shl8_or_ofNat (b c : Byte) : b.setWidth 32 <<< 8 ||| c.setWidth 32 = BitVec.ofNat 32 (b.toNat * 256 + c.toNat) := by
  have e := toNat_wordOf 0 0 b c
  have w : wordOf 0 0 b c = b.setWidth 32 <<< 8 ||| c.setWidth 32 := by unfold wordOf; simp
  rw [← w]
  apply BitVec.eq_of_toNat_eq
  rw [e, BitVec.toNat_ofNat, show BitVec.toNat (0 : Byte) = 0 from rfl]
  have := b.isLt; have := c.isLt; omega

theorem parse7_message (pl : List Byte) : (parse7 pl).1 = message7 pl := by
  unfold parse7
  match pl with
  | [] => rfl
  | a :: d =>
    unfold message7
    dsimp only
    by_cases ha : a = 0
    · subst ha
      rw [if_pos rfl, List.foldl_cons]
      match d with
      | [] => rfl
      | [b] => simp only [coll7, List.foldl_cons, List.foldl_nil, ← shl8_ofNat]; rfl
      | b :: c :: d =>
        rw [List.foldl_cons, List.foldl_cons]
        have : coll7 (coll7 (coll7 (⟨0, []⟩, 0) 0) b) c = (⟨b.setWidth 32 <<< 8 ||| c.setWidth 32, []⟩, 3) := rfl
        rw [this, coll7_done, shl8_or_ofNat]; rfl
    · rw [if_neg ha, List.foldl_cons]
      simp only [coll7, ne_eq, ha, not_false_eq_true, if_true]
      rw [coll7_done, shl16_ofNat]; rfl

theorem coll7_data (s : Sysex × Nat) (b : Byte) :
    (coll7 s b).1.data = s.1.data ∨ ((coll7 s b).1.data = s.1.data ++ [b]) := by
  unfold coll7
  split
  · split <;> simp
  · simp
  · simp
  · simp

/-- The loop over the payload, in terms of `coll7`, when there is enough capacity. -/
theorem collectLoop7_eq (p : Packet) (n : Nat) : ∀ (b : Nat) (c : Collector7), 2 + b + n ≤ 16 →
    c.sysex.data.length + n ≤ c.capacity →
    c.collectLoop p b n = .ok { c with
      sysex := ((((List.range' b n).map fun i => p.byteAt (2 + i)).foldl coll7 (c.sysex, c.idRead))).1,
      idRead := ((((List.range' b n).map fun i => p.byteAt (2 + i)).foldl coll7 (c.sysex, c.idRead))).2 } := by
  induction n with
  | zero => intro b c _ _; simp [Collector7.collectLoop]
  | succ n ih =>
    intro b c hb hc
    unfold Collector7.collectLoop
    rw [sysex7PayloadByte, Packet.getByte_lt _ (by omega), ok_bind, List.range'_succ, List.map_cons, List.foldl_cons]
    generalize p.byteAt (2 + b) = x
    have key : c.collect x = { c with sysex := (coll7 (c.sysex, c.idRead) x).1, idRead := (coll7 (c.sysex, c.idRead) x).2 } := by
      unfold Collector7.collect coll7
      rcases hr : c.idRead with _ | _ | _ | k
      · by_cases hx : x ≠ 0
        · simp only [if_pos hx]
        · simp only [if_neg hx]
      · simp
      · simp
      · simp only [Collector7.push, vecPushCap]
        rw [if_pos (by omega), ← hr]
    rw [key, ih _ _ (by omega)]
    dsimp only
    rcases coll7_data (c.sysex, c.idRead) x with h | h <;> rw [h] <;> simp <;> omega

/-! ## The abstract machine -/

/-- `lim` data bytes are allowed, 0 means no limit. -/
def fits (lim size : Nat) : Prop := lim = 0 ∨ size ≤ lim

instance (lim size : Nat) : Decidable (fits lim size) := inferInstanceAs (Decidable (_ ∨ _))

/-- Step of the abstract machine: state is whether a message is running, and the payload collected and not cleared. -/
def abs7 (lim : Nat) (st : Bool × List Byte) (it : Nat × List Byte) : (Bool × List Byte) × List (List Byte) :=
  if it.1 ≤ 1 then
    let pl := if st.1 then [] else st.2
    if fits lim ((message7 pl).data.length + it.2.length) then
      if it.1 = 0 then ((false, []), [pl ++ it.2]) else ((true, pl ++ it.2), [])
    else ((false, pl), [])
  else if st.1 then
    if fits lim ((message7 st.2).data.length + it.2.length) then
      if it.1 = 3 then ((false, []), [st.2 ++ it.2]) else ((true, st.2 ++ it.2), [])
    else ((false, st.2), [])
  else ((false, []), [])

/-- Relation between the collector and the abstract machine. -/
structure Rel7 (lim : Nat) (c : Collector7) (st : Bool × List Byte) : Prop where
  parse : (c.sysex, c.idRead) = parse7 st.2
  state : c.state = if st.1 then 0x20 else 0x10
  size : c.sysex.data.length ≤ c.capacity
  max : c.maxSize = lim
  cap : lim = 0 ∨ c.capacity ≤ lim
  cb : c.hasCallback = true

theorem ensureCapacity_spec {cap lim size n : Nat} (hs : size ≤ cap) (hc : lim = 0 ∨ cap ≤ lim) (hn : n ≤ 13) :
    ((ensureCapacity cap lim size n).2 = true ↔ fits lim (size + n)) ∧
    ((ensureCapacity cap lim size n).2 = true → size + n ≤ (ensureCapacity cap lim size n).1) ∧
    cap ≤ (ensureCapacity cap lim size n).1 ∧
    (lim = 0 ∨ (ensureCapacity cap lim size n).1 ≤ lim) := by
  unfold ensureCapacity fits vecReserve
  by_cases h : size + n > cap
  · rw [if_pos h]
    by_cases hl : lim > 0
    · simp only [hl, decide_true, if_true, Bool.true_and, decide_eq_true_eq]
      split
      · simp; omega
      · simp; omega
    · simp only [hl, decide_false, Bool.false_and]
      simp; omega
  · rw [if_neg h]; simp; omega

theorem payload7_eq_range' (p : Packet) : payload7 p = (List.range' 0 (sysex7PayloadSize p)).map fun i => p.byteAt (2 + i) := by
  unfold payload7 sysex7PayloadSize
  rw [Packet.status_eq, toNat_and0F, List.range_eq_range']

theorem code_iff (p : Packet) (h : IsSysex7 p) :
    (sysex7ViewStatus p = 0x00 ↔ formatCode p = 0) ∧ (sysex7ViewStatus p = 0x10 ↔ formatCode p = 1) ∧
    (sysex7ViewStatus p = 0x20 ↔ formatCode p = 2) ∧ (sysex7ViewStatus p = 0x30 ↔ formatCode p = 3) := by
  have h2 := h.2.1
  unfold sysex7ViewStatus formatCode
  rw [Packet.status_eq]
  revert h2
  generalize p.byteAt 1 = b
  revert b; decide +kernel

theorem reset_rel7 {lim : Nat} {c : Collector7} {st : Bool × List Byte} (h : Rel7 lim c st) : Rel7 lim c.reset (false, []) := by
  obtain ⟨_, _, h3, h4, h5, h6⟩ := h
  refine ⟨rfl, rfl, by simp [Collector7.reset, Sysex.clear], h4, ?_, h6⟩
  simp only [Collector7.reset, vecClearCap]
  split <;> omega

/-- Collecting the payload of a packet, in the abstract machine. -/
theorem feedPayload7_rel {lim : Nat} {c : Collector7} {r : Bool} {pl : List Byte} (h : Rel7 lim c (r, pl)) (p : Packet)
    (hp : IsSysex7 p) :
    ∃ c' st' out, c.feedPayload p = .ok (c', out.map message7) ∧ Rel7 lim c' st' ∧ (st', out) =
      if fits lim ((message7 pl).data.length + (payload7 p).length) then
        if formatCode p = 0 ∨ formatCode p = 3 then ((false, []), [pl ++ payload7 p]) else ((true, pl ++ payload7 p), [])
      else ((false, pl), []) := by
  have hlim := h.max
  subst hlim
  have hlen : (payload7 p).length = sysex7PayloadSize p := by rw [payload7_eq_range']; simp
  have hn : sysex7PayloadSize p ≤ 6 := (C15_view_payload p ((C15_is_sysex7_packet_iff p).2 hp)).1
  have hdata : c.sysex.data = (message7 pl).data := by
    rw [← parse7_message, ← h.parse]
  obtain ⟨e1, e2, e3, e4⟩ := ensureCapacity_spec (n := sysex7PayloadSize p) h.size h.cap (by omega)
  unfold Collector7.feedPayload
  rw [hlen, ← hdata]
  dsimp only at hdata ⊢
  generalize ensureCapacity c.capacity c.maxSize c.sysex.data.length (sysex7PayloadSize p) = ec at e1 e2 e3 e4 ⊢
  obtain ⟨cap, acc⟩ := ec
  dsimp only at e1 e2 e3 e4 ⊢
  cases hacc : acc
  · subst hacc
    have hf : ¬ fits c.maxSize (c.sysex.data.length + sysex7PayloadSize p) := by rw [← e1]; simp
    refine ⟨_, _, _, rfl, ?_, (if_neg hf).symm⟩
    exact ⟨h.parse, rfl, le_trans h.size e3, h.max, e4, h.cb⟩
  · subst hacc
    rw [if_pos (e1.1 rfl)]
    simp only [Bool.not_true, Bool.false_eq_true, if_false]
    rw [collectLoop7_eq p _ 0 _ (by omega) (e2 rfl)]
    simp only [ok_bind]
    have hfold : ((List.range' 0 (sysex7PayloadSize p)).map fun i => p.byteAt (2 + i)).foldl coll7 (c.sysex, c.idRead) =
        parse7 (pl ++ payload7 p) := by
      rw [h.parse, ← payload7_eq_range', parse7, parse7, List.foldl_append]
    rw [hfold]
    have hsz : (parse7 (pl ++ payload7 p)).1.data.length ≤ c.sysex.data.length + sysex7PayloadSize p := by
      rw [← hfold]
      have gen : ∀ (l : List Byte) (s : Sysex × Nat), (l.foldl coll7 s).1.data.length ≤ s.1.data.length + l.length := by
        intro l
        induction l with
        | nil => intro s; simp
        | cons b l ih =>
          intro s
          rw [List.foldl_cons]
          have := ih (coll7 s b)
          rcases coll7_data s b with h | h <;> rw [h] at this <;> simp at this ⊢ <;> omega
      have := gen ((List.range' 0 (sysex7PayloadSize p)).map fun i => p.byteAt (2 + i)) (c.sysex, c.idRead)
      simpa using this
    have rel : ∀ (q : Byte) (b : Bool), q = (if b then 0x20 else 0x10) → Rel7 c.maxSize
        { c with capacity := cap, sysex := (parse7 (pl ++ payload7 p)).1, idRead := (parse7 (pl ++ payload7 p)).2, state := q }
        (b, pl ++ payload7 p) := by
      intro q b hq
      exact ⟨rfl, hq, le_trans hsz (e2 rfl), rfl, e4, h.cb⟩
    have hcode : (sysex7ViewStatus p = 0x00 ∨ sysex7ViewStatus p = 0x30) ↔ (formatCode p = 0 ∨ formatCode p = 3) := by
      rw [(code_iff p hp).1, (code_iff p hp).2.2.2]
    by_cases hd : formatCode p = 0 ∨ formatCode p = 3
    · rw [if_pos hd, if_pos (hcode.2 hd)]
      refine ⟨_, (false, []), [pl ++ payload7 p], ?_, reset_rel7 (rel _ r h.state), rfl⟩
      simp [h.cb, parse7_message, pure_eq_ok]
    · rw [if_neg hd, if_neg (fun x => hd (hcode.1 x))]
      exact ⟨_, _, _, rfl, rel _ true rfl, rfl⟩

/-- One packet in the abstract machine. -/
theorem feed7_rel {lim : Nat} {c : Collector7} {st : Bool × List Byte} (h : Rel7 lim c st) (p : Packet) (hp : IsSysex7 p) :
    ∃ c', c.feed p = .ok (c', (abs7 lim st (formatCode p, payload7 p)).2.map message7) ∧
      Rel7 lim c' (abs7 lim st (formatCode p, payload7 p)).1 := by
  obtain ⟨r, pl⟩ := st
  have hb : isSysex7Packet p = true := (C15_is_sysex7_packet_iff p).2 hp
  have h3 : formatCode p ≤ 3 := hp.2.1
  obtain ⟨c0, c1, c2, c3⟩ := code_iff p hp
  have hst : c.state = if r then 0x20 else 0x10 := h.state
  unfold Collector7.feed sysex7View abs7
  rw [assert_ok hb]
  simp only [hb, Bool.not_true, Bool.false_eq_true, if_false, ok_bind, pure_eq_ok]
  by_cases hlow : formatCode p ≤ 1
  · rw [if_pos (show sysex7ViewStatus p = 0x00 ∨ sysex7ViewStatus p = 0x10 by rw [c0, c1]; omega), if_pos hlow]
    have key : ∃ d : Collector7, (if c.state ≠ 0x10 then c.reset.feedPayload p else c.feedPayload p) = d.feedPayload p ∧
        Rel7 lim d (false, if r then [] else pl) := by
      cases r
      · refine ⟨c, ?_, h⟩
        rw [if_neg]; rw [hst]; decide
      · refine ⟨c.reset, ?_, reset_rel7 h⟩
        rw [if_pos]; rw [hst]; decide
    obtain ⟨d, hd, hrel⟩ := key
    rw [hd]
    obtain ⟨c', st', out, e, hr', heq⟩ := feedPayload7_rel hrel p hp
    have : (formatCode p = 0 ∨ formatCode p = 3) ↔ formatCode p = 0 := by omega
    simp only [this] at heq
    rw [e, ← heq]
    exact ⟨c', rfl, hr'⟩
  · rw [if_neg (show ¬ (sysex7ViewStatus p = 0x00 ∨ sysex7ViewStatus p = 0x10) by rw [c0, c1]; omega), if_neg hlow]
    cases r
    · rw [if_pos (by rw [hst]; decide)]
      exact ⟨_, rfl, reset_rel7 h⟩
    · rw [if_neg (by rw [hst]; decide)]
      obtain ⟨c', st', out, e, hr', heq⟩ := feedPayload7_rel h p hp
      have : (formatCode p = 0 ∨ formatCode p = 3) ↔ formatCode p = 3 := by omega
      simp only [this] at heq
      simp only [if_true]
      rw [e, ← heq]
      exact ⟨c', rfl, hr'⟩

/-- The abstract machine on a sequence. -/
def absRun7 (lim : Nat) (st : Bool × List Byte) : List (Nat × List Byte) → (Bool × List Byte) × List (List Byte)
  | [] => (st, [])
  | it :: its =>
    let r := abs7 lim st it
    let r' := absRun7 lim r.1 its
    (r'.1, r.2 ++ r'.2)

theorem items7_cons_pos {p : Packet} (ps : List Packet) (h : IsSysex7 p) :
    items7 (p :: ps) = (formatCode p, payload7 p) :: items7 ps := by
  simp [items7, h]

theorem items7_cons_neg {p : Packet} (ps : List Packet) (h : ¬ IsSysex7 p) : items7 (p :: ps) = items7 ps := by
  simp [items7, h]

theorem items7_append (ps qs : List Packet) : items7 (ps ++ qs) = items7 ps ++ items7 qs := by
  simp [items7]

/-- A packet sequence in the abstract machine. -/
theorem feedAll7_rel {lim : Nat} (ps : List Packet) : ∀ {c : Collector7} {st : Bool × List Byte}, Rel7 lim c st →
    ∃ c', c.feedAll ps = .ok (c', (absRun7 lim st (items7 ps)).2.map message7) ∧
      Rel7 lim c' (absRun7 lim st (items7 ps)).1 := by
  induction ps with
  | nil => intro c st h; exact ⟨c, rfl, h⟩
  | cons p ps ih =>
    intro c st h
    unfold Collector7.feedAll
    by_cases hp : IsSysex7 p
    · obtain ⟨c', e, h'⟩ := feed7_rel h p hp
      obtain ⟨c'', e', h''⟩ := ih h'
      rw [e]
      simp only [ok_bind]
      rw [e']
      rw [items7_cons_pos ps hp]
      refine ⟨c'', ?_, h''⟩
      simp [absRun7, pure_eq_ok]
    · have hb : isSysex7Packet p = false := by
        rw [← Bool.not_eq_true, C15_is_sysex7_packet_iff]; exact hp
      obtain ⟨c'', e', h''⟩ := ih h
      rw [items7_cons_neg ps hp]
      refine ⟨c'', ?_, h''⟩
      unfold Collector7.feed
      simp only [hb, Bool.not_false, if_true, pure_eq_ok, ok_bind]
      rw [e']
      rfl

theorem absRun7_append (lim : Nat) (a b : List (Nat × List Byte)) : ∀ st,
    absRun7 lim st (a ++ b) = ((absRun7 lim (absRun7 lim st a).1 b).1, (absRun7 lim st a).2 ++ (absRun7 lim (absRun7 lim st a).1 b).2) := by
  induction a with
  | nil => intro st; rfl
  | cons x a ih =>
    intro st
    simp only [List.cons_append, absRun7]
    rw [ih]
    simp

end Midi

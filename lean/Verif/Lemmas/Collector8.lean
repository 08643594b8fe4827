import Verif.Lemmas.Machine7

/-!
# Helper lemmas: the sysex8 collector as an abstract machine on payloads
-/

namespace Midi
open Spec

/-- What `Collector8.collect` does to the message and the state of reading the manufacturer id. -/
def coll8 (s : Sysex × IdState) (byte : Byte) : Sysex × IdState :=
  match s.2 with
  | .detect =>
    if byte &&& 0x80 ≠ 0 then (⟨(byte &&& 0x7F).setWidth 32 <<< 8, s.1.data⟩, .threeBytes)
    else (⟨0, s.1.data⟩, if byte = 0 then .oneByte else .invalid)
  | .oneByte => (⟨(byte &&& 0x7F).setWidth 32 <<< 16, s.1.data⟩, .done)
  | .threeBytes => (⟨s.1.manufacturerID ||| (byte &&& 0x7F).setWidth 32, s.1.data⟩, .done)
  | .invalid => (s.1, .done)
  | .done => (⟨s.1.manufacturerID, s.1.data ++ [byte]⟩, .done)

/-- Message and id state after collecting a payload. -/
def parse8 (pl : List Byte) : Sysex × IdState := pl.foldl coll8 (⟨0, []⟩, .detect)

theorem coll8_done (l : List Byte) : ∀ (i : Word) (d : List Byte), l.foldl coll8 (⟨i, d⟩, .done) = (⟨i, d ++ l⟩, .done) := by
  induction l with
  | nil => intro i d; simp
  | cons b l ih => intro i d; rw [List.foldl_cons]; simp only [coll8]; rw [ih]; simp

theorem and80_iff (b : Byte) : (b &&& 0x80 ≠ 0 ↔ 128 ≤ b.toNat) ∧ (128 ≤ b.toNat → b.toNat % 128 = b.toNat - 128) := by
  refine ⟨?_, fun h => by have := b.isLt; omega⟩
  revert b; decide +kernel

theorem parse8_message (pl : List Byte) : (parse8 pl).1 = message8 pl := by
  unfold parse8 message8
  match pl with
  | [] => rfl
  | [a] =>
    obtain ⟨h1, h2⟩ := and80_iff a
    simp only [List.foldl_cons, List.foldl_nil, coll8]
    by_cases h : 128 ≤ a.toNat
    · rw [if_pos (h1.2 h), if_pos h, ← h2 h, ← toNat_and7F, ← shl8_ofNat]
    · rw [if_neg (fun x => h (h1.1 x)), if_neg h]
  | a :: b :: d =>
    obtain ⟨h1, h2⟩ := and80_iff a
    simp only [List.foldl_cons]
    by_cases h : 128 ≤ a.toNat
    · have : coll8 (coll8 (⟨0, []⟩, .detect) a) b =
          (⟨(a &&& 0x7F).setWidth 32 <<< 8 ||| (b &&& 0x7F).setWidth 32, []⟩, .done) := by
        simp only [coll8]; rw [if_pos (h1.2 h)]
      rw [this, coll8_done, shl8_or_ofNat, if_pos h, ← h2 h, toNat_and7F, toNat_and7F]; rfl
    · by_cases h0 : a = 0
      · have : coll8 (coll8 (⟨0, []⟩, .detect) a) b = (⟨(b &&& 0x7F).setWidth 32 <<< 16, []⟩, .done) := by
          simp only [coll8]; rw [if_neg (fun x => h (h1.1 x)), if_pos h0]
        rw [this, coll8_done, shl16_ofNat, toNat_and7F, if_neg h, if_pos h0]; rfl
      · have : coll8 (coll8 (⟨0, []⟩, .detect) a) b = (⟨0, []⟩, .done) := by
          simp only [coll8]; rw [if_neg (fun x => h (h1.1 x)), if_neg h0]
        rw [this, coll8_done, if_neg h, if_neg h0]; rfl

theorem coll8_data (s : Sysex × IdState) (b : Byte) :
    (coll8 s b).1.data = s.1.data ∨ ((coll8 s b).1.data = s.1.data ++ [b]) := by
  unfold coll8
  split
  · split <;> simp
  · simp
  · simp
  · simp
  · simp

theorem coll8_foldl_length : ∀ (l : List Byte) (s : Sysex × IdState),
    (l.foldl coll8 s).1.data.length ≤ s.1.data.length + l.length := by
  intro l
  induction l with
  | nil => intro s; simp
  | cons b l ih =>
    intro s
    rw [List.foldl_cons]
    have := ih (coll8 s b)
    rcases coll8_data s b with h | h <;> rw [h] at this <;> simp at this ⊢ <;> omega

theorem message8_append_length (a d : List Byte) : (message8 (a ++ d)).data.length ≤ (message8 a).data.length + d.length := by
  rw [← parse8_message, ← parse8_message, parse8, List.foldl_append]
  exact coll8_foldl_length _ _

/-- The loop over the payload, in terms of `coll8`, when there is enough capacity. -/
theorem collectLoop8_eq (p : Packet) (n : Nat) : ∀ (b : Nat) (c : Collector8), 3 + b + n ≤ 16 →
    c.sysex.data.length + n ≤ c.capacity →
    c.collectLoop p b n = .ok { c with
      sysex := ((((List.range' b n).map fun i => p.byteAt (3 + i)).foldl coll8 (c.sysex, c.idState))).1,
      idState := ((((List.range' b n).map fun i => p.byteAt (3 + i)).foldl coll8 (c.sysex, c.idState))).2 } := by
  induction n with
  | zero => intro b c _ _; simp [Collector8.collectLoop]
  | succ n ih =>
    intro b c hb hc
    unfold Collector8.collectLoop
    rw [sysex8PayloadByte, Packet.getByte_lt _ (by omega), ok_bind, List.range'_succ, List.map_cons, List.foldl_cons]
    generalize p.byteAt (3 + b) = x
    have key : c.collect x = { c with sysex := (coll8 (c.sysex, c.idState) x).1, idState := (coll8 (c.sysex, c.idState) x).2 } := by
      unfold Collector8.collect coll8
      cases hr : c.idState
      · dsimp only
        by_cases hx : x &&& 0x80 ≠ 0
        · rw [if_pos hx, if_pos hx]
        · rw [if_neg hx, if_neg hx]
      · rfl
      · rfl
      · rfl
      · simp only [Collector8.push, vecPushCap]
        rw [if_pos (by omega), ← hr]
    rw [key, ih _ _ (by omega)]
    dsimp only
    rcases coll8_data (c.sysex, c.idState) x with h | h <;> rw [h] <;> simp <;> omega

/-! ## The abstract machine -/

/-- State of the abstract machine: whether a message is running, its stream id, the payload collected and not cleared. -/
abbrev St8 := Bool × Byte × List Byte

/-- Adding a payload in the abstract machine. -/
def absAdd8 (lim : Nat) (s : Byte) (pl : List Byte) (code : Nat) (d : List Byte) : St8 × List (List Byte × Byte) :=
  if fits lim ((message8 pl).data.length + d.length) then
    if code = 0 ∨ code = 3 then ((false, 0, []), [(pl ++ d, s)]) else ((true, s, pl ++ d), [])
  else ((false, s, pl), [])

/-- Step of the abstract machine. -/
def abs8 (lim : Nat) (st : St8) (it : Item8) : St8 × List (List Byte × Byte) :=
  if it.1 ≤ 1 then absAdd8 lim it.2.1 (if st.1 then [] else st.2.2) it.1 it.2.2
  else if st.1 then
    if it.2.1 = st.2.1 then absAdd8 lim st.2.1 st.2.2 it.1 it.2.2 else (st, [])
  else ((false, 0, []), [])

/-- Relation between the collector and the abstract machine. -/
structure Rel8 (lim : Nat) (c : Collector8) (st : St8) : Prop where
  parse : (c.sysex, c.idState) = parse8 st.2.2
  state : c.state = if st.1 then .cont else .start
  stream : c.streamId = st.2.1
  size : c.sysex.data.length ≤ c.capacity
  max : c.maxSize = lim
  cap : lim = 0 ∨ c.capacity ≤ lim
  cb : c.hasCallback = true

theorem payload8_eq_range' (p : Packet) (h : IsSysex8 p) :
    payload8 p = (List.range' 0 (sysex8PayloadSize p)).map fun i => p.byteAt (3 + i) := by
  have hs : sysex8PayloadSize p = (p.byteAt 1).toNat % 16 - 1 := by
    simp only [sysex8PayloadSize, Packet.status_eq, toNat_and0F]
    rw [if_pos (by have := h.2.2.1; omega)]
  unfold payload8
  rw [hs, List.range_eq_range']

theorem format8_iff (p : Packet) (h : IsSysex8 p) :
    (sysex8Format p = .complete ↔ formatCode p = 0) ∧ (sysex8Format p = .start ↔ formatCode p = 1) ∧
    (sysex8Format p = .cont ↔ formatCode p = 2) ∧ (sysex8Format p = .fin ↔ formatCode p = 3) := by
  have h2 := h.2.1
  unfold sysex8Format formatCode
  rw [Packet.status_eq]
  revert h2
  generalize p.byteAt 1 = b
  revert b; decide +kernel

theorem reset_rel8 {lim : Nat} {c : Collector8} {st : St8} (h : Rel8 lim c st) : Rel8 lim c.reset (false, 0, []) := by
  obtain ⟨_, _, _, h3, h4, h5, h6⟩ := h
  refine ⟨rfl, rfl, rfl, by simp [Collector8.reset, Sysex.clear], h4, ?_, h6⟩
  simp only [Collector8.reset, vecClearCap]
  split <;> omega

theorem stream_rel8 {lim : Nat} {c : Collector8} {r : Bool} {s : Byte} {pl : List Byte} (h : Rel8 lim c (r, s, pl)) (t : Byte) :
    Rel8 lim { c with streamId := t } (r, t, pl) := by
  obtain ⟨h1, h2, _, h3, h4, h5, h6⟩ := h
  exact ⟨h1, h2, rfl, h3, h4, h5, h6⟩

/-- Collecting the payload of a packet, in the abstract machine. -/
theorem feedPayload8_rel {lim : Nat} {c : Collector8} {r : Bool} {s : Byte} {pl : List Byte} (h : Rel8 lim c (r, s, pl))
    (p : Packet) (hp : IsSysex8 p) :
    ∃ c', c.feedPayload p = .ok (c', (absAdd8 lim s pl (formatCode p) (payload8 p)).2.map fun m => (message8 m.1, m.2)) ∧
      Rel8 lim c' (absAdd8 lim s pl (formatCode p) (payload8 p)).1 := by
  have hlim := h.max
  subst hlim
  have hlen : (payload8 p).length = sysex8PayloadSize p := by rw [payload8_eq_range' p hp]; simp
  have hn : sysex8PayloadSize p ≤ 13 := (C16_view_payload p ((C16_is_sysex8_packet_iff p).2 hp)).1
  have hdata : c.sysex.data = (message8 pl).data := by
    rw [← parse8_message, ← h.parse]
  obtain ⟨e1, e2, e3, e4⟩ := ensureCapacity_spec (n := sysex8PayloadSize p) h.size h.cap hn
  unfold Collector8.feedPayload absAdd8
  rw [hlen, ← hdata]
  dsimp only at hdata ⊢
  generalize ensureCapacity c.capacity c.maxSize c.sysex.data.length (sysex8PayloadSize p) = ec at e1 e2 e3 e4 ⊢
  obtain ⟨cap, acc⟩ := ec
  dsimp only at e1 e2 e3 e4 ⊢
  cases hacc : acc
  · subst hacc
    have hf : ¬ fits c.maxSize (c.sysex.data.length + sysex8PayloadSize p) := by rw [← e1]; simp
    rw [if_neg hf]
    exact ⟨_, rfl, h.parse, rfl, h.stream, le_trans h.size e3, h.max, e4, h.cb⟩
  · subst hacc
    rw [if_pos (e1.1 rfl)]
    simp only [Bool.not_true, Bool.false_eq_true, if_false]
    rw [collectLoop8_eq p _ 0 _ (by omega) (e2 rfl)]
    simp only [ok_bind]
    have hfold : ((List.range' 0 (sysex8PayloadSize p)).map fun i => p.byteAt (3 + i)).foldl coll8 (c.sysex, c.idState) =
        parse8 (pl ++ payload8 p) := by
      rw [h.parse, ← payload8_eq_range' p hp, parse8, parse8, List.foldl_append]
    rw [hfold]
    have hsz : (parse8 (pl ++ payload8 p)).1.data.length ≤ c.sysex.data.length + sysex8PayloadSize p := by
      rw [← hfold]
      have := coll8_foldl_length ((List.range' 0 (sysex8PayloadSize p)).map fun i => p.byteAt (3 + i)) (c.sysex, c.idState)
      simpa using this
    have rel : ∀ (q : Format) (b : Bool), q = (if b then .cont else .start) → Rel8 c.maxSize
        { c with capacity := cap, sysex := (parse8 (pl ++ payload8 p)).1, idState := (parse8 (pl ++ payload8 p)).2, state := q }
        (b, s, pl ++ payload8 p) := by
      intro q b hq
      exact ⟨rfl, hq, h.stream, le_trans hsz (e2 rfl), rfl, e4, h.cb⟩
    have hcode : (sysex8Format p = .complete ∨ sysex8Format p = .fin) ↔ (formatCode p = 0 ∨ formatCode p = 3) := by
      rw [(format8_iff p hp).1, (format8_iff p hp).2.2.2]
    have hs : c.streamId = s := h.stream
    by_cases hd : formatCode p = 0 ∨ formatCode p = 3
    · rw [if_pos hd, if_pos (hcode.2 hd)]
      refine ⟨_, ?_, reset_rel8 (rel _ r h.state)⟩
      simp [h.cb, parse8_message, pure_eq_ok, hs]
    · rw [if_neg hd, if_neg (fun x => hd (hcode.1 x))]
      exact ⟨_, rfl, rel _ true rfl⟩

/-- One packet in the abstract machine. -/
theorem feed8_rel {lim : Nat} {c : Collector8} {st : St8} (h : Rel8 lim c st) (p : Packet) (hp : IsSysex8 p) :
    ∃ c', c.feed p = .ok (c', (abs8 lim st (formatCode p, stream8 p, payload8 p)).2.map fun m => (message8 m.1, m.2)) ∧
      Rel8 lim c' (abs8 lim st (formatCode p, stream8 p, payload8 p)).1 := by
  obtain ⟨r, s, pl⟩ := st
  have hb : isSysex8Packet p = true := (C16_is_sysex8_packet_iff p).2 hp
  have h3 : formatCode p ≤ 3 := hp.2.1
  obtain ⟨c0, c1, c2, c3⟩ := format8_iff p hp
  have hst : c.state = if r then .cont else .start := h.state
  unfold Collector8.feed sysex8View abs8
  rw [assert_ok hb]
  simp only [(C16_view_payload p hb).2.2.1, hb, Bool.not_true, Bool.false_eq_true, if_false, ok_bind, pure_eq_ok]
  by_cases hlow : formatCode p ≤ 1
  · rw [if_pos (show sysex8Format p = .complete ∨ sysex8Format p = .start by rw [c0, c1]; omega), if_pos hlow]
    have key : ∃ s, Rel8 lim (if c.state ≠ .start then c.reset else c) (false, s, if r then [] else pl) := by
      cases r
      · exact ⟨s, by rw [if_neg (by rw [hst]; decide)]; exact h⟩
      · exact ⟨0, by rw [if_pos (by rw [hst]; decide)]; exact reset_rel8 h⟩
    obtain ⟨s', hrel⟩ := key
    exact feedPayload8_rel (stream_rel8 hrel (stream8 p)) p hp
  · rw [if_neg (show ¬ (sysex8Format p = .complete ∨ sysex8Format p = .start) by rw [c0, c1]; omega), if_neg hlow]
    cases r
    · rw [if_pos (by rw [hst]; decide)]
      exact ⟨_, rfl, reset_rel8 h⟩
    · rw [if_neg (by rw [hst]; decide)]
      simp only [if_true]
      rw [show c.streamId = s from h.stream]
      by_cases hs : stream8 p = s
      · rw [if_neg (by simpa using hs), if_pos hs]
        exact feedPayload8_rel h p hp
      · rw [if_pos hs, if_neg hs]
        exact ⟨_, rfl, h⟩

/-- The abstract machine on a sequence. -/
def absRun8 (lim : Nat) (st : St8) : List Item8 → St8 × List (List Byte × Byte)
  | [] => (st, [])
  | it :: its =>
    let r := abs8 lim st it
    let r' := absRun8 lim r.1 its
    (r'.1, r.2 ++ r'.2)

theorem items8_cons_pos {p : Packet} (ps : List Packet) (h : IsSysex8 p) :
    items8 (p :: ps) = (formatCode p, stream8 p, payload8 p) :: items8 ps := by
  simp [items8, h]

theorem items8_cons_neg {p : Packet} (ps : List Packet) (h : ¬ IsSysex8 p) : items8 (p :: ps) = items8 ps := by
  simp [items8, h]

theorem items8_append (ps qs : List Packet) : items8 (ps ++ qs) = items8 ps ++ items8 qs := by
  simp [items8]

/-- A packet sequence in the abstract machine. -/
theorem feedAll8_rel {lim : Nat} (ps : List Packet) : ∀ {c : Collector8} {st : St8}, Rel8 lim c st →
    ∃ c', c.feedAll ps = .ok (c', (absRun8 lim st (items8 ps)).2.map fun m => (message8 m.1, m.2)) ∧
      Rel8 lim c' (absRun8 lim st (items8 ps)).1 := by
  induction ps with
  | nil => intro c st h; exact ⟨c, rfl, h⟩
  | cons p ps ih =>
    intro c st h
    unfold Collector8.feedAll
    by_cases hp : IsSysex8 p
    · obtain ⟨c', e, h'⟩ := feed8_rel h p hp
      obtain ⟨c'', e', h''⟩ := ih h'
      rw [e]
      simp only [ok_bind]
      rw [e']
      rw [items8_cons_pos ps hp]
      refine ⟨c'', ?_, h''⟩
      simp [absRun8, pure_eq_ok]
    · have hb : isSysex8Packet p = false := by
        rw [← Bool.not_eq_true, C16_is_sysex8_packet_iff]; exact hp
      obtain ⟨c'', e', h''⟩ := ih h
      rw [items8_cons_neg ps hp]
      refine ⟨c'', ?_, h''⟩
      unfold Collector8.feed
      simp only [hb, Bool.not_false, if_true, pure_eq_ok, ok_bind]
      rw [e']
      rfl

theorem absRun8_append (lim : Nat) (a b : List Item8) : ∀ st,
    absRun8 lim st (a ++ b) = ((absRun8 lim (absRun8 lim st a).1 b).1, (absRun8 lim st a).2 ++ (absRun8 lim (absRun8 lim st a).1 b).2) := by
  induction a with
  | nil => intro st; rfl
  | cons x a ih =>
    intro st
    simp only [List.cons_append, absRun8]
    rw [ih]
    simp

/-! ## Runs -/

theorem decode8_start (s : Byte) (d : List Byte) (r : List Item8) : decode8 ((1, s, d) :: r) =
    match takeRun8 s d r with
    | some q => (q.1, s) :: decode8 q.2
    | none => decode8 r := by
  rw [decode8]
  split <;> next h => rw [h]

/-- Without a limit the abstract machine is the reference decoder. -/
theorem absRun8_decode (l : List Item8) (hl : ∀ x ∈ l, x.1 ≤ 3) :
    (∀ s, (absRun8 0 (false, s, []) l).2 = decode8 l) ∧
    ∀ s pl, (absRun8 0 (true, s, pl) l).2 = match takeRun8 s pl l with
      | some q => (q.1, s) :: decode8 q.2
      | none => decode8 l := by
  induction l with
  | nil => exact ⟨fun s => by simp [absRun8, decode8], fun s pl => by simp [absRun8, takeRun8, decode8]⟩
  | cons x l ih =>
    obtain ⟨c, t, d⟩ := x
    have hc : c ≤ 3 := hl (c, t, d) (by simp)
    obtain ⟨i1, i2⟩ := ih fun y hy => hl y (by simp [hy])
    rcases (by omega : c = 0 ∨ c = 1 ∨ c = 2 ∨ c = 3) with rfl | rfl | rfl | rfl
    · constructor
      · intro s; simp [absRun8, abs8, absAdd8, fits_zero, decode8, i1]
      · intro s pl; simp [absRun8, abs8, absAdd8, fits_zero, decode8, takeRun8, i1]
    · constructor
      · intro s; simp [absRun8, abs8, absAdd8, fits_zero, decode8_start, i2]
      · intro s pl
        simp [absRun8, abs8, absAdd8, fits_zero, decode8_start, takeRun8, i2]
    · constructor
      · intro s; simp [absRun8, abs8, decode8, i1]
      · intro s pl
        by_cases h : t = s
        · simp [absRun8, abs8, absAdd8, fits_zero, decode8, takeRun8, i2, h]
        · simp [absRun8, abs8, decode8, takeRun8, i2, h]
    · constructor
      · intro s; simp [absRun8, abs8, decode8, i1]
      · intro s pl
        by_cases h : t = s
        · simp [absRun8, abs8, absAdd8, fits_zero, takeRun8, i1, h]
        · simp [absRun8, abs8, decode8, takeRun8, i2, h]

theorem message8_length (pl : List Byte) : (message8 pl).data.length ≤ pl.length ∧ pl.length ≤ (message8 pl).data.length + 2 := by
  unfold message8
  split <;> simp; omega

theorem message8_id (id : Word) (h : GenuineId id ∨ id = 0) (d : List Byte) : message8 (idBytes8 id ++ d) = ⟨id, d⟩ := by
  have hid := id.isLt
  have hb : id.toNat % 65536 = 0 ∧ id.toNat / 65536 < 128 ∨ id.toNat % 65536 ≠ 0 ∧ id.toNat / 256 < 128 ∧ id.toNat % 256 < 128 := by
    rcases h with (h | h) | h
    · unfold OneByteId at h; omega
    · unfold ThreeByteId at h; omega
    · subst h; left; decide
  unfold idBytes8
  by_cases h0 : id.toNat % 65536 = 0
  · rw [if_pos h0]
    show (⟨if 128 ≤ BitVec.toNat (0 : Byte) then _ else if (0 : Byte) = 0 then _ else _, d⟩ : Sysex) = _
    rw [if_neg (by decide), if_pos rfl]
    congr 1
    apply BitVec.eq_of_toNat_eq
    simp only [BitVec.toNat_ofNat]
    omega
  · rw [if_neg h0]
    show (⟨if 128 ≤ BitVec.toNat (BitVec.ofNat 8 (128 + id.toNat / 256)) then _ else _, d⟩ : Sysex) = _
    rw [if_pos (by simp only [BitVec.toNat_ofNat]; omega)]
    congr 1
    apply BitVec.eq_of_toNat_eq
    simp only [BitVec.toNat_ofNat]
    omega

/-- Continue packets and an end packet of one stream when everything fits. -/
theorem absRun8_rest (lim : Nat) (s : Byte) : ∀ (n : Nat) (its : List Item8) (pl : List Byte),
    its.map Prod.fst = List.replicate n 2 ++ [3] → (∀ it ∈ its, it.2.1 = s) →
    fits lim (pl.length + (its.flatMap fun it => it.2.2).length) →
    absRun8 lim (true, s, pl) its = ((false, 0, []), [(pl ++ its.flatMap fun it => it.2.2, s)]) := by
  intro n
  induction n with
  | zero =>
    intro its pl hi hs hf
    match its, hi with
    | [(3, t, e)], _ =>
      have hm := (message8_length pl).1
      have ht : t = s := hs (3, t, e) (by simp)
      subst ht
      have : fits lim ((message8 pl).data.length + e.length) := by
        unfold fits at hf ⊢; simp at hf; omega
      simp [absRun8, abs8, absAdd8, this]
  | succ n ih =>
    intro its pl hi hs hf
    rw [List.replicate_succ, List.cons_append] at hi
    match its, hi with
    | (c, t, e) :: its, hi =>
      simp only [List.map_cons, List.cons.injEq] at hi
      obtain ⟨rfl, hi⟩ := hi
      have ht : t = s := hs (2, t, e) (by simp)
      subst ht
      have hm := (message8_length pl).1
      simp only [List.flatMap_cons, List.length_append] at hf
      have hf' : fits lim ((message8 pl).data.length + e.length) := by
        unfold fits at hf ⊢; omega
      have hr := ih its (pl ++ e) hi (fun it h => hs it (by simp [h])) (by unfold fits at hf ⊢; simp at hf ⊢; omega)
      simp only [absRun8, abs8, absAdd8]
      simp [hf', hr]

/-- A framed message that fits, fed in a state without left over data. -/
theorem absRun8_framed {lim : Nat} {st : St8} (hst : st.1 = true ∨ st.2.2 = []) (s : Byte)
    (its : List Item8) (hi : Framed (its.map Prod.fst)) (hs : ∀ it ∈ its, it.2.1 = s)
    (hf : fits lim (its.flatMap fun it => it.2.2).length) :
    absRun8 lim st its = ((false, 0, []), [(its.flatMap fun it => it.2.2, s)]) := by
  obtain ⟨r, s0, pl⟩ := st
  have hb : (if r then [] else pl) = ([] : List Byte) := by
    cases r <;> simp_all
  rcases hi with hi | ⟨n, hi⟩
  · match its, hi with
    | [(0, t, d)], _ =>
      have ht : t = s := hs (0, t, d) (by simp)
      subst ht
      have : fits lim ((message8 []).data.length + d.length) := by
        unfold fits at hf ⊢; simp [message8] at hf ⊢; omega
      simp only [absRun8, abs8, absAdd8, hb]
      simp [this]
  · match its, hi with
    | (c, t, d) :: its, hi =>
      simp only [List.map_cons, List.cons.injEq] at hi
      obtain ⟨rfl, hi⟩ := hi
      have ht : t = s := hs (1, t, d) (by simp)
      subst ht
      simp only [List.flatMap_cons, List.length_append] at hf
      have : fits lim ((message8 []).data.length + d.length) := by
        unfold fits at hf ⊢; simp [message8] at hf ⊢; omega
      have hr := absRun8_rest lim t n its d hi (fun it h => hs it (by simp [h])) hf
      simp only [absRun8, abs8, absAdd8, hb]
      simp [this, hr]

/-- Without a limit there is no left over data. -/
theorem absRun8_clean (l : List Item8) : ∀ st : St8, st.1 = true ∨ st.2.2 = [] →
    (absRun8 0 st l).1.1 = true ∨ (absRun8 0 st l).1.2.2 = [] := by
  have add : ∀ s pl c d, (absAdd8 0 s pl c d).1.1 = true ∨ (absAdd8 0 s pl c d).1.2.2 = [] := by
    intro s pl c d
    unfold absAdd8
    rw [if_pos (fits_zero _)]
    split <;> simp
  induction l with
  | nil => intro st h; exact h
  | cons x l ih =>
    intro st h
    refine ih _ ?_
    unfold abs8
    split
    · exact add _ _ _ _
    · split
      · split
        · exact add _ _ _ _
        · exact h
      · exact Or.inr rfl

/-- Delivered messages obey the limit. -/
theorem absRun8_limit {lim : Nat} (h0 : lim ≠ 0) (l : List Item8) : ∀ st : St8,
    ∀ m ∈ (absRun8 lim st l).2, (message8 m.1).data.length ≤ lim := by
  have add : ∀ s pl c d, ∀ m ∈ (absAdd8 lim s pl c d).2, (message8 m.1).data.length ≤ lim := by
    intro s pl c d m hm
    unfold absAdd8 at hm
    split at hm
    · next hf =>
      split at hm
      · simp only [List.mem_singleton] at hm
        subst hm
        refine le_trans (message8_append_length _ _) ?_
        unfold fits at hf; omega
      · simp at hm
    · simp at hm
  induction l with
  | nil => intro st m h; simp [absRun8] at h
  | cons x l ih =>
    intro st m h
    simp only [absRun8, List.mem_append] at h
    rcases h with h | h
    · unfold abs8 at h
      split at h
      · exact add _ _ _ _ m h
      · split at h
        · split at h
          · exact add _ _ _ _ m h
          · simp at h
        · simp at h
    · exact ih _ m h

end Midi

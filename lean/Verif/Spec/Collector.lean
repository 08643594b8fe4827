import Verif.Spec.Sysex

/-!
# Reference decoders for sysex messages split into packets
-/

namespace Midi.Spec

/-! ## 7 bit sysex -/

/-- Looks for the rest of a message after its start packet, given the payload so far: any number of continue packets and
an end packet, directly following. Gives the complete payload and what follows the end packet. -/
def takeRun (d : List Byte) : List (Nat × List Byte) → Option (List Byte × List (Nat × List Byte))
  | (2, e) :: r => takeRun (d ++ e) r
  | (3, e) :: r => some (d ++ e, r)
  | _ => none

theorem takeRun_length {d : List Byte} {l : List (Nat × List Byte)} {q : List Byte × List (Nat × List Byte)}
    (h : takeRun d l = some q) : q.2.length < l.length := by
  induction l generalizing d with
  | nil => simp [takeRun] at h
  | cons x r ih =>
    obtain ⟨c, e⟩ := x
    unfold takeRun at h
    split at h
    · next heq => simp only [List.cons.injEq] at heq; obtain ⟨_, rfl⟩ := heq; have := ih h; simp; omega
    · next heq => simp only [List.cons.injEq] at heq; obtain ⟨_, rfl⟩ := heq; simp at h; subst h; simp
    · simp at h

/-- The payloads of the messages in a sequence of sysex packets, each given by its format (0 complete, 1 start,
2 continue, 3 end) and its payload: one for each complete packet and for each start packet that is followed by continue
packets and an end packet. Everything else is skipped. -/
def decode : List (Nat × List Byte) → List (List Byte)
  | [] => []
  | (0, d) :: r => d :: decode r
  | (1, d) :: r =>
    match _h : takeRun d r with
    | some q => q.1 :: decode q.2
    | none => decode r
  | _ :: r => decode r
termination_by l => l.length
decreasing_by
  all_goals simp
  have := takeRun_length _h
  omega

/-- The 7 bit sysex packets in a packet sequence, given by format and payload. -/
def items7 (ps : List Packet) : List (Nat × List Byte) :=
  (ps.filter fun p => decide (IsSysex7 p)).map fun p => (formatCode p, payload7 p)

/-- The message with a given payload: manufacturer id of one byte, or of three if the first is zero, then the data. An
incomplete manufacturer id counts as far as it goes. -/
def message7 : List Byte → Sysex
  | [] => ⟨0, []⟩
  | a :: d =>
    if a = 0 then
      match d with
      | [] => ⟨0, []⟩
      | [b] => ⟨BitVec.ofNat 32 (b.toNat * 256), []⟩
      | b :: c :: d => ⟨BitVec.ofNat 32 (b.toNat * 256 + c.toNat), d⟩
    else ⟨BitVec.ofNat 32 (a.toNat * 65536), d⟩

/-! ## 8 bit sysex -/

/-- A sysex8 packet: format, stream id and payload. -/
abbrev Item8 := Nat × Byte × List Byte

/-- Looks for the rest of a message after its start packet: any number of continue packets and an end packet with the
same stream id. Continue and end packets with another stream id are skipped. -/
def takeRun8 (s : Byte) (d : List Byte) : List Item8 → Option (List Byte × List Item8)
  | (2, t, e) :: r => if t = s then takeRun8 s (d ++ e) r else takeRun8 s d r
  | (3, t, e) :: r => if t = s then some (d ++ e, r) else takeRun8 s d r
  | _ => none

theorem takeRun8_length {s : Byte} {d : List Byte} {l : List Item8} {q : List Byte × List Item8}
    (h : takeRun8 s d l = some q) : q.2.length < l.length := by
  induction l generalizing d with
  | nil => simp [takeRun8] at h
  | cons x r ih =>
    obtain ⟨c, t, e⟩ := x
    unfold takeRun8 at h
    split at h
    · next heq =>
      simp only [List.cons.injEq] at heq; obtain ⟨_, rfl⟩ := heq
      split at h <;> (have := ih h; simp; omega)
    · next heq =>
      simp only [List.cons.injEq] at heq; obtain ⟨_, rfl⟩ := heq
      split at h
      · simp at h; subst h; simp
      · have := ih h; simp; omega
    · simp at h

/-- The payloads and stream ids of the messages in a sequence of sysex8 packets: one for each complete packet and for
each start packet that is followed by continue packets and an end packet of the same stream, without a complete or start
packet in between. -/
def decode8 : List Item8 → List (List Byte × Byte)
  | [] => []
  | (0, s, d) :: r => (d, s) :: decode8 r
  | (1, s, d) :: r =>
    match _h : takeRun8 s d r with
    | some q => (q.1, s) :: decode8 q.2
    | none => decode8 r
  | _ :: r => decode8 r
termination_by l => l.length
decreasing_by
  all_goals simp
  have := takeRun8_length _h
  omega

/-- The 8 bit sysex packets in a packet sequence. -/
def items8 (ps : List Packet) : List Item8 :=
  (ps.filter fun p => decide (IsSysex8 p)).map fun p => (formatCode p, stream8 p, payload8 p)

/-- The message with a given payload: two bytes of manufacturer id, either `0x80 + BB`, `CC` for `0x00BBCC` or `00`,
`AA` for `0xAA0000`, then the data. If the first byte is neither the id is 0. An incomplete manufacturer id counts as far
as it goes. -/
def message8 : List Byte → Sysex
  | [] => ⟨0, []⟩
  | [a] => ⟨if 128 ≤ a.toNat then BitVec.ofNat 32 ((a.toNat - 128) * 256) else 0, []⟩
  | a :: b :: d =>
    ⟨if 128 ≤ a.toNat then BitVec.ofNat 32 ((a.toNat - 128) * 256 + b.toNat % 128)
      else if a = 0 then BitVec.ofNat 32 (b.toNat % 128 * 65536) else 0, d⟩

end Midi.Spec

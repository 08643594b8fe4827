import Verif.Model.FlexData
import Verif.Lemmas.ByteStream
import Verif.Lemmas.Chunks

/-!
# Helper lemmas: packets given by their bytes, text in packets
-/

namespace Midi
open Spec

theorem packetOf_congr {l m : List Byte} (h : ∀ i, i < 16 → l.getD i 0 = m.getD i 0) : packetOf l = packetOf m := by
  apply Packet.ext_bytes
  intro b hb
  rw [byteAt_packetOf _ hb, byteAt_packetOf _ hb, h b hb]

/-- Storing a byte at or behind the end of the given bytes. -/
theorem putByte_packetOf (l : List Byte) (i : Nat) (v : Byte) (hi : i < 16) (hl : l.length ≤ i) :
    (packetOf l).putByte i v = packetOf (l ++ (List.replicate (i - l.length) 0 ++ [v])) := by
  apply Packet.ext_bytes
  intro b hb
  rw [Packet.byteAt_putByte _ hi hb, byteAt_packetOf _ hb, byteAt_packetOf _ hb]
  by_cases h : b = i
  · subst h
    rw [if_pos rfl]
    simp only [List.getD_eq_getElem?_getD]
    rw [List.getElem?_append_right (by omega), List.getElem?_append_right (by simp)]
    simp
  · rw [if_neg h]
    simp only [List.getD_eq_getElem?_getD]
    by_cases h1 : b < l.length
    · rw [List.getElem?_append_left h1]
    · rw [List.getElem?_append_right (by omega), List.getElem?_eq_none (by omega)]
      by_cases h2 : b < i
      · rw [List.getElem?_append_left (by simp; omega), List.getElem?_replicate, if_pos (by omega)]; rfl
      · rw [List.getElem?_eq_none (by simp; omega)]

theorem setByte_packetOf (l : List Byte) (i : Nat) (v : Byte) (hi : i < 16) (hl : l.length ≤ i) :
    (packetOf l).setByte i v = .ok (packetOf (l ++ (List.replicate (i - l.length) 0 ++ [v]))) := by
  rw [Packet.setByte, if_pos hi, putByte_packetOf _ _ _ hi hl]

theorem setByte7_packetOf (l : List Byte) (i : Nat) (v : Byte) (hi : i < 16) (hl : l.length ≤ i) :
    (packetOf l).setByte7 i v = .ok (packetOf (l ++ (List.replicate (i - l.length) 0 ++ [v &&& 0x7F]))) :=
  setByte_packetOf l i _ hi hl

/-- Storing text directly behind the given bytes. -/
theorem storeText_packetOf (set : Packet → Nat → Byte → Except Fault Packet) (m : Byte → Byte)
    (hset : ∀ (l : List Byte) (v : Byte), l.length < 16 → set (packetOf l) l.length v = .ok (packetOf (l ++ [m v]))) :
    ∀ (cs l : List Byte), l.length + cs.length ≤ 16 → storeText set (packetOf l) l.length cs = .ok (packetOf (l ++ cs.map m))
  | [], l, _ => by rw [storeText, List.map_nil, List.append_nil]
  | c :: cs, l, h => by
    simp only [List.length_cons] at h
    rw [storeText, hset l c (by omega), ok_bind]
    by_cases h16 : l.length + 1 ≥ 16
    · rw [if_pos h16]
      have : cs = [] := List.length_eq_zero_iff.1 (by omega)
      subst this; rfl
    · rw [if_neg h16]
      have ih := storeText_packetOf set m hset cs (l ++ [m c]) (by simp; omega)
      rw [List.length_append, List.length_singleton] at ih
      rw [ih, List.map_cons, List.append_assoc, List.singleton_append]

theorem storeText8 (cs l : List Byte) (h : l.length + cs.length ≤ 16) :
    storeText Packet.setByte (packetOf l) l.length cs = .ok (packetOf (l ++ cs)) := by
  have := storeText_packetOf Packet.setByte id (fun l v h => by
    rw [setByte_packetOf _ _ _ h (by omega), Nat.sub_self]; rfl) cs l h
  rwa [List.map_id] at this

theorem storeText7 (cs l : List Byte) (h : l.length + cs.length ≤ 16) :
    storeText Packet.setByte7 (packetOf l) l.length cs = .ok (packetOf (l ++ cs.map (· &&& 0x7F))) :=
  storeText_packetOf Packet.setByte7 (· &&& 0x7F) (fun l v h => by
    rw [setByte7_packetOf _ _ _ h (by omega), Nat.sub_self]; rfl) cs l h

/-- Reading text back. -/
theorem readText_packetOf (get : Packet → Nat → Except Fault Byte) (m : Byte → Byte)
    (hget : ∀ (p : Packet) (i : Nat), i < 16 → get p i = .ok (m (p.byteAt i))) (h0 : m 0 = 0) :
    ∀ (n : Nat) (hd text : List Byte), hd.length + n = 16 → text.length ≤ n → (∀ c ∈ text, m c ≠ 0) →
      readText get (packetOf (hd ++ text)) n = .ok (text.map m)
  | 0, hd, text, _, hl, _ => by
    have : text = [] := List.length_eq_zero_iff.1 (by omega)
    subst this; rfl
  | n + 1, hd, [], hn, _, _ => by
    rw [readText, hget _ _ (by omega), ok_bind, byteAt_packetOf _ (by omega), List.append_nil, List.getD_eq_getElem?_getD,
      List.getElem?_eq_none (by omega)]
    rw [Option.getD_none, if_neg (by simpa using h0)]; rfl
  | n + 1, hd, c :: cs, hn, hl, hc => by
    simp only [List.length_cons] at hl
    have ih := readText_packetOf get m hget h0 n (hd ++ [c]) cs (by simp; omega) (by omega) (fun x hx => hc x (by simp [hx]))
    rw [List.append_assoc, List.singleton_append] at ih
    have e : (hd ++ c :: cs).getD (16 - (n + 1)) 0 = c := by
      rw [List.getD_eq_getElem?_getD, List.getElem?_append_right (by omega), show 16 - (n + 1) - hd.length = 0 by omega]; rfl
    rw [readText, hget _ _ (by omega), ok_bind, byteAt_packetOf _ (by omega), e, if_pos (hc c (by simp)), ih]
    rfl

theorem readText8 (n : Nat) (hd text : List Byte) (hn : hd.length + n = 16) (hl : text.length ≤ n) (hc : ∀ c ∈ text, c ≠ 0) :
    readText Packet.getByte (packetOf (hd ++ text)) n = .ok text := by
  have := readText_packetOf Packet.getByte id (fun p i h => by rw [Packet.getByte, if_pos h]; rfl) rfl n hd text hn hl hc
  rwa [List.map_id] at this

theorem readText7 (n : Nat) (hd text : List Byte) (hn : hd.length + n = 16) (hl : text.length ≤ n)
    (hc : ∀ c ∈ text, c &&& 0x7F ≠ 0) :
    readText Packet.getByte7 (packetOf (hd ++ text)) n = .ok (text.map (· &&& 0x7F)) :=
  readText_packetOf Packet.getByte7 (· &&& 0x7F)
    (fun p i h => by rw [Packet.getByte7, Packet.getByte, if_pos h]; rfl) (by decide) n hd text hn hl hc

/-! ## Header fields of packets given by their bytes -/

theorem type_packetOf (l : List Byte) : (packetOf l).type = l.getD 0 0 >>> 4 := by
  rw [Packet.type_eq, byteAt_packetOf _ (by omega)]
theorem group_packetOf (l : List Byte) : (packetOf l).group = l.getD 0 0 &&& 0x0F := by
  rw [Packet.group_eq, byteAt_packetOf _ (by omega)]
theorem status_packetOf (l : List Byte) : (packetOf l).status = l.getD 1 0 := by
  rw [Packet.status_eq, byteAt_packetOf _ (by omega)]
theorem byte2_packetOf (l : List Byte) : (packetOf l).byte2 = l.getD 1 0 := by
  rw [Packet.byte2_eq, byteAt_packetOf _ (by omega)]
theorem byte3_packetOf (l : List Byte) : (packetOf l).byte3 = l.getD 2 0 := by
  rw [Packet.byte3_eq, byteAt_packetOf _ (by omega)]
theorem byte4_packetOf (l : List Byte) : (packetOf l).byte4 = l.getD 3 0 := by
  rw [Packet.byte4_eq, byteAt_packetOf _ (by omega)]
theorem getByte_packetOf (l : List Byte) {i : Nat} (hi : i < 16) : (packetOf l).getByte i = .ok (l.getD i 0) := by
  rw [Packet.getByte, if_pos hi, byteAt_packetOf _ hi]
theorem w0_packetOf (l : List Byte) : (packetOf l).w0 = wordOf (l.getD 0 0) (l.getD 1 0) (l.getD 2 0) (l.getD 3 0) := by
  simp only [packetOf, wordOfBytes_eq]
theorem w1_packetOf (l : List Byte) : (packetOf l).w1 = wordOf (l.getD 4 0) (l.getD 5 0) (l.getD 6 0) (l.getD 7 0) := by
  simp only [packetOf, wordOfBytes_eq]
theorem w2_packetOf (l : List Byte) : (packetOf l).w2 = wordOf (l.getD 8 0) (l.getD 9 0) (l.getD 10 0) (l.getD 11 0) := by
  simp only [packetOf, wordOfBytes_eq]
theorem w3_packetOf (l : List Byte) : (packetOf l).w3 = wordOf (l.getD 12 0) (l.getD 13 0) (l.getD 14 0) (l.getD 15 0) := by
  simp only [packetOf, wordOfBytes_eq]

/-- The empty stream message. -/
theorem streamMessage_eq (s : Byte) (f : Format) : streamMessage s f = packetOf [0xF0 + 4 * f.code, s] := by
  rw [packetOf2, streamMessage]
  congr 1
  cases f <;> (simp only [Format.code]; unfold wordOf; bits)

theorem streamFormat_packetOf (l : List Byte) (f : Format) (s : Byte) :
    streamFormat (packetOf ((0xF0 + 4 * f.code) :: s :: l)) = f := by
  have e : (((packetOf ((0xF0 + 4 * f.code) :: s :: l)).w0 >>> 26) &&& 0x03).setWidth 8 =
      ((0xF0 + 4 * f.code) >>> 2) &&& 0x03 := by
    rw [w0_packetOf]
    show ((wordOf (0xF0 + 4 * f.code) _ _ _ >>> 26) &&& 0x03).setWidth 8 = _
    generalize 0xF0 + 4 * f.code = x
    unfold wordOf; bits
  rw [streamFormat, e]
  cases f <;> rfl

theorem type_stream (f : Format) (l : List Byte) : (packetOf ((0xF0 + 4 * f.code) :: l)).type = PacketType.stream := by
  rw [type_packetOf]
  show (0xF0 + 4 * f.code) >>> 4 = _
  cases f <;> rfl

end Midi

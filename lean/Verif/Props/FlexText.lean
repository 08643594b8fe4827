import Verif.Props.FlexData
import Verif.Props.Multiplex
import Verif.Spec.FlexText

/-!
# C103: texts of any length in flex data messages
-/

namespace Midi
open Spec

/-! ## Reading one packet -/

theorem readText_ok (p : Packet) : ∀ n, n ≤ 16 → ∃ t, readText Packet.getByte p n = .ok t
  | 0, _ => ⟨[], rfl⟩
  | n + 1, h => by
    obtain ⟨t, ht⟩ := readText_ok p n (by omega)
    rw [readText, Packet.getByte, if_pos (by omega), ok_bind]
    split
    · exact ⟨_, by rw [ht]; rfl⟩
    · exact ⟨_, rfl⟩

theorem flexKey_eq (p : Packet) : (⟨flexGroup p, flexAddressCode p, flexChannel p, flexStatusBank p, flexStatus p⟩ : TextKey) =
    ⟨p.byteAt 0 &&& 15, (p.byteAt 1 >>> 4) &&& 3, p.byteAt 1 &&& 15, p.byteAt 2, p.byteAt 3⟩ := by
  rw [flexGroup, flexAddressCode, flexChannel, flexStatusBank, flexStatus, Packet.group_eq, Packet.byte2_eq, Packet.byte3_eq,
    Packet.byte4_eq]
  have : ∀ b : Byte, (b &&& 0x30) >>> 4 = (b >>> 4) &&& 3 := by decide +kernel
  rw [this]

/-- What a reader does with a part of a text: the text begun afterwards, and the text completed. -/
def partStep (b : Option (List Byte)) (x : Format × List Byte) : Option (List Byte) × List (List Byte) :=
  match x.1 with
  | .complete => (none, [x.2])
  | .start => (some x.2, [])
  | .cont => (b.map fun t => t ++ x.2, [])
  | .fin => (none, (b.map fun t => t ++ x.2).toList)

def partsRun : Option (List Byte) → List (Format × List Byte) → Option (List Byte) × List (List Byte)
  | b, [] => (b, [])
  | b, x :: xs => ((partsRun (partStep b x).1 xs).1, (partStep b x).2 ++ (partsRun (partStep b x).1 xs).2)

theorem read_other (r : TextReader) (p : Packet) (h : TextKey.ofPacket p = none) : r.read p = .ok (r, []) := by
  unfold TextReader.read
  rw [C46_view]
  unfold TextKey.ofPacket at h
  by_cases h13 : (p.byteAt 0).toNat / 16 = 13
  · rw [if_pos h13, ok_bind]
    have hb : ¬ isTextBank (flexStatusBank p) = true := by
      rw [flexStatusBank, Packet.byte3_eq]
      intro hb
      rw [if_pos ⟨h13, hb⟩] at h
      cases h
    dsimp only
    rw [if_neg hb]
    rfl
  · rw [if_neg h13]
    rfl

theorem read_part (r : TextReader) (p : Packet) (k : TextKey) (h : TextKey.ofPacket p = some k) :
    ∃ part, flexPayloadAsString p = .ok part ∧
      r.read p = .ok (r.set k (partStep (r k) (flexFormat p, part)).1, (partStep (r k) (flexFormat p, part)).2.map fun t => (k, t)) := by
  obtain ⟨part, hp⟩ := readText_ok p 12 (by omega)
  refine ⟨part, hp, ?_⟩
  unfold TextKey.ofPacket at h
  by_cases hc : (p.byteAt 0).toNat / 16 = 13 ∧ isTextBank (p.byteAt 2) = true
  · rw [if_pos hc, ← flexKey_eq] at h
    have hb : isTextBank (flexStatusBank p) = true := by rw [flexStatusBank, Packet.byte3_eq]; exact hc.2
    obtain rfl := Option.some.inj h
    unfold TextReader.read
    rw [C46_view, if_pos hc.1, ok_bind]
    dsimp only
    rw [if_pos hb, show flexPayloadAsString p = .ok part from hp, ok_bind]
    cases flexFormat p
    · rfl
    · rfl
    · rfl
    · unfold partStep
      dsimp only
      cases r ⟨flexGroup p, flexAddressCode p, flexChannel p, flexStatusBank p, flexStatus p⟩ <;> rfl
  · rw [if_neg hc] at h
    cases h

theorem readAll_cons {r r1 : TextReader} {p : Packet} {ps : List Packet} {l : List (TextKey × List Byte)} (h : r.read p = .ok (r1, l)) :
    r.readAll (p :: ps) = (do let (r2, m) ← r1.readAll ps; return (r2, l ++ m)) := by
  rw [TextReader.readAll, h]
  rfl

theorem set_self (r : TextReader) (k : TextKey) (t : Option (List Byte)) : r.set k t k = t := if_pos rfl

theorem set_other (r : TextReader) (k k' : TextKey) (t : Option (List Byte)) (h : k' ≠ k) : r.set k t k' = r k' := if_neg h

/-- C103: the reader never fails, whatever packets it reads, and it delivers only texts that belong to a packet it has read. -/
theorem C103_reader_safe (r : TextReader) (ps : List Packet) : ∃ r' l, r.readAll ps = .ok (r', l) ∧
    ∀ x ∈ l, ∃ p ∈ ps, TextKey.ofPacket p = some x.1 := by
  induction ps generalizing r with
  | nil => exact ⟨r, [], rfl, fun x hx => by cases hx⟩
  | cons p ps ih =>
    cases hk : TextKey.ofPacket p with
    | none =>
      obtain ⟨r', l, h, hl⟩ := ih r
      refine ⟨r', l, by rw [readAll_cons (read_other r p hk), h]; rfl, fun x hx => ?_⟩
      obtain ⟨q, hq, e⟩ := hl x hx
      exact ⟨q, by simp [hq], e⟩
    | some k =>
      obtain ⟨part, -, hr⟩ := read_part r p k hk
      obtain ⟨r', l, h, hl⟩ := ih (r.set k (partStep (r k) (flexFormat p, part)).1)
      refine ⟨r', _, by rw [readAll_cons hr, h]; rfl, fun x hx => ?_⟩
      rcases List.mem_append.1 hx with hx | hx
      · obtain ⟨t, -, rfl⟩ := List.mem_map.1 hx
        exact ⟨p, by simp, hk⟩
      · obtain ⟨q, hq, e⟩ := hl x hx
        exact ⟨q, by simp [hq], e⟩

theorem textsOf_append (k : TextKey) (l m : List (TextKey × List Byte)) : textsOf k (l ++ m) = textsOf k l ++ textsOf k m := by
  simp [textsOf]

theorem textsOf_same (k : TextKey) (l : List (List Byte)) : textsOf k (l.map fun t => (k, t)) = l := by
  induction l with
  | nil => rfl
  | cons t l ih =>
    rw [List.map_cons, textsOf, List.filter_cons_of_pos (by simp), List.map_cons]
    exact congrArg _ ih

theorem textsOf_different (k k' : TextKey) (h : k' ≠ k) (l : List (List Byte)) : textsOf k (l.map fun t => (k', t)) = [] := by
  simp [textsOf, h]

/-- C103: texts that belong to different things do not disturb each other: the texts of one key, and what has begun of the next one, are
those a reader obtains which reads the packets of this key only. This holds for all packets, in any order. -/
theorem C103_independent (r s : TextReader) (k : TextKey) (hrs : r k = s k) (ps : List Packet) :
    ∃ r' l s' m, r.readAll ps = .ok (r', l) ∧ s.readAll (ps.filter fun p => TextKey.ofPacket p = some k) = .ok (s', m) ∧
      textsOf k l = textsOf k m ∧ r' k = s' k ∧ ∀ x ∈ m, x.1 = k := by
  induction ps generalizing r s with
  | nil => exact ⟨r, [], s, [], rfl, rfl, rfl, hrs, fun x hx => by cases hx⟩
  | cons p ps ih =>
    cases hk : TextKey.ofPacket p with
    | none =>
      obtain ⟨r', l, s', m, h1, h2, h3⟩ := ih r s hrs
      refine ⟨r', l, s', m, by rw [readAll_cons (read_other r p hk), h1]; rfl, ?_, h3⟩
      rw [List.filter_cons_of_neg (by simp [hk])]
      exact h2
    | some k' =>
      obtain ⟨part, hpart, hr⟩ := read_part r p k' hk
      by_cases e : k' = k
      · subst e
        obtain ⟨part', hpart', hs⟩ := read_part s p k' hk
        obtain rfl : part = part' := Except.ok.inj (hpart.symm.trans hpart')
        obtain ⟨r', l, s', m, h1, h2, h3, h4, h5⟩ := ih (r.set k' (partStep (r k') (flexFormat p, part)).1)
          (s.set k' (partStep (s k') (flexFormat p, part)).1) (by rw [set_self, set_self, hrs])
        refine ⟨r', _, s', ((partStep (s k') (flexFormat p, part)).2.map fun t => (k', t)) ++ m,
          by rw [readAll_cons hr, h1]; rfl, ?_, ?_, h4, ?_⟩
        · rw [List.filter_cons_of_pos (by simp [hk]), readAll_cons hs, h2]; rfl
        · rw [textsOf_append, textsOf_append, h3, hrs]
        · intro x hx
          rcases List.mem_append.1 hx with hx | hx
          · obtain ⟨t, -, rfl⟩ := List.mem_map.1 hx
            rfl
          · exact h5 x hx
      · obtain ⟨r', l, s', m, h1, h2, h3, h4, h5⟩ := ih (r.set k' (partStep (r k') (flexFormat p, part)).1) s
          (by rw [set_other _ _ _ _ (fun h => e h.symm), hrs])
        refine ⟨r', _, s', m, by rw [readAll_cons hr, h1]; rfl, ?_, ?_, h4, h5⟩
        · rw [List.filter_cons_of_neg (by simp [hk, e])]
          exact h2
        · rw [textsOf_append, textsOf_different _ _ e, h3]; rfl

/-! ## Sending -/

theorem sender_packet (s : TextSender) (hs : s.Ok) (x : Format × List Byte) (hl : x.2.length ≤ 12) (hz : ∀ c ∈ x.2, c ≠ 0)
    (hf : x.1 = .complete ∨ x.1 = .fin ∨ x.2.length = 12) :
    ∃ p, makeFlexText s.group x.1 s.address s.channel s.bank s.status x.2 = .ok p ∧ TextKey.ofPacket p = some s.key ∧
      flexFormat p = x.1 ∧ flexPayloadAsString p = .ok x.2 := by
  obtain ⟨hg, hc, ha, hb, -⟩ := hs
  obtain ⟨p, h1, h2, h3, h4, h5, h6, h7, h8, -, h9⟩ := C46_text s.group x.1 s.address s.channel s.bank s.status x.2 hg ⟨hc, ha⟩ hl hf
  refine ⟨p, h1, ?_, h4, h9 hz⟩
  have h13 : (p.byteAt 0).toNat / 16 = 13 := by
    rw [C46_view] at h2
    by_contra hn
    rw [if_neg hn] at h2
    cases h2
  unfold TextKey.ofPacket
  have hb' : isTextBank (p.byteAt 2) = true := by rw [← Packet.byte3_eq, ← flexStatusBank, h7]; exact hb
  rw [if_pos ⟨h13, hb'⟩, ← flexKey_eq, h3, h5, h6, h7, h8]
  unfold TextSender.key addressCode
  cases s.address <;> rfl

/-- Parts that fit into packets. -/
def GoodParts (xs : List (Format × List Byte)) : Prop :=
  ∀ x ∈ xs, x.2.length ≤ 12 ∧ (∀ c ∈ x.2, c ≠ 0) ∧ (x.1 = .complete ∨ x.1 = .fin ∨ x.2.length = 12)

/-- The packet of a part. -/
def partPacket (s : TextSender) (x : Format × List Byte) : Except Fault Packet :=
  makeFlexText s.group x.1 s.address s.channel s.bank s.status x.2

theorem mapM_length {α β : Type} {f : α → Except Fault β} {l : List α} {r : List β} (h : l.mapM f = .ok r) : r.length = l.length := by
  induction l generalizing r with
  | nil =>
    obtain rfl : [] = r := Except.ok.inj h
    rfl
  | cons a l ih =>
    obtain ⟨x, xs, -, h2, rfl⟩ := mapM_cons_ok h
    rw [List.length_cons, List.length_cons, ih h2]

theorem mapM_eraseIdx {α β : Type} {f : α → Except Fault β} {l : List α} {r : List β} (h : l.mapM f = .ok r) (i : Nat) :
    (l.eraseIdx i).mapM f = .ok (r.eraseIdx i) := by
  induction l generalizing r i with
  | nil =>
    obtain rfl : [] = r := Except.ok.inj h
    rfl
  | cons a l ih =>
    obtain ⟨x, xs, h1, h2, rfl⟩ := mapM_cons_ok h
    cases i with
    | zero => exact h2
    | succ i =>
      rw [List.eraseIdx_cons_succ, List.eraseIdx_cons_succ, List.mapM_cons, h1, ok_bind, ih h2]
      rfl

theorem send_parts (s : TextSender) (hs : s.Ok) (xs : List (Format × List Byte)) (hx : GoodParts xs) :
    ∃ ps, xs.mapM (partPacket s) = .ok ps := by
  induction xs with
  | nil => exact ⟨[], rfl⟩
  | cons x xs ih =>
    obtain ⟨h1, h2, h3⟩ := hx x (by simp)
    obtain ⟨p, hp, -⟩ := sender_packet s hs x h1 h2 h3
    obtain ⟨ps, hps⟩ := ih fun y hy => hx y (by simp [hy])
    refine ⟨p :: ps, ?_⟩
    rw [List.mapM_cons, show partPacket s x = .ok p from hp, ok_bind, hps]
    rfl

theorem read_parts (s : TextSender) (hs : s.Ok) (xs : List (Format × List Byte)) (hx : GoodParts xs) (ps : List Packet)
    (hps : xs.mapM (partPacket s) = .ok ps) :
    (∀ p ∈ ps, TextKey.ofPacket p = some s.key) ∧
      ∀ r : TextReader, r.readAll ps = .ok (r.set s.key (partsRun (r s.key) xs).1, (partsRun (r s.key) xs).2.map fun t => (s.key, t)) := by
  induction xs generalizing ps with
  | nil =>
    obtain rfl : [] = ps := Except.ok.inj hps
    refine ⟨fun p hp => absurd hp (by simp), fun r => ?_⟩
    have : r.set s.key (r s.key) = r := by
      funext k
      unfold TextReader.set
      split
      · next h => rw [h]
      · rfl
    rw [partsRun, this]
    rfl
  | cons x xs ih =>
    obtain ⟨p, ps, h1, h2, rfl⟩ := mapM_cons_ok hps
    obtain ⟨g1, g2, g3⟩ := hx x (by simp)
    obtain ⟨p', e1, e2, e3, e4⟩ := sender_packet s hs x g1 g2 g3
    obtain rfl : p = p' := Except.ok.inj (h1.symm.trans e1)
    obtain ⟨i1, i2⟩ := ih (fun y hy => hx y (by simp [hy])) ps h2
    refine ⟨fun q hq => ?_, fun r => ?_⟩
    · rcases List.mem_cons.1 hq with rfl | hq
      · exact e2
      · exact i1 q hq
    · obtain ⟨part, f1, f2⟩ := read_part r p s.key e2
      obtain rfl : x.2 = part := Except.ok.inj (e4.symm.trans f1)
      rw [e3] at f2
      rw [readAll_cons f2, i2, ok_bind, set_self]
      have : ∀ a b, (r.set s.key a).set s.key b = r.set s.key b := by
        intro a b
        funext k
        unfold TextReader.set
        split <;> rfl
      dsimp only
      rw [this, ← List.map_append]
      rfl

theorem partsRun_append (b : Option (List Byte)) (xs ys : List (Format × List Byte)) : partsRun b (xs ++ ys) =
    ((partsRun (partsRun b xs).1 ys).1, (partsRun b xs).2 ++ (partsRun (partsRun b xs).1 ys).2) := by
  induction xs generalizing b with
  | nil => rfl
  | cons x xs ih => rw [List.cons_append, partsRun, ih, partsRun, List.append_assoc]

theorem run_later (u : List Byte) (b : Option (List Byte)) :
    partsRun b (laterParts u) = (none, (b.map fun t => t ++ u).toList) := by
  induction u using laterParts.induct generalizing b with
  | case1 u h =>
    rw [laterParts, if_pos h]
    simp [partsRun, partStep]
  | case2 u h ih =>
    rw [laterParts, if_neg h, partsRun, ih]
    cases b with
    | none => rfl
    | some t => simp [partStep]

theorem run_text (u : List Byte) (b : Option (List Byte)) : partsRun b (textParts u) = (none, [u]) := by
  unfold textParts
  split
  · rfl
  · rw [partsRun, run_later]
    simp [partStep]

theorem good_later (u : List Byte) (hz : ∀ c ∈ u, c ≠ 0) : GoodParts (laterParts u) := by
  induction u using laterParts.induct with
  | case1 u h =>
    rw [laterParts, if_pos h]
    intro x hx
    obtain rfl := List.mem_singleton.1 hx
    exact ⟨h, hz, by simp⟩
  | case2 u h ih =>
    rw [laterParts, if_neg h]
    intro x hx
    rcases List.mem_cons.1 hx with rfl | hx
    · exact ⟨by simp, fun c hc => hz c (List.mem_of_mem_take hc), by simp; omega⟩
    · exact ih (fun c hc => hz c (List.mem_of_mem_drop hc)) x hx

theorem good_text (u : List Byte) (hz : ∀ c ∈ u, c ≠ 0) : GoodParts (textParts u) := by
  unfold textParts
  split
  · next h =>
    intro x hx
    obtain rfl := List.mem_singleton.1 hx
    exact ⟨h, hz, by simp⟩
  · next h =>
    intro x hx
    rcases List.mem_cons.1 hx with rfl | hx
    · exact ⟨by simp, fun c hc => hz c (List.mem_of_mem_take hc), by simp; omega⟩
    · exact good_later _ (fun c hc => hz c (List.mem_of_mem_drop hc)) x hx

theorem length_later (u : List Byte) : (laterParts u).length = (u.length + 11) / 12 + if u = [] then 1 else 0 := by
  induction u using laterParts.induct with
  | case1 u h =>
    rw [laterParts, if_pos h]
    by_cases e : u = []
    · subst e; rfl
    · have := List.length_pos_iff.2 e
      rw [if_neg e, List.length_singleton]; omega
  | case2 u h ih =>
    have e1 : u.drop 12 ≠ [] := fun e => h (by simpa using e)
    have e2 : u ≠ [] := fun e => h (by simp [e])
    rw [laterParts, if_neg h, List.length_cons, ih, if_neg e1, if_neg e2, List.length_drop]; omega

/-- C103: a text of any length is sent in as many packets as are needed for its characters, 12 in each, and a reader in any state that
reads them delivers exactly the text, with the last packet. What has begun of other texts is not changed. -/
theorem C103_text (s : TextSender) (hs : s.Ok) (text : List Byte) (ht : ∀ c ∈ text, c ≠ 0) :
    ∃ ps, s.sendText text = .ok ps ∧ ps.length = max 1 ((text.length + 11) / 12) ∧
      (∀ p ∈ ps, TextKey.ofPacket p = some s.key) ∧
      ∀ r : TextReader, r.readAll ps = .ok (r.set s.key none, [(s.key, text)]) := by
  obtain ⟨ps, hps⟩ := send_parts s hs _ (good_text text ht)
  obtain ⟨h1, h2⟩ := read_parts s hs _ (good_text text ht) ps hps
  refine ⟨ps, hps, ?_, h1, fun r => by rw [h2, run_text]; rfl⟩
  rw [mapM_length hps]
  unfold textParts
  split
  · rw [List.length_singleton]; omega
  · next h =>
    have e1 : text.drop 12 ≠ [] := fun e => h (by simpa using e)
    rw [List.length_cons, length_later, if_neg e1, List.length_drop]; omega

/-- Lyrics for channel 5 of group 3: "Ein Männlein steht im Walde" in UTF-8, and a text without characters. -/
def lyrics : TextSender where
  group := 3
  address := .channel
  channel := 5
  bank := 2
  status := 1
  texts := [[0x45, 0x69, 0x6E, 0x20, 0x4D, 0xC3, 0xA4, 0x6E, 0x6E, 0x6C, 0x65, 0x69, 0x6E, 0x20, 0x73, 0x74, 0x65, 0x68, 0x74, 0x20,
    0x69, 0x6D, 0x20, 0x57, 0x61, 0x6C, 0x64, 0x65], []]

/-- The composer, for all of group 3. -/
def composer : TextSender where
  group := 3
  address := .group
  channel := 0
  bank := 1
  status := 4
  texts := [[0x48, 0x6F, 0x66, 0x66, 0x6D, 0x61, 0x6E, 0x6E, 0x20, 0x76, 0x6F, 0x6E, 0x20]]

example : lyrics.Ok ∧ composer.Ok ∧ lyrics.key ≠ composer.key := by decide

example : ∃ ps, lyrics.sendText lyrics.texts[0] = .ok ps ∧ ps.length = 3 ∧
    ∃ r, TextReader.new.readAll ps = .ok (r, [(lyrics.key, lyrics.texts[0])]) := by
  obtain ⟨ps, h1, h2, -, h3⟩ := C103_text lyrics (by decide) lyrics.texts[0] (by decide)
  exact ⟨ps, h1, h2, _, h3 _⟩

theorem readAll_append {r r1 : TextReader} {ps qs : List Packet} {l : List (TextKey × List Byte)} (h : r.readAll ps = .ok (r1, l)) :
    r.readAll (ps ++ qs) = (do let (r2, m) ← r1.readAll qs; return (r2, l ++ m)) := by
  induction ps generalizing r l with
  | nil =>
    obtain ⟨rfl, rfl⟩ := Prod.mk.inj (Except.ok.inj h)
    rw [List.nil_append]
    cases r.readAll qs <;> rfl
  | cons p ps ih =>
    obtain ⟨r', l', h', -⟩ := C103_reader_safe r [p]
    rw [TextReader.readAll] at h h'
    cases hp : r.read p with
    | error e => rw [hp] at h; cases h
    | ok x =>
      obtain ⟨r3, l3⟩ := x
      rw [hp, ok_bind] at h
      rw [List.cons_append, readAll_cons hp]
      dsimp only at h
      obtain ⟨r4, l4, h4, -⟩ := C103_reader_safe r3 ps
      rw [h4] at h
      obtain ⟨e1, e2⟩ := Prod.mk.inj (Except.ok.inj h)
      dsimp only at e1 e2
      subst e1 e2
      rw [ih h4]
      obtain ⟨r5, l5, h5, -⟩ := C103_reader_safe r4 qs
      rw [h5]
      show Except.ok _ = Except.ok _
      rw [List.append_assoc]

theorem sequence_texts (s : TextSender) (hs : s.Ok) (texts : List (List Byte)) (ht : ∀ t ∈ texts, ∀ c ∈ t, c ≠ 0) :
    ∃ pss, texts.mapM s.sendText = .ok pss ∧ (∀ p ∈ pss.flatten, TextKey.ofPacket p = some s.key) ∧
      ∀ r : TextReader, ∃ r', r.readAll pss.flatten = .ok (r', texts.map fun t => (s.key, t)) := by
  induction texts with
  | nil => exact ⟨[], rfl, fun p hp => absurd hp (by simp), fun r => ⟨r, rfl⟩⟩
  | cons t texts ih =>
    obtain ⟨ps, h1, -, h2, h3⟩ := C103_text s hs t (ht t (by simp))
    obtain ⟨pss, i1, i2, i3⟩ := ih fun u hu => ht u (by simp [hu])
    refine ⟨ps :: pss, by rw [List.mapM_cons, h1, ok_bind, i1]; rfl, fun p hp => ?_, fun r => ?_⟩
    · rw [List.flatten_cons, List.mem_append] at hp
      exact hp.elim (h2 p) (i2 p)
    · obtain ⟨r', i4⟩ := i3 (r.set s.key none)
      refine ⟨r', ?_⟩
      rw [List.flatten_cons, readAll_append (h3 r), i4]
      rfl

/-- C103: every sender can send its texts. -/
theorem C103_can_be_sent (s : TextSender) (hs : s.Ok) : ∃ ps, s.send = .ok ps := by
  obtain ⟨pss, h, -⟩ := sequence_texts s hs s.texts hs.2.2.2.2
  exact ⟨pss.flatten, by rw [TextSender.send, h]; rfl⟩

/-- C103: any number of senders send texts at the same time, to different groups, channels or kinds of text, mixed with any packets
which are not parts of such texts. One reader, whatever it has read before, delivers to every sender's key exactly the texts sent there,
in order. -/
theorem C103_all_texts (senders : List TextSender) (hdist : senders.Pairwise fun s t => s.key ≠ t.key) (hok : ∀ s ∈ senders, s.Ok)
    (packets : TextSender → List Packet) (hsent : ∀ s ∈ senders, s.send = .ok (packets s))
    (other : List Packet) (hother : ∀ p ∈ other, ∀ s ∈ senders, TextKey.ofPacket p ≠ some s.key) (w : List Packet)
    (hw : Interleaved (senders.map packets ++ [other]) w) (r : TextReader) :
    ∃ r' l, r.readAll w = .ok (r', l) ∧ ∀ s ∈ senders, textsOf s.key l = s.texts := by
  obtain ⟨r', l, hr, -⟩ := C103_reader_safe r w
  refine ⟨r', l, hr, fun s hs => ?_⟩
  have hsend : ∀ t ∈ senders, (∀ p ∈ packets t, TextKey.ofPacket p = some t.key) ∧
      ∃ r', r.readAll (packets t) = .ok (r', t.texts.map fun x => (t.key, x)) := by
    intro t ht
    obtain ⟨pss, h1, h2, h3⟩ := sequence_texts t (hok t ht) t.texts (hok t ht).2.2.2.2
    have h := hsent t ht
    rw [TextSender.send, h1] at h
    have e : pss.flatten = packets t := Except.ok.inj h
    rw [← e]
    exact ⟨h2, h3 r⟩
  obtain ⟨i, hlt, hi⟩ := List.getElem_of_mem hs
  have hsel := select_sender senders packets other w hw (fun p => TextKey.ofPacket p = some s.key) i s
    (List.getElem?_eq_some_iff.2 ⟨hlt, hi⟩) (fun p hp => by rw [(hsend s hs).1 p hp]; simp)
    (fun j t hj ht p hp => by
      obtain ⟨hjl, hjt⟩ := List.getElem?_eq_some_iff.1 ht
      have hne : t.key ≠ s.key := by
        rw [← hi, ← hjt]
        rcases Nat.lt_or_gt_of_ne hj with h | h
        · exact List.pairwise_iff_getElem.1 hdist j i hjl hlt h
        · exact (List.pairwise_iff_getElem.1 hdist i j hlt hjl h).symm
      rw [(hsend t (List.mem_of_getElem? ht)).1 p hp]
      simpa using hne)
    (fun p hp => by simpa using hother p hp s hs)
  obtain ⟨r1, l1, s1, m1, e1, e2, e3, -⟩ := C103_independent r r s.key rfl w
  rw [hr] at e1
  obtain ⟨-, rfl⟩ := Prod.mk.inj (Except.ok.inj e1)
  rw [hsel] at e2
  obtain ⟨r2, e4⟩ := (hsend s hs).2
  rw [e4] at e2
  obtain ⟨-, rfl⟩ := Prod.mk.inj (Except.ok.inj e2)
  rw [e3, textsOf_same]

/-- C103: lyrics and the composer, their packets alternating, with a tempo message in between. -/
example : ([lyrics, composer].Pairwise fun s t => s.key ≠ t.key) ∧ (∀ s ∈ [lyrics, composer], s.Ok) ∧
    ∃ a b c d e f tempo, lyrics.send = .ok [a, b, c, d] ∧ composer.send = .ok [e, f] ∧ makeSetTempo 3 50000000 = .ok tempo ∧
      Interleaved [[a, b, c, d], [e, f], [tempo]] [a, e, b, tempo, f, c, d] ∧ TextKey.ofPacket tempo = none := by
  refine ⟨by decide, by decide, ⟨0xD3450201, 0x45696E20, 0x4DC3A46E, 0x6E6C6569⟩, ⟨0xD3850201, 0x6E207374, 0x65687420, 0x696D2057⟩,
    ⟨0xD3C50201, 0x616C6465, 0, 0⟩, ⟨0xD3050201, 0, 0, 0⟩, ⟨0xD3500104, 0x486F6666, 0x6D616E6E, 0x20766F6E⟩,
    ⟨0xD3D00104, 0x20000000, 0, 0⟩, ⟨0xD3100000, 50000000, 0, 0⟩, ?_, ?_, by decide +kernel, ?_, by decide +kernel⟩
  · simp [TextSender.send, TextSender.sendText, lyrics, textParts, laterParts]
    decide +kernel
  · simp [TextSender.send, TextSender.sendText, composer, textParts, laterParts]
    decide +kernel
  · exact .next _ 0 _ _ _ rfl (.next _ 1 _ _ _ rfl (.next _ 0 _ _ _ rfl (.next _ 2 _ _ _ rfl (.next _ 1 _ _ _ rfl
      (.next _ 0 _ _ _ rfl (.next _ 0 _ _ _ rfl (.nothing _ (by decide))))))))

/-! ## Lost packets -/

theorem run_later_lost (u : List Byte) (t : List Byte) (j : Nat) (hj : j < (laterParts u).length) :
    partsRun (some t) ((laterParts u).eraseIdx j) =
      if j + 1 = (laterParts u).length then (some (t ++ u.take (12 * j)), [])
      else (none, [t ++ u.take (12 * j) ++ u.drop (12 * j + 12)]) := by
  induction u using laterParts.induct generalizing t j with
  | case1 u h =>
    rw [laterParts, if_pos h] at hj ⊢
    obtain rfl : j = 0 := by simpa using hj
    simp [partsRun]
  | case2 u h ih =>
    rw [laterParts, if_neg h] at hj ⊢
    cases j with
    | zero =>
      have hn : (laterParts (u.drop 12)).length ≠ 0 := by
        rw [length_later]
        split <;> (have := List.length_drop (i := 12) (l := u); omega)
      rw [List.eraseIdx_cons_zero, run_later, List.length_cons, if_neg (by omega)]
      simp
    | succ j =>
      rw [List.length_cons] at hj
      rw [List.eraseIdx_cons_succ, partsRun]
      have e := ih (t ++ u.take 12) j (by omega)
      rw [show (partStep (some t) (Format.cont, u.take 12)).1 = some (t ++ u.take 12) from rfl, e, List.length_cons]
      have et : u.take (12 * (j + 1)) = u.take 12 ++ (u.drop 12).take (12 * j) := by
        rw [show 12 * (j + 1) = 12 + 12 * j by omega, List.take_add]
      have ed : u.drop (12 * (j + 1) + 12) = (u.drop 12).drop (12 * j + 12) := by
        rw [List.drop_drop]; congr 1; omega
      by_cases c : j + 1 = (laterParts (u.drop 12)).length
      · rw [if_pos c, if_pos (by omega), et]
        simp [partStep]
      · rw [if_neg c, if_neg (by omega), et, ed]
        simp [partStep]

/-- C103: if a packet of a text gets lost, no other text suffers, and the reader is ready for the next one (`C103_text`). Of this text,
a reader delivers nothing if the last packet or the only one got lost, and it delivers it without the 12 characters of the packet, and
without a sign of the loss, if it was one in the middle. If it was the first one, it delivers nothing, provided that it has not begun
a text before. -/
theorem C103_lost_packet (s : TextSender) (hs : s.Ok) (text : List Byte) (ht : ∀ c ∈ text, c ≠ 0) (ps : List Packet)
    (hps : s.sendText text = .ok ps) (r : TextReader) (i : Nat) (hi : i < ps.length) :
    ∃ r' l, r.readAll (ps.eraseIdx i) = .ok (r', l.map fun t => (s.key, t)) ∧ (∀ k, k ≠ s.key → r' k = r k) ∧
      (i + 1 = ps.length → l = []) ∧
      (0 < i → i + 1 < ps.length → l = [text.take (12 * i) ++ text.drop (12 * i + 12)]) ∧
      (i = 0 → r s.key = none → l = []) := by
  have hps' : (textParts text).mapM (partPacket s) = .ok ps := hps
  have hlen := mapM_length hps'
  have hgood : GoodParts ((textParts text).eraseIdx i) := fun x hx => good_text text ht x (List.mem_of_mem_eraseIdx hx)
  obtain ⟨-, h⟩ := read_parts s hs _ hgood _ (mapM_eraseIdx hps' i)
  refine ⟨_, _, h r, fun k hk => set_other _ _ _ _ hk, ?_⟩
  unfold textParts at hlen ⊢
  split at hlen
  · next h12 =>
    rw [if_pos h12]
    obtain rfl : i = 0 := by simp at hlen; omega
    exact ⟨fun _ => rfl, fun h => absurd h (by omega), fun _ _ => rfl⟩
  · next h12 =>
    rw [if_neg h12]
    rw [List.length_cons] at hlen
    cases i with
    | zero =>
      rw [List.eraseIdx_cons_zero, run_later]
      have hn : (laterParts (text.drop 12)).length ≠ 0 := by
        rw [length_later]
        split <;> (have := List.length_drop (i := 12) (l := text); omega)
      exact ⟨fun e => absurd e (by omega), fun h => absurd h (by omega), fun _ e => by rw [e]; rfl⟩
    | succ j =>
      rw [List.eraseIdx_cons_succ, partsRun, show (partStep (r s.key) (Format.start, text.take 12)).1 = some (text.take 12) from rfl,
        run_later_lost _ _ j (by omega)]
      refine ⟨fun e => ?_, fun _ e => ?_, fun e => absurd e (by omega)⟩
      · rw [if_pos (by omega)]; rfl
      · rw [if_neg (by omega)]
        have et : text.take (12 * (j + 1)) = text.take 12 ++ (text.drop 12).take (12 * j) := by
          rw [show 12 * (j + 1) = 12 + 12 * j by omega, List.take_add]
        have ed : text.drop (12 * (j + 1) + 12) = (text.drop 12).drop (12 * j + 12) := by
          rw [List.drop_drop]; congr 1; omega
        rw [et, ed]
        rfl

example : ∃ ps, lyrics.sendText lyrics.texts[0] = .ok ps ∧ ps.length = 3 ∧ ∃ r, TextReader.new.readAll (ps.eraseIdx 1) =
    .ok (r, [(lyrics.key, [0x45, 0x69, 0x6E, 0x20, 0x4D, 0xC3, 0xA4, 0x6E, 0x6E, 0x6C, 0x65, 0x69, 0x61, 0x6C, 0x64, 0x65])]) := by
  obtain ⟨ps, h1, h2, -, h3⟩ := C103_text lyrics (by decide) lyrics.texts[0] (by decide)
  obtain ⟨r', l, e1, -, -, e2, -⟩ := C103_lost_packet lyrics (by decide) lyrics.texts[0] (by decide) ps h1 TextReader.new 1
    (by rw [h2]; decide)
  obtain rfl := e2 (by decide) (by rw [h2]; decide)
  exact ⟨ps, h1, h2, r', e1⟩

theorem readText_no_zero (p : Packet) : ∀ n t, readText Packet.getByte p n = .ok t → ∀ c ∈ t, c ≠ 0
  | 0, t, h => by
    obtain rfl : [] = t := Except.ok.inj h
    exact fun c hc => absurd hc (by simp)
  | n + 1, t, h => by
    rw [readText] at h
    cases hg : p.getByte (16 - (n + 1)) with
    | error e => rw [hg] at h; cases h
    | ok b =>
      rw [hg, ok_bind] at h
      split at h
      · next hb =>
        cases hr : readText Packet.getByte p n with
        | error e => rw [hr] at h; cases h
        | ok u =>
          rw [hr] at h
          obtain rfl : b :: u = t := Except.ok.inj h
          intro c hc
          rcases List.mem_cons.1 hc with rfl | hc
          · exact hb
          · exact readText_no_zero p n u hr c hc
      · obtain rfl : [] = t := Except.ok.inj h
        exact fun c hc => absurd hc (by simp)

theorem partStep_no_zero (b : Option (List Byte)) (x : Format × List Byte) (hb : ∀ t, b = some t → ∀ c ∈ t, c ≠ 0) (hx : ∀ c ∈ x.2, c ≠ 0) :
    (∀ t, (partStep b x).1 = some t → ∀ c ∈ t, c ≠ 0) ∧ ∀ t ∈ (partStep b x).2, ∀ c ∈ t, c ≠ 0 := by
  obtain ⟨f, u⟩ := x
  have happ : ∀ t, (b.map fun t => t ++ u) = some t → ∀ c ∈ t, c ≠ 0 := by
    intro t h c hc
    obtain ⟨v, hv, rfl⟩ := Option.map_eq_some_iff.1 h
    exact (List.mem_append.1 hc).elim (hb v hv c) (hx c)
  cases f <;> unfold partStep <;> dsimp only
  · refine ⟨fun t h => absurd h (by simp), fun t h => ?_⟩
    rw [List.mem_singleton.1 h]; exact hx
  · exact ⟨fun t h => by rw [← Option.some.inj h]; exact hx, fun t h => absurd h (by simp)⟩
  · exact ⟨happ, fun t h => absurd h (by simp)⟩
  · exact ⟨fun t h => absurd h (by simp), fun t h => happ t (Option.mem_toList.1 h)⟩

theorem reader_no_zero (r r' : TextReader) (hr : ∀ k t, r k = some t → ∀ c ∈ t, c ≠ 0) (ps : List Packet)
    (l : List (TextKey × List Byte)) (h : r.readAll ps = .ok (r', l)) : ∀ x ∈ l, ∀ c ∈ x.2, c ≠ 0 := by
  induction ps generalizing r l with
  | nil =>
    obtain ⟨-, rfl⟩ := Prod.mk.inj (Except.ok.inj h)
    exact fun x hx => absurd hx (by simp)
  | cons p ps ih =>
    cases hk : TextKey.ofPacket p with
    | none =>
      obtain ⟨r1, l1, h1, -⟩ := C103_reader_safe r ps
      rw [readAll_cons (read_other r p hk), h1] at h
      obtain ⟨rfl, rfl⟩ := Prod.mk.inj (Except.ok.inj h)
      exact ih r hr l1 h1
    | some k =>
      obtain ⟨part, hp, hread⟩ := read_part r p k hk
      obtain ⟨g1, g2⟩ := partStep_no_zero (r k) (flexFormat p, part) (hr k) (readText_no_zero p 12 part hp)
      obtain ⟨r1, l1, h1, -⟩ := C103_reader_safe (r.set k (partStep (r k) (flexFormat p, part)).1) ps
      rw [readAll_cons hread, h1] at h
      obtain ⟨rfl, rfl⟩ := Prod.mk.inj (Except.ok.inj h)
      intro x hx
      rcases List.mem_append.1 hx with hx | hx
      · obtain ⟨t, ht, rfl⟩ := List.mem_map.1 hx
        exact g2 t ht
      · refine ih _ ?_ l1 h1 x hx
        intro k' t ht
        by_cases e : k' = k
        · rw [e, set_self] at ht
          exact g1 t ht
        · rw [set_other _ _ _ _ e] at ht
          exact hr k' t ht

/-- C103: zeros are what keeps a text from being read: whatever packets arrive, no text the reader delivers has a zero, so a text which
has one never arrives as it was sent. -/
theorem C103_no_zeros (ps : List Packet) (r : TextReader) (l : List (TextKey × List Byte)) (h : TextReader.new.readAll ps = .ok (r, l)) :
    ∀ x ∈ l, 0 ∉ x.2 := fun x hx hz => reader_no_zero TextReader.new r (fun k t e => by cases e) ps l h x hx 0 hz rfl

/-- C103: what arrives of such a text. -/
example : ∃ ps, lyrics.sendText [0x41, 0, 0x42] = .ok ps ∧ ∃ r, TextReader.new.readAll ps = .ok (r, [(lyrics.key, [0x41])]) :=
  ⟨[⟨0xD3050201, 0x41004200, 0, 0⟩], by decide +kernel, _, rfl⟩

end Midi

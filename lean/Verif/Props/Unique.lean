import Verif.Props.Damage
import Verif.Props.Packet
import Verif.Props.TranslationOrder

/-!
# Property C95: different messages look different
-/

namespace Midi
open Spec

/-- If the lists sent for two lists of messages are the same when joined, and the messages of the one list have as many packets as
those of the other, then they are sent in the same packets one by one. -/
theorem aligned {α : Type} {R : α → α → Prop} {f : α → Except Fault (List Packet)}
    (hR : ∀ a b x y, R a b → f a = .ok x → f b = .ok y → x.length = y.length) :
    ∀ {as bs : List α}, List.Forall₂ R as bs → ∀ {xs ys}, as.mapM f = .ok xs → bs.mapM f = .ok ys → xs.flatten = ys.flatten →
      List.Forall₂ (fun a b => R a b ∧ ∃ x, f a = .ok x ∧ f b = .ok x) as bs := by
  intro as bs h
  induction h with
  | nil => intros; exact .nil
  | @cons a b as bs hab _ ih =>
    intro xs ys hx hy e
    rw [List.mapM_cons] at hx hy
    cases ha : f a with
    | error _ => rw [ha] at hx; cases hx
    | ok x =>
    cases hb : f b with
    | error _ => rw [hb] at hy; cases hy
    | ok y =>
    cases has : as.mapM f with
    | error _ => rw [ha, has] at hx; cases hx
    | ok xs' =>
    cases hbs : bs.mapM f with
    | error _ => rw [hb, hbs] at hy; cases hy
    | ok ys' =>
    rw [ha, has] at hx
    rw [hb, hbs] at hy
    cases hx; cases hy
    rw [List.flatten_cons, List.flatten_cons] at e
    obtain ⟨e1, e2⟩ := List.append_inj e (hR a b x y hab ha hb)
    exact .cons ⟨hab, x, ha, by rw [hb, e1]⟩ (ih has hbs e2)

theorem forall₂_of_map {α β : Type} {P : α → Prop} {f : α → β} (as bs : List α) (ha : ∀ a ∈ as, P a) (hb : ∀ b ∈ bs, P b)
    (h : as.map f = bs.map f) : List.Forall₂ (fun a b => P a ∧ P b ∧ f a = f b) as bs := by
  induction as generalizing bs with
  | nil => cases bs with
    | nil => exact .nil
    | cons _ _ => cases h
  | cons m as ih => cases bs with
    | nil => cases h
    | cons m' bs =>
      rw [List.map_cons, List.map_cons, List.cons.injEq] at h
      exact .cons ⟨ha _ List.mem_cons_self, hb _ List.mem_cons_self, h.1⟩
        (ih bs (fun x hx => ha x (List.mem_cons_of_mem _ hx)) (fun x hx => hb x (List.mem_cons_of_mem _ hx)) h.2)

/-- C95: messages sent with `send_sysex7` look different if they are different: if two lists of valid messages, each sent to some group,
result in the same packets, they are the same messages sent to the same groups. -/
theorem C95_sysex7 (ms ms' : List (Sysex × Byte)) (hms : ∀ m ∈ ms, Sendable7 m) (hms' : ∀ m ∈ ms', Sendable7 m)
    (sent sent' : List (List Packet)) (hs : ms.mapM (fun m => sendSysex7 m.1 m.2) = .ok sent)
    (hs' : ms'.mapM (fun m => sendSysex7 m.1 m.2) = .ok sent') (h : sent.flatten = sent'.flatten) : ms = ms' := by
  obtain ⟨t, e, hf⟩ := C18_send_succeeds ms hms
  rw [hs] at e; cases e
  obtain ⟨c, b, c', h1, h2⟩ := C18_sysex7_round_trip [] ms hms sent hs sent.flatten hf
  obtain ⟨d, b', d', h1', h2'⟩ := C18_sysex7_round_trip [] ms' hms' sent' hs' sent.flatten (h ▸ hf)
  rw [h1] at h1'; cases h1'
  rw [h2] at h2'
  have hm : ms.map Prod.fst = ms'.map Prod.fst := by injection h2' with h2'; exact (Prod.mk.inj h2').2
  have hF : List.Forall₂ (fun a b : Sysex × Byte => Sendable7 a ∧ Sendable7 b ∧ a.1 = b.1) ms ms' :=
    forall₂_of_map ms ms' hms hms' hm
  have hA := aligned (f := fun m : Sysex × Byte => sendSysex7 m.1 m.2) ?_ hF hs hs' h
  · clear hs hs' h hf h2 h2' hF hm
    induction hA with
    | nil => rfl
    | @cons a b as bs hab _ ih =>
      obtain ⟨⟨ha, hb, he⟩, x, hx, hy⟩ := hab
      rw [ih (fun x hx => hms x (by simp [hx])) (fun x hx => hms' x (by simp [hx]))]
      obtain ⟨ps, e1, g1, fr, -⟩ := C17_send_sysex7 a.1 a.2 ha.2.2 ha.1
      obtain ⟨ps', e2, g2, -⟩ := C17_send_sysex7 b.1 b.2 hb.2.2 hb.1
      rw [hx] at e1; cases e1
      rw [hy] at e2; cases e2
      have hne : x ≠ [] := by
        rintro rfl
        rcases fr with fr | ⟨n, fr⟩
        · cases fr
        · cases fr
      obtain ⟨p, hp⟩ := List.exists_mem_of_ne_nil _ hne
      have hg : a.2 = b.2 := BitVec.eq_of_toNat_eq ((g1 p hp).2.1.symm.trans (g2 p hp).2.1)
      have : a = b := Prod.ext he hg
      rw [this]
  · rintro a b x y ⟨ha, hb, he⟩ hx hy
    obtain ⟨ps, e1, l1⟩ := C79_send_sysex7 a.1 a.2 ha.2.2
    obtain ⟨ps', e2, l2⟩ := C79_send_sysex7 b.1 b.2 hb.2.2
    rw [hx] at e1; cases e1
    rw [hy] at e2; cases e2
    rw [l1, l2, he]

example := C95_sysex7 [(⟨0x7E0000, [0x7F, 6, 1, 2, 3, 4, 5]⟩, 3), (⟨0x002109, []⟩, 0)]
  [(⟨0x7E0000, [0x7F, 6, 1, 2, 3, 4, 5]⟩, 3), (⟨0x002109, []⟩, 0)] (by decide) (by decide) _ _ rfl rfl rfl
/-- Only the lists of packets have to be the same when joined: the condition of a genuine id cannot be left out. -/
example : ∃ ps, sendSysex7 ⟨0, [0x21, 0x09, 1]⟩ 0 = .ok ps ∧ sendSysex7 ⟨0x002109, [1]⟩ 0 = .ok ps := ⟨_, rfl, rfl⟩

/-- C95: likewise for `send_sysex8`, the messages it frames correctly (see C19), their streams and groups. -/
theorem C95_sysex8 (ms ms' : List (Sysex × Byte × Byte)) (hms : ∀ m ∈ ms, Sendable8 m) (hms' : ∀ m ∈ ms', Sendable8 m)
    (sent sent' : List (List Packet)) (hs : ms.mapM (fun m => sendSysex8 m.1 m.2.1 m.2.2) = .ok sent)
    (hs' : ms'.mapM (fun m => sendSysex8 m.1 m.2.1 m.2.2) = .ok sent') (h : sent.flatten = sent'.flatten) : ms = ms' := by
  have hf : ∀ {ms : List (Sysex × Byte × Byte)} {sent : List (List Packet)}, (∀ m ∈ ms, Sendable8 m) →
      ms.mapM (fun m => sendSysex8 m.1 m.2.1 m.2.2) = .ok sent → sent.flatten.filter (fun p => decide (IsSysex8 p)) = sent.flatten := by
    intro ms
    induction ms with
    | nil => intro sent _ hs; cases hs; rfl
    | cons m ms ih =>
      intro sent hms hs
      rw [List.mapM_cons] at hs
      obtain ⟨ps, e, hp⟩ := C20_send_succeeds m (hms m List.mem_cons_self)
      rw [e] at hs
      cases hr : ms.mapM (fun m => sendSysex8 m.1 m.2.1 m.2.2) with
      | error _ => rw [hr] at hs; cases hs
      | ok r =>
        rw [hr] at hs; cases hs
        rw [List.flatten_cons, List.filter_append, hp, ih (fun x hx => hms x (List.mem_cons_of_mem _ hx)) hr]
  have hf := hf hms hs
  obtain ⟨c, b, c', h1, h2⟩ := C20_sysex8_round_trip_partial [] ms hms sent hs sent.flatten hf
  obtain ⟨d, b', d', h1', h2'⟩ := C20_sysex8_round_trip_partial [] ms' hms' sent' hs' sent.flatten (h ▸ hf)
  rw [h1] at h1'; cases h1'
  rw [h2] at h2'
  have hm : (ms.map fun m => (m.1, m.2.1)) = ms'.map fun m => (m.1, m.2.1) := by
    injection h2' with h2'; exact (Prod.mk.inj h2').2
  have hF : List.Forall₂ (fun a b : Sysex × Byte × Byte => Sendable8 a ∧ Sendable8 b ∧ (a.1, a.2.1) = (b.1, b.2.1)) ms ms' :=
    forall₂_of_map ms ms' hms hms' hm
  have hA := aligned (f := fun m : Sysex × Byte × Byte => sendSysex8 m.1 m.2.1 m.2.2) ?_ hF hs hs' h
  · clear hs hs' h hf h2 h2' hF hm
    induction hA with
    | nil => rfl
    | @cons a b as bs hab _ ih =>
      obtain ⟨⟨ha, hb, he⟩, x, hx, hy⟩ := hab
      rw [ih (fun x hx => hms x (by simp [hx])) (fun x hx => hms' x (by simp [hx]))]
      obtain ⟨ps, e1, g1, -⟩ := C19_send_sysex8_payload a.1 a.2.1 a.2.2 ha.2.2 ha.1
      obtain ⟨ps', e2, g2, -⟩ := C19_send_sysex8_payload b.1 b.2.1 b.2.2 hb.2.2 hb.1
      obtain ⟨ps'', e3, l3⟩ := C79_send_sysex8 a.1 a.2.1 a.2.2 ha.2.2
      rw [hx] at e1 e3; cases e1; cases e3
      rw [hy] at e2; cases e2
      have hne : x ≠ [] := by
        rintro rfl
        rw [List.length_nil] at l3
        omega
      obtain ⟨p, hp⟩ := List.exists_mem_of_ne_nil _ hne
      have hg : a.2.2 = b.2.2 := BitVec.eq_of_toNat_eq ((g1 p hp).2.1.symm.trans (g2 p hp).2.1)
      have : a = b := Prod.ext (Prod.mk.inj he).1 (Prod.ext (Prod.mk.inj he).2 hg)
      rw [this]
  · rintro a b x y ⟨ha, hb, he⟩ hx hy
    obtain ⟨ps, e1, l1⟩ := C79_send_sysex8 a.1 a.2.1 a.2.2 ha.2.2
    obtain ⟨ps', e2, l2⟩ := C79_send_sysex8 b.1 b.2.1 b.2.2 hb.2.2
    rw [hx] at e1; cases e1
    rw [hy] at e2; cases e2
    rw [l1, l2, (Prod.mk.inj he).1]

example := C95_sysex8 [(⟨0x7E0000, [0xFF, 6, 1, 2, 3, 4, 5]⟩, 1, 3), (⟨0x002109, []⟩, 2, 0)]
  [(⟨0x7E0000, [0xFF, 6, 1, 2, 3, 4, 5]⟩, 1, 3), (⟨0x002109, []⟩, 2, 0)] (by decide) (by decide) _ _ rfl rfl rfl

/-- A part of a byte stream is a complete message: a well formed system or channel voice message of a group, or a sysex message with 7 bit
data and a manufacturer id that exists. -/
def Spec.CompleteMessage (g : Byte) : TrafficBytes → Prop
  | .intact p => WellFormed1 [g] p ∧ IsShort p
  | .sysex m => Sendable7 (m, 0)
  | .damaged _ => False

/-- C95: two byte streams of complete messages, each of them a system or channel voice message with its status byte or a sysex message
from F0 to F7, are the same only if they are the bytes of the same messages. -/
theorem C95_bytes (g : Byte) (hg : g < 16) (ts ts' : List TrafficBytes) (hts : ∀ t ∈ ts, CompleteMessage g t)
    (hts' : ∀ t ∈ ts', CompleteMessage g t) (h : ts.flatMap TrafficBytes.bytes = ts'.flatMap TrafficBytes.bytes) : ts = ts' := by
  have key : ∀ us : List TrafficBytes, (∀ t ∈ us, CompleteMessage g t) → ∃ p' outs,
      (Parser.new g true true).feedAll (us.flatMap TrafficBytes.bytes) = .ok (p', outs.flatten) ∧
        List.Forall₂ (TrafficBytes.delivers true) us outs := by
    intro us hus
    exact C80_parser (Parser.new g true true) ⟨g, true, true, [], [], hg, (by intro k hk; cases hk), rfl⟩ rfl us
      (fun q hq => hus _ hq) (fun m hm => hus _ hm)
  obtain ⟨p1, o1, e1, f1⟩ := key ts hts
  obtain ⟨p2, o2, e2, f2⟩ := key ts' hts'
  rw [h, e2] at e1
  have ho : o2.flatten = o1.flatten := by injection e1 with e1; exact (Prod.mk.inj e1).2
  clear e1 e2 h key
  have single : ∀ {us : List TrafficBytes} {os : List (List Event)}, (∀ t ∈ us, CompleteMessage g t) →
      List.Forall₂ (TrafficBytes.delivers true) us os → os.flatten = us.map fun
        | .intact q => Event.packet q
        | .sysex m => .sysex m
        | .damaged _ => .packet {} := by
    intro us os hus hF
    induction hF with
    | nil => rfl
    | @cons t o us os ht _ ih =>
      rw [List.flatten_cons, List.map_cons, ih fun x hx => hus x (List.mem_cons_of_mem _ hx)]
      have hc := hus t List.mem_cons_self
      cases t with
      | intact q =>
        have : o = [.packet q] := ht
        rw [this]; rfl
      | sysex m =>
        have : o = [.sysex m] := by simpa [TrafficBytes.delivers] using ht
        rw [this]; rfl
      | damaged b => exact hc.elim
  rw [single hts f1, single hts' f2] at ho
  clear f1 f2 single
  induction ts generalizing ts' with
  | nil => cases ts' with
    | nil => rfl
    | cons _ _ => cases ho
  | cons t ts ih => cases ts' with
    | nil => cases ho
    | cons t' ts' =>
      rw [List.map_cons, List.map_cons, List.cons.injEq] at ho
      rw [ih ts' (fun x hx => hts x (List.mem_cons_of_mem _ hx)) (fun x hx => hts' x (List.mem_cons_of_mem _ hx)) ho.2]
      have h1 := hts t List.mem_cons_self
      have h2 := hts' t' List.mem_cons_self
      have h3 := ho.1
      cases t with
      | damaged _ => exact h1.elim
      | intact q => cases t' with
        | damaged _ => exact h2.elim
        | intact q' => simp only [Event.packet.injEq] at h3; rw [h3]
        | sysex m' => cases h3
      | sysex m => cases t' with
        | damaged _ => exact h2.elim
        | intact q' => cases h3
        | sysex m' => simp only [Event.sysex.injEq] at h3; rw [h3]

/-- C95: in particular, if `to_midi1_byte_stream` of two lists of system and channel voice messages of a group gives the same bytes
in total, they are the same packets. -/
theorem C95_to_bytes (g : Byte) (hg : g < 16) (ps qs : List Packet) (hps : ∀ p ∈ ps, WellFormed1 [g] p ∧ IsShort p)
    (hqs : ∀ p ∈ qs, WellFormed1 [g] p ∧ IsShort p) (bs cs : List (List Byte)) (hb : ps.mapM toMidi1ByteStream = .ok bs)
    (hc : qs.mapM toMidi1ByteStream = .ok cs) (h : bs.flatten = cs.flatten) : ps = qs := by
  have key : ∀ {us : List Packet} {ds : List (List Byte)}, us.mapM toMidi1ByteStream = .ok ds →
      ds.flatten = (us.map TrafficBytes.intact).flatMap TrafficBytes.bytes := by
    intro us
    induction us with
    | nil => intro ds hd; cases hd; rfl
    | cons u us ih =>
      intro ds hd
      rw [List.mapM_cons, (C33_to_byte_stream u).1] at hd
      cases hr : us.mapM toMidi1ByteStream with
      | error _ => rw [hr] at hd; cases hd
      | ok r =>
        rw [hr] at hd; cases hd
        rw [List.flatten_cons, ih hr, List.map_cons, List.flatMap_cons]; rfl
  rw [key hb, key hc] at h
  have := C95_bytes g hg (ps.map .intact) (qs.map .intact) ?_ ?_ h
  · exact List.map_inj_right (fun a b e => by injection e) |>.1 this
  · intro t ht; obtain ⟨p, hp, rfl⟩ := List.mem_map.1 ht; exact hps p hp
  · intro t ht; obtain ⟨p, hp, rfl⟩ := List.mem_map.1 ht; exact hqs p hp

/-- The packets, and messages, of an example for both. -/
theorem unique_example : ∀ t ∈ [.intact (⟨0x13F80000, 0, 0, 0⟩ : Packet), .sysex ⟨0x7E0000, [0x7F, 6, 1]⟩, .intact ⟨0x23954C7F, 0, 0, 0⟩,
    .intact ⟨0x23C14400, 0, 0, 0⟩], CompleteMessage 3 t := by
  intro t ht
  simp only [List.mem_cons, List.not_mem_nil, or_false] at ht
  rcases ht with rfl | rfl | rfl | rfl
  · exact ⟨⟨by decide, by decide, by decide, by decide⟩, by decide⟩
  · exact (by decide : Sendable7 (⟨0x7E0000, [0x7F, 6, 1]⟩, 0))
  · exact ⟨⟨by decide, by decide, by decide, by decide⟩, by decide⟩
  · exact ⟨⟨by decide, by decide, by decide, by decide⟩, by decide⟩

example := C95_bytes 3 (by decide) _ _ unique_example unique_example rfl
example := C95_to_bytes 3 (by decide) [⟨0x13F80000, 0, 0, 0⟩, ⟨0x23954C7F, 0, 0, 0⟩] [⟨0x13F80000, 0, 0, 0⟩, ⟨0x23954C7F, 0, 0, 0⟩]
  (fun p hp => unique_example (.intact p) (by simp only [List.mem_cons, List.not_mem_nil, or_false] at hp; rcases hp with rfl | rfl <;> simp))
  (fun p hp => unique_example (.intact p) (by simp only [List.mem_cons, List.not_mem_nil, or_false] at hp; rcases hp with rfl | rfl <;> simp))
  _ _ rfl rfl rfl

/-- A MIDI 1 message that ends a note without saying how fast: a Note Off with velocity 64 or a Note On with velocity zero. -/
def Spec.EndsNote (p : Packet) : Prop :=
  p.status.toNat / 16 = 8 ∧ p.byte4 = 64 ∨ p.status.toNat / 16 = 9 ∧ p.byte4 = 0

instance (p : Packet) : Decidable (EndsNote p) := inferInstanceAs (Decidable (_ ∨ _))

theorem layout_unique {q q' : Packet} {g o c i j d : Nat} (h : Midi2Layout q g o c i j d) (h' : Midi2Layout q' g o c i j d) : q = q' := by
  obtain ⟨a0, a1, a2, a3⟩ := h
  obtain ⟨b0, b1, b2, b3⟩ := h'
  cases q; cases q'
  simp only at a0 a1 a2 a3 b0 b1 b2 b3
  congr 1
  · exact BitVec.eq_of_toNat_eq (a0.trans b0.symm)
  · exact BitVec.eq_of_toNat_eq (a1.trans b1.symm)
  · rw [a2, b2]
  · rw [a3, b3]

/-- C95: two MIDI 1 channel voice messages that have a translation to MIDI 2 have the same one exactly if they are equal, or both end the
same note of the same group and channel without saying how fast. -/
theorem C95_to_midi2 (p p' : Packet) (h : WellFormedMidi1 p) (h' : WellFormedMidi1 p') (ht : asMidi2 p ≠ .ok none) :
    asMidi2 p = asMidi2 p' ↔ p.eqv p' = true ∨
      (p.group = p'.group ∧ p.status.toNat % 16 = p'.status.toNat % 16 ∧ p.byte3 = p'.byte3 ∧ EndsNote p ∧ EndsNote p') := by
  have fields : ∀ {a b : Packet}, a.eqv b = true → a.group = b.group ∧ a.status = b.status ∧ a.byte3 = b.byte3 ∧ a.byte4 = b.byte4 := by
    intro a b e
    have hw := Packet.eqv_w0 e
    refine ⟨?_, ?_, ?_, ?_⟩
    · unfold Packet.group; rw [hw]
    · unfold Packet.status Packet.byte2; rw [hw]
    · unfold Packet.byte3; rw [hw]
    · unfold Packet.byte4; rw [hw]
  constructor
  · intro e
    have ht' : asMidi2 p' ≠ .ok none := e ▸ ht
    have k : ∀ a : Packet, WellFormedMidi1 a → asMidi2 a ≠ .ok none → ∃ q r, asMidi2 a = .ok (some q) ∧ asMidi1 q = some r ∧
        (r.eqv a = true ∨ (a.status.toNat / 16 = 9 ∧ a.byte4 = 0 ∧ r.group = a.group ∧ r.status.toNat / 16 = 8 ∧
          r.status.toNat % 16 = a.status.toNat % 16 ∧ r.byte3 = a.byte3 ∧ r.byte4 = 64)) := by
      intro a ha hn
      have hcc := fun hb hm => hn ((C09_untranslated a ha).2 ⟨hb, hm⟩)
      by_cases hz : a.status.toNat / 16 = 9 ∧ a.byte4 = 0
      · obtain ⟨q, r, e1, -, -, -, e2, -, e3, e4, e5, e6, e7⟩ := C09_zero_velocity a hz.1 ha.2.2.2.1 hz.2
        exact ⟨q, r, e1, e2, .inr ⟨hz.1, hz.2, e3, e4, e5, e6, e7⟩⟩
      · obtain ⟨q, r, e1, -, -, -, e2, e3⟩ := C09_round_trip a ha hcc (fun hs h4 => hz ⟨hs, h4⟩)
        exact ⟨q, r, e1, e2, .inl e3⟩
    obtain ⟨q, r, a1, a2, a3⟩ := k p h ht
    obtain ⟨q', r', b1, b2, b3⟩ := k p' h' ht'
    rw [a1, b1] at e
    cases e
    rw [a2] at b2; cases b2
    rcases a3 with a3 | ⟨c1, c2, c3, c4, c5, c6, c7⟩ <;> rcases b3 with b3 | ⟨d1, d2, d3, d4, d5, d6, d7⟩
    · left
      rw [C03_eq_iff] at a3 b3 ⊢
      refine ⟨a3.1.symm.trans b3.1, fun i hi => ?_⟩
      rw [← a3.2 i (by rw [← a3.1, b3.1]; exact hi), b3.2 i hi]
    · obtain ⟨f1, f2, f3, f4⟩ := fields a3
      right
      refine ⟨by rw [← f1, d3], by rw [← f2, d5], by rw [← f3, d6], .inl ⟨by rw [← f2, d4], by rw [← f4, d7]⟩, .inr ⟨d1, d2⟩⟩
    · obtain ⟨f1, f2, f3, f4⟩ := fields b3
      right
      refine ⟨by rw [← f1, c3], by rw [← f2, c5], by rw [← f3, c6], .inr ⟨c1, c2⟩, .inl ⟨by rw [← f2, c4], by rw [← f4, c7]⟩⟩
    · right
      exact ⟨by rw [← c3, d3], by rw [← c5, d5], by rw [← c6, d6], .inr ⟨c1, c2⟩, .inr ⟨d1, d2⟩⟩
  · have t1 := C09_translation p h.2.2.2.1 h.2.2.2.2.1
    have t2 := C09_translation p' h'.2.2.2.1 h'.2.2.2.2.1
    rintro (e | ⟨g, c, n, e, e'⟩)
    · obtain ⟨f1, f2, f3, f4⟩ := fields e
      rw [f1, f2, f3, f4] at t1
      cases hm : midi2DataOfMidi1 (p'.status.toNat / 16) p'.byte3.toNat p'.byte4.toNat with
      | none => rw [hm] at t1 t2; exact t1.trans t2.symm
      | some x =>
        obtain ⟨o, i, d⟩ := x
        rw [hm] at t1 t2
        obtain ⟨q, e1, l1⟩ := t1
        obtain ⟨q', e2, l2⟩ := t2
        rw [e1, e2, layout_unique l1 l2]
    · have m : ∀ {a : Packet}, EndsNote a →
          midi2DataOfMidi1 (a.status.toNat / 16) a.byte3.toNat a.byte4.toNat = some (8, a.byte3.toNat, 0x8000 * 2 ^ 16) := by
        rintro a (⟨h1, h2⟩ | ⟨h1, h2⟩) <;> rw [h1, h2] <;> rfl
      rw [m e, g, c, n] at t1
      rw [m e'] at t2
      obtain ⟨q, e1, l1⟩ := t1
      obtain ⟨q', e2, l2⟩ := t2
      rw [e1, e2, layout_unique l1 l2]

example : WellFormedMidi1 ⟨0x23953C00, 0, 0, 0⟩ ∧ WellFormedMidi1 ⟨0x23853C40, 0, 0, 0⟩ ∧ asMidi2 ⟨0x23953C00, 0, 0, 0⟩ ≠ .ok none ∧
    asMidi2 ⟨0x23953C00, 0, 0, 0⟩ = asMidi2 ⟨0x23853C40, 0, 0, 0⟩ ∧ asMidi2 ⟨0x23853C40, 0, 0, 0⟩ ≠ asMidi2 ⟨0x23853C41, 0, 0, 0⟩ := by
  decide

end Midi

import Verif.Props.ReentrantParser

/-!
# C65: calls made by a callback, and the same calls made right after
-/

namespace Midi
open Spec

/-! ## Callbacks that leave the parser alone, in the reference machine -/

/-- Status bytes other than real time bytes, F6 and F7 cause no event. -/
theorem status_silent (c : Settings) (st : StreamState) {b : Byte} (h1 : ¬ b ≥ 0xF8) (h2 : ¬ b < 0x80) (h6 : b ≠ 0xF6)
    (h7 : b ≠ 0xF7) : (stepByte c st b).2 = [] := by
  unfold stepByte byteEvents
  rw [if_neg h1, if_neg h2, if_neg h7, if_neg h6]
  repeat' split
  all_goals rfl

theorem tune_next (c : Settings) (st : StreamState) : (byteEvents c st 0xF6).1 = .idle := by
  unfold byteEvents
  rw [if_neg (by decide), if_neg (by decide), if_neg (by decide), if_neg (by decide), if_pos rfl]

/-- Bytes that may cause events in a sysex message. -/
theorem sysex_event {c : Settings} {g : Byte} {w : Bool} {d : List Byte} {b : Byte} {e : Event} {es : List Event} (h1 : ¬ b ≥ 0xF8)
    (h6 : b ≠ 0xF6) (he : (stepByte c (.sysex g w d) b).2 = e :: es) : b < 0x80 ∨ b = 0xF7 := by
  by_cases h2 : b < 0x80
  · exact Or.inl h2
  · by_cases h7 : b = 0xF7
    · exact Or.inr h7
    · rw [status_silent c _ h1 h2 h6 h7] at he; cases he

theorem innerByte_leave {c : Settings} {st : StreamState} {G : List Byte} (hst : GoodState G st) (b : Byte) :
    innerByte c (.plain st) b (fun c st => some (c, st, [])) = some (c, .plain (stepByte c st b).1, (stepByte c st b).2) := by
  unfold innerByte
  by_cases h1 : b ≥ 0xF8
  · rw [if_pos h1, step_rt c st h1]
    by_cases hp : c.enabled = true ∧ b ≠ 0xF9 ∧ b ≠ 0xFD
    · rw [if_pos hp, if_pos hp.1, if_neg (by tauto)]; rfl
    · rw [if_neg hp]
      by_cases hon : c.enabled = true
      · rw [if_pos hon, if_pos (by tauto)]
      · rw [if_neg hon]
  · rw [if_neg h1]
    dsimp only
    unfold innerStep
    dsimp only
    have hn : (byteEvents c st b).1 = (stepByte c st b).1 := rfl
    cases hev : (stepByte c st b).2 with
    | nil => rfl
    | cons e es =>
      have hes : es = [] := by
        have : (stepByte c st b).2.length ≤ 1 := by
          unfold stepByte byteEvents
          dsimp only
          repeat' split
          all_goals simp
        rw [hev] at this
        cases es with
        | nil => rfl
        | cons => simp at this
      subst hes
      simp only [Option.bind_eq_bind, Option.bind_some, Option.pure_def, Option.some.injEq, Prod.mk.injEq, true_and, and_true]
      unfold resumed
      by_cases h6 : b = 0xF6
      · rw [if_pos h6, ← hn, h6, tune_next]
      · rw [if_neg h6]
        match st, hst with
        | .sysex g w d, _ =>
          have hb := sysex_event h1 h6 hev
          dsimp only
          by_cases hc : c.sysexCallback = true
          · rw [if_pos hc, during]
            rw [if_neg (by simp [hc])]
            rcases hb with hb | hb
            · rw [step_sysex_cb c g w d hb hc] at hev; cases hev
            · rw [hn, hb, step_end_cb c g w d hc]; rfl
          · have hc' : c.sysexCallback = false := by simpa using hc
            rw [if_neg hc, hn]
            rcases hb with hb | hb
            · rw [step_sysex_packet c g w d hb hc'] at hev ⊢
              split at hev
              · next h6 => rw [if_pos h6]
              · cases hev
            · rw [hb, step_end_packet c g w d hc']
        | .idle, _ =>
          dsimp only
          by_cases h2 : b < 0x80
          · rw [step_idle c h2] at hev; cases hev
          · by_cases h7 : b = 0xF7
            · rw [h7, step_end_other c _ (by intro g w d; simp)] at hev; cases hev
            · rw [status_silent c _ h1 h2 h6 h7] at hev; cases hev
        | .message g s d, hst =>
          dsimp only
          by_cases h2 : b < 0x80
          · rw [hn, step_message c g s d h2] at *
            split at hev
            · next hl =>
              rw [if_pos hl]
              unfold during
              dsimp only
              by_cases hs : s < 0xF0
              · simp only [if_pos hs, dropCommon]
              · simp only [if_neg hs, dropCommon]
            · cases hev
          · by_cases h7 : b = 0xF7
            · rw [h7, step_end_other c _ (by intro g w d; simp)] at hev; cases hev
            · rw [status_silent c _ h1 h2 h6 h7] at hev; cases hev

theorem innerCalls_plain {c : Settings} {G : List Byte} (hc : c.group ∈ G) (bs : List Byte) : ∀ {st : StreamState}, GoodState G st →
    innerCalls c (.plain st) (plainBytes bs) = some (c, .plain (stepBytes c st bs).1, (stepBytes c st bs).2) := by
  unfold plainBytes
  induction bs with
  | nil => intro st _; simp only [List.map_nil, innerCalls]; rfl
  | cons b bs ih =>
    intro st h
    simp only [List.map_cons, innerCalls, innerCall]
    rw [innerByte_leave h b]
    simp only [Option.bind_eq_bind, Option.bind_some]
    rw [ih (step_good G c hc st h b).1]
    rfl

theorem leave_sim : Sim (fun c st => some (c, st, [])) leave := by
  intro c st p h
  refine ⟨fun c' st' es he => ?_, fun he => by cases he⟩
  simp only [Option.some.injEq, Prod.mk.injEq] at he
  obtain ⟨rfl, rfl, rfl⟩ := he
  exact ⟨⟨rfl, id⟩, p, rfl, h⟩

/-- Bytes fed to a parser in a given state. -/
theorem InnerRel.feedAll {c : Settings} {st : StreamState} {p : Parser} {G : List Byte} (hc : c.group ∈ G) (hst : GoodState G st)
    (h : InnerRel c (.plain st) p) (bs : List Byte) :
    ∃ p', p.feedAll bs = .ok (p', (stepBytes c st bs).2) ∧ InnerRel c (.plain (stepBytes c st bs).1) p' := by
  obtain ⟨-, p', e, r⟩ := (innerCalls_rel (plainBytes bs) (by
    intro o ho g hs
    simp only [plainBytes, List.mem_map] at ho
    obtain ⟨b, -, rfl⟩ := ho
    cases hs with
    | inside _ _ o _ ho _ => simp at ho) c (.plain st) p h).1 _ _ _ (innerCalls_plain hc bs hst)
  exact ⟨p', by rw [← C65_plain]; exact e, r⟩

def allGroups : List Byte := (List.range 16).map (BitVec.ofNat 8)

theorem mem_allGroups (g : Byte) : g ∈ allGroups ↔ g < 16 := by
  revert g; decide +kernel

theorem InnerRel.run {ops : List Parser.Op} (hv : ValidGroups ops) : ∀ {c : Settings} {st : StreamState} {p q : Parser},
    c.group ∈ allGroups → GoodState allGroups st → InnerRel c (.plain st) p → InnerRel c (.plain st) q →
    ∃ p' q' es, p.run ops = .ok (p', es) ∧ q.run ops = .ok (q', es) := by
  induction ops with
  | nil => intro c st p q _ _ _ _; exact ⟨p, q, [], rfl, rfl⟩
  | cons o ops ih =>
    intro c st p q hc hst hp hq
    have ih := @ih (fun g hg => hv g (by simp [hg]))
    have fin : ∀ {c' : Settings} {st' : StreamState} {p' q' : Parser} {es : List Event}, c'.group ∈ allGroups → GoodState allGroups st' →
        InnerRel c' (.plain st') p' → InnerRel c' (.plain st') q' → p.op o = .ok (p', es) → q.op o = .ok (q', es) →
        ∃ p' q' es, p.run (o :: ops) = .ok (p', es) ∧ q.run (o :: ops) = .ok (q', es) := by
      intro c' st' p' q' es hc' hst' rp rq ep eq
      obtain ⟨p2, q2, es2, e2, f2⟩ := ih hc' hst' rp rq
      refine ⟨p2, q2, es ++ es2, ?_, ?_⟩
      · rw [Parser.run, ep, ok_bind]; dsimp only; rw [e2]; rfl
      · rw [Parser.run, eq, ok_bind]; dsimp only; rw [f2]; rfl
    cases o with
    | feed bs =>
      obtain ⟨p', ep, rp⟩ := hp.feedAll hc hst bs
      obtain ⟨q', eq, rq⟩ := hq.feedAll hc hst bs
      exact fin hc (stepBytes_good allGroups c hc bs st hst).1 rp rq ep eq
    | setGroup g =>
      have hg := hv g (by simp)
      exact fin (c' := { c with group := g }) ((mem_allGroups g).2 hg) hst (hp.setGroup hg) (hq.setGroup hg) rfl rfl
    | enable on => exact fin (c' := { c with enabled := on }) hc hst (hp.enable on) (hq.enable on) rfl rfl
    | reset => exact fin hc (st' := .idle) trivial hp.reset hq.reset rfl rfl

theorem alike_of_inner {c : Settings} {st : StreamState} {p q : Parser} (hc : c.group ∈ allGroups) (hst : GoodState allGroups st)
    (hp : InnerRel c (.plain st) p) (hq : InnerRel c (.plain st) q) : Alike p q :=
  fun _ hv => InnerRel.run hv hc hst hp hq

theorem reachedInside_rel {p : Parser} (h : ReachedInside p) :
    ∃ c st, c.group ∈ allGroups ∧ GoodState allGroups st ∧ InnerRel c (.plain st) p := by
  obtain ⟨g, cb, on, cs, es, hg, hv, e⟩ := h
  obtain ⟨h1, h2⟩ := innerCalls_rel cs hv ⟨g, cb, on⟩ (.plain .idle) (Parser.new g cb on) (Or.inl (new_rel hg cb on))
  dsimp only at h1 h2
  cases hm : innerCalls ⟨g, cb, on⟩ (.plain .idle) cs with
  | none => rw [h2 hm] at e; cases e
  | some x =>
    obtain ⟨c, st, fs⟩ := x
    obtain ⟨-, q, ep, r⟩ := h1 c st fs hm
    rw [e] at ep
    obtain ⟨rfl, rfl⟩ := Prod.mk.inj (Except.ok.inj ep)
    have o := innerCalls_outcome allGroups cs (fun o ho k hk => (mem_allGroups k).2 (hv o ho k hk)) ⟨g, cb, on⟩ (.plain .idle) _ _ _
      ((mem_allGroups g).2 hg) trivial (Or.inl ⟨_, rfl⟩) hm
    obtain ⟨st, rfl⟩ := o.plain ⟨_, rfl⟩
    exact ⟨c, st, o.group, o.state, r⟩

/-! ## Callbacks that complete what they begin -/

/-- There is no message in progress. -/
def Settled : StreamState → Prop
  | .idle => True
  | .message _ s _ => s < 0xF0
  | .sysex .. => False

theorem after_settled {c : Settings} {st : StreamState} {p p1 : Parser} (hc : c.group ∈ allGroups) (hst : GoodState allGroups st)
    (h : InnerRel c (.plain st) p) {b : Byte} (h1 : ¬ b ≥ 0xF8) (h6 : b ≠ 0xF6) {e : Event} (he : p.feed b = .ok (p1, [e]))
    (hns : ∀ q, e = .packet q → ¬ IsSysex7 q) {inside : List Parser.Call} (hv : ∀ o ∈ inside, ∀ g, SetsGroup o g → g < 16)
    (hrun : ∀ st1, GoodState allGroups st1 → Settled st1 → ∀ c' st' es, innerCalls c (.plain st1) inside = some (c', st', es) →
      ∃ s', st' = .plain s' ∧ c'.group ∈ allGroups ∧ GoodState allGroups s' ∧ Settled s') :
    (∃ p2 p3 es, p.perform (.feed b inside) = .ok (p2, e :: es) ∧ p1.performAll inside = .ok (p3, es) ∧ Alike p2 p3) ∨
    p.perform (.feed b inside) = .error .assertFailed ∧ p1.performAll inside = .error .assertFailed := by
  obtain ⟨-, p1', e1, r1⟩ := (innerByte_rel h (b := b) leave_sim).1 _ _ _ (innerByte_leave hst b)
  rw [feedR_leave, he] at e1
  simp only [Except.ok.injEq, Prod.mk.injEq] at e1
  obtain ⟨rfl, e1⟩ := e1
  have hgood := step_good allGroups c hc st hst b
  -- the state in which the callback runs
  have hcases : during c st b (byteEvents c st b).1 = .plain (stepByte c st b).1 ∧ Settled (stepByte c st b).1 ∧
      ∀ s' c', Settled s' → resumed c st b (byteEvents c st b).1 c' (.plain s') = .plain s' := by
    have hn : (byteEvents c st b).1 = (stepByte c st b).1 := rfl
    have drop : ∀ s' , Settled s' → dropCommon (.plain s') = .plain s' := by
      intro s' hs
      match s', hs with
      | .idle, _ => rfl
      | .message g s d, hs => exact if_pos hs
    match st, hst with
    | .sysex g w d, hst =>
      have hb := sysex_event h1 h6 e1.symm
      by_cases hcb : c.sysexCallback = true
      · refine ⟨?_, ?_, ?_⟩
        · unfold during; dsimp only; rw [if_neg (by simp [hcb])]; rfl
        · rcases hb with hb | hb
          · rw [step_sysex_cb c g w d hb hcb] at e1; cases e1
          · rw [hb, step_end_cb c g w d hcb]; trivial
        · intro s' c' hs
          unfold resumed
          rw [if_neg h6]
          dsimp only
          rw [if_pos hcb]
          match s', hs with
          | .idle, _ => rfl
          | .message .., _ => rfl
      · exfalso
        have hcb' : c.sysexCallback = false := by simpa using hcb
        have hg : g < 16 := (mem_allGroups g).1 hst.1
        have no : ∀ (f : Format) (x : List Byte), x.length ≤ 6 → e ≠ .packet (sysexPacket g f.code.toNat x) := by
          intro f x hx hh
          exact hns _ hh (chunk_facts hg (f, x) hx).1
        rcases hb with hb | hb
        · rw [step_sysex_packet c g w d hb hcb'] at e1
          split at e1
          · dsimp only at e1
            split at e1
            · simp only [List.cons.injEq, and_true] at e1
              split at e1
              · exact no .start _ (by simp; omega) e1
              · exact no .cont _ (by simp; omega) e1
            · cases e1
          · cases e1
        · rw [hb, step_end_packet c g w d hcb'] at e1
          dsimp only at e1
          split at e1
          · split at e1
            · cases e1
            · split at e1
              · simp only [List.cons.injEq, and_true] at e1
                exact no .complete _ (by omega) e1
              · simp only [List.cons.injEq, and_true] at e1
                exact no .fin _ (by simp; omega) e1
          · cases e1
    | .idle, _ =>
      exfalso
      by_cases h2 : b < 0x80
      · rw [step_idle c h2] at e1; cases e1
      · by_cases h7 : b = 0xF7
        · rw [h7, step_end_other c _ (by intro g w d; simp)] at e1; cases e1
        · rw [status_silent c _ h1 h2 h6 h7] at e1; cases e1
    | .message g s d, hst =>
      by_cases h2 : b < 0x80
      · refine ⟨rfl, ?_, ?_⟩
        · rw [step_message c g s d h2] at e1 ⊢
          split at e1
          · next hl =>
            rw [if_pos hl]
            dsimp only
            split
            · assumption
            · trivial
          · cases e1
        · intro s' c' hs
          unfold resumed
          rw [if_neg h6]
          exact drop s' hs
      · exfalso
        by_cases h7 : b = 0xF7
        · rw [h7, step_end_other c _ (by intro g w d; simp)] at e1; cases e1
        · rw [status_silent c _ h1 h2 h6 h7] at e1; cases e1
  obtain ⟨hd, hset, hres⟩ := hcases
  obtain ⟨i1, i2⟩ := innerCalls_rel inside hv c _ p1 r1
  have hstep : innerByte c (.plain st) b (fun c st => innerCalls c st inside) =
      (innerCalls c (.plain (stepByte c st b).1) inside).map fun x => (x.1, resumed c st b (byteEvents c st b).1 x.1 x.2.1, e :: x.2.2) := by
    unfold innerByte
    rw [if_neg h1]
    dsimp only
    unfold innerStep
    dsimp only
    rw [← e1]
    simp only [hd, Option.bind_eq_bind, Option.pure_def]
    cases innerCalls c (.plain (stepByte c st b).1) inside <;> rfl
  obtain ⟨o1, o2⟩ := innerByte_rel h (b := b) (innerCalls_rel inside hv)
  rw [hstep] at o1 o2
  dsimp only at i1 i2
  cases ein : innerCalls c (.plain (stepByte c st b).1) inside with
  | none => exact Or.inr ⟨by simp only [Parser.perform]; exact o2 (by rw [ein]; rfl), i2 ein⟩
  | some x =>
    obtain ⟨c', st', es⟩ := x
    obtain ⟨s', rfl, hc', hgs, hss⟩ := hrun _ hgood.1 hset _ _ _ ein
    obtain ⟨-, p3, e3, r3⟩ := i1 _ _ _ ein
    obtain ⟨-, p2, e2, r2⟩ := o1 _ _ _ (by rw [ein]; rfl)
    dsimp only at r2
    rw [hres s' c' hss] at r2
    exact Or.inl ⟨p2, p3, es, by simp only [Parser.perform]; exact e2, e3, alike_of_inner hc' hgs r2 r3⟩

theorem complete_settled (c : Settings) {m : List Byte} (hm : Message1 m) (st : StreamState) (h : Settled st ∨ ∀ b ∈ m.head?, b < 0xF8) :
    Settled (stepBytes c st m).1 := by
  cases hm with
  | short s d hs hl hd =>
    by_cases h8 : s ≥ 0xF8
    · have h0 : dataBytes s = 0 := by clear hl h; revert h8; revert s; decide +kernel
      obtain rfl : d = [] := List.eq_nil_of_length_eq_zero (hl.trans h0)
      rw [stepBytes_cons, step_rt c st h8]
      rcases h with h | h
      · exact h
      · have := h s (by simp)
        clear * - this h8
        exact absurd h8 (by revert this; revert s; decide +kernel)
    · by_cases hn : dataBytes s = 0
      · obtain rfl : s = 0xF6 := by clear hl h; revert hn h8 hs; revert s; unfold systemStatusBytes; decide +kernel
        obtain rfl : d = [] := List.eq_nil_of_length_eq_zero (hl.trans hn)
        rw [stepBytes_cons, step_tune]; trivial
      · rw [stepBytes_message c st s d h8 hn hd hl]
        dsimp only
        split
        · assumption
        · trivial
  | sysex d h0 hd =>
    rw [stepBytes_cons, step_start, stepBytes_append]
    have key : ∀ (l d : List Byte) (g : Byte) (w : Bool), (∀ b ∈ l, b < 0x80) → ∃ g' d', (stepBytes c (.sysex g w d) l).1 = .sysex g' w d' := by
      intro l
      induction l with
      | nil => intro d g w _; exact ⟨g, d, rfl⟩
      | cons b l ih =>
        intro d g w hl
        rw [stepBytes_cons]
        have : ∃ g' d', (stepByte c (.sysex g w d) b).1 = .sysex g' w d' := by
          by_cases hcb : c.sysexCallback = true
          · rw [step_sysex_cb c g w d (hl b (by simp)) hcb]; exact ⟨_, _, rfl⟩
          · rw [step_sysex_packet c g w d (hl b (by simp)) (by simpa using hcb)]
            split <;> exact ⟨_, _, rfl⟩
        obtain ⟨g', d', e⟩ := this
        dsimp only
        rw [e]
        exact ih d' g' w fun x hx => hl x (by simp [hx])
    obtain ⟨g', d', e⟩ := key d [] c.group c.enabled hd
    dsimp only
    rw [e, stepBytes_cons]
    by_cases hcb : c.sysexCallback = true
    · rw [step_end_cb c _ _ _ hcb]; trivial
    · rw [step_end_packet c _ _ _ (by simpa using hcb)]; trivial

theorem messages_settled (c : Settings) (ms : List (List Byte)) (hm : ∀ m ∈ ms, Message1 m) : ∀ st : StreamState, Settled st →
    Settled (stepBytes c st ms.flatten).1 := by
  induction ms with
  | nil => intro st h; exact h
  | cons m ms ih =>
    intro st h
    rw [List.flatten_cons, stepBytes_append]
    exact ih (fun m h => hm m (by simp [h])) _ (complete_settled c (hm m (by simp)) st (Or.inl h))

theorem setsGroup_plain {bs : List Byte} {o : Parser.Call} (ho : o ∈ plainBytes bs) {g : Byte} (hs : SetsGroup o g) : False := by
  simp only [plainBytes, List.mem_map] at ho
  obtain ⟨b, -, rfl⟩ := ho
  cases hs with
  | inside _ _ o _ ho _ => simp at ho

theorem after_realTime {c : Settings} {st : StreamState} {p p1 : Parser} (hst : GoodState allGroups st)
    (h : InnerRel c (.plain st) p) {b : Byte} (h1 : b ≥ 0xF8) {e : Event} (he : p.feed b = .ok (p1, [e]))
    {inside : List Parser.Call} (hv : ∀ o ∈ inside, ∀ g, SetsGroup o g → g < 16)
    (hrun : ∀ st1, GoodState allGroups st1 → ∀ c' st' es, innerCalls c (.plain st1) inside = some (c', st', es) →
      ∃ s', st' = .plain s' ∧ c'.group ∈ allGroups ∧ GoodState allGroups s') :
    (∃ p2 p3 es, p.perform (.feed b inside) = .ok (p2, e :: es) ∧ p1.performAll inside = .ok (p3, es) ∧ Alike p2 p3) ∨
    p.perform (.feed b inside) = .error .assertFailed ∧ p1.performAll inside = .error .assertFailed := by
  obtain ⟨-, p1', e1, r1⟩ := (innerByte_rel h (b := b) leave_sim).1 _ _ _ (innerByte_leave hst b)
  rw [feedR_leave, he] at e1
  simp only [Except.ok.injEq, Prod.mk.injEq] at e1
  obtain ⟨rfl, e1⟩ := e1
  rw [step_rt c st h1] at r1
  have hperf : p.perform (.feed b inside) = (p1.performAll inside).map fun x => (x.1, e :: x.2) := by
    rw [C65_real_time_partial p b h1 inside, he, ok_bind]
    dsimp only
    rw [if_neg (by simp)]
    cases p1.performAll inside <;> rfl
  obtain ⟨i1, i2⟩ := innerCalls_rel inside hv c _ p1 r1
  dsimp only at i1 i2
  cases ein : innerCalls c (.plain st) inside with
  | none =>
    have := i2 ein
    exact Or.inr ⟨by rw [hperf, this]; rfl, this⟩
  | some x =>
    obtain ⟨c', st', es⟩ := x
    obtain ⟨s', rfl, hc', hgs⟩ := hrun st hst _ _ _ ein
    obtain ⟨-, p3, e3, r3⟩ := i1 _ _ _ ein
    exact Or.inl ⟨p3, p3, es, by rw [hperf, e3]; rfl, e3, alike_of_inner hc' hgs r3 r3⟩

/-- C65: a callback for a message other than tune request and other than a packet with sysex may feed complete messages to the
parser. The effect is that of feeding the same bytes right after. -/
theorem C65_complete_messages_partial (p p1 : Parser) (hp : ReachedInside p) (b : Byte) (h6 : b ≠ 0xF6) (e : Event)
    (he : p.feed b = .ok (p1, [e])) (hns : ∀ q, e = .packet q → ¬ IsSysex7 q) (ms : List (List Byte)) (hm : ∀ m ∈ ms, Message1 m) :
    ∃ p2 p3 es, p.perform (.feed b (plainBytes ms.flatten)) = .ok (p2, e :: es) ∧ p1.feedAll ms.flatten = .ok (p3, es) ∧
      Alike p2 p3 := by
  obtain ⟨c, st, hc, hst, r⟩ := reachedInside_rel hp
  rw [← C65_plain]
  have hrun : ∀ st1, GoodState allGroups st1 → ∀ c' st' es, innerCalls c (.plain st1) (plainBytes ms.flatten) = some (c', st', es) →
      c' = c ∧ st' = .plain (stepBytes c st1 ms.flatten).1 ∧ GoodState allGroups (stepBytes c st1 ms.flatten).1 := by
    intro st1 h1 c' st' es hin
    rw [innerCalls_plain hc _ h1] at hin
    simp only [Option.some.injEq, Prod.mk.injEq] at hin
    exact ⟨hin.1.symm, hin.2.1.symm, (stepBytes_good _ c hc _ st1 h1).1⟩
  have key : (∃ p2 p3 es, p.perform (.feed b (plainBytes ms.flatten)) = .ok (p2, e :: es) ∧
        p1.performAll (plainBytes ms.flatten) = .ok (p3, es) ∧ Alike p2 p3) ∨
      p.perform (.feed b (plainBytes ms.flatten)) = .error .assertFailed ∧
        p1.performAll (plainBytes ms.flatten) = .error .assertFailed := by
    by_cases h1 : b ≥ 0xF8
    · refine after_realTime hst r h1 he (fun o ho g hs => (setsGroup_plain ho hs).elim) ?_
      intro st1 h1 c' st' es hin
      obtain ⟨rfl, rfl, hg⟩ := hrun st1 h1 c' st' es hin
      exact ⟨_, rfl, hc, hg⟩
    · refine after_settled hc hst r h1 h6 he hns (fun o ho g hs => (setsGroup_plain ho hs).elim) ?_
      intro st1 h1 hs1 c' st' es hin
      obtain ⟨rfl, rfl, hg⟩ := hrun st1 h1 c' st' es hin
      exact ⟨_, rfl, hc, hg, messages_settled c' ms hm st1 hs1⟩
  rcases key with key | ⟨-, key⟩
  · exact key
  · exfalso
    obtain ⟨-, p1', e1, r1⟩ := (innerByte_rel r (b := b) leave_sim).1 _ _ _ (innerByte_leave hst b)
    rw [feedR_leave, he] at e1
    simp only [Except.ok.injEq, Prod.mk.injEq] at e1
    obtain ⟨rfl, -⟩ := e1
    obtain ⟨p', e', -⟩ := r1.feedAll hc (step_good allGroups c hc st hst b).1 ms.flatten
    rw [C65_plain, e'] at key
    cases key

theorem innerCalls_append (a b : List Parser.Call) : ∀ (c : Settings) (st : InnerState), innerCalls c st (a ++ b) =
    ((innerCalls c st a).bind fun x => (innerCalls x.1 x.2.1 b).map fun y => (y.1, y.2.1, x.2.2 ++ y.2.2)) := by
  induction a with
  | nil =>
    intro c st
    simp only [List.nil_append, innerCalls, Option.bind_some]
    cases innerCalls c st b <;> rfl
  | cons o a ih =>
    intro c st
    simp only [List.cons_append, innerCalls, Option.bind_eq_bind, Option.pure_def]
    cases innerCall c st o with
    | none => rfl
    | some v =>
      simp only [Option.bind_some]
      rw [ih]
      cases innerCalls v.1 v.2.1 a with
      | none => rfl
      | some w =>
        simp only [Option.bind_some]
        cases innerCalls w.1 w.2.1 b with
        | none => rfl
        | some x => simp

/-- C65: a callback for a message other than tune request and other than a packet with sysex may use the parser in any way, and so may
the callbacks called meanwhile, if the last thing it does is to reset the parser or to feed a complete message that is not a real time
message. The effect is that of the same calls right after (also if these fail). -/
theorem C65_completed_partial (p p1 : Parser) (hp : ReachedInside p) (b : Byte) (h6 : b ≠ 0xF6) (e : Event)
    (he : p.feed b = .ok (p1, [e])) (hns : ∀ q, e = .packet q → ¬ IsSysex7 q) (first last : List Parser.Call)
    (hv : ∀ o ∈ first, ∀ g, SetsGroup o g → g < 16)
    (hl : last = [.reset] ∨ ∃ m, Message1 m ∧ (∀ x ∈ m.head?, x < 0xF8) ∧ last = plainBytes m) :
    (∃ p2 p3 es, p.perform (.feed b (first ++ last)) = .ok (p2, e :: es) ∧ p1.performAll (first ++ last) = .ok (p3, es) ∧
      Alike p2 p3) ∨
    p.perform (.feed b (first ++ last)) = .error .assertFailed ∧ p1.performAll (first ++ last) = .error .assertFailed := by
  obtain ⟨c, st, hc, hst, r⟩ := reachedInside_rel hp
  have hrun : ∀ st1, GoodState allGroups st1 → ∀ c' st' es, innerCalls c (.plain st1) (first ++ last) = some (c', st', es) →
      ∃ s', st' = .plain s' ∧ c'.group ∈ allGroups ∧ GoodState allGroups s' ∧ Settled s' := by
    intro st1 h1 c' st' es hin
    rw [innerCalls_append] at hin
    simp only [Option.bind_eq_some_iff, Option.map_eq_some_iff, Prod.mk.injEq] at hin
    obtain ⟨⟨c1, st1', es1⟩, e1, ⟨c2, st2, es2⟩, e2, rfl, rfl, rfl⟩ := hin
    have o := innerCalls_outcome allGroups first (fun o ho k hk => (mem_allGroups k).2 (hv o ho k hk)) c (.plain st1) _ _ _ hc h1
      (Or.inl ⟨_, rfl⟩) e1
    obtain ⟨s', rfl⟩ := o.plain ⟨_, rfl⟩
    rcases hl with rfl | ⟨m, hm, h8, rfl⟩
    · simp only [innerCalls, innerCall, Option.bind_eq_bind, Option.bind_some, Option.pure_def, Option.some.injEq, Prod.mk.injEq] at e2
      obtain ⟨rfl, rfl, rfl⟩ := e2
      exact ⟨.idle, rfl, o.group, trivial, trivial⟩
    · dsimp only at e2
      rw [innerCalls_plain o.group m o.state] at e2
      simp only [Option.some.injEq, Prod.mk.injEq] at e2
      obtain ⟨rfl, rfl, rfl⟩ := e2
      exact ⟨_, rfl, o.group, (stepBytes_good _ _ o.group _ s' o.state).1, complete_settled _ hm s' (Or.inr h8)⟩
  have hv' : ∀ o ∈ first ++ last, ∀ g, SetsGroup o g → g < 16 := by
    intro o ho g hs
    rcases List.mem_append.1 ho with ho | ho
    · exact hv o ho g hs
    · rcases hl with rfl | ⟨m, -, -, rfl⟩
      · simp only [List.mem_singleton] at ho; subst ho; cases hs
      · exact (setsGroup_plain ho hs).elim
  by_cases h1 : b ≥ 0xF8
  · refine after_realTime hst r h1 he hv' ?_
    intro st1 h1 c' st' es hin
    obtain ⟨s', a, b, d, -⟩ := hrun st1 h1 c' st' es hin
    exact ⟨s', a, b, d⟩
  · exact after_settled hc hst r h1 h6 he hns hv' fun st1 h _ => hrun st1 h

/-- Parsers reached without callbacks that use them are such parsers. -/
theorem reachedInside_of_reached {p : Parser} (h : Reached p) : ReachedInside p := by
  obtain ⟨g, cb, on, ops, es, hg, hv, e⟩ := h
  let call : Parser.Op → List Parser.Call := fun
    | .feed bs => plainBytes bs
    | .setGroup g => [.setGroup g]
    | .enable on => [.enable on]
    | .reset => [.reset]
  have one : ∀ (q : Parser) (o : Parser.Op), q.performAll (call o) = q.op o := by
    intro q o
    cases o with
    | feed bs => exact C65_plain bs q
    | setGroup g => simp only [call, Parser.performAll, Parser.perform, ok_bind]; rfl
    | enable g => simp only [call, Parser.performAll, Parser.perform, ok_bind]; rfl
    | reset => simp only [call, Parser.performAll, Parser.perform, ok_bind]; rfl
  have all : ∀ (ops : List Parser.Op) (q : Parser), q.performAll (ops.flatMap call) = q.run ops := by
    intro ops
    induction ops with
    | nil => intro q; simp only [List.flatMap_nil, Parser.performAll, Parser.run]
    | cons o ops ih =>
      intro q
      rw [List.flatMap_cons, performAll_append, one, Parser.run]
      cases q.op o with
      | error f => rfl
      | ok v =>
        simp only [ok_bind, ih]
        cases v.1.run ops <;> rfl
  refine ⟨g, cb, on, ops.flatMap call, es, hg, ?_, by rw [all]; exact e⟩
  · intro o ho k hk
    obtain ⟨x, hx, ho⟩ := List.mem_flatMap.1 ho
    cases x with
    | feed bs => exact (setsGroup_plain ho hk).elim
    | setGroup g => simp only [call, List.mem_singleton] at ho; subst ho; cases hk; exact hv _ hx
    | enable g => simp only [call, List.mem_singleton] at ho; subst ho; cases hk
    | reset => simp only [call, List.mem_singleton] at ho; subst ho; cases hk

-- the hypotheses are met: the callback for a note on feeds program change and sysex
example : ∃ (p p1 : Parser) (e : Event), ReachedInside p ∧ (0x40 : Byte) ≠ 0xF6 ∧ p.feed 0x40 = .ok (p1, [e]) ∧
    (∀ q, e = .packet q → ¬ IsSysex7 q) ∧ Message1 [0xC0, 5] ∧ Message1 [0xF0, 0x7D, 1, 2, 0xF7] := by
  have h : Reached { Parser.new 2 false true with packet := ⟨0x22903C00, 0, 0, 0⟩, packetByte := 3, missing := 1 } :=
    ⟨2, false, true, [.feed [0x90, 0x3C]], [], by decide, by intro g hg; simp at hg, by decide +kernel⟩
  refine ⟨_, { Parser.new 2 false true with packet := ⟨0x22903C40, 0, 0, 0⟩, packetByte := 2, missing := 2 },
    .packet ⟨0x22903C40, 0, 0, 0⟩, reachedInside_of_reached h, by decide, by decide +kernel, ?_, ?_, ?_⟩
  · intro q hq; cases hq; decide +kernel
  · exact .short 0xC0 [5] (by decide) (by decide) (by decide)
  · exact .sysex [0x7D, 1, 2] (by decide) (by decide)

/-! ## Where C65 is false -/

/-- C65 is false after a tune request: the status of a message fed in its callback is not kept. Here the callback feeds a note on,
and another note with running status follows. -/
theorem C65_tune_request : ∃ cs : List Parser.Call,
    (((Parser.new 0 false true).performAll cs).map Prod.snd).toOption = some [.packet ⟨0x10F60000, 0, 0, 0⟩, .packet ⟨0x20903C40, 0, 0, 0⟩] ∧
    (((Parser.new 0 false true).afterAll cs).map Prod.snd).toOption = some [.packet ⟨0x10F60000, 0, 0, 0⟩, .packet ⟨0x20903C40, 0, 0, 0⟩,
      .packet ⟨0x20903D40, 0, 0, 0⟩] :=
  ⟨.feed 0xF6 (plainBytes [0x90, 0x3C, 0x40]) :: plainBytes [0x3D, 0x40], by decide +kernel, by decide +kernel⟩

/-- C65 is false for an unfinished system common message: its status byte, fed by the callback of a note on, is forgotten. -/
theorem C65_system_common : ∃ cs : List Parser.Call,
    (((Parser.new 0 true true).performAll cs).map Prod.snd).toOption = some [.packet ⟨0x20903C40, 0, 0, 0⟩] ∧
    (((Parser.new 0 true true).afterAll cs).map Prod.snd).toOption = some [.packet ⟨0x20903C40, 0, 0, 0⟩, .packet ⟨0x10F30700, 0, 0, 0⟩] :=
  ⟨plainBytes [0x90, 0x3C] ++ [.feed 0x40 (plainBytes [0xF3])] ++ plainBytes [7], by decide +kernel, by decide +kernel⟩

/-- C65 is false for a reset in the callback for a packet with sysex: the message goes on. -/
theorem C65_reset_undone : ∃ cs : List Parser.Call,
    (((Parser.new 0 false true).performAll cs).map Prod.snd).toOption = some [.packet ⟨0x30160102, 0x03040506, 0, 0⟩,
      .packet ⟨0x30310700, 0, 0, 0⟩] ∧
    (((Parser.new 0 false true).afterAll cs).map Prod.snd).toOption = some [.packet ⟨0x30160102, 0x03040506, 0, 0⟩] :=
  ⟨plainBytes [0xF0, 1, 2, 3, 4, 5] ++ [.feed 6 [.reset]] ++ plainBytes [7, 0xF7], by decide +kernel, by decide +kernel⟩

/-- C65 is false for sysex begun in the callback of a sysex message: the first byte of the manufacturer id is replaced by zero, and
the first data bytes are taken as the other bytes of the id. -/
theorem C65_manufacturer_lost : ∃ cs : List Parser.Call,
    (((Parser.new 0 true true).performAll cs).map Prod.snd).toOption = some [.sysex ⟨0x7D0000, [1]⟩, .sysex ⟨0x000203, [4]⟩] ∧
    (((Parser.new 0 true true).afterAll cs).map Prod.snd).toOption = some [.sysex ⟨0x7D0000, [1]⟩, .sysex ⟨0x7D0000, [2, 3, 4]⟩] :=
  ⟨plainBytes [0xF0, 0x7D, 1] ++ [.feed 0xF7 (plainBytes [0xF0, 0x7D])] ++ plainBytes [2, 3, 4, 0xF7], by decide +kernel,
    by decide +kernel⟩

/-- C65 is false as a whole. -/
theorem C65_false : ¬ ∀ (g : Byte) (cb : Bool) (cs : List Parser.Call), g < 16 → (∀ o ∈ cs, ∀ k, SetsGroup o k → k < 16) →
    ((Parser.new g cb true).performAll cs).map Prod.snd = ((Parser.new g cb true).afterAll cs).map Prod.snd := by
  intro h
  have h := h 0 true (plainBytes [0x90, 0x3C] ++ [.feed 0x40 (plainBytes [0xF3])] ++ plainBytes [7]) (by decide) (by
    intro o ho k hk
    simp only [List.mem_append, List.mem_singleton] at ho
    rcases ho with (ho | rfl) | ho
    · exact (setsGroup_plain ho hk).elim
    · cases hk with
      | inside _ _ o _ ho hk => exact (setsGroup_plain ho hk).elim
    · exact (setsGroup_plain ho hk).elim)
  have := congrArg Except.toOption h
  revert this
  decide +kernel

end Midi

import Verif.Lemmas.ExceptionsParser

/-!
# C69, C70, C71: exceptions and the byte stream parser
-/

namespace Midi
open Spec

/-! ## Calls during which nothing goes wrong -/

/-- Nothing goes wrong. -/
def CalmCall : Parser.Try → Prop
  | .feed bs => ∀ x ∈ bs, x.2 = {}
  | _ => True

theorem tryFeed_calm (p : Parser) (b : Byte) : p.tryFeed b {} = (p.feed b).map fun x => (x.1, x.2, false) := by
  rw [← feedR_leave]
  rcases shape_feed p b {} rfl with ⟨x, hf, hg⟩ | ⟨d, e, post, hf, hg⟩
  · rw [hf, hg]; cases x <;> rfl
  · rw [hf, hg]
    show _ = ((post d).map fun q => (q, [e])).map _
    cases post d <;> rfl

theorem tryBlock_calm : ∀ (bs : List (Byte × Trouble)) (p : Parser), (∀ x ∈ bs, x.2 = {}) →
    p.tryBlock bs = (p.feedAll (bs.map Prod.fst)).map fun x => (x.1, x.2, false) := by
  intro bs
  induction bs with
  | nil => intro p _; rfl
  | cons x bs ih =>
    intro p h
    obtain ⟨b, t⟩ := x
    have ht : t = {} := h (b, t) (by simp)
    subst ht
    simp only [Parser.tryBlock, List.map_cons, Parser.feedAll, tryFeed_calm]
    cases p.feed b with
    | error f => rfl
    | ok y =>
      simp only [Except.map, ok_bind, Bool.false_eq_true, if_false]
      rw [ih y.1 (fun z hz => h z (by simp [hz]))]
      cases y.1.feedAll (bs.map Prod.fst) <;> rfl

/-- C69: if nothing goes wrong, this is the parser of the other properties. -/
theorem C69_plain (os : List Parser.Try) (h : ∀ o ∈ os, CalmCall o) (p : Parser) : p.tryAll os = p.run (untroubledCalls os) := by
  induction os generalizing p with
  | nil => rfl
  | cons o os ih =>
    have ih := ih (fun o ho => h o (by simp [ho]))
    have ho := h o (by simp)
    cases o with
    | feed bs =>
      simp only [Parser.tryAll, Parser.tryOne, untroubledCalls, Parser.run, Parser.op]
      rw [tryBlock_calm bs p ho]
      cases p.feedAll (bs.map Prod.fst) with
      | error f => rfl
      | ok y => simp only [Except.map, ok_bind, ih]
    | setGroup g => simp only [Parser.tryAll, Parser.tryOne, untroubledCalls, Parser.run, Parser.op, ok_bind, ih]
    | enable on => simp only [Parser.tryAll, Parser.tryOne, untroubledCalls, Parser.run, Parser.op, ok_bind, ih]
    | reset => simp only [Parser.tryAll, Parser.tryOne, untroubledCalls, Parser.run, Parser.op, ok_bind, ih]

example := C69_plain [.feed [(0x90, {}), (60, {}), (100, {})], .setGroup 4, .feed [(0xF0, {}), (1, {}), (0xF7, {})]]
  (by simp [CalmCall]; aesop) (Parser.new 3 false true)

/-! ## Sequences of calls -/

theorem memoryFails_good {G : List Byte} {c : Settings} (hc : c.group ∈ G) {st st' : StreamState} (h : GoodState G st) {b : Byte}
    (hm : memoryFails c st b = some st') : GoodState G st' := by
  unfold memoryFails at hm
  split at hm
  · split at hm
    · cases hm; exact ⟨hc, by simp⟩
    · split at hm
      · split at hm
        · cases hm; exact h
        · cases hm
      · cases hm
  · cases hm

theorem tryStep_good {G : List Byte} {c : Settings} (hc : c.group ∈ G) {st : StreamState} (h : GoodState G st) (b : Byte) (t : Trouble) :
    GoodInner G (tryStep c st b t).1 ∧ (∀ e ∈ (tryStep c st b t).2.1, GoodEvent G c.sysexCallback e) ∧
      (IsPlain (tryStep c st b t).1 ∨ ¬ IsPlain (tryStep c st b t).1 ∧ c.sysexCallback = false ∧ t.callback = true ∧
        (tryStep c st b t).2.2 = true) := by
  have hs := step_good G c hc st h b
  unfold tryStep
  cases hm : (if t.memory then memoryFails c st b else none) with
  | some st' =>
    dsimp only
    split at hm
    · exact ⟨memoryFails_good hc h hm, by simp, Or.inl ⟨_, rfl⟩⟩
    · cases hm
  | none =>
    dsimp only
    split
    · next ht =>
      dsimp only
      refine ⟨during_good hc h b, hs.2, ?_⟩
      unfold during
      split
      · split
        · next hh =>
          refine Or.inr ⟨?_, hh.1, ht.1, rfl⟩
          rintro ⟨s, e⟩
          unfold sending at e
          split at e
          · cases e
          · split at e <;> cases e
        · exact Or.inl ⟨_, rfl⟩
      · exact Or.inl ⟨_, rfl⟩
    · exact ⟨hs.1, hs.2, Or.inl ⟨_, rfl⟩⟩

/-- A block of bytes. -/
theorem tryBytes_good {G : List Byte} {c : Settings} (hc : c.group ∈ G) :
    ∀ (bs : List (Byte × Trouble)) (st : InnerState), GoodInner G st →
      (IsPlain st ∨ ¬ IsPlain st ∧ ∀ b, firstByte bs = some b → 0x80 ≤ b ∧ b ≠ 0xF7) →
      ∃ st' es threw, tryBytes c st bs = some (st', es, threw) ∧ GoodInner G st' ∧ (∀ e ∈ es, GoodEvent G c.sysexCallback e) ∧
        (IsPlain st' ∨ ¬ IsPlain st' ∧ (c.sysexCallback = false ∨ ¬ IsPlain st) ∧
          ((∃ x ∈ bs, x.2.callback = true) ∨ (¬ IsPlain st ∧ firstByte bs = none))) := by
  intro bs
  induction bs with
  | nil =>
    intro st hst hp
    refine ⟨st, [], false, rfl, hst, by simp, ?_⟩
    rcases hp with hp | hp
    · exact Or.inl hp
    · exact Or.inr ⟨hp.1, Or.inr hp.1, Or.inr ⟨hp.1, rfl⟩⟩
  | cons x bs ih =>
    obtain ⟨b, t⟩ := x
    intro st hst hp
    -- the first byte
    have step : ∃ st1 es threw, tryByte c st b t = some (st1, es, threw) ∧ GoodInner G st1 ∧
        (∀ e ∈ es, GoodEvent G c.sysexCallback e) ∧
        (IsPlain st1 ∨ ¬ IsPlain st1 ∧ (c.sysexCallback = false ∨ ¬ IsPlain st) ∧
          ((t.callback = true ∧ threw = true) ∨ (¬ IsPlain st ∧ b ≥ 0xF8 ∧ (threw = true → t.callback = true)))) := by
      unfold tryByte
      by_cases h1 : b ≥ 0xF8
      · rw [if_pos h1]
        have hpl' : ∀ threw : Bool, (threw = true → t.callback = true) → IsPlain st ∨ ¬ IsPlain st ∧ (c.sysexCallback = false ∨ ¬ IsPlain st) ∧
            ((t.callback = true ∧ threw = true) ∨ (¬ IsPlain st ∧ b ≥ 0xF8 ∧ (threw = true → t.callback = true))) := by
          intro threw ht
          rcases hp with hp | hp
          · exact Or.inl hp
          · exact Or.inr ⟨hp.1, Or.inr hp.1, Or.inr ⟨hp.1, h1, ht⟩⟩
        split
        · next hh =>
          refine ⟨_, _, _, rfl, hst, ?_, hpl' _ id⟩
          have := (step_good G c hc .idle trivial b).2
          rw [step_rt c _ h1] at this
          simp only [hh.1, if_true] at this
          rw [if_neg (by tauto)] at this
          exact this
        · exact ⟨_, _, _, rfl, hst, by simp, hpl' _ (by simp)⟩
      · rw [if_neg h1]
        match st with
        | .plain s =>
          have hg := tryStep_good hc hst b t
          refine ⟨_, _, _, rfl, hg.1, hg.2.1, ?_⟩
          rcases hg.2.2 with h | h
          · exact Or.inl h
          · exact Or.inr ⟨h.1, Or.inl h.2.1, Or.inl h.2.2⟩
        | .sent g f d =>
          have hb : 0x80 ≤ b ∧ b ≠ 0xF7 := by
            rcases hp with ⟨_, hp⟩ | hp
            · cases hp
            · exact hp.2 b (by simp only [firstByte]; rw [if_neg h1])
          have hn : ¬ (b < 0x80 ∨ b = 0xF7) := by
            rintro (h | h)
            · exact absurd hb.1 (by simpa using h)
            · exact hb.2 h
          dsimp only
          rw [if_neg hn]
          have hg := tryStep_good (st := .idle) hc trivial b t
          refine ⟨_, _, _, rfl, hg.1, hg.2.1, ?_⟩
          rcases hg.2.2 with h | h
          · exact Or.inl h
          · exact Or.inr ⟨h.1, Or.inl h.2.1, Or.inl h.2.2⟩
    obtain ⟨st1, es, threw, e1, g1, ge1, p1⟩ := step
    cases threw with
    | true =>
      refine ⟨st1, es, true, by simp [tryBytes, e1], g1, ge1, ?_⟩
      rcases p1 with p1 | ⟨p1, p3, p2 | p2⟩
      · exact Or.inl p1
      · exact Or.inr ⟨p1, p3, Or.inl ⟨_, List.mem_cons_self, p2.1⟩⟩
      · exact Or.inr ⟨p1, p3, Or.inl ⟨_, List.mem_cons_self, p2.2.2 rfl⟩⟩
    | false =>
      have hp1 : IsPlain st1 ∨ ¬ IsPlain st1 ∧ ∀ b, firstByte bs = some b → 0x80 ≤ b ∧ b ≠ 0xF7 := by
        rcases p1 with p1 | ⟨p1, -, p2 | p2⟩
        · exact Or.inl p1
        · exact absurd p2.2 (by simp)
        · refine Or.inr ⟨p1, ?_⟩
          rcases hp with ⟨s, hp⟩ | hp
          · exact absurd ⟨s, hp⟩ p2.1
          · intro b' hb'
            refine hp.2 b' ?_
            simp only [firstByte]
            rw [if_pos p2.2.1]; exact hb'
      obtain ⟨st2, fs, threw, e2, g2, ge2, p2⟩ := ih st1 g1 hp1
      refine ⟨st2, es ++ fs, threw, by simp [tryBytes, e1, e2], g2, ?_, ?_⟩
      · intro e he
        rcases List.mem_append.1 he with he | he
        · exact ge1 e he
        · exact ge2 e he
      · rcases p2 with p2 | ⟨p2, p3, p4⟩
        · exact Or.inl p2
        · have hs1 : ¬ IsPlain st1 → ¬ IsPlain st ∧ b ≥ 0xF8 := by
            intro hs
            rcases p1 with ⟨s, p1⟩ | ⟨-, -, p1 | p1⟩
            · exact absurd ⟨s, p1⟩ hs
            · exact absurd p1.2 (by simp)
            · exact ⟨p1.1, p1.2.1⟩
          refine Or.inr ⟨p2, ?_, ?_⟩
          · rcases p3 with p3 | p3
            · exact Or.inl p3
            · exact Or.inr (hs1 p3).1
          · rcases p4 with ⟨x, hx, hx'⟩ | p4
            · exact Or.inl ⟨x, List.mem_cons_of_mem _ hx, hx'⟩
            · refine Or.inr ⟨(hs1 p4.1).1, ?_⟩
              simp only [firstByte]
              rw [if_pos (hs1 p4.1).2]; exact p4.2

/-- What holds for a byte when there is a result. -/
theorem tryByte_outcome {G : List Byte} {c : Settings} (hc : c.group ∈ G) {st : InnerState} (hst : GoodInner G st)
    (hm : IsPlain st ∨ c.sysexCallback = false) {b : Byte} {t : Trouble} {st' : InnerState} {es : List Event} {threw : Bool}
    (h : tryByte c st b t = some (st', es, threw)) :
    GoodInner G st' ∧ (IsPlain st' ∨ c.sysexCallback = false) ∧ ∀ e ∈ es, LooseEvent G c.sysexCallback e := by
  unfold tryByte at h
  have step : ∀ s, GoodState G s → GoodInner G (tryStep c s b t).1 ∧ (IsPlain (tryStep c s b t).1 ∨ c.sysexCallback = false) ∧
      ∀ e ∈ (tryStep c s b t).2.1, LooseEvent G c.sysexCallback e := by
    intro s hs
    obtain ⟨a, b, d⟩ := tryStep_good hc hs b t
    refine ⟨a, ?_, fun e he => Or.inl (b e he)⟩
    rcases d with d | d
    · exact Or.inl d
    · exact Or.inr d.2.1
  split at h
  · next h1 =>
    split at h
    · next hh =>
      cases h
      refine ⟨hst, hm, fun e he => Or.inl ?_⟩
      have := (step_good G c hc .idle trivial b).2
      rw [step_rt c _ h1] at this
      simp only [hh.1, if_true] at this
      rw [if_neg (by tauto)] at this
      exact this e he
    · cases h
      exact ⟨hst, hm, by simp⟩
  · match st with
    | .plain s =>
      have h := Option.some.inj h
      have := step s hst
      rw [h] at this; exact this
    | .sent g f d =>
      have hcb : c.sysexCallback = false := hm.resolve_left (by rintro ⟨s, hs⟩; cases hs)
      dsimp only at h
      split at h
      · next hb =>
        obtain ⟨hg, hf, hl, hd⟩ := hst
        unfold trySent at h
        dsimp only at h
        split at h
        · have hin : GoodInner G (.sent g (if f = 1 then 0 else 3) d) := ⟨hg, by split <;> omega, hl, hd⟩
          split at h
          · cases h
            refine ⟨?_, Or.inr hcb, ?_⟩
            · split
              · exact hin
              · trivial
            · simp only [List.mem_singleton, forall_eq]; rw [hcb]; exact loose_sysex hin
          · cases h; exact ⟨trivial, Or.inr hcb, by simp⟩
        · next h7 =>
          have hd' : ∀ x ∈ d ++ [b], x < 0x80 := by
            intro x hx
            rcases List.mem_append.1 hx with hx | hx
            · exact hd x hx
            · simp only [List.mem_singleton] at hx; subst hx; exact hb.resolve_right h7
          split at h
          · cases h
          · have hin : GoodInner G (.sent g f (d ++ [b])) := ⟨hg, hf, by simp; omega, hd'⟩
            split at h
            · split at h
              · cases h
                refine ⟨?_, Or.inr hcb, ?_⟩
                · split
                  · exact hin
                  · exact ⟨hc, hd'⟩
                · simp only [List.mem_singleton, forall_eq]; rw [hcb]; exact loose_sysex hin
              · cases h; exact ⟨⟨hc, hd'⟩, Or.inr hcb, by simp⟩
            · cases h; exact ⟨hin, Or.inr hcb, by simp⟩
      · have h := Option.some.inj h
        have := step .idle trivial
        rw [h] at this; exact this

theorem tryBytes_rel {G : List Byte} {c : Settings} (hc : c.group ∈ G) : ∀ (bs : List (Byte × Trouble)) {st : InnerState} {p : Parser},
    GoodInner G st → (IsPlain st ∨ c.sysexCallback = false) → InnerRel c st p →
    (∀ st' es threw, tryBytes c st bs = some (st', es, threw) → ∃ p', p.tryBlock bs = .ok (p', es, threw) ∧ InnerRel c st' p' ∧
      GoodInner G st' ∧ (IsPlain st' ∨ c.sysexCallback = false) ∧ ∀ e ∈ es, LooseEvent G c.sysexCallback e) ∧
    (tryBytes c st bs = none → p.tryBlock bs = .error .assertFailed) := by
  intro bs
  induction bs with
  | nil =>
    intro st p hst hm h
    refine ⟨fun st' es threw he => ?_, fun he => by cases he⟩
    cases he
    exact ⟨p, rfl, h, hst, hm, by simp⟩
  | cons x bs ih =>
    obtain ⟨b, t⟩ := x
    intro st p hst hm h
    obtain ⟨r1, r2⟩ := tryByte_rel hc (fun s hs => by subst hs; exact hst) h b t
    simp only [tryBytes, Parser.tryBlock, Option.bind_eq_bind]
    cases e1 : tryByte c st b t with
    | none =>
      refine ⟨fun st' es threw he => (by cases he), fun _ => ?_⟩
      rw [r2 e1]; rfl
    | some y =>
      obtain ⟨st1, es1, th1⟩ := y
      obtain ⟨p1, f1, s1⟩ := r1 _ _ _ e1
      obtain ⟨g1, m1, v1⟩ := tryByte_outcome hc hst hm e1
      simp only [f1, ok_bind, Option.bind_some]
      cases th1 with
      | true =>
        refine ⟨fun st' es threw he => ?_, fun he => by cases he⟩
        cases he; exact ⟨p1, rfl, s1, g1, m1, v1⟩
      | false =>
        obtain ⟨i1, i2⟩ := ih g1 m1 s1
        simp only [Bool.false_eq_true, if_false]
        cases e2 : tryBytes c st1 bs with
        | none =>
          refine ⟨fun st' es threw he => (by cases he), fun _ => ?_⟩
          rw [i2 e2]; rfl
        | some z =>
          obtain ⟨st2, es2, th2⟩ := z
          obtain ⟨p2, f2, s2, g2, m2, v2⟩ := i1 _ _ _ e2
          refine ⟨fun st' es threw he => ?_, fun he => by cases he⟩
          cases he
          refine ⟨p2, by rw [f2]; rfl, s2, g2, m2, fun e he => ?_⟩
          rcases List.mem_append.1 he with he | he
          · exact v1 e he
          · exact v2 e he

/-- Any calls. -/
theorem tryCalls_rel {G : List Byte} (hG : ∀ k ∈ G, k < 16) : ∀ (os : List Parser.Try) {c : Settings} {st : InnerState} {p : Parser},
    (∀ g, Parser.Try.setGroup g ∈ os → g ∈ G) → c.group ∈ G → GoodInner G st → (IsPlain st ∨ c.sysexCallback = false) → InnerRel c st p →
    (∀ c' st' es, tryCalls c st os = some (c', st', es) → ∃ p', p.tryAll os = .ok (p', es) ∧ InnerRel c' st' p' ∧ GoodInner G st' ∧
      c'.group ∈ G ∧ ∀ e ∈ es, LooseEvent G c.sysexCallback e) ∧
    (tryCalls c st os = none → p.tryAll os = .error .assertFailed) := by
  intro os
  induction os with
  | nil =>
    intro c st p _ hc hst hm h
    refine ⟨fun c' st' es he => ?_, fun he => by cases he⟩
    cases he
    exact ⟨p, rfl, h, hst, hc, by simp⟩
  | cons o os ih =>
    intro c st p hv hc hst hm h
    have fin : ∀ {c1 : Settings} {st1 : InnerState} {es1 : List Event} {p1 : Parser} {th : Bool}, tryCall c st o = some (c1, st1, es1) →
        p.tryOne o = .ok (p1, es1, th) → InnerRel c1 st1 p1 → GoodInner G st1 → c1.group ∈ G → c1.sysexCallback = c.sysexCallback →
        (IsPlain st1 ∨ c.sysexCallback = false) → (∀ e ∈ es1, LooseEvent G c.sysexCallback e) →
        (∀ c' st' es, tryCalls c st (o :: os) = some (c', st', es) → ∃ p', p.tryAll (o :: os) = .ok (p', es) ∧ InnerRel c' st' p' ∧
          GoodInner G st' ∧ c'.group ∈ G ∧ ∀ e ∈ es, LooseEvent G c.sysexCallback e) ∧
        (tryCalls c st (o :: os) = none → p.tryAll (o :: os) = .error .assertFailed) := by
      intro c1 st1 es1 p1 th e1 f1 s1 g1 hc1 hcb m1 v1
      obtain ⟨i1, i2⟩ := ih (fun g hg => hv g (by simp [hg])) hc1 g1 (by rw [hcb]; exact m1) s1
      simp only [tryCalls, Parser.tryAll, Option.bind_eq_bind, e1, f1, ok_bind, Option.bind_some]
      cases e2 : tryCalls c1 st1 os with
      | none =>
        refine ⟨fun c' st' es he => (by cases he), fun _ => ?_⟩
        rw [i2 e2]; rfl
      | some z =>
        obtain ⟨c2, st2, es2⟩ := z
        obtain ⟨p2, f2, s2, g2, hc2, v2⟩ := i1 _ _ _ e2
        refine ⟨fun c' st' es he => ?_, fun he => by cases he⟩
        cases he
        refine ⟨p2, by rw [f2]; rfl, s2, g2, hc2, fun e he => ?_⟩
        rcases List.mem_append.1 he with he | he
        · exact v1 e he
        · rw [← hcb]; exact v2 e he
    cases o with
    | feed bs =>
      obtain ⟨r1, r2⟩ := tryBytes_rel hc bs hst hm h
      cases e1 : tryBytes c st bs with
      | none =>
        simp only [tryCalls, tryCall, e1, Parser.tryAll, Parser.tryOne, r2 e1]
        exact ⟨fun c' st' es he => (by cases he), fun _ => rfl⟩
      | some y =>
        obtain ⟨st1, es1, th1⟩ := y
        obtain ⟨p1, f1, s1, g1, m1, v1⟩ := r1 _ _ _ e1
        exact fin (by simp [tryCall, e1]) f1 s1 g1 hc rfl m1 v1
    | setGroup g =>
      exact fin (c1 := { c with group := g }) rfl rfl (h.setGroup (hG g (hv g (by simp)))) hst (hv g (by simp)) rfl hm (by simp)
    | enable on => exact fin (c1 := { c with enabled := on }) rfl rfl (h.enable on) hst hc rfl hm (by simp)
    | reset => exact fin (st1 := .plain .idle) rfl rfl h.reset trivial hc rfl (Or.inl ⟨_, rfl⟩) (by simp)

/-- Any calls by a caller that starts afresh behind exceptions, or any calls if there is a sysex callback. -/
theorem tryCalls_good {G : List Byte} : ∀ (os : List Parser.Try) {c : Settings} {st : InnerState},
    (∀ g, Parser.Try.setGroup g ∈ os → g ∈ G) → c.group ∈ G → GoodInner G st →
    (c.sysexCallback = true ∧ IsPlain st ∨ Careful os ∧ (IsPlain st ∨ ¬ IsPlain st ∧ StartsAfresh os)) →
    ∃ c' st' es, tryCalls c st os = some (c', st', es) ∧ (∀ e ∈ es, GoodEvent G c.sysexCallback e) ∧
      c' = settingsAfter c os := by
  intro os
  induction os with
  | nil => intro c st _ _ _ _; exact ⟨c, st, [], rfl, by simp, rfl⟩
  | cons o os ih =>
    intro c st hv hc hst hp
    have hv' : ∀ g, Parser.Try.setGroup g ∈ os → g ∈ G := fun g hg => hv g (by simp [hg])
    have fin : ∀ {c1 : Settings} {st1 : InnerState} {es1 : List Event}, tryCall c st o = some (c1, st1, es1) →
        (∀ e ∈ es1, GoodEvent G c.sysexCallback e) → c1.sysexCallback = c.sysexCallback → c1.group ∈ G → GoodInner G st1 →
        settingsAfter c (o :: os) = settingsAfter c1 os →
        (c1.sysexCallback = true ∧ IsPlain st1 ∨ Careful os ∧ (IsPlain st1 ∨ ¬ IsPlain st1 ∧ StartsAfresh os)) →
        ∃ c' st' es, tryCalls c st (o :: os) = some (c', st', es) ∧ (∀ e ∈ es, GoodEvent G c.sysexCallback e) ∧
          c' = settingsAfter c (o :: os) := by
      intro c1 st1 es1 e1 g1 hcb hc1 hst1 hset hp1
      obtain ⟨c2, st2, es2, e2, g2, s2⟩ := ih (c := c1) hv' hc1 hst1 hp1
      refine ⟨c2, st2, es1 ++ es2, by simp [tryCalls, e1, e2], ?_, by rw [hset]; exact s2⟩
      intro e he
      rcases List.mem_append.1 he with he | he
      · exact g1 e he
      · rw [← hcb]; exact g2 e he
    cases o with
    | feed bs =>
      obtain ⟨st1, es1, th, e1, g1, ge1, p1⟩ := tryBytes_good hc bs st hst (by
        rcases hp with hp | ⟨-, hp | ⟨hp, hs⟩⟩
        · exact Or.inl hp.2
        · exact Or.inl hp
        · refine Or.inr ⟨hp, fun b hb => ?_⟩
          simp only [StartsAfresh, hb] at hs
          exact hs)
      refine fin (by simp [tryCall, e1]) ge1 rfl hc g1 rfl ?_
      rcases hp with hp | ⟨hcare, hp⟩
      · refine Or.inl ⟨hp.1, ?_⟩
        rcases p1 with p1 | ⟨-, p1 | p1, -⟩
        · exact p1
        · exact absurd p1 (by simp [hp.1])
        · exact absurd hp.2 p1
      · refine Or.inr ⟨hcare.2, ?_⟩
        rcases p1 with p1 | ⟨p1, -, p2 | p2⟩
        · exact Or.inl p1
        · exact Or.inr ⟨p1, hcare.1 p2⟩
        · refine Or.inr ⟨p1, ?_⟩
          rcases hp with ⟨s, hp⟩ | hp
          · exact absurd ⟨s, hp⟩ p2.1
          · have := hp.2
            simp only [StartsAfresh, p2.2] at this
            exact this
    | setGroup g => exact fin (c1 := { c with group := g }) rfl (by simp) rfl (hv g (by simp)) hst rfl hp
    | enable on => exact fin (c1 := { c with enabled := on }) rfl (by simp) rfl hc hst rfl hp
    | reset =>
      refine fin (st1 := .plain .idle) rfl (by simp) rfl hc trivial rfl ?_
      rcases hp with hp | hp
      · exact Or.inl ⟨hp.1, _, rfl⟩
      · exact Or.inr ⟨hp.1, Or.inl ⟨_, rfl⟩⟩

/-! ## C69: safety -/

theorem tries_safe (g : Byte) (cb on : Bool) (os : List Parser.Try) (G : List Byte) (hG : ∀ k ∈ G, k < 16) (hg : g ∈ G)
    (hv : ∀ k, Parser.Try.setGroup k ∈ os → k ∈ G) (hf : cb = true ∨ Careful os) :
    ∃ p es, (Parser.new g cb on).tryAll os = .ok (p, es) ∧
      (∀ q, .packet q ∈ es → WellFormed1 G q ∧ (cb = true → ¬ IsSysex7 q)) ∧ (∀ s, .sysex s ∈ es → cb = true ∧ Is7Bit s) := by
  obtain ⟨c', st', es, e, good, -⟩ := tryCalls_good os (c := ⟨g, cb, on⟩) (st := .plain .idle) hv hg trivial (by
    rcases hf with hf | hf
    · exact Or.inl ⟨hf, _, rfl⟩
    · exact Or.inr ⟨hf, Or.inl ⟨_, rfl⟩⟩)
  obtain ⟨p, ep, -⟩ := (tryCalls_rel hG os (c := ⟨g, cb, on⟩) (st := .plain .idle) hv hg trivial (Or.inl ⟨_, rfl⟩)
    (Or.inl (new_rel (hG g hg) cb on))).1 _ _ _ e
  exact ⟨p, es, ep, events_good hG good⟩

/-- C69, for parsers with a sysex callback: whatever calls are made, whichever callbacks throw and whichever allocations fail, there
is no access out of range and no failed assertion, and all packets and messages delivered are well formed. -/
theorem C69_with_sysex_callback_partial (g : Byte) (on : Bool) (os : List Parser.Try) (G : List Byte) (hG : ∀ k ∈ G, k < 16) (hg : g ∈ G)
    (hv : ∀ k, Parser.Try.setGroup k ∈ os → k ∈ G) :
    ∃ p es, (Parser.new g true on).tryAll os = .ok (p, es) ∧
      (∀ q, .packet q ∈ es → WellFormed1 G q ∧ ¬ IsSysex7 q) ∧ (∀ s, .sysex s ∈ es → Is7Bit s) := by
  obtain ⟨p, es, e, h1, h2⟩ := tries_safe g true on os G hG hg hv (Or.inl rfl)
  exact ⟨p, es, e, fun q hq => ⟨(h1 q hq).1, (h1 q hq).2 rfl⟩, fun s hs => (h2 s hs).2⟩

/-- C69, for parsers without sysex callback: the same, if behind a call during which a callback may throw, the caller resets the
parser or feeds a status byte other than sysex end first. -/
theorem C69_starting_afresh_partial (g : Byte) (on : Bool) (os : List Parser.Try) (G : List Byte) (hG : ∀ k ∈ G, k < 16) (hg : g ∈ G)
    (hv : ∀ k, Parser.Try.setGroup k ∈ os → k ∈ G) (hf : Careful os) :
    ∃ p es, (Parser.new g false on).tryAll os = .ok (p, es) ∧
      (∀ q, .packet q ∈ es → WellFormed1 G q) ∧ (∀ s, .sysex s ∉ es) := by
  obtain ⟨p, es, e, h1, h2⟩ := tries_safe g false on os G hG hg hv (Or.inr hf)
  exact ⟨p, es, e, fun q hq => (h1 q hq).1, fun s hs => by simpa using (h2 s hs).1⟩

-- a caller that resets the parser behind a call during which a callback throws, and one that goes on with a note on
example : Careful [.feed [(0xF0, {}), (1, {}), (2, {}), (3, {}), (4, {}), (5, {}), (6, { callback := true })], .setGroup 3, .reset, .feed [(7, {})]] ∧
    Careful [.feed [(0xF0, {}), (1, {}), (0xF7, { callback := true })], .feed [(0xF8, { callback := true })], .feed [(0x90, {}), (1, {})]] := by
  simp [Careful, StartsAfresh, firstByte]

/-- The callback for six bytes of sysex throws. -/
theorem throw_at_six {c : Settings} {g : Byte} {w : Bool} {d : List Byte} {p : Parser} (r : ParserRel c (.sysex g w d) p) {b : Byte}
    (hb : b < 0x80) (hcb : c.sysexCallback = false) (h6 : (d.length + 1) % 6 = 0) (hon : c.enabled = true) :
    ∃ m e, p.tryFeed b { callback := true } = .ok (m, [e], true) ∧ m.packet.type = PacketType.data ∧
      m.hasSysexCallback = false ∧ m.packetByte = 8 := by
  obtain ⟨m, hm, h8, hmr⟩ := continuePacket_event r (b := b) hcb h6 hon
  have hfeed : ∀ k, p.feedR b k = p.sysexContinuePacketR b k := by
    intro k
    have ht : p.packet.type = PacketType.data := r.type_sysex
    unfold Parser.feedR
    rw [if_neg (show ¬ b ≥ SystemStatus.clock by clear * - hb; revert hb; revert b; decide +kernel), if_pos ht, if_pos hb,
      if_neg (by rw [r.cb]; simp [hcb])]
  rcases shape_feed p b { callback := true } rfl with ⟨x, hf, -⟩ | ⟨q, e, post, hf, hg⟩
  · exfalso
    have h1 := hf (fun _ => .error .assertFailed)
    have h2 := hf (fun _ => .error .outOfBounds)
    rw [hfeed, hmr] at h1 h2
    have h1 : (Except.error .assertFailed : Except Fault (Parser × List Event)) = _ := h1
    have h2 : (Except.error .outOfBounds : Except Fault (Parser × List Event)) = _ := h2
    rw [← h1] at h2
    cases h2
  · have hqm : m = q := by
      by_contra hn
      classical
      have h1 := hf (fun x => if x = q then .error .assertFailed else .error .outOfBounds)
      rw [hfeed, hmr, if_neg hn, if_pos rfl] at h1
      cases h1
    subst hqm
    exact ⟨m, e, hg, hm.type, hm.forget.cb.trans hcb, h8⟩

theorem tryBlock_data (xs : List Byte) (p : Parser) (h : p.feedAll xs = .error .assertFailed) :
    p.tryBlock (xs.map fun x => (x, {})) = .error .assertFailed := by
  rw [tryBlock_calm _ _ (by simp), List.map_map]
  show (p.feedAll (xs.map id)).map _ = _
  rw [List.map_id, h]; rfl

/-- C69 is false without sysex callback: whenever the callback for a packet with six bytes of sysex throws and at least nine more
data bytes follow, the ninth one fails the assertion, as there is no space for it in the packet. -/
theorem C69_overflow (g : Byte) (hg : g < 16) (d : List Byte) (b : Byte) (xs : List Byte) (hd : d.length % 6 = 5)
    (h7 : ∀ x ∈ d, x < 0x80) (hb : b < 0x80) (hx : 9 ≤ xs.length) (hx7 : ∀ x ∈ xs, x < 0x80) :
    (Parser.new g false true).tryAll [.feed ((0xF0 :: d).map fun x => (x, {})), .feed [(b, { callback := true })],
      .feed (xs.map fun x => (x, {}))] = .error .assertFailed := by
  obtain ⟨p, e, r⟩ := feedAll_rel (0xF0 :: d) (new_rel hg false true)
  have hst : (stepBytes ⟨g, false, true⟩ .idle (0xF0 :: d)).1 = .sysex g true d := by
    rw [stepBytes_cons, step_start]
    exact stepBytes_sysex_data ⟨g, false, true⟩ rfl true d [] h7
  rw [hst] at r
  have e : (Parser.new g false true).tryBlock ((0xF0 :: d).map fun x => (x, {})) =
      .ok (p, (stepBytes ⟨g, false, true⟩ .idle (0xF0 :: d)).2, false) := by
    rw [tryBlock_calm _ _ (by simp), List.map_map]
    show ((Parser.new g false true).feedAll ((0xF0 :: d).map id)).map _ = _
    rw [List.map_id, e]; rfl
  obtain ⟨m, ev, em, hm, hmc, h8⟩ := throw_at_six r hb rfl (by omega) rfl
  have hov := overflow xs m 8 hm hmc (by rw [h8]; rfl) (by omega) (by omega) (by omega) hx7
  rw [C65_plain] at hov
  simp only [Parser.tryAll, Parser.tryOne, e, ok_bind, Parser.tryBlock, em, if_true, pure_eq_ok, tryBlock_data xs m hov]
  rfl

-- the hypotheses are met: six bytes of sysex, and nine more data bytes
example : ([1, 2, 3, 4, 5] : List Byte).length % 6 = 5 ∧ (∀ x ∈ ([1, 2, 3, 4, 5] : List Byte), x < 0x80) ∧ (6 : Byte) < 0x80 ∧
    9 ≤ ([7, 8, 9, 10, 11, 12, 13, 14, 15] : List Byte).length ∧ ∀ x ∈ ([7, 8, 9, 10, 11, 12, 13, 14, 15] : List Byte), x < 0x80 := by decide

/-! ## C70: recovery -/

/-- The settings of a parser are not changed. -/
def SameSettings (p q : Parser) : Prop :=
  q.group = p.group ∧ q.hasSysexCallback = p.hasSysexCallback ∧ q.invokeCallbacks = p.invokeCallbacks

theorem dataByte_settings {p q : Parser} {b : Byte} {t : Trouble} {x : List Event × Bool}
    (h : p.tryDataByte b t = .ok (q, x)) : SameSettings p q := by
  unfold Parser.tryDataByte at h
  split at h
  · cases hp : p.packet.setByte p.packetByte.toNat b with
    | error f => rw [hp] at h; cases h
    | ok y =>
      rw [hp, ok_bind] at h
      dsimp only at h
      repeat' split at h
      all_goals (cases h; exact ⟨rfl, rfl, rfl⟩)
  · cases h; exact ⟨rfl, rfl, rfl⟩

theorem status_settings {p q : Parser} {b : Byte} {t : Trouble} {x : List Event × Bool}
    (h : p.tryFeedStatus b t = .ok (q, x)) : SameSettings p q := by
  unfold Parser.tryFeedStatus at h
  split at h
  · unfold Parser.trySysexStart at h
    cases hp : makeSysex7 .start p.group with
    | error f => rw [hp] at h; cases h
    | ok y =>
      rw [hp, ok_bind] at h
      dsimp only at h
      repeat' split at h
      all_goals (cases h; exact ⟨rfl, rfl, rfl⟩)
  · split at h
    · have h := ok_inj h
      have : (p.trySystemCommon b t).1 = q := by rw [h]
      rw [← this]
      unfold Parser.trySystemCommon
      dsimp only
      repeat' split
      all_goals exact ⟨rfl, rfl, rfl⟩
    · split at h
      · have h := ok_inj h
        have : (p.tryChannelVoice b t).1 = q := by rw [h]
        rw [← this]
        unfold Parser.tryChannelVoice
        dsimp only
        repeat' split
        all_goals exact ⟨rfl, rfl, rfl⟩
      · exact dataByte_settings h

theorem tryFeed_settings {p q : Parser} {b : Byte} {t : Trouble} {es : List Event} {threw : Bool}
    (h : p.tryFeed b t = .ok (q, es, threw)) : SameSettings p q := by
  unfold Parser.tryFeed at h
  split at h
  · have h := ok_inj h
    have : (p.trySystemRealtime b t).1 = q := by rw [h]
    rw [← this]
    unfold Parser.trySystemRealtime
    split <;> exact ⟨rfl, rfl, rfl⟩
  · split at h
    · split at h
      · split at h
        · have h := ok_inj h
          have : (p.trySysexContinueCallback b t).1 = q := congrArg Prod.fst h
          rw [← this]
          unfold Parser.trySysexContinueCallback
          repeat' split
          all_goals exact ⟨rfl, rfl, rfl⟩
        · unfold Parser.trySysexContinuePacket at h
          cases hp : p.packet.setByte p.packetByte.toNat b with
          | error f => rw [hp] at h; cases h
          | ok y =>
            rw [hp, ok_bind] at h
            dsimp only at h
            split at h
            · split at h
              · cases hq : y.setByte 1 ((y.status &&& 0xF0) + 6) with
                | error f => rw [hq] at h; cases h
                | ok z =>
                  rw [hq, ok_bind, pure_eq_ok, ok_bind] at h
                  dsimp only at h
                  split at h
                  · cases h; exact ⟨rfl, rfl, rfl⟩
                  · cases hc : makeSysex7 .cont p.group with
                    | error f => rw [hc] at h; cases h
                    | ok w => rw [hc, ok_bind] at h; cases h; exact ⟨rfl, rfl, rfl⟩
              · rw [pure_eq_ok, ok_bind] at h
                dsimp only at h
                rw [if_neg (by simp)] at h
                cases hc : makeSysex7 .cont p.group with
                | error f => rw [hc] at h; cases h
                | ok w => rw [hc, ok_bind] at h; cases h; exact ⟨rfl, rfl, rfl⟩
            · cases h; exact ⟨rfl, rfl, rfl⟩
      · split at h
        · exact status_settings (p := { p with packet := {} }) h
        · split at h
          · have h := ok_inj h
            have : (p.trySysexEndCallback t).1 = q := by rw [h]
            rw [← this]
            unfold Parser.trySysexEndCallback
            dsimp only
            repeat' split
            all_goals exact ⟨rfl, rfl, rfl⟩
          · unfold Parser.trySysexEndPacket at h
            dsimp only at h
            split at h
            · cases h; exact ⟨rfl, rfl, rfl⟩
            · generalize (if p.packet.status &&& 0xF0 = Format.start.status then Format.complete.status else
                Format.fin.status) + ((p.packetByte - 2) &&& 0x0F) = v at h
              cases hp : p.packet.setByte 1 v with
              | error f => rw [hp] at h; cases h
              | ok y =>
                rw [hp, ok_bind] at h
                split at h <;> · cases h; exact ⟨rfl, rfl, rfl⟩
    · exact status_settings h

theorem tryBlock_settings : ∀ (bs : List (Byte × Trouble)) {p q : Parser} {es : List Event} {threw : Bool},
    p.tryBlock bs = .ok (q, es, threw) →
    q.group = p.group ∧ q.hasSysexCallback = p.hasSysexCallback ∧ q.invokeCallbacks = p.invokeCallbacks := by
  intro bs
  induction bs with
  | nil => intro p q es threw h; cases h; exact ⟨rfl, rfl, rfl⟩
  | cons x bs ih =>
    obtain ⟨b, t⟩ := x
    intro p q es threw h
    simp only [Parser.tryBlock] at h
    cases h1 : p.tryFeed b t with
    | error f => rw [h1] at h; cases h
    | ok y =>
      obtain ⟨p1, es1, th1⟩ := y
      rw [h1, ok_bind] at h
      have a1 := tryFeed_settings h1
      cases th1 with
      | true => cases h; exact a1
      | false =>
        simp only [Bool.false_eq_true, if_false] at h
        cases h2 : p1.tryBlock bs with
        | error f => rw [h2] at h; cases h
        | ok y =>
          obtain ⟨p2, es2, th2⟩ := y
          rw [h2, ok_bind] at h
          cases h
          have a2 := ih h2
          rw [a1.1, a1.2.1, a1.2.2] at a2
          exact a2

theorem tryAll_settings : ∀ (os : List Parser.Try) {p q : Parser} {es : List Event}, p.tryAll os = .ok (q, es) →
    (⟨q.group, q.hasSysexCallback, q.invokeCallbacks⟩ : Settings) =
      settingsAfter ⟨p.group, p.hasSysexCallback, p.invokeCallbacks⟩ os := by
  intro os
  induction os with
  | nil => intro p q es h; cases h; rfl
  | cons o os ih =>
    intro p q es h
    simp only [Parser.tryAll] at h
    cases h1 : p.tryOne o with
    | error f => rw [h1] at h; cases h
    | ok y =>
      obtain ⟨p1, es1, th1⟩ := y
      rw [h1, ok_bind] at h
      cases h2 : p1.tryAll os with
      | error f => simp only [h2] at h; cases h
      | ok y =>
        obtain ⟨p2, es2⟩ := y
        simp only [h2, ok_bind] at h
        cases h
        rw [ih h2]
        cases o with
        | feed bs =>
          have a1 := tryBlock_settings bs h1
          rw [a1.1, a1.2.1, a1.2.2]; rfl
        | setGroup g => cases h1; rfl
        | enable on => cases h1; rfl
        | reset => cases h1; rfl

theorem settingsAfter_ok : ∀ (os : List Parser.Try) (c : Settings), TryGroups os → c.group < 16 →
    (settingsAfter c os).group < 16 ∧ (settingsAfter c os).sysexCallback = c.sysexCallback := by
  intro os
  induction os with
  | nil => intro c _ hc; exact ⟨hc, rfl⟩
  | cons o os ih =>
    intro c hv hc
    have hv' : TryGroups os := fun g hg => hv g (by simp [hg])
    cases o with
    | setGroup g => exact ih { c with group := g } hv' (hv g (by simp))
    | enable on => exact ih { c with enabled := on } hv' hc
    | feed bs => exact ih c hv' hc
    | reset => exact ih c hv' hc

/-- Whatever happened, the settings are the ones made, and that is all a parser without a packet under construction depends on. -/
theorem tries_forget {g : Byte} {cb on : Bool} {os : List Parser.Try} (hg : g < 16) (hv : TryGroups os) {p : Parser} {es : List Event}
    (h : (Parser.new g cb on).tryAll os = .ok (p, es)) :
    ParserRel (settingsAfter ⟨g, cb, on⟩ os) .idle { p with packet := {} } ∧ (settingsAfter ⟨g, cb, on⟩ os).group < 16 ∧
      (settingsAfter ⟨g, cb, on⟩ os).sysexCallback = cb := by
  have hs := tryAll_settings os h
  have hok := settingsAfter_ok os ⟨g, cb, on⟩ hv hg
  have hs : (⟨p.group, p.hasSysexCallback, p.invokeCallbacks⟩ : Settings) = settingsAfter ⟨g, cb, on⟩ os := hs
  refine ⟨?_, hok⟩
  rw [← hs] at hok ⊢
  exact ⟨rfl, rfl, rfl, hok.1, rfl⟩

/-- C70: after any calls, whichever callbacks threw and whichever allocations failed, and even if the caller went on with data bytes: if the
parser is reset, it is as good as a new one with the same settings. -/
theorem C70_reset (g : Byte) (cb on : Bool) (os : List Parser.Try) (hg : g < 16) (hv : TryGroups os) (p : Parser) (es : List Event)
    (h : (Parser.new g cb on).tryAll os = .ok (p, es)) :
    Alike p.reset (Parser.new (settingsAfter ⟨g, cb, on⟩ os).group cb (settingsAfter ⟨g, cb, on⟩ os).enabled) := by
  obtain ⟨r, hlt, hcb⟩ := tries_forget hg hv h
  refine alike_of_rel (c := settingsAfter ⟨g, cb, on⟩ os) (st := .idle) ⟨r.group, r.cb, r.on, r.lt, rfl⟩
    ⟨rfl, hcb.symm, rfl, hlt, rfl⟩

example := C70_reset 3 false true [.feed [(0x90, {}), (60, {}), (100, { callback := true })]] (by decide)
  (by intro g hg; simp at hg) _ _ rfl

theorem feed_status_forgets (p : Parser) {s : Byte} (hs : 0x80 ≤ s ∧ s < 0xF8 ∧ s ≠ 0xF7) :
    p.feed s = ({ p with packet := {} } : Parser).feed s := by
  have h1 : ¬ s ≥ 0xF8 := by have := hs.2.1; clear * - this; revert this; revert s; decide +kernel
  have h2 : ¬ s < 0x80 := by have := hs.1; clear * - this; revert this; revert s; decide +kernel
  have : p.tryFeed s {} = ({ p with packet := {} } : Parser).tryFeed s {} := by
    rw [tryFeed_status _ h1 h2 hs.2.2, tryFeed_status _ h1 h2 hs.2.2]
    exact (tryFeedStatus_packet p {} h2 {}).symm
  rw [tryFeed_calm, tryFeed_calm] at this
  revert this
  cases p.feed s <;> cases ({ p with packet := {} } : Parser).feed s <;> simp [Except.map]
  intro h1 h2
  exact Prod.ext h1 h2

/-- C70: the same holds as soon as a status byte is fed, other than real time bytes and sysex end: the parser reacts to this byte and
to everything behind it like a new one with the same settings. -/
theorem C70_next_status (g : Byte) (cb on : Bool) (os : List Parser.Try) (hg : g < 16) (hv : TryGroups os) (p : Parser) (es : List Event)
    (h : (Parser.new g cb on).tryAll os = .ok (p, es)) (s : Byte) (hs : 0x80 ≤ s ∧ s < 0xF8 ∧ s ≠ 0xF7) (rest : List Byte) :
    ∃ q r fs, p.feedAll (s :: rest) = .ok (q, fs) ∧
      (Parser.new (settingsAfter ⟨g, cb, on⟩ os).group cb (settingsAfter ⟨g, cb, on⟩ os).enabled).feedAll (s :: rest) = .ok (r, fs) ∧
      Alike q r := by
  obtain ⟨r, hlt, hcb⟩ := tries_forget hg hv h
  have hn : ParserRel (settingsAfter ⟨g, cb, on⟩ os) .idle
      (Parser.new (settingsAfter ⟨g, cb, on⟩ os).group cb (settingsAfter ⟨g, cb, on⟩ os).enabled) :=
    ⟨rfl, hcb.symm, rfl, hlt, rfl⟩
  obtain ⟨q, e, rq⟩ := feedAll_rel (s :: rest) r
  obtain ⟨q', e', rq'⟩ := feedAll_rel (s :: rest) hn
  refine ⟨q, q', _, ?_, e', alike_of_rel rq rq'⟩
  rw [← e]
  simp only [Parser.feedAll, feed_status_forgets p hs]

/-- C70: so the next complete message of any kind is received as by a new parser. -/
theorem C70_next_message (g : Byte) (cb on : Bool) (os : List Parser.Try) (hg : g < 16) (hv : TryGroups os) (p : Parser) (es : List Event)
    (h : (Parser.new g cb on).tryAll os = .ok (p, es)) (m : List Byte) (hm : Message1 m) :
    ∃ q r fs, p.feedAll m = .ok (q, fs) ∧
      (Parser.new (settingsAfter ⟨g, cb, on⟩ os).group cb (settingsAfter ⟨g, cb, on⟩ os).enabled).feedAll m = .ok (r, fs) := by
  cases hm with
  | sysex d h0 hd =>
    obtain ⟨q, r, fs, e1, e2, -⟩ := C70_next_status g cb on os hg hv p es h 0xF0 (by decide) (d ++ [0xF7])
    exact ⟨q, r, fs, e1, e2⟩
  | short s d hs hl hd =>
    by_cases h1 : s ≥ 0xF8
    · have h0 : d = [] := by
        apply List.eq_nil_of_length_eq_zero
        rw [hl]
        clear * - h1; revert h1; revert s; decide +kernel
      subst h0
      obtain ⟨r, hlt, hcb⟩ := tries_forget hg hv h
      have hrt : ∀ q : Parser, q.feedAll [s] = .ok (q, (q.systemRealtime s).2) := by
        intro q
        have : q.systemRealtime s = (q, (q.systemRealtime s).2) := by
          unfold Parser.systemRealtime; split <;> rfl
        simp only [Parser.feedAll]
        unfold Parser.feed
        rw [if_pos (show s ≥ SystemStatus.clock from h1), this]
        simp [ok_bind]
      refine ⟨_, Parser.new (settingsAfter ⟨g, cb, on⟩ os).group cb (settingsAfter ⟨g, cb, on⟩ os).enabled, _, hrt p, ?_⟩
      rw [hrt]
      have a1 : p.group = (settingsAfter ⟨g, cb, on⟩ os).group := r.group
      have a2 : p.invokeCallbacks = (settingsAfter ⟨g, cb, on⟩ os).enabled := r.on
      congr 2
      unfold Parser.systemRealtime Parser.post
      rw [a1, a2]
      simp only [apply_ite Prod.snd]; rfl
    · have hs' : 0x80 ≤ s ∧ s < 0xF8 ∧ s ≠ 0xF7 := by
        clear * - hs h1; revert hs h1; revert s; decide +kernel
      obtain ⟨q, r, fs, e1, e2, -⟩ := C70_next_status g cb on os hg hv p es h s hs' d
      exact ⟨q, r, fs, e1, e2⟩

-- a history with an exception in the middle of a sysex message, that goes on with a data byte; then callbacks are disabled and enabled
example : ∃ p es, (Parser.new 2 false true).tryAll
    [.feed [(0xF0, {}), (1, {}), (2, {}), (3, {}), (4, {}), (5, {}), (6, { callback := true })], .feed [(7, {})], .enable false, .setGroup 4,
      .enable true] = .ok (p, es) ∧ es = [.packet (sysexPacket 2 1 [1, 2, 3, 4, 5, 6])] ∧ p.packetByte = 9 :=
  ⟨_, _, rfl, by decide +kernel, by decide +kernel⟩

/-! ## C71: effect on what is delivered -/

theorem tryAll_of_machine (g : Byte) (cb on : Bool) (os : List Parser.Try) (hg : g < 16) (hv : TryGroups os) (c : Settings) (st : InnerState)
    (es : List Event) (h : tryCalls ⟨g, cb, on⟩ (.plain .idle) os = some (c, st, es)) :
    ∃ p, (Parser.new g cb on).tryAll os = .ok (p, es) := by
  obtain ⟨p, e, -⟩ := (tryCalls_rel (G := allGroups) (fun k hk => (mem_allGroups k).1 hk) os (c := ⟨g, cb, on⟩)
    (fun k hk => (mem_allGroups k).2 (hv k hk)) ((mem_allGroups g).2 hg) (st := .plain .idle) trivial (Or.inl ⟨_, rfl⟩)
    (Or.inl (new_rel hg cb on))).1 _ _ _ h
  exact ⟨p, e⟩

/-- C71: whatever calls are made, whichever callbacks throw and whichever allocations fail, the events are those of the reference
machine. -/
theorem C71_exactly (g : Byte) (cb on : Bool) (os : List Parser.Try) (hg : g < 16) (hv : TryGroups os) (p : Parser) (es : List Event)
    (h : (Parser.new g cb on).tryAll os = .ok (p, es)) :
    ∃ c st, tryCalls ⟨g, cb, on⟩ (.plain .idle) os = some (c, st, es) ∧ p.group = c.group ∧ p.invokeCallbacks = c.enabled := by
  obtain ⟨h1, h2⟩ := tryCalls_rel (G := allGroups) (fun k hk => (mem_allGroups k).1 hk) os (c := ⟨g, cb, on⟩)
    (fun k hk => (mem_allGroups k).2 (hv k hk)) ((mem_allGroups g).2 hg) (st := .plain .idle) trivial (Or.inl ⟨_, rfl⟩)
    (Or.inl (new_rel hg cb on))
  cases hm : tryCalls ⟨g, cb, on⟩ (.plain .idle) os with
  | none => rw [h2 hm] at h; cases h
  | some x =>
    obtain ⟨c, st, fs⟩ := x
    obtain ⟨q, ep, r, -⟩ := h1 c st fs hm
    rw [h] at ep
    obtain ⟨rfl, rfl⟩ := Prod.mk.inj (Except.ok.inj ep)
    exact ⟨c, st, rfl, r.forget.group, r.forget.on⟩

example := C71_exactly 3 false true [.feed [(0x90, {}), (60, {}), (100, { callback := true })], .feed [(61, {}), (100, {})]] (by decide)
  (by intro g hg; simp at hg) _ _ rfl

/-- C69: whatever calls are made, whichever callbacks throw and whichever allocations fail: if anything goes wrong in the parser itself
it is the assertion for bytes behind the packet, and this happens exactly if there is no result of the reference machine. -/
theorem C69_exactly (g : Byte) (cb on : Bool) (os : List Parser.Try) (hg : g < 16) (hv : TryGroups os) (f : Fault) :
    (Parser.new g cb on).tryAll os = .error f ↔ f = .assertFailed ∧ tryCalls ⟨g, cb, on⟩ (.plain .idle) os = none := by
  obtain ⟨h1, h2⟩ := tryCalls_rel (G := allGroups) (fun k hk => (mem_allGroups k).1 hk) os (c := ⟨g, cb, on⟩)
    (fun k hk => (mem_allGroups k).2 (hv k hk)) ((mem_allGroups g).2 hg) (st := .plain .idle) trivial (Or.inl ⟨_, rfl⟩)
    (Or.inl (new_rel hg cb on))
  cases hm : tryCalls ⟨g, cb, on⟩ (.plain .idle) os with
  | none =>
    rw [h2 hm]
    exact ⟨fun h => ⟨(Except.error.inj h).symm, rfl⟩, fun h => by rw [h.1]⟩
  | some x =>
    obtain ⟨c, st, fs⟩ := x
    obtain ⟨q, ep, -⟩ := h1 c st fs hm
    rw [ep]
    exact ⟨fun h => (by cases h), fun h => (by cases h.2)⟩

/-- C69, whatever goes wrong: if no assertion fails, the packets and messages are well formed, except for packets with sysex, which may
have too many data bytes, up to fourteen. -/
theorem C69_delivered_partial (g : Byte) (cb on : Bool) (os : List Parser.Try) (G : List Byte) (hG : ∀ k ∈ G, k < 16) (hg : g ∈ G)
    (hv : ∀ k, Parser.Try.setGroup k ∈ os → k ∈ G) (p : Parser) (es : List Event)
    (h : (Parser.new g cb on).tryAll os = .ok (p, es)) :
    (∀ q, .packet q ∈ es → WellFormed1 G q ∧ (cb = true → ¬ IsSysex7 q) ∨
      cb = false ∧ ∃ k ∈ G, ∃ f < 4, ∃ d : List Byte, 6 < d.length ∧ d.length ≤ 14 ∧ (∀ b ∈ d, b < 0x80) ∧ q = sysexPacket k f d) ∧
    (∀ s, .sysex s ∈ es → cb = true ∧ Is7Bit s) := by
  obtain ⟨h1, h2⟩ := tryCalls_rel (G := G) hG os (c := ⟨g, cb, on⟩) hv hg (st := .plain .idle) trivial (Or.inl ⟨_, rfl⟩)
    (Or.inl (new_rel (hG g hg) cb on))
  cases hm : tryCalls ⟨g, cb, on⟩ (.plain .idle) os with
  | none => rw [h2 hm] at h; cases h
  | some x =>
    obtain ⟨c, st, fs⟩ := x
    obtain ⟨q, ep, -, -, -, o⟩ := h1 c st fs hm
    rw [h] at ep
    obtain ⟨rfl, rfl⟩ := Prod.mk.inj (Except.ok.inj ep)
    refine ⟨fun q hq => ?_, fun s hs => ?_⟩
    · rcases o _ hq with he | ⟨hcb, k, f, d, hk, hf, h6, h14, hd, hq⟩
      · exact Or.inl ((events_good hG (es := [.packet q]) (by simpa using he)).1 q (by simp))
      · cases hq
        exact Or.inr ⟨hcb, k, hk, f, hf, d, h6, h14, hd, rfl⟩
    · rcases o _ hs with he | ⟨-, k, f, d, -, -, -, -, -, hq⟩
      · exact (events_good hG (es := [.sysex s]) (by simpa using he)).2 s (by simp)
      · cases hq

-- the callback for a sysex packet throws, and so does the one for the packet with thirteen bytes sent at sysex end
example : tryCalls ⟨3, false, true⟩ (.plain .idle) [.feed [(0xF0, {}), (1, {}), (2, {}), (3, {}), (4, {}), (5, {}), (6, { callback := true })],
      .feed [(7, {}), (8, {}), (9, {}), (10, {}), (11, {}), (12, {}), (13, {}), (0xF7, { callback := true })], .feed [(0xF7, {})]] =
    some (⟨3, false, true⟩, .plain .idle, [.packet (sysexPacket 3 1 [1, 2, 3, 4, 5, 6]),
      .packet (sysexPacket 3 0 [1, 2, 3, 4, 5, 6, 7, 8, 9, 10, 11, 12, 13]),
      .packet (sysexPacket 3 3 [1, 2, 3, 4, 5, 6, 7, 8, 9, 10, 11, 12, 13])]) := by decide +kernel

-- the callback for an end packet with two bytes throws: four more bytes are added to the packet
example : tryCalls ⟨3, false, true⟩ (.plain .idle) [.feed [(0xF0, {}), (1, {}), (2, {}), (0xF7, { callback := true })],
      .feed [(3, {}), (4, {}), (5, {}), (6, {}), (7, {}), (0xF7, {})]] =
    some (⟨3, false, true⟩, .plain .idle, [.packet (sysexPacket 3 0 [1, 2]), .packet (sysexPacket 3 0 [1, 2, 3, 4, 5, 6]),
      .packet (sysexPacket 3 3 [7])]) := by decide +kernel

-- with nine data bytes there is no result
example : tryCalls ⟨3, false, true⟩ (.plain .idle) [.feed [(0xF0, {}), (1, {}), (2, {}), (3, {}), (4, {}), (5, {}), (6, { callback := true })],
      .feed [(7, {}), (8, {}), (9, {}), (10, {}), (11, {}), (12, {}), (13, {}), (14, {}), (15, {})]] = none := by decide +kernel

/-- Callbacks throw at most for the last byte of a call, so that no bytes are left unread, and there is always memory. -/
def LastByteOnly : Parser.Try → Prop
  | .feed bs => (∀ x ∈ bs.dropLast, x.2.callback = false) ∧ ∀ x ∈ bs, x.2.memory = false
  | _ => True

instance : DecidablePred LastByteOnly := fun o => by cases o <;> unfold LastByteOnly <;> infer_instance

/-- There is no sysex start (F0) among the bytes. -/
def WithoutSysex : Parser.Try → Prop
  | .feed bs => ∀ x ∈ bs, x.1 ≠ 0xF0
  | _ => True

instance : DecidablePred WithoutSysex := fun o => by cases o <;> unfold WithoutSysex <;> infer_instance

/-- The state is not within sysex. -/
def NotSysex (st : StreamState) : Prop := ∀ g w d, st ≠ .sysex g w d

theorem step_notSysex {c : Settings} {st : StreamState} (h : NotSysex st) {b : Byte} (hb : b ≠ 0xF0) : NotSysex (stepByte c st b).1 := by
  intro g w d
  unfold stepByte byteEvents
  dsimp only
  rw [if_neg hb]
  match st with
  | .sysex g w d => exact absurd rfl (h g w d)
  | .idle =>
    repeat' split
    all_goals first | (intro hh; cases hh; done) | simp_all
  | .message g' s' d' =>
    repeat' split
    all_goals first | (intro hh; cases hh; done) | simp_all

theorem tryByte_noEffect {c : Settings} {st : StreamState} {b : Byte} {t : Trouble} (ht : t.memory = false)
    (h : c.sysexCallback = true ∨ NotSysex st) :
    tryByte c (.plain st) b t = some (.plain (stepByte c st b).1, (stepByte c st b).2, t.callback && !(stepByte c st b).2.isEmpty) := by
  unfold tryByte
  by_cases h1 : b ≥ 0xF8
  · rw [if_pos h1, step_rt c st h1]
    by_cases hp : c.enabled = true ∧ b ≠ 0xF9 ∧ b ≠ 0xFD
    · rw [if_pos hp, if_pos hp.1, if_neg (by tauto)]; simp
    · rw [if_neg hp]
      by_cases hon : c.enabled = true
      · rw [if_pos hon, if_pos (by tauto)]; simp
      · rw [if_neg hon]; simp
  · rw [if_neg h1]
    dsimp only
    unfold tryStep
    rw [if_neg (by simp [ht])]
    dsimp only
    have hd : during c st b (stepByte c st b).1 = .plain (stepByte c st b).1 := by
      unfold during
      match st with
      | .idle | .message .. => rfl
      | .sysex g w d =>
        dsimp only
        rcases h with h | h
        · rw [if_neg (by simp [h])]
        · exact absurd rfl (h g w d)
    rw [hd]
    by_cases hcb : t.callback = true
    · cases hev : (stepByte c st b).2 with
      | nil => simp
      | cons e es => simp [hcb]
    · simp [hcb]

theorem tryBytes_noEffect : ∀ (bs : List (Byte × Trouble)) {c : Settings} {st : StreamState},
    (∀ x ∈ bs.dropLast, x.2.callback = false) → (∀ x ∈ bs, x.2.memory = false) →
    (c.sysexCallback = true ∨ NotSysex st ∧ ∀ x ∈ bs, x.1 ≠ 0xF0) →
    (∃ threw, tryBytes c (.plain st) bs = some (.plain (stepBytes c st (bs.map Prod.fst)).1, (stepBytes c st (bs.map Prod.fst)).2, threw)) ∧
      (c.sysexCallback = true ∨ NotSysex (stepBytes c st (bs.map Prod.fst)).1) := by
  intro bs
  induction bs with
  | nil =>
    intro c st _ _ h
    refine ⟨⟨false, rfl⟩, ?_⟩
    rcases h with h | h
    · exact Or.inl h
    · exact Or.inr h.1
  | cons x bs ih =>
    obtain ⟨b, t⟩ := x
    intro c st h1 h2 h
    have e1 := tryByte_noEffect (c := c) (st := st) (b := b) (t := t) (h2 (b, t) (by simp)) (by
      rcases h with h | h
      · exact Or.inl h
      · exact Or.inr h.1)
    have h' : c.sysexCallback = true ∨ NotSysex (stepByte c st b).1 ∧ ∀ x ∈ bs, x.1 ≠ 0xF0 := by
      rcases h with h | h
      · exact Or.inl h
      · exact Or.inr ⟨step_notSysex h.1 (h.2 (b, t) (by simp)), fun x hx => h.2 x (by simp [hx])⟩
    have i := ih (c := c) (st := (stepByte c st b).1) (fun x hx => h1 x (by
      cases bs with
      | nil => simp at hx
      | cons y ys => simp only [List.dropLast_cons_cons]; exact List.mem_cons_of_mem _ hx)) (fun x hx => h2 x (by simp [hx])) h'
    rw [List.map_cons, stepBytes_cons]
    refine ⟨?_, i.2⟩
    simp only [tryBytes, e1, Option.bind_eq_bind, Option.bind_some]
    cases bs with
    | nil =>
      cases hth : (t.callback && !(stepByte c st b).2.isEmpty)
      · exact ⟨false, by simp [tryBytes, stepBytes]⟩
      · exact ⟨true, by simp [stepBytes]⟩
    | cons y ys =>
      have ht : t.callback = false := h1 (b, t) (by simp)
      obtain ⟨th, e2⟩ := i.1
      exact ⟨th, by simp [ht, e2]⟩

theorem tryCalls_noEffect : ∀ (os : List Parser.Try) {c : Settings} {st : StreamState}, (∀ o ∈ os, LastByteOnly o) →
    (c.sysexCallback = true ∨ NotSysex st ∧ ∀ o ∈ os, WithoutSysex o) →
    ∃ c' st', tryCalls c (.plain st) os = some (c', st', opEvents c st (untroubledCalls os)) := by
  intro os
  induction os with
  | nil => intro c st _ _; exact ⟨_, _, rfl⟩
  | cons o os ih =>
    intro c st h1 h
    have h1' : ∀ o ∈ os, LastByteOnly o := fun o ho => h1 o (by simp [ho])
    have ho := h1 o (by simp)
    cases o with
    | feed bs =>
      obtain ⟨⟨th, e1⟩, i⟩ := tryBytes_noEffect bs (c := c) (st := st) ho.1 ho.2 (by
        rcases h with h | h
        · exact Or.inl h
        · exact Or.inr ⟨h.1, h.2 (.feed bs) (by simp)⟩)
      obtain ⟨c', st', e2⟩ := ih (c := c) (st := (stepBytes c st (bs.map Prod.fst)).1) h1' (by
        rcases h with h | h
        · exact Or.inl h
        · rcases i with i | i
          · exact Or.inl i
          · exact Or.inr ⟨i, fun o ho => h.2 o (by simp [ho])⟩)
      exact ⟨c', st', by simp [tryCalls, tryCall, e1, e2, untroubledCalls, opEvents, stepOp]⟩
    | setGroup g =>
      obtain ⟨c', st', e2⟩ := ih (c := { c with group := g }) (st := st) h1' (by
        rcases h with h | h
        · exact Or.inl h
        · exact Or.inr ⟨h.1, fun o ho => h.2 o (by simp [ho])⟩)
      exact ⟨c', st', by simp [tryCalls, tryCall, e2, untroubledCalls, opEvents, stepOp]⟩
    | enable on =>
      obtain ⟨c', st', e2⟩ := ih (c := { c with enabled := on }) (st := st) h1' (by
        rcases h with h | h
        · exact Or.inl h
        · exact Or.inr ⟨h.1, fun o ho => h.2 o (by simp [ho])⟩)
      exact ⟨c', st', by simp [tryCalls, tryCall, e2, untroubledCalls, opEvents, stepOp]⟩
    | reset =>
      obtain ⟨c', st', e2⟩ := ih (c := c) (st := .idle) h1' (by
        rcases h with h | h
        · exact Or.inl h
        · exact Or.inr ⟨by intro g w d; simp, fun o ho => h.2 o (by simp [ho])⟩)
      exact ⟨c', st', by simp [tryCalls, tryCall, e2, untroubledCalls, opEvents, stepOp]⟩

/-- C71, for parsers with a sysex callback and for streams without sysex: if callbacks throw, at most for the last byte of a call, and
there is always memory, everything is delivered as if they had not. -/
theorem C71_no_effect_partial (g : Byte) (cb on : Bool) (os : List Parser.Try) (hg : g < 16) (hv : TryGroups os)
    (h : ∀ o ∈ os, LastByteOnly o) (hs : cb = true ∨ ∀ o ∈ os, WithoutSysex o) :
    ∃ p q es, (Parser.new g cb on).tryAll os = .ok (p, es) ∧ (Parser.new g cb on).run (untroubledCalls os) = .ok (q, es) := by
  obtain ⟨c, st, e⟩ := tryCalls_noEffect os (c := ⟨g, cb, on⟩) (st := .idle) h (by
    rcases hs with hs | hs
    · exact Or.inl hs
    · exact Or.inr ⟨by intro g w d; simp, hs⟩)
  obtain ⟨p, ep⟩ := tryAll_of_machine g cb on os hg hv c st _ e
  have hv' : ValidGroups (untroubledCalls os) := by
    intro k hk
    refine hv k ?_
    clear * - hk
    induction os with
    | nil => simp [untroubledCalls] at hk
    | cons o os ih =>
      cases o <;> simp [untroubledCalls] at hk ⊢
      · exact ih hk
      · rcases hk with hk | hk
        · exact Or.inl hk
        · exact Or.inr (ih hk)
      · exact ih hk
      · exact ih hk
  obtain ⟨q, eq, -⟩ := run_rel (untroubledCalls os) (new_rel hg cb on) hv'
  exact ⟨p, q, _, ep, eq⟩

-- the hypotheses are met
example : (∀ o ∈ [Parser.Try.feed [(0xF0, {}), (0x7D, {}), (1, {}), (0xF7, { callback := true })], .setGroup 3,
      .feed [(0xF8, { callback := true })]], LastByteOnly o) ∧
    ∀ o ∈ [Parser.Try.feed [(0x90, {}), (0x3C, {}), (0x40, { callback := true })], .feed [(0x3D, {}), (0x41, { callback := true })]],
      LastByteOnly o ∧ WithoutSysex o := by
  decide

/-- C71 is false without sysex callback: if the callback for the packet at the end of a sysex message throws and F7 is fed again, the
last packet is sent once more, as an end packet. -/
theorem C71_end_twice : (Parser.new 0 false true).tryAll [.feed [(0xF0, {}), (0x7D, {}), (1, {}), (0xF7, { callback := true })],
      .feed [(0xF7, {})]] = .ok (Parser.mk 0 false true {} {} 2 0, [.packet (sysexPacket 0 0 [0x7D, 1]), .packet (sysexPacket 0 3 [0x7D, 1])]) := by
  decide +kernel

/-- C71 is false without sysex callback: behind an exception from the callback for six bytes of sysex, the end of the message comes with
the six bytes again, and with the data bytes that follow in the wrong place, up to eight of them, and the size is that of all of them together. -/
theorem C71_rest_misplaced : ∃ p q, (Parser.new 0 false true).tryAll
      [.feed [(0xF0, {}), (1, {}), (2, {}), (3, {}), (4, {}), (5, {}), (6, { callback := true })], .feed [(7, {}), (0xF7, {})]] =
      .ok (p, [.packet (sysexPacket 0 1 [1, 2, 3, 4, 5, 6]), .packet q]) ∧
    q.byteAt 1 = 0x07 ∧ ((List.range 7).map fun i => q.byteAt (2 + i)) = [1, 2, 3, 4, 5, 6, 7] := by
  refine ⟨_, _, rfl, ?_, ?_⟩ <;> decide +kernel

theorem stepBytes_sysex_callback (c : Settings) (hc : c.sysexCallback = true) (g : Byte) (w : Bool) : ∀ (l d : List Byte),
    (∀ b ∈ l, b < 0x80) → stepBytes c (.sysex g w d) l = (.sysex g w (d ++ l), []) := by
  intro l
  induction l with
  | nil => intro d _; simp [stepBytes]
  | cons b l ih =>
    intro d h
    rw [stepBytes_cons, step_sysex_cb c g w d (h b (by simp)) hc]
    dsimp only
    rw [ih _ (fun x hx => h x (by simp [hx]))]
    simp

theorem tryBytes_calm (bs : List Byte) {c : Settings} {st : StreamState} (hc : c.sysexCallback = true) :
    tryCall c (.plain st) (.feed (bs.map fun x => (x, {}))) = some (c, .plain (stepBytes c st bs).1, (stepBytes c st bs).2) := by
  obtain ⟨⟨th, e⟩, -⟩ := tryBytes_noEffect (bs.map fun x => (x, {})) (c := c) (st := st)
    (fun x hx => by
      obtain ⟨y, -, rfl⟩ := List.mem_map.1 ((List.dropLast_sublist _).subset hx); rfl)
    (fun x hx => by
      obtain ⟨y, -, rfl⟩ := List.mem_map.1 hx; rfl) (Or.inl hc)
  rw [List.map_map, show (Prod.fst ∘ fun x : Byte => (x, ({} : Trouble))) = id from rfl, List.map_id] at e
  simp [tryCall, e]

/-- C71 is false with a sysex callback: if memory cannot be had for a byte in the middle of a sysex message, the message is delivered
without this byte. -/
theorem C71_byte_lost (g : Byte) (hg : g < 16) (d d' : List Byte) (b : Byte) (hd : ∀ x ∈ d, x < 0x80) (hd' : ∀ x ∈ d', x < 0x80)
    (hb : b < 0x80) (hid : HasId d) :
    ∃ p, (Parser.new g true true).tryAll [.feed ((0xF0 :: d).map fun x => (x, {})), .feed [(b, { memory := true })],
      .feed ((d' ++ [0xF7]).map fun x => (x, {}))] = .ok (p, [.sysex (message7 (d ++ d'))]) := by
  refine tryAll_of_machine g true true _ hg (by intro k hk; simp at hk) ⟨g, true, true⟩ (.plain .idle) _ ?_
  have h1 : stepBytes ⟨g, true, true⟩ .idle (0xF0 :: d) = (.sysex g true d, []) := by
    rw [stepBytes_cons, step_start, stepBytes_sysex_callback _ rfl g true d [] hd]; rfl
  have h2 : stepBytes ⟨g, true, true⟩ (.sysex g true d) (d' ++ [0xF7]) = (.idle, [.sysex (message7 (d ++ d'))]) := by
    rw [stepBytes_append, stepBytes_sysex_callback _ rfl g true d' d hd']
    have : HasId (d ++ d') := by
      rcases hid with hid | hid
      · left
        cases d with
        | nil => exact absurd rfl hid.2
        | cons a l => exact ⟨by simpa using hid.1, by simp⟩
      · right; simp; omega
    simp only [stepBytes]
    rw [step_end_cb _ _ _ _ rfl, if_pos rfl, if_pos ⟨rfl, this⟩]; rfl
  have hm : tryCall ⟨g, true, true⟩ (.plain (.sysex g true d)) (.feed [(b, { memory := true })]) =
      some (⟨g, true, true⟩, .plain (.sysex g true d), []) := by
    simp only [tryCall, tryBytes, tryByte]
    rw [if_neg (by clear * - hb; revert hb; revert b; decide +kernel)]
    have : memoryFails ⟨g, true, true⟩ (.sysex g true d) b = some (.sysex g true d) := by
      unfold memoryFails
      rw [if_pos rfl, if_neg (by rintro rfl; revert hb; decide)]
      dsimp only
      rw [if_pos ⟨hb, rfl, hid⟩]
    simp [tryStep, this]
  simp only [tryCalls, tryBytes_calm _ (c := ⟨g, true, true⟩) rfl, h1, h2, hm, Option.bind_eq_bind, Option.bind_some]
  rfl

/-- C71 is false with a sysex callback: a sysex message that begins while callbacks are disabled is dropped, unless memory cannot be
had for its first byte. -/
theorem C71_collected_while_disabled (g : Byte) (hg : g < 16) (d : List Byte) (hd : ∀ x ∈ d, x < 0x80) (hid : HasId d) (m : Bool) :
    ∃ p, (Parser.new g true false).tryAll [.feed [(0xF0, { memory := m })], .enable true, .feed ((d ++ [0xF7]).map fun x => (x, {}))] =
      .ok (p, if m then [.sysex (message7 d)] else []) := by
  refine tryAll_of_machine g true false _ hg (by intro k hk; simp at hk) ⟨g, true, true⟩ (.plain .idle) _ ?_
  have h1 : tryCall ⟨g, true, false⟩ (.plain .idle) (.feed [(0xF0, { memory := m })]) =
      some (⟨g, true, false⟩, .plain (.sysex g m []), []) := by
    simp only [tryCall, tryBytes, tryByte]
    rw [if_neg (by decide)]
    cases m
    · simp only [tryStep]
      have e := step_start ⟨g, true, false⟩ .idle
      simp
      exact ⟨congrArg Prod.fst e, congrArg Prod.snd e⟩
    · simp [tryStep, memoryFails]
  have h2 : stepBytes ⟨g, true, true⟩ (.sysex g m []) (d ++ [0xF7]) = (.idle, if m then [.sysex (message7 d)] else []) := by
    rw [stepBytes_append, stepBytes_sysex_callback _ rfl g m d [] hd]
    simp only [stepBytes]
    rw [step_end_cb _ _ _ _ rfl, if_pos rfl]
    cases m
    · simp
    · simp [hid]
  have h3 : tryCall ⟨g, true, false⟩ (.plain (.sysex g m [])) (.enable true) = some (⟨g, true, true⟩, .plain (.sysex g m []), []) := rfl
  simp only [tryCalls, h1, h3, tryBytes_calm _ (c := ⟨g, true, true⟩) rfl, h2, Option.bind_eq_bind, Option.bind_some]
  cases m <;> rfl

-- the hypotheses are met by 1024 bytes of data behind the manufacturer id, where memory is really needed
example : HasId (0x7D :: List.replicate 1024 (1 : Byte)) ∧ ∀ x ∈ 0x7D :: List.replicate 1024 (1 : Byte), x < 0x80 := by
  generalize 1024 = n
  refine ⟨Or.inl ⟨by simp, by simp⟩, ?_⟩
  intro x hx
  simp only [List.mem_cons, List.mem_replicate] at hx
  rcases hx with rfl | ⟨-, rfl⟩ <;> decide

end Midi

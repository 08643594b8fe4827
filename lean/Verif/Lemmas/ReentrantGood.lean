import Verif.Lemmas.Reentrant
import Verif.Lemmas.StreamInv

/-!
# Helper lemmas: invariants of the reference machine for callbacks that use the parser
-/

namespace Midi
open Spec

/-- Invariant of the states. -/
def GoodInner (G : List Byte) : InnerState → Prop
  | .plain st => GoodState G st
  | .sent g f d => g ∈ G ∧ f < 4 ∧ d.length ≤ 14 ∧ ∀ b ∈ d, b < 0x80

theorem forgotten_lt (d : List Byte) : ∀ b ∈ forgotten d, b < 0x80 := by
  intro b hb
  unfold forgotten at hb
  rw [(List.mem_replicate.1 hb).2]; decide

/-- Calls that do not matter to the question whether a packet is still being sent. -/
def Neutral : Parser.Call → Prop
  | .reset => False
  | .feed b _ => b ≥ 0xF8
  | _ => True

theorem opens_cons {o : Parser.Call} {l : List Parser.Call} (h : Opens (o :: l)) : Opens [o] ∧ (Neutral o → Opens l) := by
  cases o with
  | reset => exact ⟨trivial, fun x => x.elim⟩
  | setGroup g => exact ⟨trivial, fun _ => h⟩
  | enable g => exact ⟨trivial, fun _ => h⟩
  | feed b k =>
    simp only [Opens] at h ⊢
    by_cases hb : b ≥ 0xF8
    · rw [if_pos hb] at h ⊢; exact ⟨trivial, fun _ => h⟩
    · rw [if_neg hb] at h ⊢; exact ⟨h, fun x => absurd x hb⟩

/-- When the calls cannot go wrong: with a sysex callback, or if no data byte is fed while a sysex packet is being sent. -/
def Fine (c : Settings) (st : InnerState) (polite : Prop) (opens : Prop) : Prop :=
  c.sysexCallback = true ∧ IsPlain st ∨ polite ∧ (IsPlain st ∨ opens)

theorem resumed_good {G : List Byte} {c c' : Settings} {st : StreamState} {b : Byte} {st' : InnerState}
    (hn : GoodState G (byteEvents c st b).1) (hc' : c'.group ∈ G) (h' : GoodInner G st')
    (hp : IsPlain (during c st b (byteEvents c st b).1) → IsPlain st') :
    GoodInner G (resumed c st b (byteEvents c st b).1 c' st') ∧ IsPlain (resumed c st b (byteEvents c st b).1 c' st') := by
  generalize (byteEvents c st b).1 = next at *
  unfold resumed
  by_cases h6 : b = 0xF6
  · rw [if_pos h6]; exact ⟨trivial, _, rfl⟩
  rw [if_neg h6]
  have drop : ∀ st', GoodInner G st' → IsPlain st' → GoodInner G (dropCommon st') ∧ IsPlain (dropCommon st') := by
    intro st' h ⟨s, hs⟩
    subst hs
    cases s with
    | idle => exact ⟨h, _, rfl⟩
    | sysex g w d => exact ⟨h, _, rfl⟩
    | message g s d =>
      simp only [dropCommon]
      split
      · exact ⟨h, _, rfl⟩
      · exact ⟨trivial, _, rfl⟩
  cases st with
  | idle => exact drop _ h' (hp ⟨_, rfl⟩)
  | message g s d => exact drop _ h' (hp ⟨_, rfl⟩)
  | sysex g w d =>
    dsimp only
    by_cases hcb : c.sysexCallback = true
    · rw [if_pos hcb]
      obtain ⟨s, hs⟩ := hp (by unfold during; dsimp only; rw [if_neg (by simp [hcb])]; exact ⟨_, rfl⟩)
      subst hs
      cases s with
      | idle => exact ⟨h', _, rfl⟩
      | message g s d => exact ⟨h', _, rfl⟩
      | sysex g w d => exact ⟨⟨h'.1, forgotten_lt d⟩, _, rfl⟩
    · rw [if_neg hcb]
      cases next with
      | idle => exact ⟨hn, _, rfl⟩
      | message g s d => exact ⟨hn, _, rfl⟩
      | sysex g w d => exact ⟨⟨hc', hn.2⟩, _, rfl⟩

theorem sending_good {G : List Byte} {g : Byte} {d : List Byte} (hg : g ∈ G) (hd : ∀ b ∈ d, b < 0x80) {b : Byte}
    : GoodInner G (sending g d b) := by
  unfold sending
  split
  · next hb =>
    refine ⟨hg, by split <;> omega, by simp; omega, fun x hx => ?_⟩
    rcases List.mem_append.1 (List.mem_of_mem_drop hx) with hx | hx
    · exact hd x hx
    · simp only [List.mem_singleton] at hx; subst hx; exact hb
  · split
    · exact ⟨hg, by omega, by omega, hd⟩
    · exact ⟨hg, by omega, by simp; omega, fun x hx => hd x (List.mem_of_mem_drop hx)⟩

theorem during_good {G : List Byte} {c : Settings} (hc : c.group ∈ G) {s : StreamState} (hs : GoodState G s) (b : Byte) :
    GoodInner G (during c s b (byteEvents c s b).1) := by
  have hgn : GoodState G (byteEvents c s b).1 := (step_good G c hc s hs b).1
  unfold during
  split
  · split
    · exact sending_good hs.1 hs.2
    · exact hgn
  · exact hgn

/-- The possible events, if callbacks do what they like: packets with sysex may have up to fourteen bytes. -/
def LooseEvent (G : List Byte) (cb : Bool) (e : Event) : Prop :=
  GoodEvent G cb e ∨ cb = false ∧ ∃ g f d, g ∈ G ∧ f < 4 ∧ 6 < d.length ∧ d.length ≤ 14 ∧ (∀ b ∈ d, b < 0x80) ∧ e = .packet (sysexPacket g f d)

theorem loose_sysex {G : List Byte} {g : Byte} {f : Nat} {d : List Byte} (h : GoodInner G (.sent g f d)) :
    LooseEvent G false (.packet (sysexPacket g f d)) := by
  obtain ⟨hg, hf, hl, hd⟩ := h
  by_cases h6 : d.length ≤ 6
  · left
    have : ∃ k : Format, k.code.toNat = f := by
      interval_cases f
      · exact ⟨.complete, rfl⟩
      · exact ⟨.start, rfl⟩
      · exact ⟨.cont, rfl⟩
      · exact ⟨.fin, rfl⟩
    obtain ⟨k, rfl⟩ := this
    exact .data g k d hg h6 hd rfl
  · exact Or.inr ⟨rfl, g, f, d, hg, hf, by omega, hl, hd, rfl⟩

/-- What holds when there is a result. -/
structure Outcome (G : List Byte) (c : Settings) (st : InnerState) (c' : Settings) (st' : InnerState) (es : List Event) : Prop where
  mode : c'.sysexCallback = c.sysexCallback
  group : c'.group ∈ G
  state : GoodInner G st'
  plain : IsPlain st → IsPlain st'
  events : ∀ e ∈ es, LooseEvent G c.sysexCallback e

theorem innerByte_outcome (G : List Byte) {c : Settings} {st : InnerState} {b : Byte}
    {react : Settings → InnerState → Option (Settings × InnerState × List Event)}
    (hr : ∀ c st c' st' es, c.group ∈ G → GoodInner G st → (IsPlain st ∨ c.sysexCallback = false) → react c st = some (c', st', es) →
      Outcome G c st c' st' es)
    (hc : c.group ∈ G) (hst : GoodInner G st) (hm : IsPlain st ∨ c.sysexCallback = false) {c' : Settings} {st' : InnerState}
    {es : List Event} (h : innerByte c st b react = some (c', st', es)) : Outcome G c st c' st' es := by
  unfold innerByte at h
  have nil : ∀ e ∈ ([] : List Event), LooseEvent G c.sysexCallback e := fun e he => by simp at he
  have step : ∀ s, GoodState G s → ∀ c' st' es, innerStep c s b react = some (c', st', es) →
      c'.sysexCallback = c.sysexCallback ∧ c'.group ∈ G ∧ GoodInner G st' ∧ IsPlain st' ∧
      ∀ e ∈ es, LooseEvent G c.sysexCallback e := by
    intro s hs c' st' es h
    have hg := step_good G c hc s hs b
    have hgn : GoodState G (byteEvents c s b).1 := hg.1
    unfold innerStep at h
    dsimp only at h
    cases hev : (stepByte c s b).2 with
    | nil =>
      rw [hev] at h
      simp only [Option.some.injEq, Prod.mk.injEq] at h
      obtain ⟨rfl, rfl, rfl⟩ := h
      exact ⟨rfl, hc, hgn, ⟨_, rfl⟩, nil⟩
    | cons e rest =>
      rw [hev] at h
      simp only [Option.bind_eq_bind, Option.bind_eq_some_iff, Option.pure_def, Option.some.injEq, Prod.mk.injEq] at h
      obtain ⟨⟨c2, st2, es2⟩, er, rfl, rfl, rfl⟩ := h
      have o := hr _ _ _ _ _ hc (during_good hc hs b) (by
        unfold during
        split
        · split
          · next h => exact Or.inr h.1
          · exact Or.inl ⟨_, rfl⟩
        · exact Or.inl ⟨_, rfl⟩) er
      obtain ⟨r1, r2⟩ := resumed_good (c := c) (st := s) (b := b) hgn o.group o.state o.plain
      refine ⟨o.mode, o.group, r1, r2, fun x hx => ?_⟩
      rcases List.mem_cons.1 hx with rfl | hx
      · exact Or.inl (hg.2 _ (by rw [hev]; simp))
      · exact o.events x hx
  by_cases h1 : b ≥ 0xF8
  · rw [if_pos h1] at h
    by_cases he : c.enabled = true ∧ b ≠ 0xF9 ∧ b ≠ 0xFD
    · rw [if_pos he] at h
      simp only [Option.bind_eq_bind, Option.bind_eq_some_iff, Option.pure_def, Option.some.injEq, Prod.mk.injEq] at h
      obtain ⟨⟨c2, st2, es2⟩, er, rfl, rfl, rfl⟩ := h
      have o := hr _ _ _ _ _ hc hst hm er
      refine ⟨o.mode, o.group, o.state, o.plain, fun x hx => ?_⟩
      rcases List.mem_cons.1 hx with rfl | hx
      · refine Or.inl ((step_good G c hc .idle trivial b).2 _ ?_)
        rw [step_rt c .idle h1, if_pos he.1, if_neg (by tauto)]; simp
      · exact o.events x hx
    · rw [if_neg he] at h
      simp only [Option.some.injEq, Prod.mk.injEq] at h
      obtain ⟨rfl, rfl, rfl⟩ := h
      exact ⟨rfl, hc, hst, id, nil⟩
  · rw [if_neg h1] at h
    cases st with
    | plain s =>
      dsimp only at h
      obtain ⟨a1, a2, a3, a4, a5⟩ := step s hst _ _ _ h
      exact ⟨a1, a2, a3, fun _ => a4, a5⟩
    | sent g f d =>
      have hcb : c.sysexCallback = false := hm.resolve_left (by rintro ⟨s, hs⟩; cases hs)
      dsimp only at h
      by_cases hb : b < 0x80 ∨ b = 0xF7
      · rw [if_pos hb] at h
        obtain ⟨hg, hf, hl, hd⟩ := hst
        have np : IsPlain (.sent g f d) → IsPlain st' := by rintro ⟨s, hs⟩; cases hs
        unfold innerSent at h
        by_cases h7 : b = 0xF7
        · rw [if_pos h7] at h
          have hin : GoodInner G (.sent g (if f = 1 then 0 else 3) d) := ⟨hg, by split <;> omega, hl, hd⟩
          by_cases hon : c.enabled = true
          · rw [if_pos hon] at h
            simp only [Option.bind_eq_bind, Option.bind_eq_some_iff, Option.pure_def, Option.some.injEq, Prod.mk.injEq] at h
            obtain ⟨⟨c2, st2, es2⟩, er, rfl, rfl, rfl⟩ := h
            have o := hr _ _ _ _ _ hc hin (Or.inr hcb) er
            refine ⟨o.mode, o.group, trivial, np, fun x hx => ?_⟩
            rcases List.mem_cons.1 hx with rfl | hx
            · rw [hcb]; exact loose_sysex hin
            · exact o.events x hx
          · rw [if_neg hon] at h
            simp only [Option.some.injEq, Prod.mk.injEq] at h
            obtain ⟨rfl, rfl, rfl⟩ := h
            exact ⟨rfl, hc, trivial, np, nil⟩
        · have hd' : ∀ x ∈ d ++ [b], x < 0x80 := by
            intro x hx
            rcases List.mem_append.1 hx with hx | hx
            · exact hd x hx
            · simp only [List.mem_singleton] at hx; subst hx; exact hb.resolve_right h7
          rw [if_neg h7] at h
          by_cases h14 : d.length = 14
          · rw [if_pos h14] at h; cases h
          have hin : GoodInner G (.sent g f (d ++ [b])) := ⟨hg, hf, by simp; omega, hd'⟩
          rw [if_neg h14] at h
          by_cases h6 : d.length + 1 = 6
          · rw [if_pos h6] at h
            by_cases hon : c.enabled = true
            · rw [if_pos hon] at h
              simp only [Option.bind_eq_bind, Option.bind_eq_some_iff, Option.pure_def, Option.some.injEq, Prod.mk.injEq] at h
              obtain ⟨⟨c2, st2, es2⟩, er, rfl, rfl, rfl⟩ := h
              have o := hr _ _ _ _ _ hc hin (Or.inr hcb) er
              refine ⟨o.mode, o.group, ⟨o.group, hd'⟩, np, fun x hx => ?_⟩
              rcases List.mem_cons.1 hx with rfl | hx
              · rw [hcb]; exact loose_sysex hin
              · exact o.events x hx
            · rw [if_neg hon] at h
              simp only [Option.some.injEq, Prod.mk.injEq] at h
              obtain ⟨rfl, rfl, rfl⟩ := h
              exact ⟨rfl, hc, ⟨hc, hd'⟩, np, nil⟩
          · rw [if_neg h6] at h
            simp only [Option.some.injEq, Prod.mk.injEq] at h
            obtain ⟨rfl, rfl, rfl⟩ := h
            exact ⟨rfl, hc, hin, np, nil⟩
      · rw [if_neg hb] at h
        obtain ⟨a1, a2, a3, a4, a5⟩ := step .idle trivial _ _ _ h
        exact ⟨a1, a2, a3, fun _ => a4, a5⟩

mutual
theorem innerCall_outcome (G : List Byte) : ∀ (o : Parser.Call), (∀ g, SetsGroup o g → g ∈ G) → ∀ c st c' st' es, c.group ∈ G →
    GoodInner G st → (IsPlain st ∨ c.sysexCallback = false) → innerCall c st o = some (c', st', es) → Outcome G c st c' st' es
  | .feed b l, hG, c, st, c', st', es, hc, hst, hm, h => by
    simp only [innerCall] at h
    exact innerByte_outcome G (innerCalls_outcome G l fun o ho g hs => hG g (.inside b l o g ho hs)) hc hst hm h
  | .setGroup g, hG, c, st, c', st', es, hc, hst, hm, h => by
    simp only [innerCall, Option.some.injEq, Prod.mk.injEq] at h
    obtain ⟨rfl, rfl, rfl⟩ := h
    exact ⟨rfl, hG g (.here g), hst, id, by simp⟩
  | .enable on, _, c, st, c', st', es, hc, hst, hm, h => by
    simp only [innerCall, Option.some.injEq, Prod.mk.injEq] at h
    obtain ⟨rfl, rfl, rfl⟩ := h
    exact ⟨rfl, hc, hst, id, by simp⟩
  | .reset, _, c, st, c', st', es, hc, hst, hm, h => by
    simp only [innerCall, Option.some.injEq, Prod.mk.injEq] at h
    obtain ⟨rfl, rfl, rfl⟩ := h
    exact ⟨rfl, hc, trivial, fun _ => ⟨_, rfl⟩, by simp⟩

theorem innerCalls_outcome (G : List Byte) : ∀ (l : List Parser.Call), (∀ o ∈ l, ∀ g, SetsGroup o g → g ∈ G) →
    ∀ c st c' st' es, c.group ∈ G → GoodInner G st → (IsPlain st ∨ c.sysexCallback = false) →
    innerCalls c st l = some (c', st', es) → Outcome G c st c' st' es
  | [], _, c, st, c', st', es, hc, hst, hm, h => by
    simp only [innerCalls, Option.some.injEq, Prod.mk.injEq] at h
    obtain ⟨rfl, rfl, rfl⟩ := h
    exact ⟨rfl, hc, hst, id, by simp⟩
  | o :: l, hG, c, st, c', st', es, hc, hst, hm, h => by
    simp only [innerCalls, Option.bind_eq_bind, Option.bind_eq_some_iff, Option.pure_def, Option.some.injEq, Prod.mk.injEq] at h
    obtain ⟨⟨c1, st1, es1⟩, e1, ⟨c2, st2, es2⟩, e2, rfl, rfl, rfl⟩ := h
    have o1 := innerCall_outcome G o (hG o (by simp)) _ _ _ _ _ hc hst hm e1
    have o2 := innerCalls_outcome G l (fun o ho => hG o (by simp [ho])) _ _ _ _ _ o1.group o1.state (by
      rcases hm with hm | hm
      · exact Or.inl (o1.plain hm)
      · exact Or.inr (o1.mode.trans hm)) e2
    refine ⟨o2.mode.trans o1.mode, o2.group, o2.state, fun x => o2.plain (o1.plain x), fun e he => ?_⟩
    rcases List.mem_append.1 he with he | he
    · exact o1.events e he
    · rw [← o1.mode]; exact o2.events e he
end

/-- One byte. -/
theorem innerByte_good (G : List Byte) {c : Settings} {st : InnerState} {b : Byte} {l : List Parser.Call}
    {react : Settings → InnerState → Option (Settings × InnerState × List Event)}
    (hr : ∀ c st, c.group ∈ G → GoodInner G st → Fine c st (PoliteAll l) (Opens l) → ∃ c' st' es, react c st = some (c', st', es) ∧
      c'.sysexCallback = c.sysexCallback ∧ c'.group ∈ G ∧ GoodInner G st' ∧ (IsPlain st → IsPlain st') ∧
      ∀ e ∈ es, GoodEvent G c.sysexCallback e)
    (hc : c.group ∈ G) (hst : GoodInner G st) (hf : Fine c st (Opens l ∧ PoliteAll l) (Opens [.feed b l])) :
    ∃ c' st' es, innerByte c st b react = some (c', st', es) ∧
      c'.sysexCallback = c.sysexCallback ∧ c'.group ∈ G ∧ GoodInner G st' ∧ (IsPlain st → IsPlain st') ∧
      (¬ b ≥ 0xF8 → IsPlain st') ∧ ∀ e ∈ es, GoodEvent G c.sysexCallback e := by
  unfold innerByte
  by_cases h1 : b ≥ 0xF8
  · rw [if_pos h1]
    by_cases he : c.enabled = true ∧ b ≠ 0xF9 ∧ b ≠ 0xFD
    · rw [if_pos he]
      obtain ⟨c', st', es, e, h2, h3, h4, h5, h6⟩ := hr c st hc hst (by
        rcases hf with hf | ⟨hf, -⟩
        · exact Or.inl hf
        · exact Or.inr ⟨hf.2, Or.inr hf.1⟩)
      refine ⟨c', st', _, by rw [e]; rfl, h2, h3, h4, h5, fun x => absurd h1 x, ?_⟩
      intro ev hev
      rcases List.mem_cons.1 hev with rfl | hev
      · refine (step_good G c hc .idle trivial b).2 _ ?_
        rw [step_rt c .idle h1, if_pos he.1, if_neg (by tauto)]; simp
      · exact h6 ev hev
    · rw [if_neg he]
      exact ⟨c, st, [], rfl, rfl, hc, hst, id, fun x => absurd h1 x, by simp⟩
  · rw [if_neg h1]
    have step : ∀ s, GoodState G s → ∃ c' st' es, innerStep c s b react = some (c', st', es) ∧
        c'.sysexCallback = c.sysexCallback ∧ c'.group ∈ G ∧ GoodInner G st' ∧ IsPlain st' ∧
        ∀ e ∈ es, GoodEvent G c.sysexCallback e := by
      intro s hs
      have hg := step_good G c hc s hs b
      have hgn : GoodState G (byteEvents c s b).1 := hg.1
      unfold innerStep
      dsimp only
      cases hev : (stepByte c s b).2 with
      | nil => exact ⟨c, _, [], rfl, rfl, hc, hgn, ⟨_, rfl⟩, by simp⟩
      | cons e rest =>
        dsimp only
        obtain ⟨c', st', es, er, h2, h3, h4, h5, h6⟩ := hr c (during c s b (byteEvents c s b).1) hc (during_good hc hs b) (by
          rcases hf with hf | ⟨hf, -⟩
          · refine Or.inl ⟨hf.1, ?_⟩
            unfold during
            split
            · rw [if_neg (by simp [hf.1])]; exact ⟨_, rfl⟩
            · exact ⟨_, rfl⟩
          · exact Or.inr ⟨hf.2, Or.inr hf.1⟩)
        rw [er]
        refine ⟨c', _, _, rfl, h2, h3, ?_⟩
        obtain ⟨r1, r2⟩ := resumed_good (c := c) (st := s) (b := b) hgn h3 h4 h5
        refine ⟨r1, r2, ?_⟩
        intro x hx
        rcases List.mem_cons.1 hx with rfl | hx
        · exact hg.2 _ (by rw [hev]; simp)
        · exact h6 x hx
    cases st with
    | plain s =>
      dsimp only
      obtain ⟨c', st', es, e, h2, h3, h4, h5, h6⟩ := step s hst
      exact ⟨c', st', es, e, h2, h3, h4, fun _ => h5, fun _ => h5, h6⟩
    | sent g f d =>
      dsimp only
      have hop : 0x80 ≤ b ∧ b ≠ 0xF7 := by
        rcases hf with hf | ⟨-, hf⟩
        · obtain ⟨_, ⟨s, hs⟩⟩ := hf; cases hs
        · rcases hf with ⟨s, hs⟩ | hf
          · cases hs
          · simp only [Opens] at hf
            rw [if_neg h1] at hf; exact hf
      rw [if_neg (show ¬ (b < 0x80 ∨ b = 0xF7) by
        rintro (h | h)
        · exact absurd hop.1 (by simpa using h)
        · exact hop.2 h)]
      obtain ⟨c', st', es, e, h2, h3, h4, h5, h6⟩ := step .idle trivial
      exact ⟨c', st', es, e, h2, h3, h4, fun _ => h5, fun _ => h5, h6⟩

mutual
theorem innerCall_good (G : List Byte) : ∀ (o : Parser.Call), (∀ g, SetsGroup o g → g ∈ G) → ∀ c st, c.group ∈ G → GoodInner G st →
    Fine c st (Polite o) (Opens [o]) → ∃ c' st' es, innerCall c st o = some (c', st', es) ∧
      c'.sysexCallback = c.sysexCallback ∧ c'.group ∈ G ∧ GoodInner G st' ∧ (IsPlain st → IsPlain st') ∧
      (¬ Neutral o → IsPlain st') ∧ ∀ e ∈ es, GoodEvent G c.sysexCallback e
  | .feed b l, hG, c, st, hc, hst, hf => by
    simp only [innerCall]
    refine innerByte_good G (l := l) ?_ hc hst (by simpa only [Polite] using hf)
    intro c st hc hst hf
    exact innerCalls_good G l (fun o ho g hs => hG g (.inside b l o g ho hs)) c st hc hst hf
  | .setGroup g, hG, c, st, hc, hst, _ => by
    simp only [innerCall]
    exact ⟨_, _, _, rfl, rfl, hG g (.here g), hst, id, fun x => absurd trivial x, by simp⟩
  | .enable on, _, c, st, hc, hst, _ => by
    simp only [innerCall]
    exact ⟨_, _, _, rfl, rfl, hc, hst, id, fun x => absurd trivial x, by simp⟩
  | .reset, _, c, st, hc, hst, _ => by
    simp only [innerCall]
    exact ⟨_, _, _, rfl, rfl, hc, trivial, fun _ => ⟨_, rfl⟩, fun _ => ⟨_, rfl⟩, by simp⟩

theorem innerCalls_good (G : List Byte) : ∀ (l : List Parser.Call), (∀ o ∈ l, ∀ g, SetsGroup o g → g ∈ G) →
    ∀ c st, c.group ∈ G → GoodInner G st →
    Fine c st (PoliteAll l) (Opens l) → ∃ c' st' es, innerCalls c st l = some (c', st', es) ∧
      c'.sysexCallback = c.sysexCallback ∧ c'.group ∈ G ∧ GoodInner G st' ∧ (IsPlain st → IsPlain st') ∧
      ∀ e ∈ es, GoodEvent G c.sysexCallback e
  | [], _, c, st, hc, hst, _ => by
    simp only [innerCalls]
    exact ⟨_, _, _, rfl, rfl, hc, hst, id, by simp⟩
  | o :: l, hG, c, st, hc, hst, hf => by
    simp only [PoliteAll] at hf
    obtain ⟨c1, st1, es1, e1, a1, b1, d1, f1, n1, g1⟩ := innerCall_good G o (hG o (by simp)) c st hc hst (by
      rcases hf with hf | ⟨hp, hf⟩
      · exact Or.inl hf
      · refine Or.inr ⟨hp.1, ?_⟩
        rcases hf with hf | hf
        · exact Or.inl hf
        · exact Or.inr (opens_cons hf).1)
    obtain ⟨c2, st2, es2, e2, a2, b2, d2, f2, g2⟩ := innerCalls_good G l (fun o ho => hG o (by simp [ho])) c1 st1 b1 d1 (by
      rcases hf with hf | ⟨hp, hf⟩
      · exact Or.inl ⟨a1.trans hf.1, f1 hf.2⟩
      · refine Or.inr ⟨hp.2, ?_⟩
        rcases hf with hf | hf
        · exact Or.inl (f1 hf)
        · by_cases hn : Neutral o
          · exact Or.inr ((opens_cons hf).2 hn)
          · exact Or.inl (n1 hn))
    refine ⟨c2, st2, es1 ++ es2, ?_, a2.trans a1, b2, d2, fun x => f2 (f1 x), ?_⟩
    · simp only [innerCalls, e1, e2, Option.bind_eq_bind, Option.bind_some, Option.pure_def]
    · intro e he
      rcases List.mem_append.1 he with he | he
      · exact g1 e he
      · rw [← a1]; exact g2 e he
end

end Midi

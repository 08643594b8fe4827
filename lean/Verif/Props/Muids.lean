import Verif.Props.Said
import Verif.Spec.Muids

/-!
# C117: devices that choose MUIDs
-/

namespace Midi
open Spec CI

/-! ## Helper lemmas -/

/-- The MUID about which a message brings news. -/
def concerns (x : Said) : Option Word :=
  match x.content with
  | .invalidateMuid t => some t
  | .discoveryInquiry _ _ _ _ => some x.source
  | .discoveryInquiryV1 _ _ _ => some x.source
  | _ => none

/-- The message brings news about this MUID. -/
def News (m : Sysex) (u : Word) : Prop := ∃ x, understand m = .ok (some x) ∧ concerns x = some u

theorem News.unique {m : Sysex} {u v : Word} (h : News m u) (h' : News m v) : u = v := by
  obtain ⟨x, h1, h2⟩ := h
  obtain ⟨y, h3, h4⟩ := h'
  have := Option.some.inj (Except.ok.inj (h1.symm.trans h3))
  subst this
  exact Option.some.inj (h2.symm.trans h4)

/-- What a station tells about itself is valid. -/
def Station.Fine (s : Station) : Prop := ValidIdentity s.identity ∧ U7 s.categories ∧ U28 s.maxSize

theorem renew_ok (s : Station) (hs : Station.Fine s) (u : Word) (hu : U28 u) :
    ∃ a, s.renew u = .ok ({ s with muids := u :: s.muids }, [a]) ∧ News a u := by
  obtain ⟨a, h1, -, h2⟩ := C106_understood ⟨u, 0x0FFFFFFF, 0x7F, .discoveryInquiry s.identity s.categories s.maxSize 0⟩
    ⟨hu, (by decide : U28 0x0FFFFFFF), (by decide : U7 0x7F), rfl, rfl, hs.1, hs.2.1, hs.2.2, (by decide : U7 0)⟩
  refine ⟨a, ?_, ⟨_, h2, rfl⟩⟩
  unfold Station.renew
  have : makeDiscoveryInquiry u s.identity s.categories s.maxSize 0 = .ok a := h1
  rw [this]; rfl

theorem station_receive (s : Station) (hs : Station.Fine s) (hm : U28 s.muid) (u : Word) (hu : U28 u) (m : Sysex) :
    (¬ News m s.muid ∧ s.receive u m = .ok (s, [])) ∨
    (News m s.muid ∧ ∃ ms, s.receive u m = .ok ({ s with muids := u :: s.muids }, ms) ∧ (∃ a ∈ ms, News a u) ∧ ms.length ≤ 2 ∧
      ∀ a ∈ ms, ∀ v, News a v → v = u ∨ v = s.muid) := by
  obtain ⟨r, hr⟩ := C106_safe m
  obtain ⟨a, ha, hna⟩ := renew_ok s hs u hu
  obtain ⟨b, hb, -, hnb⟩ := C106_understood ⟨s.muid, 0x0FFFFFFF, 0x7F, .invalidateMuid s.muid⟩ ⟨hm, (by decide : U28 0x0FFFFFFF), (by decide : U7 0x7F), rfl, rfl, hm⟩
  have hb' : makeInvalidateMuid s.muid s.muid = .ok b := hb
  have hNb : News b s.muid := ⟨_, hnb, rfl⟩
  have hnews : ∀ v, News m v ↔ ∃ x, r = some x ∧ concerns x = some v := fun v => by
    constructor
    · rintro ⟨x, h1, h2⟩; exact ⟨x, Except.ok.inj (hr.symm.trans h1), h2⟩
    · rintro ⟨x, rfl, h2⟩; exact ⟨x, hr, h2⟩
  have hone : ∀ c ∈ [a], ∀ v, News c v → v = u ∨ v = s.muid := fun c hc v hv => by
    obtain rfl := List.mem_singleton.1 hc
    exact .inl (hv.unique hna)
  have htwo : ∀ c ∈ [b, a], ∀ v, News c v → v = u ∨ v = s.muid := fun c hc v hv => by
    rcases List.mem_cons.1 hc with rfl | hc
    · exact .inr (hv.unique hNb)
    · exact hone c hc v hv
  unfold Station.receive
  rw [hr, ok_bind]
  rcases r with _ | ⟨src, dst, dev, c⟩
  · exact .inl ⟨fun h => (by obtain ⟨x, h1, -⟩ := (hnews _).1 h; cases h1), rfl⟩
  · have hc : ∀ v, News m v ↔ concerns ⟨src, dst, dev, c⟩ = some v := fun v => by
      rw [hnews]
      exact ⟨fun ⟨x, h1, h2⟩ => by cases h1; exact h2, fun h => ⟨_, rfl, h⟩⟩
    rw [hc]
    cases c
    case invalidateMuid t =>
      by_cases ht : t = s.muid
      · refine .inr ⟨by rw [ht]; rfl, [a], ?_, ⟨a, by simp, hna⟩, by simp, hone⟩
        dsimp only; rw [if_pos ht]; exact ha
      · refine .inl ⟨fun h => ht (Option.some.inj h), ?_⟩
        dsimp only; rw [if_neg ht]; rfl
    case discoveryInquiry =>
      by_cases ht : src = s.muid
      · refine .inr ⟨by rw [ht]; rfl, [b, a], ?_, ⟨a, by simp, hna⟩, by simp, htwo⟩
        dsimp only; rw [if_pos ht, hb', ok_bind, ha]; rfl
      · refine .inl ⟨fun h => ht (Option.some.inj h), ?_⟩
        dsimp only; rw [if_neg ht]; rfl
    case discoveryInquiryV1 =>
      by_cases ht : src = s.muid
      · refine .inr ⟨by rw [ht]; rfl, [b, a], ?_, ⟨a, by simp, hna⟩, by simp, htwo⟩
        dsimp only; rw [if_pos ht, hb', ok_bind, ha]; rfl
      · refine .inl ⟨fun h => ht (Option.some.inj h), ?_⟩
        dsimp only; rw [if_neg ht]; rfl
    all_goals exact .inl ⟨fun h => (by cases h), rfl⟩

theorem mem_toOthers {n i : Nat} {ms : List Sysex} {a b : Nat} {m : Sysex} :
    (a, b, m) ∈ toOthers n i ms ↔ a = i ∧ b < n ∧ b ≠ i ∧ m ∈ ms := by
  unfold toOthers
  simp only [List.mem_flatMap, List.mem_filter, List.mem_range, List.mem_map, decide_eq_true_eq, Prod.mk.injEq]
  constructor
  · rintro ⟨j, ⟨h1, h2⟩, x, hx, rfl, rfl, rfl⟩; exact ⟨rfl, h1, h2, hx⟩
  · rintro ⟨rfl, h1, h2, hx⟩; exact ⟨b, ⟨h1, h2⟩, m, hx, rfl, rfl, rfl⟩

/-- Two stations with the same MUID: one of them is about to hear of it. -/
structure Coming (net : Network) : Prop where
  fine : ∀ s ∈ net.stations, Station.Fine s ∧ U28 s.muid
  coming : ∀ i j si sj, net.stations[i]? = some si → net.stations[j]? = some sj → i ≠ j → si.muid = sj.muid →
    ∃ m, News m si.muid ∧ ((i, j, m) ∈ net.flight ∨ (j, i, m) ∈ net.flight)

/-- A station has a new MUID and tells everybody. -/
theorem Coming.update {net : Network} (h : Coming net) {i : Nat} {s s' : Station} {ms : List Sysex} (hs : net.stations[i]? = some s)
    (hf : Station.Fine s' ∧ U28 s'.muid) (ha : ∃ a ∈ ms, News a s'.muid) : Coming (net.update i s' ms) := by
  have hi : i < net.stations.length := (List.getElem?_eq_some_iff.1 hs).1
  obtain ⟨a, ha, hn⟩ := ha
  refine ⟨fun x hx => ?_, fun j k sj sk hj hk hjk he => ?_⟩
  · rcases List.mem_or_eq_of_mem_set hx with hx | rfl
    · exact h.fine x hx
    · exact hf
  · dsimp only [Network.update] at hj hk ⊢
    have hlen : ∀ l x, (net.stations.set i s')[l]? = some x → l < net.stations.length := fun l x hx => by
      have := (List.getElem?_eq_some_iff.1 hx).1
      rwa [List.length_set] at this
    by_cases hji : j = i
    · subst hji
      have hsj : sj = s' := by rw [List.getElem?_set_self hi] at hj; exact (Option.some.inj hj).symm
      subst hsj
      exact ⟨a, hn, .inl (List.mem_append_right _ (mem_toOthers.2 ⟨rfl, hlen _ _ hk, Ne.symm hjk, ha⟩))⟩
    · by_cases hki : k = i
      · subst hki
        have hsk : sk = s' := by rw [List.getElem?_set_self hi] at hk; exact (Option.some.inj hk).symm
        subst hsk
        exact ⟨a, he ▸ hn, .inr (List.mem_append_right _ (mem_toOthers.2 ⟨rfl, hlen _ _ hj, hji, ha⟩))⟩
      · rw [List.getElem?_set_ne (Ne.symm hji)] at hj
        rw [List.getElem?_set_ne (Ne.symm hki)] at hk
        obtain ⟨m, h1, h2⟩ := h.coming j k sj sk hj hk hjk he
        exact ⟨m, h1, h2.imp (List.mem_append_left _) (List.mem_append_left _)⟩

/-- A message that does not concern the receiver may be gone. -/
theorem coming_receive {net : Network} (fl : List (Nat × Nat × Sysex)) (from_ j : Nat) (m : Sysex)
    (hfl : ∀ x ∈ net.flight, x = (from_, j, m) ∨ x ∈ fl) (h : Coming net) (u : Word) (hu : U28 u) :
    ∃ net', ({ net with flight := fl } : Network).receive j u m = .ok net' ∧ Coming net' := by
  unfold Network.receive
  dsimp only
  cases hj : net.stations[j]? with
  | none =>
    refine ⟨_, rfl, h.fine, fun i k si sk hi hk hik he => ?_⟩
    obtain ⟨x, h1, h2⟩ := h.coming i k si sk hi hk hik he
    refine ⟨x, h1, h2.imp (fun h2 => ?_) fun h2 => ?_⟩
    · rcases hfl _ h2 with e | h3
      · cases e; rw [hj] at hk; cases hk
      · exact h3
    · rcases hfl _ h2 with e | h3
      · cases e; rw [hj] at hi; cases hi
      · exact h3
  | some s =>
    obtain ⟨hsf, hsu⟩ := h.fine s (List.mem_of_getElem? hj)
    rcases station_receive s hsf hsu u hu m with ⟨hno, e⟩ | ⟨-, ms, e, ha, -, -⟩
    · dsimp only; rw [e, ok_bind]
      refine ⟨_, rfl, ?_, ?_⟩
      · intro x hx
        rcases List.mem_or_eq_of_mem_set hx with hx | rfl
        · exact h.fine x hx
        · exact ⟨hsf, hsu⟩
      · intro i k si sk hi hk hik he
        dsimp only [Network.update] at hi hk ⊢
        have hset : net.stations.set j s = net.stations := by
          refine List.ext_getElem? fun l => ?_
          by_cases hl : j = l
          · subst hl; rw [List.getElem?_set_self (List.getElem?_eq_some_iff.1 hj).1, hj]
          · rw [List.getElem?_set_ne hl]
        rw [hset] at hi hk
        obtain ⟨x, h1, h2⟩ := h.coming i k si sk hi hk hik he
        refine ⟨x, h1, h2.imp (fun h2 => List.mem_append_left _ ?_) fun h2 => List.mem_append_left _ ?_⟩
        · rcases hfl _ h2 with e | h3
          · cases e; rw [hj] at hk; cases hk; exact absurd (he ▸ h1) hno
          · exact h3
        · rcases hfl _ h2 with e | h3
          · cases e; rw [hj] at hi; cases hi; exact absurd h1 hno
          · exact h3
    · dsimp only; rw [e, ok_bind]
      refine ⟨_, rfl, ?_⟩
      have hs' : Station.Fine { s with muids := u :: s.muids } ∧ U28 (Station.muid { s with muids := u :: s.muids }) := ⟨hsf, hu⟩
      obtain ⟨a, ha, hn⟩ := ha
      have hi : j < net.stations.length := (List.getElem?_eq_some_iff.1 hj).1
      refine ⟨fun x hx => ?_, fun i k si sk hi' hk hik he => ?_⟩
      · rcases List.mem_or_eq_of_mem_set hx with hx | rfl
        · exact h.fine x hx
        · exact hs'
      · dsimp only [Network.update] at hi' hk ⊢
        have hlen : ∀ l x, (net.stations.set j { s with muids := u :: s.muids })[l]? = some x → l < net.stations.length := fun l x hx => by
          have := (List.getElem?_eq_some_iff.1 hx).1
          rwa [List.length_set] at this
        by_cases hij : i = j
        · subst hij
          have hsi := hi'
          rw [List.getElem?_set_self hi] at hsi
          obtain rfl := Option.some.inj hsi
          exact ⟨a, hn, .inl (List.mem_append_right _ (mem_toOthers.2 ⟨rfl, hlen _ _ hk, Ne.symm hik, ha⟩))⟩
        · by_cases hkj : k = j
          · subst hkj
            have hsk := hk
            rw [List.getElem?_set_self hi] at hsk
            obtain rfl := Option.some.inj hsk
            exact ⟨a, he ▸ hn, .inr (List.mem_append_right _ (mem_toOthers.2 ⟨rfl, hlen _ _ hi', hij, ha⟩))⟩
          · rw [List.getElem?_set_ne (Ne.symm hij)] at hi'
            rw [List.getElem?_set_ne (Ne.symm hkj)] at hk
            obtain ⟨x, h1, h2⟩ := h.coming i k si sk hi' hk hik he
            refine ⟨x, h1, h2.imp (fun h2 => List.mem_append_left _ ?_) fun h2 => List.mem_append_left _ ?_⟩
            · rcases hfl _ h2 with e | h3
              · cases e; exact absurd rfl hkj
              · exact h3
            · rcases hfl _ h2 with e | h3
              · cases e; exact absurd rfl hij
              · exact h3

theorem mem_eraseIdx_or {α : Type} {l : List α} {k : Nat} {y : α} (hy : l[k]? = some y) {x : α} (hx : x ∈ l) : x = y ∨ x ∈ l.eraseIdx k := by
  obtain ⟨hk, rfl⟩ := List.getElem?_eq_some_iff.1 hy
  obtain ⟨i, hi, rfl⟩ := List.getElem_of_mem hx
  by_cases e : i = k
  · subst e; exact .inl rfl
  · refine .inr (List.mem_eraseIdx_iff_getElem.2 ⟨i, hi, e, rfl⟩)

theorem coming_step {net : Network} (h : Coming net) (e : Happening) (he : e.Ok) : ∃ net', net.step e = .ok net' ∧ Coming net' := by
  cases e with
  | join identity categories maxSize muid =>
    obtain ⟨h1, h2, h3, h4⟩ := he
    obtain ⟨a, ha, hn⟩ := renew_ok ⟨identity, categories, maxSize, []⟩ ⟨h1, h2, h3⟩ muid h4
    unfold Network.step
    dsimp only
    rw [ha, ok_bind]
    refine ⟨_, rfl, ?_⟩
    set s' : Station := ⟨identity, categories, maxSize, [muid]⟩ with hs'
    refine ⟨fun x hx => ?_, fun i j si sj hi hj hij e => ?_⟩
    · rcases List.mem_or_eq_of_mem_set hx with hx | rfl
      · rcases List.mem_append.1 hx with hx | hx
        · exact h.fine x hx
        · obtain rfl := List.mem_singleton.1 hx; exact ⟨⟨h1, h2, h3⟩, h4⟩
      · exact ⟨⟨h1, h2, h3⟩, h4⟩
    · dsimp only [Network.update] at hi hj ⊢
      have hset : (net.stations ++ [s']).set net.stations.length s' = net.stations ++ [s'] := by simp
      rw [hset] at hi hj
      have hlt : ∀ l x, (net.stations ++ [s'])[l]? = some x → l < net.stations.length ∧ net.stations[l]? = some x ∨ l = net.stations.length ∧ x = s' := by
        intro l x hx
        have hl := (List.getElem?_eq_some_iff.1 hx).1
        rw [List.length_append, List.length_singleton] at hl
        by_cases hl' : l < net.stations.length
        · rw [List.getElem?_append_left hl'] at hx; exact .inl ⟨hl', hx⟩
        · obtain rfl : l = net.stations.length := by omega
          rw [List.getElem?_append_right (Nat.le_refl _), Nat.sub_self] at hx
          exact .inr ⟨rfl, (Option.some.inj hx).symm⟩
      rw [List.length_append, List.length_singleton]
      rcases hlt i si hi with ⟨hi1, hi2⟩ | ⟨rfl, rfl⟩
      · rcases hlt j sj hj with ⟨hj1, hj2⟩ | ⟨rfl, rfl⟩
        · obtain ⟨x, h5, h6⟩ := h.coming i j si sj hi2 hj2 hij e
          exact ⟨x, h5, h6.imp (List.mem_append_left _) (List.mem_append_left _)⟩
        · exact ⟨a, e ▸ hn, .inr (List.mem_append_right _ (mem_toOthers.2 ⟨rfl, by omega, by omega, by simp⟩))⟩
      · rcases hlt j sj hj with ⟨hj1, hj2⟩ | ⟨rfl, rfl⟩
        · exact ⟨a, hn, .inl (List.mem_append_right _ (mem_toOthers.2 ⟨rfl, by omega, by omega, by simp⟩))⟩
        · exact absurd rfl hij
  | deliver k new =>
    unfold Network.step
    dsimp only
    cases hk : net.flight[k]? with
    | none => exact ⟨_, rfl, h⟩
    | some x =>
      obtain ⟨i, j, m⟩ := x
      exact coming_receive _ i j m (fun y hy => mem_eraseIdx_or hk hy) h new he
  | restart i new =>
    unfold Network.step
    dsimp only
    cases hi : net.stations[i]? with
    | none => exact ⟨_, rfl, h⟩
    | some s =>
      obtain ⟨hsf, hsu⟩ := h.fine s (List.mem_of_getElem? hi)
      obtain ⟨a, ha, hn⟩ := renew_ok s hsf new he
      dsimp only; rw [ha, ok_bind]
      exact ⟨_, rfl, h.update hi ⟨hsf, he⟩ ⟨a, by simp, hn⟩⟩
  | other i m new =>
    exact coming_receive net.flight 0 i m (fun y hy => .inr hy) h new he

theorem coming_run {net : Network} (h : Coming net) (es : List Happening) (hes : ∀ e ∈ es, e.Ok) : ∃ net', net.run es = .ok net' ∧ Coming net' := by
  induction es generalizing net with
  | nil => exact ⟨net, rfl, h⟩
  | cons e es ih =>
    obtain ⟨n1, h1, h2⟩ := coming_step h e (hes e (by simp))
    obtain ⟨n2, h3, h4⟩ := ih h2 fun x hx => hes x (List.mem_cons_of_mem _ hx)
    refine ⟨n2, ?_, h4⟩
    unfold Network.run; rw [h1, ok_bind]; exact h3

theorem coming_empty : Coming {} := ⟨fun _ h => (by cases h), fun _ _ _ _ h => (by simp at h)⟩

/-- What holds while stations join and messages arrive: `J` are the MUIDs of joining stations, `D` those chosen so far. -/
structure Calm (J D : List Word) (net : Network) : Prop where
  coming : Coming net
  one : ∀ i s, net.stations[i]? = some s → ∃ f ∈ J, s.muids = [f] ∨
    ∃ d ∈ D, s.muids = [d, f] ∧ ∃ (j : Nat) (sj : Station), j ≠ i ∧ net.stations[j]? = some sj ∧ sj.muids.getLast? = some f
  differ : ∀ (i j : Nat) (si sj : Station) (d f d' f' : Word), net.stations[i]? = some si → net.stations[j]? = some sj → i ≠ j →
    si.muids = [d, f] → sj.muids = [d', f'] → d ≠ d'
  told : ∀ i j m, (i, j, m) ∈ net.flight → i ≠ j ∧ ∃ si, net.stations[i]? = some si ∧ ∀ u, News m u → u ∈ si.muids

theorem set_getElem?_cases {α : Type} {l : List α} {i j : Nat} {x y : α} (h : (l.set i x)[j]? = some y) :
    (j = i ∧ y = x ∧ i < l.length) ∨ (j ≠ i ∧ l[j]? = some y) := by
  by_cases e : j = i
  · subst e
    have hl := (List.getElem?_eq_some_iff.1 h).1
    rw [List.length_set] at hl
    rw [List.getElem?_set_self hl] at h
    exact .inl ⟨rfl, (Option.some.inj h).symm, hl⟩
  · rw [List.getElem?_set_ne (Ne.symm e)] at h
    exact .inr ⟨e, h⟩

theorem set_self_of_getElem? {α : Type} {l : List α} {i : Nat} {x : α} (h : l[i]? = some x) : l.set i x = l := by
  refine List.ext_getElem? fun k => ?_
  by_cases hk : i = k
  · subst hk; rw [List.getElem?_set_self (List.getElem?_eq_some_iff.1 h).1, h]
  · rw [List.getElem?_set_ne hk]

theorem length_toOthers (n i : Nat) (ms : List Sysex) : (toOthers n i ms).length ≤ n * ms.length := by
  unfold toOthers
  rw [List.length_flatMap]
  simp only [List.length_map]
  rw [List.map_const', List.sum_replicate_nat]
  refine Nat.mul_le_mul_right _ ((List.length_filter_le _ _).trans ?_)
  rw [List.length_range]

/-- Number of stations that may still choose another MUID. -/
def singles (net : Network) : Nat := net.stations.countP fun s => s.muids.length = 1

theorem calm_deliver {J D : List Word} {net : Network} (h : Calm J D net) (hJD : ∀ u ∈ D, u ∉ J) (k : Nat) (new : Word) (hn : U28 new) (h1 : new ∉ D) :
    ∃ net', net.step (.deliver k new) = .ok net' ∧ Calm J (new :: D) net' ∧ net'.stations.length = net.stations.length ∧
      (k < net.flight.length → net'.flight.length + 2 * net.stations.length * singles net' + 1 ≤ net.flight.length + 2 * net.stations.length * singles net) := by
  obtain ⟨net', e1, hcom⟩ := coming_step h.coming (.deliver k new) hn
  refine ⟨net', e1, ?_⟩
  unfold Network.step at e1
  dsimp only at e1
  have weak : ∀ (nt : Network), nt.stations = net.stations → (∀ x ∈ nt.flight, x ∈ net.flight) → Coming nt → Calm J (new :: D) nt := by
    intro nt hst hfl hc
    refine ⟨hc, fun i s hi => ?_, fun i j si sj d f d' f' hi hj => ?_, fun i j m hm => ?_⟩
    · rw [hst] at hi ⊢
      obtain ⟨f, hf, h2 | ⟨d, hd, h2⟩⟩ := h.one i s hi
      · exact ⟨f, hf, .inl h2⟩
      · exact ⟨f, hf, .inr ⟨d, List.mem_cons_of_mem _ hd, h2⟩⟩
    · rw [hst] at hi hj; exact h.differ i j si sj d f d' f' hi hj
    · rw [hst]; exact h.told i j m (hfl _ hm)
  cases hk : net.flight[k]? with
  | none =>
    rw [hk] at e1
    obtain rfl := Except.ok.inj e1
    exact ⟨weak _ rfl (fun _ hx => hx) hcom, rfl, fun hlt => absurd hlt (by rw [List.getElem?_eq_none_iff] at hk; omega)⟩
  | some x =>
    obtain ⟨i, j, m⟩ := x
    rw [hk] at e1
    dsimp only at e1
    have hmem : (i, j, m) ∈ net.flight := List.mem_of_getElem? hk
    have hklt : k < net.flight.length := (List.getElem?_eq_some_iff.1 hk).1
    have hel : (net.flight.eraseIdx k).length = net.flight.length - 1 := List.length_eraseIdx_of_lt hklt
    have hsub : ∀ x ∈ net.flight.eraseIdx k, x ∈ net.flight := fun x hx => List.mem_of_mem_eraseIdx hx
    obtain ⟨hij, si, hsi, htold⟩ := h.told i j m hmem
    unfold Network.receive at e1
    dsimp only at e1
    cases hj : net.stations[j]? with
    | none =>
      rw [hj] at e1
      obtain rfl := Except.ok.inj e1
      refine ⟨weak _ rfl hsub hcom, rfl, fun _ => ?_⟩
      have : singles ({ stations := net.stations, flight := net.flight.eraseIdx k } : Network) = singles net := rfl
      rw [this]
      dsimp only
      omega
    | some sj =>
      rw [hj] at e1
      obtain ⟨hsf, hsu⟩ := h.coming.fine sj (List.mem_of_getElem? hj)
      rcases station_receive sj hsf hsu new hn m with ⟨-, e⟩ | ⟨hnews, ms, e, -, hms, hall⟩
      · dsimp only at e1
        rw [e, ok_bind] at e1
        obtain rfl := Except.ok.inj e1
        have hst : (({ stations := net.stations, flight := net.flight.eraseIdx k } : Network).update j sj []).stations = net.stations := set_self_of_getElem? hj
        have hfl : (({ stations := net.stations, flight := net.flight.eraseIdx k } : Network).update j sj []).flight = net.flight.eraseIdx k := by
          unfold Network.update toOthers; simp
        refine ⟨weak _ hst (fun x hx => hsub x (hfl ▸ hx)) hcom, congrArg List.length hst, fun _ => ?_⟩
        have : singles (({ stations := net.stations, flight := net.flight.eraseIdx k } : Network).update j sj []) = singles net := by
          unfold singles; rw [hst]
        rw [this, hfl]
        omega
      · dsimp only at e1
        rw [e, ok_bind] at e1
        obtain rfl := Except.ok.inj e1
        have hjl : j < net.stations.length := (List.getElem?_eq_some_iff.1 hj).1
        have hin := htold _ hnews
        -- the receiver has its first MUID still, and the sender joined with the same one
        obtain ⟨fi, hfi, hfi'⟩ := h.one i si hsi
        have hsingle : ∃ f ∈ J, sj.muids = [f] ∧ si.muids.getLast? = some f := by
          obtain ⟨f, hf, h2 | ⟨d, hd, h2, -⟩⟩ := h.one j sj hj
          · refine ⟨f, hf, h2, ?_⟩
            have hm : sj.muid = f := by unfold Station.muid; rw [h2]; rfl
            rw [hm] at hin
            rcases hfi' with h3 | ⟨d', hd', h3, -⟩
            · rw [h3] at hin ⊢; rw [List.mem_singleton.1 hin]; rfl
            · rw [h3] at hin ⊢
              rcases List.mem_cons.1 hin with rfl | hin
              · exact absurd hf (hJD _ hd')
              · rw [List.mem_singleton.1 hin]; rfl
          · exfalso
            have hm : sj.muid = d := by unfold Station.muid; rw [h2]; rfl
            rw [hm] at hin
            rcases hfi' with h3 | ⟨d', hd', h3, -⟩
            · rw [h3] at hin
              exact hJD _ hd (List.mem_singleton.1 hin ▸ hfi)
            · rw [h3] at hin
              rcases List.mem_cons.1 hin with rfl | hin
              · exact h.differ i j si sj d fi d f hsi hj hij h3 h2 rfl
              · exact hJD _ hd (List.mem_singleton.1 hin ▸ hfi)
        obtain ⟨f, hfJ, hf1, hlast⟩ := hsingle
        have hs2 : ({ sj with muids := new :: sj.muids } : Station).muids = [new, f] := by dsimp only; rw [hf1]
        refine ⟨⟨hcom, fun a s ha => ?_, fun a b sa sb d1 f1 d2 f2 ha hb hab e2 e3 => ?_, fun a b x hx => ?_⟩, ?_, fun _ => ?_⟩
        · rcases set_getElem?_cases ha with ⟨rfl, rfl, -⟩ | ⟨ha1, ha2⟩
          · refine ⟨f, hfJ, .inr ⟨new, by simp, hs2, i, si, hij, ?_, hlast⟩⟩
            dsimp only [Network.update]; rw [List.getElem?_set_ne (Ne.symm hij)]; exact hsi
          · obtain ⟨g, hg, h2 | ⟨d, hd, h2, b, sb, hb1, hb2, hb3⟩⟩ := h.one a s ha2
            · exact ⟨g, hg, .inl h2⟩
            · refine ⟨g, hg, .inr ⟨d, List.mem_cons_of_mem _ hd, h2, ?_⟩⟩
              by_cases hbj : b = j
              · subst hbj
                obtain rfl := Option.some.inj (hj.symm.trans hb2)
                refine ⟨b, _, hb1, List.getElem?_set_self hjl, ?_⟩
                rw [hs2]; rw [hf1] at hb3; exact hb3
              · refine ⟨b, sb, hb1, ?_, hb3⟩
                dsimp only [Network.update]; rw [List.getElem?_set_ne (Ne.symm hbj)]; exact hb2
        · rcases set_getElem?_cases ha with ⟨rfl, rfl, -⟩ | ⟨ha1, ha2⟩
          · rcases set_getElem?_cases hb with ⟨rfl, rfl, -⟩ | ⟨hb1, hb2⟩
            · exact absurd rfl hab
            · rw [hs2] at e2
              cases e2
              rintro rfl
              obtain ⟨g, hg, h2 | ⟨d, hd, h2, -⟩⟩ := h.one b sb hb2
              · rw [h2] at e3; cases e3
              · rw [h2] at e3; cases e3; exact h1 hd
          · rcases set_getElem?_cases hb with ⟨rfl, rfl, -⟩ | ⟨hb1, hb2⟩
            · rw [hs2] at e3
              cases e3
              rintro rfl
              obtain ⟨g, hg, h2 | ⟨d, hd, h2, -⟩⟩ := h.one a sa ha2
              · rw [h2] at e2; cases e2
              · rw [h2] at e2; cases e2; exact h1 hd
            · exact h.differ a b sa sb d1 f1 d2 f2 ha2 hb2 hab e2 e3
        · dsimp only [Network.update] at hx ⊢
          rcases List.mem_append.1 hx with hx | hx
          · obtain ⟨hab, sa, hsa, hta⟩ := h.told a b x (hsub _ hx)
            refine ⟨hab, ?_⟩
            by_cases haj : a = j
            · subst haj
              obtain rfl := Option.some.inj (hj.symm.trans hsa)
              exact ⟨_, List.getElem?_set_self hjl, fun u hu => List.mem_cons_of_mem _ (hta u hu)⟩
            · exact ⟨sa, by rw [List.getElem?_set_ne (Ne.symm haj)]; exact hsa, hta⟩
          · obtain ⟨rfl, hb1, hb2, hxm⟩ := mem_toOthers.1 hx
            refine ⟨Ne.symm hb2, _, List.getElem?_set_self hjl, fun u hu => ?_⟩
            rcases hall x hxm u hu with rfl | rfl
            · simp
            · refine List.mem_cons_of_mem _ ?_
              unfold Station.muid; rw [hf1]; simp
        · exact List.length_set
        · dsimp only
          have hto := length_toOthers net.stations.length j ms
          have hto2 : net.stations.length * ms.length ≤ 2 * net.stations.length := by
            rw [Nat.mul_comm]; exact Nat.mul_le_mul_right _ hms
          have hsing : singles (({ stations := net.stations, flight := net.flight.eraseIdx k } : Network).update j { sj with muids := new :: sj.muids } ms) + 1 = singles net := by
            unfold singles Network.update
            dsimp only
            rw [List.countP_set hjl]
            have hg : net.stations[j] = sj := (List.getElem?_eq_some_iff.1 hj).2
            rw [hg, hs2, hf1]
            have hpos : 0 < net.stations.countP fun s => s.muids.length = 1 := List.countP_pos_iff.2 ⟨sj, List.mem_of_getElem? hj, by rw [hf1]; rfl⟩
            simp
            omega
          have hfl : (({ stations := net.stations, flight := net.flight.eraseIdx k } : Network).update j { sj with muids := new :: sj.muids } ms).flight.length
              = net.flight.length - 1 + (toOthers net.stations.length j ms).length := by
            unfold Network.update; rw [List.length_append, hel]
          rw [hfl, ← hsing, Nat.mul_add]
          omega

theorem calm_join {J D : List Word} {net : Network} (h : Calm J D net) (identity : DeviceIdentity) (categories : Byte) (maxSize muid : Word)
    (hok : (Happening.join identity categories maxSize muid).Ok) (hJ : muid ∈ J) :
    ∃ net', net.step (.join identity categories maxSize muid) = .ok net' ∧ Calm J D net' := by
  obtain ⟨net', e1, hcom⟩ := coming_step h.coming _ hok
  refine ⟨net', e1, ?_⟩
  obtain ⟨h1, h2, h3, h4⟩ := hok
  obtain ⟨a, ha, hn⟩ := renew_ok ⟨identity, categories, maxSize, []⟩ ⟨h1, h2, h3⟩ muid h4
  unfold Network.step at e1
  dsimp only at e1
  rw [ha, ok_bind] at e1
  have e2 := Except.ok.inj e1
  dsimp only at e2
  have hset : (net.stations ++ [(⟨identity, categories, maxSize, [muid]⟩ : Station)]).set net.stations.length ⟨identity, categories, maxSize, [muid]⟩
      = net.stations ++ [⟨identity, categories, maxSize, [muid]⟩] := by simp
  have hst : net'.stations = net.stations ++ [⟨identity, categories, maxSize, [muid]⟩] := by rw [← e2]; exact hset
  have hfl : net'.flight = net.flight ++ toOthers (net.stations.length + 1) net.stations.length [a] := by
    rw [← e2]; unfold Network.update; dsimp only; rw [List.length_append, List.length_singleton]
  have old : ∀ i s, net.stations[i]? = some s → net'.stations[i]? = some s := fun i s hi => by
    rw [hst, List.getElem?_append_left (List.getElem?_eq_some_iff.1 hi).1]; exact hi
  have hlt : ∀ l x, net'.stations[l]? = some x → net.stations[l]? = some x ∨ l = net.stations.length ∧ x.muids = [muid] := by
    intro l x hx
    have hl := (List.getElem?_eq_some_iff.1 hx).1
    rw [hst, List.length_append, List.length_singleton] at hl
    rw [hst] at hx
    by_cases hl' : l < net.stations.length
    · rw [List.getElem?_append_left hl'] at hx; exact .inl hx
    · obtain rfl : l = net.stations.length := by omega
      rw [List.getElem?_append_right (Nat.le_refl _), Nat.sub_self] at hx
      obtain rfl := Option.some.inj hx
      exact .inr ⟨rfl, rfl⟩
  refine ⟨hcom, fun i s hi => ?_, fun i j si sj d f d' f' hi hj hij e3 e4 => ?_, fun i j m hm => ?_⟩
  · rcases hlt i s hi with hi | ⟨-, hi⟩
    · obtain ⟨f, hf, h5 | ⟨d, hd, h5, j, sj, hj1, hj2, hj3⟩⟩ := h.one i s hi
      · exact ⟨f, hf, .inl h5⟩
      · exact ⟨f, hf, .inr ⟨d, hd, h5, j, sj, hj1, old _ _ hj2, hj3⟩⟩
    · exact ⟨muid, hJ, .inl hi⟩
  · rcases hlt i si hi with hi | ⟨-, hi⟩
    · rcases hlt j sj hj with hj | ⟨-, hj⟩
      · exact h.differ i j si sj d f d' f' hi hj hij e3 e4
      · rw [hj] at e4; cases e4
    · rw [hi] at e3; cases e3
  · rw [hfl] at hm
    rcases List.mem_append.1 hm with hm | hm
    · obtain ⟨hij, si, hsi, ht⟩ := h.told i j m hm
      exact ⟨hij, si, old _ _ hsi, ht⟩
    · obtain ⟨rfl, hj1, hj2, hm⟩ := mem_toOthers.1 hm
      obtain rfl := List.mem_singleton.1 hm
      refine ⟨Ne.symm hj2, ⟨identity, categories, maxSize, [muid]⟩, ?_, fun u hu => ?_⟩
      · rw [hst, List.getElem?_append_right (Nat.le_refl _), Nat.sub_self]; rfl
      · rw [hu.unique hn]; simp

/-- The MUIDs may be chosen: none twice, and none that is taken. -/
theorem calm_run {J D : List Word} {net : Network} (h : Calm J D net) (es : List Happening) (hes : ∀ e ∈ es, e.Ok)
    (hkind : ∀ e ∈ es, match e with | .join .. | .deliver .. => True | _ => False) (hj : ∀ u ∈ joined es, u ∈ J)
    (hnd : (chosen es).Nodup) (hD : ∀ u ∈ chosen es, u ∉ D) (hJc : ∀ u ∈ chosen es, u ∉ J) (hJD : ∀ u ∈ D, u ∉ J) :
    ∃ net' D', net.run es = .ok net' ∧ Calm J D' net' ∧ (∀ u ∈ D', u ∉ J) ∧ ∀ u, u ∈ D' ↔ u ∈ D ∨ u ∈ chosen es := by
  induction es generalizing net D with
  | nil => exact ⟨net, D, rfl, h, hJD, fun u => by simp [chosen]⟩
  | cons e es ih =>
    have hes' : ∀ x ∈ es, x.Ok := fun x hx => hes x (List.mem_cons_of_mem _ hx)
    have hkind' : ∀ x ∈ es, match x with | .join .. | .deliver .. => True | _ => False := fun x hx => hkind x (List.mem_cons_of_mem _ hx)
    have hk := hkind e (by simp)
    have he := hes e (by simp)
    cases e with
    | join identity categories maxSize muid =>
      have hj1 : joined (.join identity categories maxSize muid :: es) = muid :: joined es := rfl
      have hc1 : chosen (.join identity categories maxSize muid :: es) = chosen es := rfl
      rw [hj1] at hj
      rw [hc1] at hnd hD hJc ⊢
      obtain ⟨n1, e1, hn1⟩ := calm_join h identity categories maxSize muid he (hj muid (by simp))
      obtain ⟨n2, D', e2, hn2, h5, h6⟩ := ih hn1 hes' hkind' (fun u hu => hj u (List.mem_cons_of_mem _ hu)) hnd hD hJc hJD
      refine ⟨n2, D', ?_, hn2, h5, h6⟩
      unfold Network.run; rw [e1, ok_bind]; exact e2
    | deliver k new =>
      have hj1 : joined (.deliver k new :: es) = joined es := rfl
      have hc1 : chosen (.deliver k new :: es) = new :: chosen es := rfl
      rw [hj1] at hj
      rw [hc1] at hnd hD hJc ⊢
      obtain ⟨n1, e1, hn1, -⟩ := calm_deliver h hJD k new he (hD new (by simp))
      obtain ⟨n2, D', e2, hn2, h5, h6⟩ := ih hn1 hes' hkind' hj (List.nodup_cons.1 hnd).2
        (fun u hu hu' => by
          rcases List.mem_cons.1 hu' with rfl | hu'
          · exact (List.nodup_cons.1 hnd).1 hu
          · exact hD u (List.mem_cons_of_mem _ hu) hu')
        (fun u hu => hJc u (List.mem_cons_of_mem _ hu))
        (fun u hu => by
          rcases List.mem_cons.1 hu with rfl | hu
          · exact hJc u (by simp)
          · exact hJD u hu)
      refine ⟨n2, D', ?_, hn2, h5, fun u => ?_⟩
      · unfold Network.run; rw [e1, ok_bind]; exact e2
      · rw [h6, List.mem_cons, List.mem_cons]; tauto
    | restart i new => exact hk.elim
    | other i m new => exact hk.elim

theorem calm_arriving {J D : List Word} {net : Network} (h : Calm J D net) (ds : List Happening) (hds : ∀ e ∈ ds, e.Ok) (harr : Arriving net ds)
    (hnd : (chosen ds).Nodup) (hD : ∀ u ∈ chosen ds, u ∉ D) (hJc : ∀ u ∈ chosen ds, u ∉ J) (hJD : ∀ u ∈ D, u ∉ J) :
    ds.length ≤ net.flight.length + 2 * net.stations.length * singles net := by
  induction ds generalizing net D with
  | nil => simp
  | cons e ds ih =>
    obtain ⟨hk, harr⟩ := harr
    have he := hds e (by simp)
    cases e with
    | deliver k new =>
      have hc1 : chosen (.deliver k new :: ds) = new :: chosen ds := rfl
      rw [hc1] at hnd hD hJc
      obtain ⟨n1, e1, hn1, hl, hm⟩ := calm_deliver h hJD k new he (hD new (by simp))
      have := ih hn1 (fun x hx => hds x (List.mem_cons_of_mem _ hx)) (harr n1 e1) (List.nodup_cons.1 hnd).2
        (fun u hu hu' => by
          rcases List.mem_cons.1 hu' with rfl | hu'
          · exact (List.nodup_cons.1 hnd).1 hu
          · exact hD u (List.mem_cons_of_mem _ hu) hu')
        (fun u hu => hJc u (List.mem_cons_of_mem _ hu))
        (fun u hu => by
          rcases List.mem_cons.1 hu with rfl | hu
          · exact hJc u (by simp)
          · exact hJD u hu)
      rw [hl] at this
      have := hm hk
      rw [List.length_cons]
      omega
    | join => exact hk.elim
    | restart => exact hk.elim
    | other => exact hk.elim

theorem calm_empty (J : List Word) : Calm J [] {} :=
  ⟨coming_empty, fun _ _ h => (by simp at h), fun _ _ _ _ _ _ _ _ h => (by simp at h), fun _ _ _ h => (by cases h)⟩

/-! ## The theorems -/

/-- C117: whatever happens, nothing is refused and nothing is read out of bounds. -/
theorem C117_safe (es : List Happening) (hes : ∀ e ∈ es, e.Ok) : ∃ net, ({} : Network).run es = .ok net := by
  obtain ⟨net, h, -⟩ := coming_run coming_empty es hes
  exact ⟨net, h⟩

/-- C117: whatever has happened, two stations between which no messages are on their way have different MUIDs. -/
theorem C117_pair (es : List Happening) (hes : ∀ e ∈ es, e.Ok) (net : Network) (hnet : ({} : Network).run es = .ok net)
    (i j : Nat) (hij : i ≠ j) (si sj : Station) (hi : net.stations[i]? = some si) (hj : net.stations[j]? = some sj)
    (hno : ∀ x ∈ net.flight, (x.1, x.2.1) ≠ (i, j) ∧ (x.1, x.2.1) ≠ (j, i)) : si.muid ≠ sj.muid := by
  obtain ⟨net', h, hc⟩ := coming_run coming_empty es hes
  obtain rfl := Except.ok.inj (hnet.symm.trans h)
  intro e
  obtain ⟨m, -, h1 | h1⟩ := hc.coming i j si sj hi hj hij e
  · exact (hno _ h1).1 rfl
  · exact (hno _ h1).2 rfl

/-- C117: when all messages have arrived, all stations have different MUIDs. -/
theorem C117_distinct (es : List Happening) (hes : ∀ e ∈ es, e.Ok) (net : Network) (hnet : ({} : Network).run es = .ok net)
    (hquiet : net.flight = []) : (net.stations.map Station.muid).Nodup := by
  rw [List.nodup_iff_getElem?_ne_getElem?]
  intro i j hij hj
  rw [List.length_map] at hj
  have hi : i < net.stations.length := by omega
  rw [List.getElem?_map, List.getElem?_map, List.getElem?_eq_getElem hi, List.getElem?_eq_getElem hj]
  intro e
  exact C117_pair es hes net hnet i j (by omega) _ _ (List.getElem?_eq_getElem hi) (List.getElem?_eq_getElem hj)
    (fun x hx => by rw [hquiet] at hx; cases hx) (Option.some.inj e)

/-- C117: when stations join and messages arrive, in any order, and stations choose MUIDs that nobody has had,
then every station changes its MUID at most once, and only when another station joined with the same one. -/
theorem C117_once (es : List Happening) (hes : ∀ e ∈ es, e.Ok) (ho : Orderly es) (net : Network) (hnet : ({} : Network).run es = .ok net)
    (i : Nat) (s : Station) (hi : net.stations[i]? = some s) :
    ∃ first ∈ joined es, s.muids = [first] ∨
      ∃ second ∈ chosen es, s.muids = [second, first] ∧
        ∃ (j : Nat) (other : Station), j ≠ i ∧ net.stations[j]? = some other ∧ other.muids.getLast? = some first := by
  obtain ⟨net', D', h1, h2, -, h4⟩ := calm_run (calm_empty (joined es)) es hes ho.1 (fun _ h => h) ho.2.1 (by simp) ho.2.2 (by simp)
  obtain rfl := Except.ok.inj (hnet.symm.trans h1)
  obtain ⟨f, hf, h5 | ⟨d, hd, h5⟩⟩ := h2.one i s hi
  · exact ⟨f, hf, .inl h5⟩
  · exact ⟨f, hf, .inr ⟨d, by simpa using (h4 d).1 hd, h5⟩⟩

theorem chosen_append (a b : List Happening) : chosen (a ++ b) = chosen a ++ chosen b := by unfold chosen; exact List.filterMap_append
theorem joined_append (a b : List Happening) : joined (a ++ b) = joined a ++ joined b := by unfold joined; exact List.filterMap_append

/-- C117: and then it becomes quiet: however the messages arrive, there are at most so many that arrive before all have. -/
theorem C117_quiet (es ds : List Happening) (hes : ∀ e ∈ es ++ ds, e.Ok) (ho : Orderly (es ++ ds)) (net : Network) (hnet : ({} : Network).run es = .ok net)
    (hds : Arriving net ds) : ds.length ≤ net.flight.length + 2 * net.stations.length * net.stations.length := by
  obtain ⟨ho1, ho2, ho3⟩ := ho
  rw [chosen_append] at ho2 ho3
  rw [joined_append] at ho3
  have hnd := List.nodup_append.1 ho2
  obtain ⟨net', D', h1, h2, h3, h4⟩ := calm_run (calm_empty (joined es ++ joined ds)) es (fun e he => hes e (List.mem_append_left _ he))
    (fun e he => ho1 e (List.mem_append_left _ he)) (fun _ h => List.mem_append_left _ h) hnd.1 (by simp)
    (fun u hu => ho3 u (List.mem_append_left _ hu)) (by simp)
  obtain rfl := Except.ok.inj (hnet.symm.trans h1)
  have := calm_arriving h2 ds (fun e he => hes e (List.mem_append_right _ he)) hds hnd.2.1
    (fun u hu hu' => by
      have := (h4 u).1 hu'
      simp only [List.not_mem_nil, false_or] at this
      exact hnd.2.2 u this u hu rfl)
    (fun u hu => ho3 u (List.mem_append_right _ hu)) h3
  refine this.trans (Nat.add_le_add_left (Nat.mul_le_mul_left _ ?_) _)
  exact List.countP_le_length

/-! ## A case -/

/-- Two stations join with the same MUID. -/
def muidJoins : List Happening := [.join ⟨0x7D0000, 1, 2, 3⟩ 0x0E 512 5, .join ⟨0x7D0000, 4, 5, 6⟩ 0x0E 512 5]

/-- The messages arrive. -/
def muidArrivals : List Happening := [.deliver 0 6, .deliver 0 7, .deliver 0 8, .deliver 0 9]

example : ∀ e ∈ muidJoins ++ muidArrivals, e.Ok := by
  simp only [muidJoins, muidArrivals, List.cons_append, List.nil_append, List.forall_mem_cons, Happening.Ok]
  exact ⟨by decide, by decide, by decide, by decide, by decide, by decide, by simp⟩

example : Orderly (muidJoins ++ muidArrivals) := by
  have hc : chosen (muidJoins ++ muidArrivals) = [6, 7, 8, 9] := rfl
  have hj : joined (muidJoins ++ muidArrivals) = [5, 5] := rfl
  refine ⟨by simp [muidJoins, muidArrivals], by rw [hc]; decide, ?_⟩
  rw [hc, hj]
  simp

/-- Both have another MUID in the end; before, one was told that its MUID is taken. -/
example : ((({} : Network).run (muidJoins ++ muidArrivals)).toOption.map fun net => (net.stations.map Station.muids, net.flight.length)) =
    some ([[6, 5], [7, 5]], 0) := by decide +kernel

example : ((({} : Network).run muidJoins).toOption.map fun net => (net.stations.map Station.muids, net.flight.map fun x => (x.1, x.2.1))) =
    some ([[5], [5]], [(1, 0)]) := by decide +kernel

example : ∃ net, ({} : Network).run muidJoins = .ok net ∧ Arriving net (muidArrivals.take 1) := by
  obtain ⟨net, h⟩ := C117_safe muidJoins (by
    simp only [muidJoins, List.forall_mem_cons, Happening.Ok]
    exact ⟨by decide, by decide, by simp⟩)
  have hl : ((({} : Network).run muidJoins).toOption.map fun net => net.flight.length) = some 1 := by decide +kernel
  rw [h] at hl
  refine ⟨net, h, ?_, fun _ _ => trivial⟩
  have : net.flight.length = 1 := Option.some.inj hl
  show 0 < net.flight.length
  omega

end Midi

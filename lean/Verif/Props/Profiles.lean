import Verif.Props.Device
import Verif.Props.RemakeCIProfiles
import Verif.Props.CITransport
import Verif.Spec.Profiles
import Mathlib.Data.List.Nodup

/-!
# C104: devices with profiles, and what a client knows about them
-/

namespace Midi.Spec
open CI

/-- The profiles of a scope: at most 16383, all different, and their ids have 7 bit numbers. -/
structure ProfileLists.Good (l : ProfileLists) : Prop where
  number : l.enabled.length + l.disabled.length ≤ 16383
  different : (l.enabled ++ l.disabled).Nodup
  seven : ∀ p ∈ l.enabled ++ l.disabled, Seven p.bytes

/-- A device the library supports. -/
structure ProfileDevice.Good (d : ProfileDevice) : Prop where
  muid : U28 d.muid
  lists : ∀ scope, (d.scopes scope).Good

/-- What may happen at a device: any valid message may be received; numbers its user enters are in range. -/
def ProfileEvent.Ok : ProfileEvent → Prop
  | .receive m => m.isValid = true
  | .enable _ dest => U7 dest.scope ∧ U14 dest.numChannels
  | .disable _ dest => U7 dest.scope ∧ U14 dest.numChannels
  | .add p scope => Seven p.bytes ∧ U7 scope
  | .remove p scope => Seven p.bytes ∧ U7 scope

/-- What may happen in the network: somebody else does not pretend to be one of the devices. -/
def NetEvent.Ok (ds : List ProfileDevice) : NetEvent → Prop
  | .at _ e => e.Ok
  | .other m => ∀ d ∈ ds, View.sourceMuid m ≠ .ok d.muid

/-- Everything the client knows about the device is right. -/
def KnowsRight (k : KnownProfiles) (d : ProfileDevice) : Prop := ∀ scope l, k d.muid scope = some l → l = d.scopes scope

end Midi.Spec

namespace Midi
open Spec UniversalSysex CI

/-! ## Lists of profiles -/

theorem eqv_iff_eq (p q : ProfileId) : p.eqv q = true ↔ p = q := by
  rw [C59_profile_id]
  constructor
  · intro h
    cases p; cases q
    simpa [ProfileId.bytes] using h
  · rintro rfl; rfl

theorem hasProfile_iff (l : List ProfileId) (p : ProfileId) : hasProfile l p = true ↔ p ∈ l := by
  unfold hasProfile
  rw [List.any_eq_true]
  constructor
  · rintro ⟨q, hq, e⟩
    rwa [(eqv_iff_eq q p).1 e] at hq
  · exact fun h => ⟨p, h, (eqv_iff_eq p p).2 rfl⟩

theorem mem_without (l : List ProfileId) (p q : ProfileId) : q ∈ withoutProfile l p ↔ q ∈ l ∧ q ≠ p := by
  unfold withoutProfile
  rw [List.mem_filter, Bool.not_eq_true', ← Bool.not_eq_true, eqv_iff_eq]

theorem without_length (l : List ProfileId) (p : ProfileId) : (withoutProfile l p).length ≤ l.length := List.length_filter_le _ _

theorem without_lt (l : List ProfileId) (p : ProfileId) (h : p ∈ l) : (withoutProfile l p).length < l.length := by
  unfold withoutProfile
  have hs : (l.filter fun q => !q.eqv p).length ≠ l.length := by
    intro e
    have := (List.length_filter_eq_length_iff).1 e p h
    rw [Bool.not_eq_true', ← Bool.not_eq_true, eqv_iff_eq] at this
    exact this rfl
  have := List.length_filter_le (fun q => !q.eqv p) l
  omega

theorem without_nodup {l : List ProfileId} (p : ProfileId) (h : l.Nodup) : (withoutProfile l p).Nodup := h.filter _

theorem Good.mk' {e f : List ProfileId} (h1 : e.length + f.length ≤ 16383) (h2 : e.Nodup) (h3 : f.Nodup) (h4 : ∀ p ∈ e, p ∉ f)
    (h5 : ∀ p, p ∈ e ∨ p ∈ f → Seven p.bytes) : ProfileLists.Good ⟨e, f⟩ :=
  ⟨h1, List.nodup_append.2 ⟨h2, h3, fun a ha _ hb e => h4 a ha (e ▸ hb)⟩, fun p hp => h5 p (List.mem_append.1 hp)⟩

theorem Good.parts {l : ProfileLists} (h : l.Good) : l.enabled.Nodup ∧ l.disabled.Nodup ∧ (∀ p ∈ l.enabled, p ∉ l.disabled) ∧
    ∀ p, p ∈ l.enabled ∨ p ∈ l.disabled → Seven p.bytes := by
  obtain ⟨h1, h2, h3⟩ := List.nodup_append.1 h.different
  exact ⟨h1, h2, fun p hp hq => h3 p hp p hq rfl, fun p hp => h.seven p (List.mem_append.2 hp)⟩

theorem enable_good {l : ProfileLists} (h : l.Good) (p : ProfileId) : (l.enable p).Good := by
  unfold ProfileLists.enable
  split
  · next hp =>
    rw [hasProfile_iff] at hp
    obtain ⟨h1, h2, h3, h4⟩ := Good.parts h
    have := without_lt _ _ hp
    have := h.number
    refine Good.mk' (by rw [List.length_append, List.length_singleton]; omega)
      (List.nodup_append.2 ⟨h1, by simp, fun a ha b hb e => ?_⟩) (without_nodup p h2) ?_ ?_
    · rw [List.mem_singleton] at hb; subst hb; subst e; exact h3 a ha hp
    · intro q hq
      rw [mem_without]
      rcases List.mem_append.1 hq with hq | hq
      · exact fun h => h3 q hq h.1
      · exact fun h => h.2 (List.mem_singleton.1 hq)
    · intro q hq
      rcases hq with hq | hq
      · rcases List.mem_append.1 hq with hq | hq
        · exact h4 q (.inl hq)
        · rw [List.mem_singleton.1 hq]; exact h4 p (.inr hp)
      · exact h4 q (.inr ((mem_without _ _ _).1 hq).1)
  · exact h

theorem disable_good {l : ProfileLists} (h : l.Good) (p : ProfileId) : (l.disable p).Good := by
  unfold ProfileLists.disable
  split
  · next hp =>
    rw [hasProfile_iff] at hp
    obtain ⟨h1, h2, h3, h4⟩ := Good.parts h
    have := without_lt _ _ hp
    have := h.number
    refine Good.mk' (by rw [List.length_append, List.length_singleton]; omega) (without_nodup p h1)
      (List.nodup_append.2 ⟨h2, by simp, fun a ha b hb e => ?_⟩) ?_ ?_
    · rw [List.mem_singleton] at hb; subst hb; subst e; exact h3 a hp ha
    · intro q hq
      rw [mem_without] at hq
      rw [List.mem_append, List.mem_singleton]
      exact fun h => h.elim (h3 q hq.1) hq.2
    · intro q hq
      rcases hq with hq | hq
      · exact h4 q (.inl ((mem_without _ _ _).1 hq).1)
      · rcases List.mem_append.1 hq with hq | hq
        · exact h4 q (.inr hq)
        · rw [List.mem_singleton.1 hq]; exact h4 p (.inl hp)
  · exact h

theorem add_good {l : ProfileLists} (h : l.Good) (p : ProfileId) (hp : Seven p.bytes)
    (hn : l.enabled.length + l.disabled.length < 16383) : (l.add p).Good := by
  unfold ProfileLists.add
  split
  · exact h
  · next hc =>
    rw [Bool.or_eq_true, hasProfile_iff, hasProfile_iff, not_or] at hc
    obtain ⟨h1, h2, h3, h4⟩ := Good.parts h
    refine Good.mk' (by rw [List.length_append, List.length_singleton]; omega) h1
      (List.nodup_append.2 ⟨h2, by simp, fun a ha b hb e => ?_⟩) ?_ ?_
    · rw [List.mem_singleton] at hb; subst hb; subst e; exact hc.2 ha
    · intro q hq
      rw [List.mem_append, List.mem_singleton]
      exact fun h => h.elim (h3 q hq) fun e => hc.1 (e ▸ hq)
    · intro q hq
      rcases hq with hq | hq
      · exact h4 q (.inl hq)
      · rcases List.mem_append.1 hq with hq | hq
        · exact h4 q (.inr hq)
        · rw [List.mem_singleton.1 hq]; exact hp

theorem remove_good {l : ProfileLists} (h : l.Good) (p : ProfileId) : (l.remove p).Good := by
  obtain ⟨h1, h2, h3, h4⟩ := Good.parts h
  have := without_length l.enabled p
  have := without_length l.disabled p
  have := h.number
  refine Good.mk' (by omega) (without_nodup p h1) (without_nodup p h2) ?_ ?_
  · intro q hq
    rw [mem_without] at hq ⊢
    exact fun h => h3 q hq.1 h.1
  · intro q hq
    rw [mem_without, mem_without] at hq
    exact h4 q (hq.imp And.left And.left)

theorem set_good {d : ProfileDevice} (hd : d.Good) (scope : Byte) {l : ProfileLists} (hl : l.Good) : (d.set scope l).Good := by
  refine ⟨hd.muid, fun s => ?_⟩
  unfold ProfileDevice.set
  dsimp only
  split
  · exact hl
  · exact hd.lists s

/-! ## Hearing messages -/

theorem accepting_exact (m : Sysex) (vs : List ViewClass) (names : List String) (hn : (vs.map (·.name)).Nodup)
    (h : accepting m vs = .ok names) (v : ViewClass) (hv : v ∈ vs) : v.validate m = .ok (decide (v.name ∈ names)) := by
  induction vs generalizing names with
  | nil => cases hv
  | cons w vs ih =>
    unfold accepting at h
    obtain ⟨b, hb, h⟩ := bindOk_iff.1 h
    obtain ⟨r, hr, h⟩ := bindOk_iff.1 h
    obtain rfl := Except.ok.inj h
    rw [List.map_cons, List.nodup_cons] at hn
    rcases List.mem_cons.1 hv with rfl | hv
    · rw [hb]
      have : v.name ∉ r := fun h => hn.1 (accepting_names m vs r hr _ h)
      cases b <;> simp [this]
    · rw [ih r hn.2 hr hv]
      cases b
      · rfl
      · have : v.name ≠ w.name := fun e => hn.1 (List.mem_map.2 ⟨v, hv, e⟩)
        simp [this]

/-- What the views say about a message which is about a profile. -/
theorem heard_views {m : Sysex} {v st dev : Byte} {src dst : Word} {payload : List Byte} {names : List String}
    (h : IsMessage m v st dev src dst payload names) :
    asView View.validate m = .ok (some m) ∧
    asView ProfileInquiryReplyView.validate m = .ok (if "profile_inquiry_reply_view" ∈ names then some m else none) ∧
    asView ProfileIdView.validate m = .ok (if "profile_id_view" ∈ names then some m else none) ∧
    asView ProfileInquiryView.validate m = .ok (if "profile_inquiry_view" ∈ names then some m else none) ∧
    asView ProfileDestinationView.validate m = .ok (if "profile_destination_view" ∈ names then some m else none) := by
  obtain ⟨-, -, hc, ha⟩ := h
  have key : ∀ w ∈ views, ∀ acc, ViewSafe w.validate m acc → asView w.validate m = .ok (if w.name ∈ names then some m else none) := by
    rintro w hw acc ⟨b, h1, h2, -⟩
    have := accepting_exact m views names (by decide) ha w hw
    rw [h1] at this
    rw [h2, Except.ok.inj this]
    by_cases hn : w.name ∈ names
    · rw [if_pos (by simpa using hn), if_pos hn]
    · rw [if_neg (by simpa using hn), if_neg hn]
  refine ⟨?_, key ⟨"profile_inquiry_reply_view", ProfileInquiryReplyView.validate, [0x21]⟩ (by simp [views]) _ (C39_profile_inquiry_reply m),
    key ⟨"profile_id_view", ProfileIdView.validate, [0x22, 0x23, 0x24, 0x25, 0x26, 0x27]⟩ (by simp [views]) _ (C39_profile_id m),
    key ⟨"profile_inquiry_view", ProfileInquiryView.validate, [0x20]⟩ (by simp [views]) _ (C39_profile_inquiry m),
    key ⟨"profile_destination_view", ProfileDestinationView.validate, [0x22, 0x23, 0x24, 0x25]⟩ (by simp [views]) _
      (C39_profile_destination m)⟩
  obtain ⟨b, h1, h2, -⟩ := C39_capability_inquiry m
  rw [hc.2.1] at h1
  rw [h2, ← Except.ok.inj h1]
  rfl

/-- What a notification does to the lists. -/
def noted (st : Byte) (p : ProfileId) (l : ProfileLists) : ProfileLists :=
  if st = 0x24 then l.enable p else if st = 0x25 then l.disable p else if st = 0x26 then l.add p else l.remove p

theorem hear_notification {m : Sysex} {st scope : Byte} {src : Word} {payload : List Byte} {names : List String} {p : ProfileId}
    (h : IsMessage m 2 st scope src everybody payload names) (hn : "profile_id_view" ∈ names) (hr : "profile_inquiry_reply_view" ∉ names)
    (hst : st = 0x24 ∨ st = 0x25 ∨ st = 0x26 ∨ st = 0x27) (hp : ProfileIdView.profile m = .ok p) (me : Word) (k : KnownProfiles) :
    KnownProfiles.hear me k m = .ok (k.set src scope ((k src scope).map (noted st p))) := by
  obtain ⟨v1, v2, v3, -⟩ := heard_views h
  obtain ⟨-, -, hc, -⟩ := h
  unfold KnownProfiles.hear
  rw [v1, v2, v3, if_neg hr, if_pos hn]
  simp only [ok_bind, hc.2.2.2.1, hc.2.2.2.2.1, hc.2.2.2.2.2.2.1, hc.2.2.2.2.2.2.2.1, or_true, if_true, hp]
  rcases hst with rfl | rfl | rfl | rfl <;> rfl

theorem hear_reply {m : Sysex} {scope : Byte} {src dst : Word} {payload : List Byte} {l : ProfileLists}
    (h : IsMessage m 2 0x21 scope src dst payload ["profile_inquiry_reply_view"])
    (he : ProfileInquiryReplyView.enabled m = .ok l.enabled) (hd : ProfileInquiryReplyView.disabled m = .ok l.disabled)
    (me : Word) (k : KnownProfiles) :
    KnownProfiles.hear me k m = .ok (if dst = me ∨ dst = everybody then k.set src scope (some l) else k) := by
  obtain ⟨v1, v2, -⟩ := heard_views h
  obtain ⟨-, -, hc, -⟩ := h
  unfold KnownProfiles.hear
  rw [v1, v2, if_pos (by simp)]
  simp only [ok_bind, hc.2.2.2.1, hc.2.2.2.2.2.2.1, hc.2.2.2.2.2.2.2.1, he, hd]
  split <;> rfl

theorem hearAll_one (me : Word) (k : KnownProfiles) (m : Sysex) : KnownProfiles.hearAll me k [m] = KnownProfiles.hear me k m := by
  unfold KnownProfiles.hearAll
  cases KnownProfiles.hear me k m <;> rfl

theorem known_set_self (k : KnownProfiles) (u : Word) (s : Byte) (l : Option ProfileLists) : k.set u s l u s = l := if_pos ⟨rfl, rfl⟩

theorem known_set_other (k : KnownProfiles) (u u' : Word) (s s' : Byte) (l : Option ProfileLists) (h : ¬ (u' = u ∧ s' = s)) :
    k.set u s l u' s' = k u' s' := if_neg h

theorem known_set_kept {k : KnownProfiles} {u u' : Word} {s s' : Byte} {l : Option ProfileLists} (h : k u s ≠ none → l ≠ none)
    (h' : k u' s' ≠ none) : k.set u s l u' s' ≠ none := by
  by_cases e : u' = u ∧ s' = s
  · rw [e.1, e.2, known_set_self]
    rw [e.1, e.2] at h'
    exact h h'
  · rwa [known_set_other _ _ _ _ _ _ e]

/-- Hearing a notification after the device has done what it is about. -/
theorem right_after {k : KnownProfiles} {d : ProfileDevice} (h : KnowsRight k d) (scope : Byte) (f : ProfileLists → ProfileLists) :
    KnowsRight (k.set d.muid scope ((k d.muid scope).map f)) (d.set scope (f (d.scopes scope))) := by
  intro s l hl
  change k.set d.muid scope ((k d.muid scope).map f) d.muid s = some l at hl
  unfold ProfileDevice.set
  dsimp only
  by_cases e : s = scope
  · subst e
    rw [known_set_self] at hl
    obtain ⟨l', h', rfl⟩ := Option.map_eq_some_iff.1 hl
    rw [if_pos rfl, h s l' h']
  · rw [known_set_other _ _ _ _ _ _ (fun h => e h.2)] at hl
    rw [if_neg e, h s l hl]

/-- What has to be shown of each thing a device does. -/
def StepOk (d : ProfileDevice) (x : Except Fault (ProfileDevice × List Sysex)) : Prop :=
  ∃ d' ms, x = .ok (d', ms) ∧ d'.muid = d.muid ∧ d'.Good ∧
    (∀ m ∈ ms, ∃ st dev dst payload names, IsMessage m 2 st dev d.muid dst payload names ∧ st ∈ [0x21, 0x24, 0x25, 0x26, 0x27]) ∧
    ∀ me k, KnowsRight k d → ∃ k', KnownProfiles.hearAll me k ms = .ok k' ∧ KnowsRight k' d' ∧
      (∀ u, u ≠ d.muid → k' u = k u) ∧ ∀ u s, k u s ≠ none → k' u s ≠ none

theorem stepOk_nothing {d : ProfileDevice} (hd : d.Good) : StepOk d (.ok (d, [])) :=
  ⟨d, [], rfl, rfl, hd, fun _ h => absurd h (by simp), fun _ k hk => ⟨k, rfl, hk, fun _ _ => rfl, fun _ _ h => h⟩⟩

theorem stepOk_notification {d : ProfileDevice} {m : Sysex} {st scope : Byte} {payload : List Byte} {names : List String}
    {p : ProfileId} (h : IsMessage m 2 st scope d.muid everybody payload names) (hn : "profile_id_view" ∈ names)
    (hr : "profile_inquiry_reply_view" ∉ names) (hst : st = 0x24 ∨ st = 0x25 ∨ st = 0x26 ∨ st = 0x27)
    (hp : ProfileIdView.profile m = .ok p) (hg : (d.set scope (noted st p (d.scopes scope))).Good) :
    StepOk d (.ok (d.set scope (noted st p (d.scopes scope)), [m])) := by
  refine ⟨_, _, rfl, rfl, hg, fun m' hm => ?_, fun me k hk => ⟨_, ?_, right_after hk scope (noted st p), fun u hu => ?_,
    fun u s hu => ?_⟩⟩
  · rw [List.mem_singleton.1 hm]
    exact ⟨_, _, _, _, _, h, by rcases hst with rfl | rfl | rfl | rfl <;> simp⟩
  · rw [hearAll_one]; exact hear_notification h hn hr hst hp me k
  · funext s
    exact known_set_other _ _ _ _ _ _ fun e => hu e.1
  · exact known_set_kept (fun h => by simpa using h) hu

theorem everybody28 : U28 everybody := by decide

theorem enable_ok {d : ProfileDevice} (hd : d.Good) (p : ProfileId) (dest : ProfileDestination) (h1 : U7 dest.scope)
    (h2 : U14 dest.numChannels) : StepOk d (d.enable p dest) := by
  unfold ProfileDevice.enable
  split
  · next hp =>
    have h7 : Seven p.bytes := (Good.parts (hd.lists dest.scope)).2.2.2 p (.inr ((hasProfile_iff _ _).1 hp))
    obtain ⟨m, e, h, hr, -⟩ := C40_profile_enabled d.muid everybody p dest hd.muid everybody28 h7 h1 h2
    rw [e]
    exact stepOk_notification h (by simp) (by simp) (by simp) hr (set_good hd _ (enable_good (hd.lists _) p))
  · exact stepOk_nothing hd

theorem disable_ok {d : ProfileDevice} (hd : d.Good) (p : ProfileId) (dest : ProfileDestination) (h1 : U7 dest.scope)
    (h2 : U14 dest.numChannels) : StepOk d (d.disable p dest) := by
  unfold ProfileDevice.disable
  split
  · next hp =>
    have h7 : Seven p.bytes := (Good.parts (hd.lists dest.scope)).2.2.2 p (.inl ((hasProfile_iff _ _).1 hp))
    obtain ⟨m, e, h, hr, -⟩ := C40_profile_disabled d.muid everybody p dest hd.muid everybody28 h7 h1 h2
    rw [e]
    exact stepOk_notification h (by simp) (by simp) (by simp) hr (set_good hd _ (disable_good (hd.lists _) p))
  · exact stepOk_nothing hd

theorem add_ok {d : ProfileDevice} (hd : d.Good) (p : ProfileId) (scope : Byte) (h7 : Seven p.bytes) (h1 : U7 scope) :
    StepOk d (d.add p scope) := by
  unfold ProfileDevice.add
  split
  · next hn =>
    obtain ⟨m, e, h, hr⟩ := C40_profile_added d.muid everybody p scope hd.muid everybody28 h7 h1
    rw [e]
    exact stepOk_notification h (by simp) (by simp) (by simp) hr (set_good hd _ (add_good (hd.lists _) p h7 hn))
  · exact stepOk_nothing hd

theorem remove_ok {d : ProfileDevice} (hd : d.Good) (p : ProfileId) (scope : Byte) (h7 : Seven p.bytes) (h1 : U7 scope) :
    StepOk d (d.remove p scope) := by
  unfold ProfileDevice.remove
  obtain ⟨m, e, h, hr⟩ := C40_profile_removed d.muid everybody p scope hd.muid everybody28 h7 h1
  rw [e]
  exact stepOk_notification h (by simp) (by simp) (by simp) hr (set_good hd _ (remove_good (hd.lists _) p))

theorem receive_ok {d : ProfileDevice} (hd : d.Good) (m : Sysex) (h7 : m.isValid = true) : StepOk d (d.receive m) := by
  have h7' : ∀ b ∈ m.data, b.toNat < 128 := ((C53_is_valid m).1 h7).2.2.2.2
  unfold ProfileDevice.receive
  obtain ⟨b, hb, e1, -⟩ := C39_capability_inquiry m
  rw [e1]
  cases b with
  | false => exact stepOk_nothing hd
  | true =>
    obtain ⟨dev, sub, src, dst, r1, r2, r3, r4, u1, u2, u3, u4⟩ := ci_reads hb h7
    simp only [if_true, ok_bind, r4]
    by_cases hdst : dst = d.muid
    swap
    · rw [if_neg hdst]; exact stepOk_nothing hd
    rw [if_pos hdst]
    obtain ⟨b2, hb2, e2, -⟩ := C39_profile_inquiry m
    rw [e2]
    cases b2 with
    | true =>
      simp only [if_true, ok_bind, r1, r3]
      have hl := hd.lists dev
      have := hl.number
      obtain ⟨m', e, h, -, -, -, -, hen, hdi⟩ := C41_profile_inquiry_reply d.muid src (d.scopes dev).enabled (d.scopes dev).disabled dev
        hd.muid u3 u1 (by omega) (by omega) (fun p hp => hl.seven p (by simp [hp])) (fun p hp => hl.seven p (by simp [hp]))
      rw [e]
      refine ⟨d, [m'], rfl, rfl, hd, fun m'' hm => ?_, fun me k hk => ⟨_, (hearAll_one me k m').trans (hear_reply h hen hdi me k),
        ?_, ?_, ?_⟩⟩
      · rw [List.mem_singleton.1 hm]
        exact ⟨_, _, _, _, _, h, by simp⟩
      · split
        · intro s l hl
          by_cases e : s = dev
          · subst e
            rw [known_set_self] at hl
            exact (Option.some.inj hl).symm
          · rw [known_set_other _ _ _ _ _ _ (fun h => e h.2)] at hl
            exact hk s l hl
        · exact hk
      · intro u hu
        split
        · funext s
          exact known_set_other _ _ _ _ _ _ fun e => hu e.1
        · rfl
      · intro u s hu
        split
        · exact known_set_kept (fun _ => by simp) hu
        · exact hu
    | false =>
      simp only [Bool.false_eq_true, if_false, ok_bind]
      obtain ⟨b3, hb3, e3, -⟩ := C39_profile_destination m
      rw [e3]
      cases b3 with
      | false => exact stepOk_nothing hd
      | true =>
        obtain ⟨v, src', dst', i, dest, rest, -, -, -, hn, hm, -, -, q3, q4⟩ := profile_again hb3 h7' r2
        have hscope : U7 dest.scope := by
          have : UniversalSysex.View.deviceId m = .ok dest.scope := by rw [hm]; rfl
          rw [r1] at this
          rw [← Except.ok.inj this]; exact u1
        simp only [if_true, ok_bind, r2, q3, q4]
        split
        · exact enable_ok hd i dest hscope hn
        · split
          · exact disable_ok hd i dest hscope hn
          · exact stepOk_nothing hd

theorem step_ok {d : ProfileDevice} (hd : d.Good) (e : ProfileEvent) (he : e.Ok) : StepOk d (d.step e) := by
  cases e with
  | receive m => exact receive_ok hd m he
  | enable p dest => exact enable_ok hd p dest he.1 he.2
  | disable p dest => exact disable_ok hd p dest he.1 he.2
  | add p scope => exact add_ok hd p scope he.1 he.2
  | remove p scope => exact remove_ok hd p scope he.1 he.2

/-- Hearing any message: nothing fails, nothing changes about anybody but the sender, and nothing is forgotten. -/
theorem hear_any (me : Word) (k : KnownProfiles) (m : Sysex) : ∃ k', KnownProfiles.hear me k m = .ok k' ∧
    (∀ u, View.sourceMuid m ≠ .ok u → k' u = k u) ∧ ∀ u s, k u s ≠ none → k' u s ≠ none := by
  have nothing : ∃ k', (Except.ok k : Except Fault KnownProfiles) = .ok k' ∧ (∀ u, View.sourceMuid m ≠ .ok u → k' u = k u) ∧
      ∀ u s, k u s ≠ none → k' u s ≠ none := ⟨k, rfl, fun _ _ => rfl, fun _ _ h => h⟩
  unfold KnownProfiles.hear
  obtain ⟨b, -, e1, acc⟩ := C39_capability_inquiry m
  rw [e1]
  cases b with
  | false => exact nothing
  | true =>
    obtain ⟨⟨scope, h4⟩, -, ⟨sub, h3⟩, -, ⟨src, h6⟩, ⟨dst, h7⟩, -⟩ := acc rfl
    simp only [if_true, ok_bind, h4, h6, h7]
    have setting : ∀ l, (k src scope ≠ none → l ≠ none) → ∃ k', (Except.ok (k.set src scope l) : Except Fault KnownProfiles) = .ok k' ∧
        (∀ u, Except.ok src ≠ (Except.ok u : Except Fault Word) → k' u = k u) ∧ ∀ u s, k u s ≠ none → k' u s ≠ none := by
      refine fun l hl => ⟨_, rfl, fun u hu => ?_, fun u s hu => known_set_kept hl hu⟩
      funext s
      exact known_set_other _ _ _ _ _ _ fun e => hu (by rw [e.1])
    rw [h6] at nothing
    have notifying : ∀ f : ProfileLists → ProfileLists, k src scope ≠ none → (k src scope).map f ≠ none := by
      intro f h; simpa using h
    split
    swap
    · exact nothing
    obtain ⟨b2, -, e2, acc2⟩ := C39_profile_inquiry_reply m
    rw [e2]
    cases b2 with
    | true =>
      obtain ⟨-, -, -, -, -, -, -, -, -, -, ⟨en, e3⟩, ⟨di, e4⟩⟩ := acc2 rfl
      simp only [if_true, ok_bind, e3, e4]
      exact setting _ fun _ => by simp
    | false =>
      simp only [Bool.false_eq_true, if_false, ok_bind]
      obtain ⟨b3, -, e3, acc3⟩ := C39_profile_id m
      rw [e3]
      cases b3 with
      | false => exact nothing
      | true =>
        obtain ⟨-, -, -, -, -, -, ⟨p, e4⟩⟩ := acc3 rfl
        simp only [if_true, ok_bind, h3, e4]
        split
        · exact setting _ (notifying _)
        split
        · exact setting _ (notifying _)
        split
        · exact setting _ (notifying _)
        split
        · exact setting _ (notifying _)
        · exact nothing

/-- Devices and a client which knows nothing wrong about them. -/
def NetOk (ds : List ProfileDevice) (k : KnownProfiles) : Prop := ∀ d ∈ ds, d.Good ∧ KnowsRight k d

theorem netStep_ok (me : Word) {ds : List ProfileDevice} {k : KnownProfiles} (h : NetOk ds k) (hn : (ds.map (·.muid)).Nodup)
    (e : NetEvent) (he : e.Ok ds) : ∃ ds' k', netStep me ds k e = .ok (ds', k') ∧ NetOk ds' k' ∧
      ds'.map (·.muid) = ds.map (·.muid) ∧ ∀ u s, k u s ≠ none → k' u s ≠ none := by
  cases e with
  | «at» i e =>
    cases hi : ds[i]? with
    | none => exact ⟨ds, k, by simp only [netStep, hi], h, rfl, fun _ _ h => h⟩
    | some d =>
      obtain ⟨hl, rfl⟩ := List.getElem?_eq_some_iff.1 hi
      obtain ⟨hd, hk⟩ := h _ (List.getElem_mem hl)
      obtain ⟨d', ms, e1, e2, e3, -, e4⟩ := step_ok hd e he
      obtain ⟨k', e5, e6, e7, e8⟩ := e4 me k hk
      have hmu : (ds.set i d').map (·.muid) = ds.map (·.muid) := by
        rw [List.map_set, e2]
        apply List.ext_getElem (by simp)
        intro j h1 h2
        rw [List.getElem_set]
        split
        · next e => subst e; rw [List.getElem_map]
        · rfl
      refine ⟨ds.set i d', k', ?_, fun x hx => ?_, hmu, e8⟩
      · simp only [netStep, hi, e1, ok_bind, e5]
        rfl
      · obtain ⟨j, hj, rfl⟩ := List.getElem_of_mem hx
        rw [List.getElem_set]
        split
        · exact ⟨e3, e6⟩
        · next hne =>
          have hj' : j < ds.length := by simpa using hj
          obtain ⟨g, kr⟩ := h _ (List.getElem_mem hj')
          refine ⟨g, fun scope l hl' => kr scope l ?_⟩
          rw [← hl', e7]
          intro heq
          refine hne ((List.Nodup.getElem_inj_iff hn (i := i) (j := j) (hi := by simpa using hl) (hj := by simpa using hj')).1 ?_)
          rw [List.getElem_map, List.getElem_map, heq]
  | other m =>
    obtain ⟨k', e1, e2, e3⟩ := hear_any me k m
    refine ⟨ds, k', ?_, fun d hd => ⟨(h d hd).1, fun scope l hl => (h d hd).2 scope l ?_⟩, rfl, e3⟩
    · simp only [netStep, e1, ok_bind]
      rfl
    · rw [← hl, e2 _ (he d hd)]

theorem netEvent_ok {ds ds' : List ProfileDevice} (h : ds'.map (·.muid) = ds.map (·.muid)) {e : NetEvent} (he : e.Ok ds) : e.Ok ds' := by
  cases e with
  | «at» i e => exact he
  | other m =>
    intro d hd
    obtain ⟨x, hx, e⟩ := List.mem_map.1 (h ▸ List.mem_map_of_mem (f := fun x : ProfileDevice => x.muid) hd)
    rw [← show x.muid = d.muid from e]
    exact he x hx

theorem netRun_ok (me : Word) (es : List NetEvent) : ∀ {ds : List ProfileDevice} {k : KnownProfiles}, NetOk ds k →
    (ds.map (·.muid)).Nodup → (∀ e ∈ es, e.Ok ds) → ∃ ds' k', netRun me ds k es = .ok (ds', k') ∧ NetOk ds' k' ∧
      ds'.map (·.muid) = ds.map (·.muid) ∧ ∀ u s, k u s ≠ none → k' u s ≠ none := by
  induction es with
  | nil => exact fun {ds k} h _ _ => ⟨ds, k, rfl, h, rfl, fun _ _ h => h⟩
  | cons e es ih =>
    intro ds k h hn hes
    obtain ⟨ds1, k1, e1, h1, m1, n1⟩ := netStep_ok me h hn e (hes e (by simp))
    obtain ⟨ds2, k2, e2, h2, m2, n2⟩ := ih h1 (by rw [m1]; exact hn) fun x hx => netEvent_ok m1 (hes x (by simp [hx]))
    refine ⟨ds2, k2, ?_, h2, m2.trans m1, fun u s hu => n2 u s (n1 u s hu)⟩
    unfold netRun
    rw [e1, ok_bind]
    exact e2

theorem netRun_append (me : Word) (es es' : List NetEvent) : ∀ ds k,
    netRun me ds k (es ++ es') = (netRun me ds k es).bind fun x => netRun me x.1 x.2 es' := by
  induction es with
  | nil => intros; rfl
  | cons e es ih =>
    intro ds k
    rw [List.cons_append, netRun, netRun]
    cases netStep me ds k e with
    | error f => rfl
    | ok x => exact ih x.1 x.2

/-- Messages which are neither inquiries nor requests. -/
theorem receive_quiet (d : ProfileDevice) (m : Sysex) (st : Byte) (hst : UniversalSysex.View.subtype m = .ok st) (h0 : st ≠ 0x20)
    (h2 : st ≠ 0x22) (h3 : st ≠ 0x23) : d.receive m = .ok (d, []) := by
  unfold ProfileDevice.receive
  obtain ⟨b, hb, e1, acc⟩ := C39_capability_inquiry m
  rw [e1]
  cases b with
  | false => rfl
  | true =>
    obtain ⟨-, -, -, -, -, ⟨dst, h7⟩, -⟩ := acc rfl
    simp only [if_true, ok_bind, h7]
    split
    swap
    · rfl
    obtain ⟨b2, hb2, e2, -⟩ := C39_profile_inquiry m
    rw [e2]
    cases b2 with
    | true =>
      exfalso
      simp only [View.validate, andThen_true, isNonRealtime_true, sizeAtLeast_true] at hb
      obtain ⟨st', hm, e⟩ := (views_sound ⟨"profile_inquiry_view", ProfileInquiryView.validate, [0x20]⟩ (by simp [views]) m
        (by omega)).2 hb2
      rw [List.mem_singleton.1 hm] at e
      unfold UniversalSysex.View.subtype at hst
      rw [if_pos (by omega)] at hst
      obtain ⟨hl, e⟩ := List.getElem?_eq_some_iff.1 e
      rw [index_ok hl, e] at hst
      exact h0 (Except.ok.inj hst).symm
    | false =>
      simp only [Bool.false_eq_true, if_false, ok_bind]
      obtain ⟨b3, -, e3, acc3⟩ := C39_profile_destination m
      rw [e3]
      cases b3 with
      | false => rfl
      | true =>
        obtain ⟨-, -, -, -, -, -, ⟨p, q1⟩, -, ⟨dest, q2⟩⟩ := acc3 rfl
        simp only [if_true, ok_bind, hst, q1, q2, if_neg h2, if_neg h3]
        rfl

/-! ## The theorems -/

/-- C104: whatever valid message a device receives and whatever its user does: nothing fails, the device has the same MUID and its
lists stay good (no profile twice, never both enabled and disabled, not too many for a message); all it sends are valid messages from
its own MUID, which nobody answers: no device that receives them does anything. -/
theorem C104_device (d : ProfileDevice) (hd : d.Good) (e : ProfileEvent) (he : e.Ok) :
    ∃ d' ms, d.step e = .ok (d', ms) ∧ d'.Good ∧ d'.muid = d.muid ∧ ∀ m ∈ ms, m.isValid = true ∧ View.sourceMuid m = .ok d.muid ∧
      ∀ x : ProfileDevice, x.receive m = .ok (x, []) := by
  obtain ⟨d', ms, e1, e2, e3, e4, -⟩ := step_ok hd e he
  refine ⟨d', ms, e1, e3, e2, fun m hm => ?_⟩
  obtain ⟨st, dev, dst, payload, names, h, hst⟩ := e4 m hm
  refine ⟨h.2.2.1.1, h.2.2.1.2.2.2.2.2.2.1, fun x => receive_quiet x m st h.2.2.1.2.2.2.2.1 ?_ ?_ ?_⟩ <;>
  · rintro rfl
    simp at hst

/-- C104: a client hears any messages, of any bytes: nothing fails, what it knows about devices other than the sender stays as it
is, and a list it knows is never forgotten. -/
theorem C104_client (me : Word) (k : KnownProfiles) (m : Sysex) : ∃ k', KnownProfiles.hear me k m = .ok k' ∧
    (∀ u, View.sourceMuid m ≠ .ok u → k' u = k u) ∧ ∀ u s, k u s ≠ none → k' u s ≠ none := hear_any me k m

/-- C104: the client asks a device about a scope, and then knows exactly the device's profiles in the scope, in order, enabled and
disabled, whatever it knew before; what it knows otherwise does not change. -/
theorem C104_inquiry (d : ProfileDevice) (hd : d.Good) (me : Word) (hme : U28 me) (scope : Byte) (hs : U7 scope) (k : KnownProfiles) :
    ∃ m r k', makeProfileInquiry me d.muid scope = .ok m ∧ m.isValid = true ∧ d.receive m = .ok (d, [r]) ∧
      KnownProfiles.hear me k r = .ok k' ∧ k' d.muid scope = some (d.scopes scope) ∧
      ∀ u s, ¬ (u = d.muid ∧ s = scope) → k' u s = k u s := by
  obtain ⟨m, e, h⟩ := C40_profile_inquiry me d.muid scope hme hd.muid hs
  have hl := hd.lists scope
  have := hl.number
  obtain ⟨r, e', h', -, -, -, -, hen, hdi⟩ := C41_profile_inquiry_reply d.muid me (d.scopes scope).enabled (d.scopes scope).disabled
    scope hd.muid hme hs (by omega) (by omega) (fun p hp => hl.seven p (by simp [hp])) (fun p hp => hl.seven p (by simp [hp]))
  obtain ⟨v1, -, -, v2, -⟩ := heard_views h
  refine ⟨m, r, k.set d.muid scope (some (d.scopes scope)), e, h.2.2.1.1, ?_, ?_, known_set_self _ _ _ _, fun u s hu =>
    known_set_other _ _ _ _ _ _ hu⟩
  · obtain ⟨-, -, hc, -⟩ := h
    unfold ProfileDevice.receive
    rw [v1, v2, if_pos (by simp)]
    simp only [ok_bind, hc.2.2.2.1, hc.2.2.2.2.2.2.1, hc.2.2.2.2.2.2.2.1, if_true, e']
    rfl
  · rw [hear_reply h' hen hdi, if_pos (.inl rfl)]

/-- C104: somebody asks a device to turn on a profile. If the profile is disabled in this scope then it is enabled now, all other
profiles and scopes are as before, and everybody is told, with the number of channels asked for; otherwise nothing happens. -/
theorem C104_turn_on (d : ProfileDevice) (hd : d.Good) (me : Word) (hme : U28 me) (p : ProfileId) (hp : Seven p.bytes)
    (dest : ProfileDestination) (hs : U7 dest.scope) (hn : U14 dest.numChannels) :
    ∃ m, makeProfileOn me d.muid p dest = .ok m ∧ m.isValid = true ∧
      (p ∉ (d.scopes dest.scope).disabled → d.receive m = .ok (d, [])) ∧
      (p ∈ (d.scopes dest.scope).disabled → ∃ d' r, d.receive m = .ok (d', [r]) ∧
        (∀ q, q ∈ (d'.scopes dest.scope).enabled ↔ q ∈ (d.scopes dest.scope).enabled ∨ q = p) ∧
        (∀ q, q ∈ (d'.scopes dest.scope).disabled ↔ q ∈ (d.scopes dest.scope).disabled ∧ q ≠ p) ∧
        (∀ s, s ≠ dest.scope → d'.scopes s = d.scopes s) ∧
        UniversalSysex.View.subtype r = .ok 0x24 ∧ View.destinationMuid r = .ok 0x0FFFFFFF ∧
        ProfileIdView.profile r = .ok p ∧ ProfileDestinationView.params r = .ok dest) := by
  obtain ⟨m, e, h, hr, hc, hpar⟩ := C40_profile_on me d.muid p dest hme hd.muid hp hs hn
  obtain ⟨v1, -, -, v2, v3⟩ := heard_views h
  have key : d.receive m = d.enable p dest := by
    obtain ⟨-, -, hc, -⟩ := h
    unfold ProfileDevice.receive
    rw [v1, v2, v3, if_neg (by simp), if_pos (by simp)]
    simp only [ok_bind, hc.2.2.2.2.1, hc.2.2.2.2.2.2.2.1, if_true, hr, hpar]
  refine ⟨m, e, h.2.2.1.1, fun hp => ?_, fun hp => ?_⟩
  · rw [key]
    unfold ProfileDevice.enable
    rw [if_neg (by rw [hasProfile_iff]; exact hp)]
    rfl
  · obtain ⟨r, e', h', hr', hc', hpar'⟩ := C40_profile_enabled d.muid everybody p dest hd.muid everybody28 ‹_› hs hn
    rw [key]
    unfold ProfileDevice.enable ProfileLists.enable
    rw [if_pos ((hasProfile_iff _ _).2 hp), if_pos ((hasProfile_iff _ _).2 hp), e']
    refine ⟨_, r, rfl, fun q => ?_, fun q => ?_, fun s hs => ?_, h'.2.2.1.2.2.2.2.1, h'.2.2.1.2.2.2.2.2.2.2.1, hr', hpar'⟩
    · simp only [ProfileDevice.set, if_true, List.mem_append, List.mem_singleton]
    · simp only [ProfileDevice.set, if_true, mem_without]
    · simp only [ProfileDevice.set, if_neg hs]

/-- C104: somebody asks a device to turn off a profile. If it is enabled in this scope then it is disabled now, all other
profiles and scopes are as before, and everybody is told, with zero channels (the request does not carry the number given); otherwise
nothing happens. -/
theorem C104_turn_off (d : ProfileDevice) (hd : d.Good) (me : Word) (hme : U28 me) (p : ProfileId) (hp : Seven p.bytes)
    (dest : ProfileDestination) (hs : U7 dest.scope) :
    ∃ m, makeProfileOff me d.muid p dest = .ok m ∧ m.isValid = true ∧
      (p ∉ (d.scopes dest.scope).enabled → d.receive m = .ok (d, [])) ∧
      (p ∈ (d.scopes dest.scope).enabled → ∃ d' r, d.receive m = .ok (d', [r]) ∧
        (∀ q, q ∈ (d'.scopes dest.scope).enabled ↔ q ∈ (d.scopes dest.scope).enabled ∧ q ≠ p) ∧
        (∀ q, q ∈ (d'.scopes dest.scope).disabled ↔ q ∈ (d.scopes dest.scope).disabled ∨ q = p) ∧
        (∀ s, s ≠ dest.scope → d'.scopes s = d.scopes s) ∧
        UniversalSysex.View.subtype r = .ok 0x25 ∧ View.destinationMuid r = .ok 0x0FFFFFFF ∧
        ProfileIdView.profile r = .ok p ∧ ProfileDestinationView.params r = .ok ⟨dest.scope, 0⟩) := by
  obtain ⟨m, e, h, hr, hc, hpar⟩ := C40_profile_off me d.muid p dest hme hd.muid hp hs
  obtain ⟨v1, -, -, v2, v3⟩ := heard_views h
  have key : d.receive m = d.disable p ⟨dest.scope, 0⟩ := by
    obtain ⟨-, -, hc, -⟩ := h
    unfold ProfileDevice.receive
    rw [v1, v2, v3, if_neg (by simp), if_pos (by simp)]
    simp only [ok_bind, hc.2.2.2.2.1, hc.2.2.2.2.2.2.2.1, if_true, hr, hpar]
    rfl
  refine ⟨m, e, h.2.2.1.1, fun hp => ?_, fun hp => ?_⟩
  · rw [key]
    unfold ProfileDevice.disable
    rw [if_neg (by rw [hasProfile_iff]; exact hp)]
    rfl
  · obtain ⟨r, e', h', hr', hc', hpar'⟩ := C40_profile_disabled d.muid everybody p ⟨dest.scope, 0⟩ hd.muid everybody28 ‹_› hs
      (show U14 0 by decide)
    rw [key]
    unfold ProfileDevice.disable ProfileLists.disable
    dsimp only
    rw [if_pos ((hasProfile_iff _ _).2 hp), if_pos ((hasProfile_iff _ _).2 hp), e']
    refine ⟨_, r, rfl, fun q => ?_, fun q => ?_, fun s hs => ?_, h'.2.2.1.2.2.2.2.1, h'.2.2.1.2.2.2.2.2.2.2.1, hr', hpar'⟩
    · simp only [ProfileDevice.set, if_true, mem_without]
    · simp only [ProfileDevice.set, if_true, List.mem_append, List.mem_singleton]
    · simp only [ProfileDevice.set, if_neg hs]

/-- C104: any number of devices with different MUIDs, and anything happening: messages of any kind received by any of them, their
users enabling, disabling, adding and removing profiles, messages from others which do not pretend to be one of the devices. A client
which hears all that is sent never fails, no device fails, and all the client knows about the devices is right at every time. -/
theorem C104_never_wrong (me : Word) (ds : List ProfileDevice) (hg : ∀ d ∈ ds, d.Good) (hn : (ds.map (·.muid)).Nodup)
    (k : KnownProfiles) (hk : ∀ d ∈ ds, KnowsRight k d) (es : List NetEvent) (hes : ∀ e ∈ es, e.Ok ds) :
    ∃ ds' k', netRun me ds k es = .ok (ds', k') ∧ ds'.map (·.muid) = ds.map (·.muid) ∧ ∀ d ∈ ds', d.Good ∧ KnowsRight k' d := by
  obtain ⟨ds', k', e, h, hm, -⟩ := netRun_ok me es (fun d hd => ⟨hg d hd, hk d hd⟩) hn hes
  exact ⟨ds', k', e, hm, h⟩

/-- C104: and it knows the profiles of every device and scope it has asked for: if anywhere in the history the client's inquiry
reached the device, then from then on the client's list is at every time exactly the device's. -/
theorem C104_knows (me : Word) (hme : U28 me) (ds : List ProfileDevice) (hg : ∀ d ∈ ds, d.Good) (hn : (ds.map (·.muid)).Nodup)
    (k : KnownProfiles) (hk : ∀ d ∈ ds, KnowsRight k d) (before after : List NetEvent) (i : Nat) (hi : i < ds.length) (scope : Byte)
    (hs : U7 scope) (hb : ∀ e ∈ before, e.Ok ds) (ha : ∀ e ∈ after, e.Ok ds) :
    ∃ m ds' k' d', makeProfileInquiry me ds[i].muid scope = .ok m ∧
      netRun me ds k (before ++ .at i (.receive m) :: after) = .ok (ds', k') ∧ ds'[i]? = some d' ∧ d'.muid = ds[i].muid ∧
      k' d'.muid scope = some (d'.scopes scope) := by
  obtain ⟨ds1, k1, e1, h1, m1, -⟩ := netRun_ok me before (fun d hd => ⟨hg d hd, hk d hd⟩) hn hb
  have hl1 : ds1.length = ds.length := by simpa using congrArg List.length m1
  have hi1 : i < ds1.length := by omega
  have hmu : ds1[i].muid = ds[i].muid := by
    have := List.getElem_of_eq m1 (i := i) (by simpa using hi1)
    simpa using this
  obtain ⟨m, r, k2, q1, q2, q3, q4, q5, q6⟩ := C104_inquiry ds1[i] (h1 _ (List.getElem_mem hi1)).1 me hme scope hs k1
  have e2 : netStep me ds1 k1 (.at i (.receive m)) = .ok (ds1, k2) := by
    simp only [netStep, List.getElem?_eq_getElem hi1, ProfileDevice.step, q3, ok_bind, hearAll_one, q4, List.set_getElem_self]
    rfl
  have hn1 : (ds1.map (·.muid)).Nodup := by rw [m1]; exact hn
  obtain ⟨ds2, k2', e2', h2, m2, -⟩ := netStep_ok me h1 hn1 (.at i (.receive m)) (show m.isValid = true from q2)
  rw [e2] at e2'
  obtain ⟨rfl, rfl⟩ := Prod.mk.inj (Except.ok.inj e2')
  obtain ⟨ds3, k3, e3, h3, m3, n3⟩ := netRun_ok me after h2 hn1 fun x hx => netEvent_ok m1 (ha x hx)
  have hl3 : ds3.length = ds.length := by simpa [hl1] using congrArg List.length m3
  have hi3 : i < ds3.length := by omega
  have hmu3 : ds3[i].muid = ds1[i].muid := by
    have := List.getElem_of_eq m3 (i := i) (by simpa using hi3)
    simpa using this
  refine ⟨m, ds3, k3, ds3[i], by rw [← hmu]; exact q1, ?_, List.getElem?_eq_getElem hi3, hmu3.trans hmu, ?_⟩
  · rw [netRun_append, e1]
    change netRun me ds1 k1 (.at i (.receive m) :: after) = _
    unfold netRun
    rw [e2]
    exact e3
  · have hne : k3 ds3[i].muid scope ≠ none := n3 _ _ (by rw [hmu3, q5]; simp)
    obtain ⟨l, hl⟩ := Option.ne_none_iff_exists'.1 hne
    rw [hl, (h3 _ (List.getElem_mem hi3)).2 scope l hl]

/-! A device with two profiles in scope 7F (hexadecimal) and one on channel 3. -/

def exampleProfiles : ProfileDevice :=
  ⟨0x1234567, fun s => if s = 0x7F then ⟨[⟨0x7E, 1, 0, 1, 2⟩], [⟨0x7E, 2, 0, 1, 1⟩]⟩
    else if s = 3 then ⟨[], [⟨0x00, 0x21, 0x09, 4, 5⟩]⟩ else ⟨[], []⟩⟩

theorem exampleProfiles_good : exampleProfiles.Good := by
  refine ⟨by decide, fun s => ?_⟩
  unfold exampleProfiles
  dsimp only
  split
  · exact ⟨by decide, by decide, by decide⟩
  · split
    · exact ⟨by decide, by decide, by decide⟩
    · exact ⟨by decide, by decide, by decide⟩

example := C104_device exampleProfiles exampleProfiles_good (.disable ⟨0x7E, 1, 0, 1, 2⟩ ⟨0x7F, 0⟩) ⟨by decide, by decide⟩

example := C104_device exampleProfiles exampleProfiles_good (.receive ⟨0x7E0000, [3, 0x0D, 0x22, 2, 0x67, 0x0A, 0x0D, 9, 0x67, 0x0A, 0x0D, 9,
  0x00, 0x21, 0x09, 4, 5, 1, 0]⟩) (show Sysex.isValid _ = true by decide)

example := C104_client 0x0765432 (fun _ _ => none) ⟨0x7E0000, [3, 0x0D, 0xFF, 0xFF]⟩

example := C104_inquiry exampleProfiles exampleProfiles_good 0x0765432 (by decide) 0x7F (by decide) fun _ _ => none

example := C104_turn_on exampleProfiles exampleProfiles_good 0x0765432 (by decide) ⟨0x7E, 2, 0, 1, 1⟩ (by decide) ⟨0x7F, 3⟩ (by decide)
  (by decide)

example : (⟨0x7E, 2, 0, 1, 1⟩ : ProfileId) ∈ (exampleProfiles.scopes 0x7F).disabled := by decide

example := C104_turn_off exampleProfiles exampleProfiles_good 0x0765432 (by decide) ⟨0x7E, 1, 0, 1, 2⟩ (by decide) ⟨0x7F, 3⟩ (by decide)

example : (⟨0x7E, 1, 0, 1, 2⟩ : ProfileId) ∈ (exampleProfiles.scopes 0x7F).enabled := by decide

/-- Two devices, a change by a user, and a message from somebody else. -/
def exampleHistory : List NetEvent :=
  [.at 0 (.enable ⟨0x7E, 2, 0, 1, 1⟩ ⟨0x7F, 1⟩), .other ⟨0x7E0000, [3, 0x0D, 0x24, 2, 1, 1, 1, 1, 0x7F, 0x7F, 0x7F, 0x7F, 0, 1, 2, 3, 4, 0, 0]⟩,
    .at 1 (.add ⟨0x7E, 2, 0, 1, 1⟩ 4)]

theorem exampleHistory_ok : ∀ e ∈ exampleHistory, e.Ok [exampleProfiles, { exampleProfiles with muid := 5 }] := by
  intro e he
  simp only [exampleHistory, List.mem_cons, List.not_mem_nil, or_false] at he
  rcases he with rfl | rfl | rfl
  · exact ⟨by decide, by decide⟩
  · intro d hd
    simp only [List.mem_cons, List.not_mem_nil, or_false] at hd
    rcases hd with rfl | rfl
    · exact fun h => absurd (Except.ok.inj h) (by decide)
    · exact fun h => absurd (Except.ok.inj h) (by decide)
  · exact ⟨by decide, by decide⟩

theorem exampleNet_good : ∀ d ∈ [exampleProfiles, { exampleProfiles with muid := 5 }], d.Good := by
  intro d hd
  simp only [List.mem_cons, List.not_mem_nil, or_false] at hd
  rcases hd with rfl | rfl
  · exact exampleProfiles_good
  · exact ⟨by decide, exampleProfiles_good.lists⟩

example := C104_never_wrong 0x0765432 [exampleProfiles, { exampleProfiles with muid := 5 }] exampleNet_good (by decide) (fun _ _ => none)
  (fun _ _ _ _ h => absurd h (by simp)) exampleHistory exampleHistory_ok

example := C104_knows 0x0765432 (by decide) [exampleProfiles, { exampleProfiles with muid := 5 }] exampleNet_good (by decide)
  (fun _ _ => none) (fun _ _ _ _ h => absurd h (by simp)) exampleHistory exampleHistory 1 (by decide) 0x7F (by decide) exampleHistory_ok
  exampleHistory_ok

end Midi

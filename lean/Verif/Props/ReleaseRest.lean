import Verif.Model.ReleaseRest
import Verif.Props.Release
import Verif.Props.Scaling
import Verif.Props.PropertyExchange
import Verif.Props.Jitter

/-!
# C92: builds without assertions: scaling, clock follower, lists of profiles, property data
-/

namespace Midi
open Spec UniversalSysex CI

namespace Spec

/-- A profile id with the upper bit of every byte cleared. -/
def cut7 (p : ProfileId) : ProfileId := ⟨p.b1 &&& 0x7F, p.b2 &&& 0x7F, p.b3 &&& 0x7F, p.b4 &&& 0x7F, p.b5 &&& 0x7F⟩

end Spec

/-! ## Scaling -/

/-- C92: for the bit depths the assertion allows, `upsample_x_to_ybit` does not depend on the kind of build. -/
theorem C92_upsample_same (v : Word) (x y : Nat) (h1 : 1 < x) (h2 : x < y) (h3 : y ≤ 32) :
    Release.upsampleXtoY v x y = upsampleXtoY v x y := by
  unfold Release.upsampleXtoY upsampleXtoY
  have e : (256 + y - x) % 256 = y - x := by omega
  rw [assert_ok (by simp; omega)]
  simp only [ok_bind, e]
  rw [if_neg (by omega), if_neg (by omega), if_neg (show ¬ x - 1 = 31 by omega)]

example := C92_upsample_same 0x5A 7 16 (by decide) (by decide) (by decide)

theorem repeatLoop_zero (n k : Nat) (r : Word) : repeatLoop n k r 0 = r := by
  cases n <;> simp [repeatLoop]

/-- C92: the bit depths and values for which `upsample_x_to_ybit` is defined in a build without assertions. -/
theorem C92_upsample_defined_iff (v : Word) (x y : Nat) (hx : x < 256) (hy : y < 256) :
    (∃ r, Release.upsampleXtoY v x y = .ok r) ↔
      1 ≤ x ∧ x ≤ 32 ∧ x ≤ y ∧ y < x + 32 ∧ (x = 32 → v.toNat ≤ 2 ^ 31) := by
  unfold Release.upsampleXtoY
  by_cases c1 : x = 0 ∨ 32 < x
  · simp only [if_pos c1]
    constructor
    · rintro ⟨r, h⟩; cases h
    · omega
  · simp only [if_neg c1]
    by_cases c2 : 31 < (256 + y - x) % 256
    · simp only [if_pos c2]
      constructor
      · rintro ⟨r, h⟩; cases h
      · omega
    · simp only [if_neg c2]
      by_cases c3 : v ≤ (1 : Word) <<< (x - 1)
      · simp only [if_pos c3]
        have := (le_center_iff v x (by omega)).1 c3
        constructor
        · intro _
          refine ⟨by omega, by omega, by omega, by omega, fun h => ?_⟩
          subst h; exact this
        · intro _; exact ⟨_, rfl⟩
      · simp only [if_neg c3]
        have c3' := mt (le_center_iff v x (by omega)).2 c3
        by_cases c4 : x - 1 = 31
        · simp only [if_pos c4]
          constructor
          · rintro ⟨r, h⟩; cases h
          · rintro ⟨-, -, -, -, h⟩
            rw [c4] at c3'
            exact absurd (h (by omega)) c3'
        · simp only [if_neg c4]
          constructor
          · intro _; exact ⟨by omega, by omega, by omega, by omega, by omega⟩
          · intro _; exact ⟨_, rfl⟩

example := C92_upsample_defined_iff 0x5A 7 33 (by decide) (by decide)

/-- C92: scaling to the same bit depth, which the assertion excludes, returns the value. -/
theorem C92_upsample_equal_depth (v : Word) (x : Nat) (h1 : 1 ≤ x) (h2 : x ≤ 32) (h3 : x = 32 → v.toNat ≤ 2 ^ 31) :
    Release.upsampleXtoY v x x = .ok v := by
  unfold Release.upsampleXtoY
  have e : (256 + x - x) % 256 = 0 := by omega
  simp only [e]
  rw [if_neg (by omega), if_neg (by omega)]
  by_cases c3 : v ≤ (1 : Word) <<< (x - 1)
  · rw [if_pos c3, BitVec.shiftLeft_zero]; rfl
  · rw [if_neg c3]
    have c3' := mt (le_center_iff v x (by omega)).2 c3
    have c4 : ¬ x - 1 = 31 := by
      intro h; rw [h] at c3'; exact c3' (h3 (by omega))
    rw [if_neg c4, if_neg (by omega)]
    have z : (v &&& ((1 : Word) <<< (x - 1) - 1)) >>> (x - 1 - 0) = 0 := by
      apply BitVec.eq_of_toNat_eq
      have hp : (2 : Nat) ^ (x - 1) < 2 ^ 32 := Nat.pow_lt_pow_right (by omega) (by omega)
      have hq : 0 < (2 : Nat) ^ (x - 1) := Nat.two_pow_pos _
      rw [BitVec.toNat_ushiftRight, BitVec.toNat_and, BitVec.toNat_sub, BitVec.toNat_shiftLeft,
        show (1 : Word).toNat = 1 from rfl, Nat.shiftLeft_eq, Nat.one_mul, Nat.mod_eq_of_lt hp, Nat.shiftRight_eq_div_pow,
        show (2 ^ 32 - 1 + 2 ^ (x - 1)) % 2 ^ 32 = 2 ^ (x - 1) - 1 by omega, Nat.and_two_pow_sub_one_eq_mod, Nat.sub_zero]
      exact Nat.div_eq_of_lt (Nat.mod_lt _ hq)
    rw [z, repeatLoop_zero, BitVec.shiftLeft_zero]
    rfl

/-- C92: scaling from one bit, which the assertion excludes, is a shift: the largest value becomes the centre. -/
theorem C92_upsample_one_bit (v : Word) (y : Nat) (h1 : 1 ≤ y) (h2 : y ≤ 32) :
    Release.upsampleXtoY v 1 y = .ok (v <<< (y - 1)) := by
  unfold Release.upsampleXtoY
  have e : (256 + y - 1) % 256 = y - 1 := by omega
  simp only [e]
  rw [if_neg (by omega), if_neg (by omega)]
  split
  · rfl
  · rw [if_neg (by omega)]
    have z : v &&& ((1 : Word) <<< (1 - 1) - 1) = 0#32 := by simp
    rw [z, BitVec.zero_shiftLeft, BitVec.zero_ushiftRight, ite_self]
    exact congrArg _ (repeatLoop_zero _ _ _)

example : Release.upsampleXtoY 1 1 7 = .ok 0x40 ∧ Release.upsampleXtoY 0x7F 7 16 = .ok 0xFFFF ∧
    Release.upsampleXtoY 5 8 7 = .error .badShift := by decide +kernel

/-! ## Payload bytes of sysex packets -/

/-- C92: storing a byte in the payload of a sysex7 packet changes this byte only. Positions behind the packet, where an assertion
fails otherwise, are ignored. -/
theorem C92_set_payload_byte7 (p : Packet) (i : Nat) (v : Byte) :
    (i < 14 → sysex7SetPayloadByte p i v = .ok (Release.sysex7SetPayloadByte p i v)) ∧
    (14 ≤ i → Release.sysex7SetPayloadByte p i v = p) ∧
    ∀ b, b < 16 → (Release.sysex7SetPayloadByte p i v).byteAt b = if b = 2 + i then v &&& 0x7F else p.byteAt b := by
  refine ⟨fun h => ?_, fun h => ?_, fun b hb => ?_⟩
  · exact Release.setByte7_eq_ok _ (by omega) _
  · unfold Release.sysex7SetPayloadByte Release.setByte7 Release.setByte
    rw [if_neg (by omega)]
  · exact Release.byteAt_setByte7 _ hb _

/-- C92: the same for sysex8 packets. -/
theorem C92_set_payload_byte8 (p : Packet) (i : Nat) (v : Byte) :
    (i < 13 → sysex8SetPayloadByte p i v = .ok (Release.sysex8SetPayloadByte p i v)) ∧
    (13 ≤ i → Release.sysex8SetPayloadByte p i v = p) ∧
    ∀ b, b < 16 → (Release.sysex8SetPayloadByte p i v).byteAt b = if b = 3 + i then v else p.byteAt b := by
  refine ⟨fun h => ?_, fun h => ?_, fun b hb => ?_⟩
  · exact Release.setByte_eq_ok _ (by omega) _
  · unfold Release.sysex8SetPayloadByte Release.setByte
    rw [if_neg (by omega)]
  · exact Release.byteAt_setByte _ hb _

example : (Release.sysex7SetPayloadByte ⟨0x30160102, 0, 0, 0⟩ 2 0x95).byteAt 4 = 0x15 ∧
    Release.sysex7SetPayloadByte ⟨0x30160102, 0, 0, 0⟩ 20 0x95 = ⟨0x30160102, 0, 0, 0⟩ := by decide +kernel

/-! ## The clock follower -/

namespace Jr

/-- C92: as long as no negative offset is set, the clock follower does not depend on the kind of build. -/
theorem C92_follower_same (calls : List Call) (h : ∀ o, Call.setOffset o ∈ calls → 0 ≤ o) (s : Follower) :
    Release.followAll s calls = s.run calls := by
  induction calls generalizing s with
  | nil => rfl
  | cons c cs ih =>
    have e : Release.follow s c = s.call c := by
      cases c with
      | setOffset o =>
        show Except.ok _ = (s.setSecurityOffset o >>= fun t => Except.ok (t, []))
        unfold Follower.setSecurityOffset
        rw [assert_ok (by rw [decide_eq_true_eq]; exact h o (by simp))]
        rfl
      | _ => rfl
    unfold Release.followAll Follower.run
    rw [e]
    cases s.call c with
    | error f => rfl
    | ok r =>
      obtain ⟨t, o⟩ := r
      rw [ok_bind, ok_bind]
      dsimp only
      rw [ih (fun o ho => h o (by simp [ho]))]

/-- The offset of a state does not influence the other members when messages are scheduled. -/
theorem schedule_offset (s : Follower) (o : Int) (r : Int) (ts : U16) (a b : Follower) (x y : Int)
    (h0 : ({ s with securityOffset := 0 } : Follower).scheduleMessage r ts = .ok (a, x))
    (h1 : ({ s with securityOffset := o } : Follower).scheduleMessage r ts = .ok (b, y)) :
    b = { a with securityOffset := o } ∧ a.securityOffset = 0 ∧ y = x + o := by
  unfold Follower.scheduleMessage at h0 h1
  have chk : ∀ {u v : Int}, chk64 u = .ok v → v = u := by
    intro u v h
    unfold chk64 at h
    split at h
    · injection h with h; exact h.symm
    · cases h
  by_cases hc : s.clockTime ≠ s.zero
  · simp only [if_pos hc] at h0 h1
    obtain ⟨t, ht, h0⟩ := Release.bind_ok_split h0
    rw [show chk64 (s.clockTime + ticksToNs (ticksBetween ts s.clockTs)) = .ok t from ht] at h1
    rw [ok_bind] at h1
    by_cases hm : s.messageTime < t
    · simp only [if_pos hm] at h0 h1
      obtain ⟨u, hu, h0⟩ := Release.bind_ok_split h0
      obtain ⟨w, hw, h1⟩ := Release.bind_ok_split h1
      have hu := chk hu
      have hw := chk hw
      cases h0; cases h1
      refine ⟨rfl, rfl, ?_⟩
      try dsimp only at hu hw ⊢
      omega
    · simp only [if_neg hm] at h0 h1
      obtain ⟨u, hu, h0⟩ := Release.bind_ok_split h0
      obtain ⟨w, hw, h1⟩ := Release.bind_ok_split h1
      have hu := chk hu
      have hw := chk hw
      cases h0; cases h1
      refine ⟨rfl, rfl, ?_⟩
      try dsimp only at hu hw ⊢
      omega
  · simp only [if_neg hc] at h0 h1
    obtain ⟨u, hu, h0⟩ := Release.bind_ok_split h0
    obtain ⟨w, hw, h1⟩ := Release.bind_ok_split h1
    have hu := chk hu
    have hw := chk hw
    cases h0; cases h1
    refine ⟨rfl, rfl, ?_⟩
    try dsimp only at hu hw ⊢
    omega

/-- C92: in a build without assertions any offset can be set, negative ones included: messages are then scheduled by that amount
after, or before, the time they have with the offset 0. -/
theorem C92_follower_any_offset (s : Follower) (o : Int) (messages : List (Int × U16)) (a b : Follower) (outs outs' : List Int)
    (h0 : Release.followAll s (.setOffset 0 :: messages.map (fun m => .schedule m.1 m.2)) = .ok (a, outs))
    (h1 : Release.followAll s (.setOffset o :: messages.map (fun m => .schedule m.1 m.2)) = .ok (b, outs')) :
    outs' = outs.map (· + o) ∧ b.securityOffset = o := by
  have key : ∀ (messages : List (Int × U16)) (s a b : Follower) (outs outs' : List Int),
      Release.followAll { s with securityOffset := 0 } (messages.map (fun m => .schedule m.1 m.2)) = .ok (a, outs) →
      Release.followAll { s with securityOffset := o } (messages.map (fun m => .schedule m.1 m.2)) = .ok (b, outs') →
      outs' = outs.map (· + o) ∧ b.securityOffset = o := by
    intro messages
    induction messages with
    | nil =>
      intro s a b outs outs' h0 h1
      cases h0; cases h1
      exact ⟨rfl, rfl⟩
    | cons m ms ih =>
      intro s a b outs outs' h0 h1
      rw [List.map_cons] at h0 h1
      unfold Release.followAll Release.follow Follower.call at h0 h1
      obtain ⟨⟨s0, x⟩, hx, h0⟩ := Release.bind_ok_split h0
      obtain ⟨⟨s1, y⟩, hy, h1⟩ := Release.bind_ok_split h1
      obtain ⟨⟨s0', x'⟩, hx', hx⟩ := Release.bind_ok_split hx
      obtain ⟨⟨s1', y'⟩, hy', hy⟩ := Release.bind_ok_split hy
      cases hx; cases hy
      obtain ⟨e1, e2, e3⟩ := schedule_offset s o _ _ _ _ _ _ hx' hy'
      obtain ⟨⟨s2, xs⟩, hxs, h0⟩ := Release.bind_ok_split h0
      obtain ⟨⟨s3, ys⟩, hys, h1⟩ := Release.bind_ok_split h1
      cases h0; cases h1
      have e4 : s0 = { s0 with securityOffset := 0 } := by rw [← e2]
      rw [e4] at hxs
      rw [e1] at hys
      obtain ⟨f1, f2⟩ := ih s0 _ _ _ _ hxs hys
      refine ⟨?_, f2⟩
      rw [f1, e3]
      simp
  unfold Release.followAll at h0 h1
  obtain ⟨⟨s2, x⟩, hx, h0⟩ := Release.bind_ok_split h0
  obtain ⟨⟨s3, y⟩, hy, h1⟩ := Release.bind_ok_split h1
  cases hx; cases hy
  obtain ⟨⟨s4, xs⟩, hxs, h0⟩ := Release.bind_ok_split h0
  obtain ⟨⟨s5, ys⟩, hys, h1⟩ := Release.bind_ok_split h1
  cases h0; cases h1
  exact key messages s _ _ _ _ hxs hys

/-- With the offset -5 ms a message is scheduled before it was received. -/
example : Release.followAll (Follower.init 0) [.clock 100 7, .setOffset (-5000000), .schedule 1000 8]
    = .ok (⟨0, 7, 100, 32100, 0, -5000000⟩, [-4967900]) := by decide +kernel

end Jr

/-! ## Lists of profiles -/

namespace CI

theorem le7_mod (n : Nat) : le7 2 (n % 16384) = le7 2 n := by
  show [BitVec.ofNat 8 (n % 16384 % 128), BitVec.ofNat 8 (n % 16384 / 128 % 128)] =
    [BitVec.ofNat 8 (n % 128), BitVec.ofNat 8 (n / 128 % 128)]
  rw [show n % 16384 % 128 = n % 128 by omega, show n % 16384 / 128 % 128 = n / 128 % 128 by omega]

theorem le7_wrap (n : Nat) : le7 2 (BitVec.ofNat 16 n).toNat = le7 2 n := by
  rw [← le7_mod, ← le7_mod n, BitVec.toNat_ofNat]
  congr 1
  omega

theorem rel_payload (st : Byte) (src dst : Word) (dev : Byte) :
    Release.makeWithPayload st src dst dev = msg 2 st dev src dst [] := by
  have h := makeWithPayload_eq st src dst dev
  have e : (⟨universalNonRealtime, []⟩ : Sysex).addData (headerBytes st src dst dev) = .ok (msg 2 st dev src dst []) := h
  rw [((C87_sysex7_add _ 0 0 0 (headerBytes st src dst dev)).2.2.2.2.2 (by simp [headerBytes]))] at e
  injection e

theorem rel_add7 {v st dev : Byte} {src dst : Word} (r : List Byte) (b : Byte) :
    Release.addUint7 (msg v st dev src dst r) b = msg v st dev src dst (r ++ [b &&& 0x7F]) := by
  simp [Release.addUint7, msg]

theorem rel_add14 {v st dev : Byte} {src dst : Word} (r : List Byte) (w : U16) :
    Release.addUint14 (msg v st dev src dst r) w = msg v st dev src dst (r ++ le7 2 w.toNat) := by
  rw [← b14_eq]
  simp [Release.addUint14, msg]

theorem rel_addProfiles {v st dev : Byte} {src dst : Word} (n : Nat) (ps : List ProfileId) (r : List Byte) :
    Release.addProfiles (msg v st dev src dst r) n ps =
      if n ≤ ps.length then .ok (msg v st dev src dst (r ++ Spec.profileBytes ((ps.take n).map cut7))) else .error .outOfBounds := by
  induction n generalizing ps r with
  | zero => simp [Release.addProfiles, Spec.profileBytes]
  | succ n ih =>
    cases ps with
    | nil => simp [Release.addProfiles]
    | cons p ps =>
      unfold Release.addProfiles Release.addProfile
      simp only [rel_add7, ih, List.length_cons, Nat.add_le_add_iff_right]
      simp only [List.take_succ_cons, List.map_cons, Spec.profileBytes, List.flatMap_cons, List.append_assoc, cut7,
        ProfileId.bytes, List.cons_append, List.nil_append]

/-- C92: the profile inquiry reply made in a build without assertions: any number of profiles is written, with the number itself cut
to 14 bit and the bytes of the profiles to 7 bit. -/
theorem C92_profile_reply (source dest : Word) (enabled : List ProfileId) (numEnabled : U16)
    (disabled : List ProfileId) (numDisabled : U16) (deviceId : Byte) :
    Release.makeProfileInquiryReplyN source dest enabled numEnabled disabled numDisabled deviceId =
      if numEnabled.toNat ≤ enabled.length ∧ numDisabled.toNat ≤ disabled.length then
        .ok ⟨0x7E0000, ciHeader 2 0x21 deviceId source dest ++
          (le7 2 numEnabled.toNat ++ (Spec.profileBytes ((enabled.take numEnabled.toNat).map cut7) ++
          (le7 2 numDisabled.toNat ++ Spec.profileBytes ((disabled.take numDisabled.toNat).map cut7))))⟩
      else .error .outOfBounds := by
  unfold Release.makeProfileInquiryReplyN
  rw [rel_payload, rel_add14, rel_addProfiles]
  by_cases h1 : numEnabled.toNat ≤ enabled.length
  · rw [if_pos h1, ok_bind, rel_add14, rel_addProfiles]
    by_cases h2 : numDisabled.toNat ≤ disabled.length
    · rw [if_pos h2, if_pos ⟨h1, h2⟩]
      simp only [msg, List.nil_append, List.append_assoc]
      rfl
    · rw [if_neg h2, if_neg (fun h => h2 h.2)]
  · rw [if_neg h1, if_neg (fun h => h1 h.1)]
    rfl

/-- C92: a profile inquiry reply that can be made in a build with assertions is the same without. -/
theorem C92_profile_reply_same (source dest : Word) (enabled disabled : List ProfileId) (numEnabled numDisabled : U16)
    (deviceId : Byte) (m : Sysex)
    (h : makeProfileInquiryReplyN source dest enabled numEnabled disabled numDisabled deviceId = .ok m) :
    Release.makeProfileInquiryReplyN source dest enabled numEnabled disabled numDisabled deviceId = .ok m := by
  have a7 : ∀ {s t : Sysex} {b : Byte}, s.addUint7 b = .ok t → Release.addUint7 s b = t := by
    intro s t b h
    unfold Sysex.addUint7 at h
    obtain ⟨_, _, h⟩ := Release.bind_ok_split h
    injection h
  have a14 : ∀ {s t : Sysex} {b : U16}, s.addUint14 b = .ok t → Release.addUint14 s b = t := by
    intro s t b h
    unfold Sysex.addUint14 at h
    obtain ⟨_, _, h⟩ := Release.bind_ok_split h
    injection h
  have ap : ∀ (n : Nat) (ps : List ProfileId) {s t : Sysex}, addProfiles s n ps = .ok t → Release.addProfiles s n ps = .ok t := by
    intro n
    induction n with
    | zero => intro ps s t h; exact h
    | succ n ih =>
      intro ps s t h
      cases ps with
      | nil => cases h
      | cons p ps =>
        unfold addProfiles addProfile at h
        obtain ⟨u, h1, h⟩ := Release.bind_ok_split h
        obtain ⟨u1, g1, h1⟩ := Release.bind_ok_split h1
        obtain ⟨u2, g2, h1⟩ := Release.bind_ok_split h1
        obtain ⟨u3, g3, h1⟩ := Release.bind_ok_split h1
        obtain ⟨u4, g4, h1⟩ := Release.bind_ok_split h1
        unfold Release.addProfiles Release.addProfile
        rw [a7 g1, a7 g2, a7 g3, a7 g4, a7 h1]
        exact ih ps h
  unfold makeProfileInquiryReplyN at h
  obtain ⟨_, _, h⟩ := Release.bind_ok_split h
  obtain ⟨_, _, h⟩ := Release.bind_ok_split h
  obtain ⟨s1, h1, h⟩ := Release.bind_ok_split h
  obtain ⟨s2, h2, h⟩ := Release.bind_ok_split h
  obtain ⟨s3, h3, h⟩ := Release.bind_ok_split h
  obtain ⟨s4, h4, h5⟩ := Release.bind_ok_split h
  rw [makeWithPayload_eq] at h1
  injection h1 with h1
  subst h1
  unfold Release.makeProfileInquiryReplyN
  rw [rel_payload, a14 h2, ap _ _ h3, ok_bind, a14 h4, ap _ _ h5]

/-- C92: what the view returns for a profile inquiry reply made in a build without assertions. The profiles announced as enabled are
the first ones, as many as the number cut to 14 bit says. If fewer than 16384 profiles are enabled, the message is accepted and the
disabled ones are found as well. -/
theorem C92_profile_reply_read (source dest : Word) (enabled : List ProfileId) (numEnabled : U16)
    (disabled : List ProfileId) (numDisabled : U16) (deviceId : Byte) (m : Sysex)
    (h : Release.makeProfileInquiryReplyN source dest enabled numEnabled disabled numDisabled deviceId = .ok m) :
    ProfileInquiryReplyView.numEnabled m = .ok (numEnabled &&& 0x3FFF) ∧
    ProfileInquiryReplyView.enabled m = .ok ((enabled.take (numEnabled.toNat % 16384)).map cut7) ∧
    (numEnabled.toNat < 16384 →
      ProfileInquiryReplyView.validate m = .ok true ∧
      ProfileInquiryReplyView.numDisabled m = .ok (numDisabled &&& 0x3FFF) ∧
      ProfileInquiryReplyView.disabled m = .ok ((disabled.take (numDisabled.toNat % 16384)).map cut7)) := by
  rw [C92_profile_reply] at h
  split at h
  case isFalse => cases h
  case isTrue hle =>
  injection h with h
  obtain ⟨hle1, hle2⟩ := hle
  have e14 : ∀ w : U16, (w &&& 0x3FFF).toNat = w.toNat % 16384 := by
    intro w
    rw [BitVec.toNat_and, show (0x3FFF : U16).toNat = 2 ^ 14 - 1 from rfl, Nat.and_two_pow_sub_one_eq_mod]
  generalize hE : (enabled.take numEnabled.toNat).map cut7 = E at h
  generalize hD : (disabled.take numDisabled.toNat).map cut7 = D at h
  have lE : E.length = numEnabled.toNat := by rw [← hE, List.length_map, List.length_take]; omega
  have lD : D.length = numDisabled.toNat := by rw [← hD, List.length_map, List.length_take]; omega
  have dr12 : m.data.drop 12 = le7 2 numEnabled.toNat ++ (Spec.profileBytes E ++
      (le7 2 numDisabled.toNat ++ Spec.profileBytes D)) := by rw [← h]; rfl
  have hlen : m.data.length = 16 + 5 * E.length + 5 * D.length := by
    rw [← h]
    simp only [List.length_append, le7_length, profileBytes_length, ciHeader_length]
    omega
  have split : ∀ (P : List ProfileId) (n : Nat), Spec.profileBytes P =
      Spec.profileBytes (P.take (n % 16384)) ++ Spec.profileBytes (P.drop (n % 16384)) := by
    intro P n
    rw [Spec.profileBytes, Spec.profileBytes, Spec.profileBytes, ← List.flatMap_append, List.take_append_drop]
  have tk : ∀ (P : List ProfileId) (n : Nat), ((P.take n).map cut7).take (n % 16384) = (P.take (n % 16384)).map cut7 := by
    intro P n
    rw [← List.map_take, List.take_take, Nat.min_eq_left (Nat.mod_le _ _)]
  have n12 : m.makeUint14 12 = .ok (numEnabled &&& 0x3FFF) := by
    refine read14 (by rw [e14]; omega) ?_ (c := Spec.profileBytes E ++ (le7 2 numDisabled.toNat ++ Spec.profileBytes D))
    rw [dr12, e14, le7_mod]
  refine ⟨n12, ?_, fun hn => ?_⟩
  · unfold ProfileInquiryReplyView.enabled
    have := readProfileList (s := m) (ps := E.take (numEnabled.toNat % 16384)) (pos := 12)
      (c := Spec.profileBytes (E.drop (numEnabled.toNat % 16384)) ++ (le7 2 numDisabled.toNat ++ Spec.profileBytes D))
      (by rw [List.length_take]; omega)
      (by rw [List.length_take, lE, Nat.min_eq_left (Nat.mod_le _ _), le7_mod, dr12, split E numEnabled.toNat, List.append_assoc])
    rw [this, ← hE, tk]
  · have nmod : numEnabled.toNat % 16384 = numEnabled.toNat := by omega
    have off : ProfileInquiryReplyView.offsetOfDisabled m = .ok (14 + 5 * E.length) := by
      unfold ProfileInquiryReplyView.offsetOfDisabled
      rw [n12, ok_bind, e14, nmod, lE, Nat.mul_comm]
      rfl
    have dr14 : m.data.drop (14 + 5 * E.length) = le7 2 numDisabled.toNat ++ Spec.profileBytes D := by
      rw [show 14 + 5 * E.length = 12 + (2 + 5 * E.length) by omega, ← List.drop_drop, dr12, ← List.drop_drop,
        ← profileBytes_length E]
      show List.drop _ (Spec.profileBytes E ++ _) = _
      rw [List.drop_append, List.drop_eq_nil_of_le (as := Spec.profileBytes E) (by omega)]
      simp
    have n14 : m.makeUint14 (14 + 5 * E.length) = .ok (numDisabled &&& 0x3FFF) := by
      refine read14 (by rw [e14]; omega) ?_ (c := Spec.profileBytes D)
      rw [dr14, e14, le7_mod]
    refine ⟨?_, ?_, ?_⟩
    · unfold ProfileInquiryReplyView.validate
      rw [show (isNonRealtime m &&! sizeAtLeast m 16 &&! dataAt m 1 (· == 0x0D) &&! dataAt m 2 (· == 0x21)) = .ok true by
        simp only [andThen_true, isNonRealtime_true, sizeAtLeast_true, dataAt_true, hlen]
        refine ⟨by rw [← h]; rfl, by omega, ⟨0x0D, by rw [← h]; rfl, rfl⟩, 0x21, by rw [← h]; rfl, rfl⟩]
      rw [ok_bind, if_pos rfl, n12, ok_bind]
      dsimp only
      rw [e14, if_pos (by omega), show 16 + numEnabled.toNat % 16384 * 5 - 2 = 14 + 5 * E.length by omega, n14, ok_bind, e14]
      show Except.ok _ = Except.ok _
      rw [decide_eq_true (by omega)]
    · unfold ProfileInquiryReplyView.numDisabled
      rw [off, ok_bind, n14]
    · unfold ProfileInquiryReplyView.disabled
      rw [off, ok_bind]
      have := readProfileList (s := m) (ps := D.take (numDisabled.toNat % 16384)) (pos := 14 + 5 * E.length)
        (c := Spec.profileBytes (D.drop (numDisabled.toNat % 16384)))
        (by rw [List.length_take]; omega)
        (by rw [List.length_take, lD, Nat.min_eq_left (Nat.mod_le _ _), le7_mod, dr14, split D numDisabled.toNat])
      rw [this, ← hD, tk]

example : ∃ m, Release.makeProfileInquiryReplyN 1 2 [⟨0x81, 2, 3, 4, 5⟩, ⟨6, 7, 8, 9, 10⟩] 2 [⟨1, 1, 1, 1, 1⟩] 1 0x7F = .ok m ∧
    ProfileInquiryReplyView.enabled m = .ok [⟨1, 2, 3, 4, 5⟩, ⟨6, 7, 8, 9, 10⟩] ∧
    makeProfileInquiryReplyN 1 2 [⟨0x81, 2, 3, 4, 5⟩, ⟨6, 7, 8, 9, 10⟩] 2 [⟨1, 1, 1, 1, 1⟩] 1 0x7F = .error .assertFailed :=
  ⟨_, rfl, rfl, rfl⟩

/-- The reply for 16384 enabled profiles announces none, and the view takes the bytes that follow for a list of disabled
profiles: the message is accepted, with one profile as disabled that was never passed. -/
theorem C92_profile_reply_wraps : ∃ m,
    Release.makeProfileInquiryReply 1 2 (List.replicate 16384 ⟨1, 0, 0, 0, 0⟩) [] 0x7F = .ok m ∧
    makeProfileInquiryReply 1 2 (List.replicate 16384 ⟨1, 0, 0, 0, 0⟩) [] 0x7F = .error .assertFailed ∧
    ProfileInquiryReplyView.validate m = .ok true ∧ ProfileInquiryReplyView.enabled m = .ok [] ∧
    ProfileInquiryReplyView.disabled m = .ok [⟨0, 0, 0, 1, 0⟩] := by
  generalize hL : List.replicate 16384 (⟨1, 0, 0, 0, 0⟩ : ProfileId) = L
  have l : L.length = 16384 := by rw [← hL, List.length_replicate]
  have hc : L.map cut7 = L := by rw [← hL, List.map_replicate]; rfl
  have h : Release.makeProfileInquiryReply 1 2 L [] 0x7F = .ok ⟨0x7E0000, ciHeader 2 0x21 0x7F 1 2 ++
      (le7 2 16384 ++ (Spec.profileBytes L ++ (le7 2 0 ++ Spec.profileBytes [])))⟩ := by
    unfold Release.makeProfileInquiryReply
    rw [C92_profile_reply, l, if_pos ⟨by simp, by simp⟩, show (BitVec.ofNat 16 16384).toNat = 16384 from rfl,
      show (BitVec.ofNat 16 ([] : List ProfileId).length).toNat = 0 from rfl, List.take_of_length_le (by omega), hc]
    rfl
  refine ⟨_, h, ?_, ?_⟩
  · unfold makeProfileInquiryReply makeProfileInquiryReplyN
    rw [l]
    rfl
  generalize hm : (⟨0x7E0000, ciHeader 2 0x21 0x7F 1 2 ++ (le7 2 16384 ++ (Spec.profileBytes L ++
    (le7 2 0 ++ Spec.profileBytes [])))⟩ : Sysex) = m at h
  have hen := (C92_profile_reply_read _ _ _ _ _ _ _ _ h).2.1
  have hLs : L = ⟨1, 0, 0, 0, 0⟩ :: ⟨1, 0, 0, 0, 0⟩ :: List.replicate 16382 ⟨1, 0, 0, 0, 0⟩ := by
    rw [← hL, List.replicate_succ, List.replicate_succ]
  have dr : ∃ c, m.data.drop 14 = le7 2 ([⟨0, 0, 0, 1, 0⟩] : List ProfileId).length ++
      (Spec.profileBytes [⟨0, 0, 0, 1, 0⟩] ++ c) := by
    rw [← hm, hLs]
    exact ⟨_, rfl⟩
  obtain ⟨c, dr⟩ := dr
  have hlen : m.data.length = 81936 := by
    rw [← hm]
    simp only [List.length_append, le7_length, profileBytes_length, ciHeader_length, l, List.length_nil]
  have n12 : m.makeUint14 12 = .ok 0 := by
    refine read14 (by decide) ?_ (c := Spec.profileBytes L ++ (le7 2 0 ++ Spec.profileBytes []))
    rw [← hm]
    rfl
  have n14 : m.makeUint14 14 = .ok 1 := read14 (by decide) dr
  refine ⟨?_, ?_, ?_⟩
  · unfold ProfileInquiryReplyView.validate
    rw [show (isNonRealtime m &&! sizeAtLeast m 16 &&! dataAt m 1 (· == 0x0D) &&! dataAt m 2 (· == 0x21)) = .ok true by
        simp only [andThen_true, isNonRealtime_true, sizeAtLeast_true, dataAt_true, hlen]
        refine ⟨by rw [← hm]; rfl, by omega, ⟨0x0D, by rw [← hm]; rfl, rfl⟩, 0x21, by rw [← hm]; rfl, rfl⟩]
    rw [ok_bind, if_pos rfl, n12, ok_bind]
    dsimp only
    rw [hlen, show (0 : U16).toNat = 0 from rfl, if_pos (by omega), show 16 + 0 * 5 - 2 = 14 from rfl, n14]
    rfl
  · rw [hen, l]
    rfl
  · unfold ProfileInquiryReplyView.disabled ProfileInquiryReplyView.offsetOfDisabled
    rw [n12]
    exact readProfileList (by decide) dr

theorem profilesFrom_bounds (s : Sysex) (n d : Nat) (h : s.data.length < d + 5 * n) (hd : d ≤ s.data.length) :
    ProfileInquiryReplyView.profilesFrom s n d = .error .outOfBounds := by
  have out : ∀ {p : Nat}, s.data.length ≤ p → index s.data p = .error .outOfBounds := by
    intro p hp
    unfold index
    rw [dif_neg (by omega)]
  induction n generalizing d with
  | zero => omega
  | succ n ih =>
    unfold ProfileInquiryReplyView.profilesFrom
    by_cases h5 : d + 5 ≤ s.data.length
    · cases hp : profileAt s d with
      | error f =>
        exfalso
        unfold profileAt at hp
        rw [index_ok (by omega), ok_bind, index_ok (by omega), ok_bind, index_ok (by omega), ok_bind, index_ok (by omega),
          ok_bind, index_ok (by omega), ok_bind] at hp
        cases hp
      | ok p => rw [ok_bind, ih (d + 5) (by omega) h5]; rfl
    · have hp : profileAt s d = .error .outOfBounds := by
        unfold profileAt
        by_cases h1 : d + 1 ≤ s.data.length
        · rw [index_ok (by omega), ok_bind]
          by_cases h2 : d + 2 ≤ s.data.length
          · rw [index_ok (by omega), ok_bind]
            by_cases h3 : d + 3 ≤ s.data.length
            · rw [index_ok (by omega), ok_bind]
              by_cases h4 : d + 4 ≤ s.data.length
              · rw [index_ok (by omega), ok_bind, out (by omega)]; rfl
              · rw [out (by omega)]; rfl
            · rw [out (by omega)]; rfl
          · rw [out (by omega)]; rfl
        · rw [out (by omega)]; rfl
      rw [hp]
      rfl

/-- C92: reading a list of profiles gives the same result without assertions where there is one; otherwise memory outside the message
is read. -/
theorem C92_profiles (s : Sysex) (pos : Nat) :
    Release.makeProfiles s pos =
      match ProfileInquiryReplyView.makeProfiles s pos with
      | .ok ps => .ok ps
      | .error _ => .error .outOfBounds := by
  have out : ∀ {p : Nat}, s.data.length ≤ p → index s.data p = .error .outOfBounds := by
    intro p hp
    unfold index
    rw [dif_neg (by omega)]
  unfold Release.makeProfiles ProfileInquiryReplyView.makeProfiles Release.makeUint14 Sysex.makeUint14
  by_cases h : pos + 1 < s.data.length
  · rw [assert_ok (by rw [decide_eq_true_eq]; exact h), ok_bind, ok_bind, index_ok (by omega), ok_bind, index_ok (by omega), ok_bind,
      pure_eq_ok, ok_bind, ok_bind]
    generalize (BitVec.setWidth 16 _ ||| _ : U16) = n
    by_cases h2 : pos + 1 + n.toNat * 5 < s.data.length
    · rw [assert_ok (by rw [decide_eq_true_eq]; exact h2), ok_bind]
      cases hp : ProfileInquiryReplyView.profilesFrom s n.toNat (pos + 2) with
      | ok ps => rfl
      | error f =>
        exfalso
        have noFault : ∀ (n d : Nat), d + 5 * n ≤ s.data.length → ∃ ps, ProfileInquiryReplyView.profilesFrom s n d = .ok ps := by
          intro n
          induction n with
          | zero => intro d _; exact ⟨_, rfl⟩
          | succ n ih =>
            intro d hd
            obtain ⟨ps, hps⟩ := ih (d + 5) (by omega)
            unfold ProfileInquiryReplyView.profilesFrom profileAt
            rw [index_ok (by omega), ok_bind, index_ok (by omega), ok_bind, index_ok (by omega), ok_bind, index_ok (by omega),
              ok_bind, index_ok (by omega), ok_bind, pure_eq_ok, ok_bind, hps]
            exact ⟨_, rfl⟩
        obtain ⟨ps, hps⟩ := noFault n.toNat (pos + 2) (by omega)
        rw [hps] at hp
        cases hp
    · rw [assert_fail (by rw [decide_eq_false_iff_not]; exact h2)]
      exact profilesFrom_bounds _ _ _ (by omega) (by omega)
  · rw [assert_fail (by rw [decide_eq_false_iff_not]; exact h)]
    by_cases h1 : pos < s.data.length
    · rw [index_ok h1, ok_bind, out (by omega)]; rfl
    · rw [out (by omega)]; rfl

/-! ## Property data -/

/-- C92: the property data message made in a build without assertions: numbers are cut to 14 bit, the request id to 7 bit, header and
data are written as they are. Only a null pointer with a size other than 0 is an error. -/
theorem C92_property_data (subtype : Byte) (source dest : Word) (header : DataView) (numChunks thisChunk : U16)
    (chunk : DataView) (requestId deviceId : Byte) :
    Release.makePropertyData subtype source dest header numChunks thisChunk chunk requestId deviceId =
      if (header.null = true → header.bytes = []) ∧ (chunk.null = true → chunk.bytes = []) then
        .ok ⟨0x7E0000, ciHeader 2 subtype deviceId source dest ++ ([requestId &&& 0x7F] ++ (le7 2 header.bytes.length ++
          (header.bytes ++ (le7 2 numChunks.toNat ++ (le7 2 thisChunk.toNat ++ (le7 2 chunk.bytes.length ++ chunk.bytes))))))⟩
      else .error .outOfBounds := by
  have addv : ∀ (r : List Byte) (d : DataView), Release.addDataView (msg 2 subtype deviceId source dest r) d =
      if d.null = true → d.bytes = [] then .ok (msg 2 subtype deviceId source dest (r ++ d.bytes)) else .error .outOfBounds := by
    intro r d
    obtain ⟨n, b⟩ := d
    unfold Release.addDataView
    cases b with
    | nil => simp
    | cons a b => cases n <;> simp [Release.addData, msg]
  unfold Release.makePropertyData
  simp only [rel_payload, rel_add7, rel_add14, addv, le7_wrap]
  by_cases h1 : header.null = true → header.bytes = []
  · simp only [if_pos h1, ok_bind, rel_add14, addv, le7_wrap]
    by_cases h2 : chunk.null = true → chunk.bytes = []
    · rw [if_pos h2, if_pos ⟨h1, h2⟩]
      simp only [msg, List.nil_append, List.append_assoc]
      rfl
    · rw [if_neg h2, if_neg (fun h => h2 h.2)]
  · rw [if_neg h1, if_neg (fun h => h1 h.1)]
    rfl

/-- C92: a property data message that can be made in a build with assertions is the same without. -/
theorem C92_property_data_same (subtype : Byte) (source dest : Word) (header : DataView) (numChunks thisChunk : U16)
    (chunk : DataView) (requestId deviceId : Byte) (m : Sysex)
    (h : makePropertyData subtype source dest header numChunks thisChunk chunk requestId deviceId = .ok m) :
    Release.makePropertyData subtype source dest header numChunks thisChunk chunk requestId deviceId = .ok m := by
  have a7 : ∀ {s t : Sysex} {b : Byte}, s.addUint7 b = .ok t → Release.addUint7 s b = t := by
    intro s t b h
    unfold Sysex.addUint7 at h
    obtain ⟨_, _, h⟩ := Release.bind_ok_split h
    injection h
  have a14 : ∀ {s t : Sysex} {b : U16}, s.addUint14 b = .ok t → Release.addUint14 s b = t := by
    intro s t b h
    unfold Sysex.addUint14 at h
    obtain ⟨_, _, h⟩ := Release.bind_ok_split h
    injection h
  have av : ∀ {s t : Sysex} {d : DataView} {u : Unit}, assert (d.bytes.length == 0 || !d.null) = .ok u →
      (if d.bytes.length ≠ 0 then s.addData d.bytes else pure s) = .ok t → Release.addDataView s d = .ok t := by
    intro s t d u ha h
    have ha' : (d.bytes.length == 0 || !d.null) = true := by
      cases hb : (d.bytes.length == 0 || !d.null)
      · rw [assert_fail hb] at ha; cases ha
      · rfl
    unfold Release.addDataView
    by_cases hl : d.bytes.length ≠ 0
    · rw [if_pos hl] at h ⊢
      rw [(C87_sysex7_add s 0 0 0 d.bytes).2.2.2.2.2 (by rintro e; rw [e] at hl; exact hl rfl)] at h
      have hn : d.null = false := by
        cases hn : d.null
        · rfl
        · rw [hn] at ha'; simp at ha' hl; exact absurd ha' hl
      rw [hn]
      exact h
    · rw [if_neg hl] at h ⊢
      exact h
  unfold makePropertyData at h
  obtain ⟨s1, h1, h⟩ := Release.bind_ok_split h
  obtain ⟨_, _, h⟩ := Release.bind_ok_split h
  obtain ⟨_, _, h⟩ := Release.bind_ok_split h
  obtain ⟨u1, hu1, h⟩ := Release.bind_ok_split h
  obtain ⟨u2, hu2, h⟩ := Release.bind_ok_split h
  obtain ⟨s2, h2, h⟩ := Release.bind_ok_split h
  obtain ⟨s3, h3, h⟩ := Release.bind_ok_split h
  have h' : ((if header.bytes.length ≠ 0 then s3.addData header.bytes else pure s3) >>= fun s => do
      let s ← s.addUint14 numChunks
      let s ← s.addUint14 thisChunk
      let s ← s.addUint14 (BitVec.ofNat 16 chunk.bytes.length)
      if chunk.bytes.length ≠ 0 then s.addData chunk.bytes else return s) = .ok m := by
    rw [← h]
    by_cases hl : header.bytes.length ≠ 0
    · simp only [if_pos hl]
    · simp only [if_neg hl]
  obtain ⟨s4, h4, h'⟩ := Release.bind_ok_split h'
  obtain ⟨s5, h5, h'⟩ := Release.bind_ok_split h'
  obtain ⟨s6, h6, h'⟩ := Release.bind_ok_split h'
  obtain ⟨s7, h7, h8⟩ := Release.bind_ok_split h'
  rw [makeWithPayload_eq] at h1
  injection h1 with h1
  rw [← h1] at h2
  unfold Release.makePropertyData
  simp only [rel_payload, a7 h2, a14 h3, av hu1 h4, ok_bind, a14 h5, a14 h6, a14 h7]
  exact av hu2 h8

/-- C92: what the view reads from a property data message made in a build without assertions, for header and data of at most 16383
bytes. -/
theorem C92_property_data_read (subtype : Byte) (source dest : Word) (header : DataView) (numChunks thisChunk : U16)
    (chunk : DataView) (requestId deviceId : Byte) (m : Sysex) (hH : header.bytes.length ≤ 16383)
    (hC : chunk.bytes.length ≤ 16383)
    (h : Release.makePropertyData subtype source dest header numChunks thisChunk chunk requestId deviceId = .ok m) :
    PropertyDataView.requestId m = .ok (requestId &&& 0x7F) ∧ PropertyDataView.header m = .ok header.bytes ∧
    PropertyDataView.numberOfChunks m = .ok (numChunks &&& 0x3FFF) ∧
    PropertyDataView.numberOfThisChunk m = .ok (thisChunk &&& 0x3FFF) ∧ PropertyDataView.chunk m = .ok chunk.bytes ∧
    (PropertyDataView.validate m = .ok true ↔
      subtype ∈ ([0x34, 0x35, 0x36, 0x37, 0x38, 0x39, 0x3F] : List Byte) ∧
      (numChunks.toNat % 16384 = 0 ∨ thisChunk.toNat % 16384 ≤ numChunks.toNat % 16384) ∧
      (header.bytes = [] ∨ thisChunk.toNat % 16384 ≤ 1) ∧ (chunk.bytes = [] ∨ 1 ≤ thisChunk.toNat % 16384)) := by
  rw [C92_property_data] at h
  split at h
  case isFalse => cases h
  injection h with hm
  generalize header.bytes = H at *
  generalize chunk.bytes = C at *
  have e14 : ∀ w : U16, (w &&& 0x3FFF).toNat = w.toNat % 16384 := by
    intro w
    rw [BitVec.toNat_and, show (0x3FFF : U16).toNat = 2 ^ 14 - 1 from rfl, Nat.and_two_pow_sub_one_eq_mod]
  have eH : (BitVec.ofNat 16 H.length).toNat = H.length := by rw [BitVec.toNat_ofNat]; omega
  have eC : (BitVec.ofNat 16 C.length).toNat = C.length := by rw [BitVec.toNat_ofNat]; omega
  have dr15 : m.data.drop 15 = H ++ (le7 2 numChunks.toNat ++ (le7 2 thisChunk.toNat ++ (le7 2 C.length ++ C))) := by
    rw [← hm]; rfl
  have drH : m.data.drop (15 + H.length) = le7 2 numChunks.toNat ++ (le7 2 thisChunk.toNat ++ (le7 2 C.length ++ C)) := by
    rw [← List.drop_drop, dr15, List.drop_append, List.drop_eq_nil_of_le (Nat.le_refl _)]
    simp
  have hl : m.data.length = 21 + H.length + C.length := by
    rw [← hm]
    simp only [List.length_append, le7_length, List.length_cons, List.length_nil, ciHeader_length]
    omega
  have m13 : m.makeUint14 13 = .ok (BitVec.ofNat 16 H.length) := by
    refine read14_ofNat (n := H.length) (by omega) (c := ?_) ?_
    · exact H ++ (le7 2 numChunks.toNat ++ (le7 2 thisChunk.toNat ++ (le7 2 C.length ++ C)))
    · rw [← hm]; rfl
  have m15 : m.makeUint14 (15 + H.length) = .ok (numChunks &&& 0x3FFF) := by
    refine read14 (by rw [e14]; omega) ?_ (c := le7 2 thisChunk.toNat ++ (le7 2 C.length ++ C))
    rw [e14, le7_mod, drH]
  have m17 : m.makeUint14 (17 + H.length) = .ok (thisChunk &&& 0x3FFF) := by
    refine read14 (by rw [e14]; omega) (c := le7 2 C.length ++ C) ?_
    rw [e14, le7_mod, show 17 + H.length = 15 + H.length + 2 by omega, ← List.drop_drop, drH]; rfl
  have m19 : m.makeUint14 (19 + H.length) = .ok (BitVec.ofNat 16 C.length) := by
    refine read14_ofNat (n := C.length) (by omega) (c := C) ?_
    rw [show 19 + H.length = 15 + H.length + 4 by omega, ← List.drop_drop, drH]; rfl
  have hsz : PropertyDataView.headerSize m = .ok H.length := by
    unfold PropertyDataView.headerSize; rw [m13, ok_bind, eH]; rfl
  have csz : PropertyDataView.chunkSize m = .ok C.length := by
    unfold PropertyDataView.chunkSize; rw [hsz, ok_bind, m19, ok_bind, eC]; rfl
  have h2 : m.data[2]? = some subtype := by rw [← hm]; rfl
  refine ⟨?_, ?_, ?_, ?_, ?_, ?_⟩
  · rw [← hm]; rfl
  · unfold PropertyDataView.header
    rw [hsz, ok_bind]
    exact readSlice (by omega) dr15 rfl
  · unfold PropertyDataView.numberOfChunks; rw [hsz, ok_bind, m15]
  · unfold PropertyDataView.numberOfThisChunk; rw [hsz, ok_bind, m17]
  · unfold PropertyDataView.chunk
    rw [hsz, ok_bind, csz, ok_bind]
    refine readSlice (c := []) (by omega) ?_ rfl
    rw [show 21 + H.length = 15 + H.length + 6 by omega, ← List.drop_drop, drH, List.append_nil]; rfl
  · have hr : ∀ b : Byte, b ∈ ([0x34, 0x35, 0x36, 0x37, 0x38, 0x39, 0x3F] : List Byte) ↔
        (decide (b ≥ 0x34) = true ∧ (decide (b ≤ 0x39) = true ∨ (b == 0x3F) = true)) := by decide +kernel
    have g1 : (isNonRealtime m &&! sizeAtLeast m 21 &&! dataAt m 1 (· == 0x0D) &&! dataAt m 2 (fun v => decide (v ≥ 0x34)))
        = .ok (decide (subtype ≥ 0x34)) := by
      have a1 : isNonRealtime m = .ok true := by rw [isNonRealtime_true, ← hm]; rfl
      have a2 : sizeAtLeast m 21 = .ok true := by rw [sizeAtLeast_true, hl]; omega
      have a3 : dataAt m 1 (· == 0x0D) = .ok true := by rw [dataAt_true]; exact ⟨0x0D, by rw [← hm]; rfl, rfl⟩
      have a4 : dataAt m 2 (fun v => decide (v ≥ 0x34)) = .ok (decide (subtype ≥ 0x34)) := by
        unfold dataAt; rw [index_iff.2 h2]; rfl
      rw [a1, a2, a3, a4]
      rfl
    have g2 : (dataAt m 2 (fun v => decide (v ≤ 0x39)) ||! dataAt m 2 (· == 0x3F))
        = .ok (decide (subtype ≤ 0x39) || subtype == 0x3F) := by
      unfold dataAt
      rw [index_iff.2 h2]
      show (Except.ok (decide (subtype ≤ 0x39)) ||! Except.ok (subtype == 0x3F)) = _
      cases decide (subtype ≤ 0x39) <;> rfl
    have nil : ∀ l : List Byte, l = [] ↔ l.length = 0 := fun l => List.length_eq_zero_iff.symm
    unfold PropertyDataView.validate
    rw [g1, ok_bind, g2, ok_bind, hr, nil H, nil C]
    cases decide (subtype ≥ 0x34) with
    | false =>
      constructor
      · intro h; cases h
      · rintro ⟨⟨h, -⟩, -⟩; cases h
    | true =>
      cases hb : (decide (subtype ≤ 0x39) || subtype == 0x3F) with
      | false =>
        rw [Bool.or_eq_false_iff] at hb
        constructor
        · intro h; cases h
        · rintro ⟨⟨-, h⟩, -⟩; rw [hb.1, hb.2] at h; simp at h
      | true =>
        rw [Bool.or_eq_true] at hb
        rw [if_pos rfl, if_pos rfl, m13, ok_bind]
        try dsimp only
        rw [eH, if_neg (by omega), m15, ok_bind]
        try dsimp only
        rw [m17, ok_bind]
        try dsimp only
        rw [m19, ok_bind]
        try dsimp only
        rw [eC, e14, e14]
        split
        · constructor
          · intro h; cases h
          · rintro ⟨-, h, -, -⟩; omega
        · split
          · constructor
            · intro h; cases h
            · rintro ⟨-, -, h, -⟩; omega
          · split
            · constructor
              · intro h; cases h
              · rintro ⟨-, -, -, h⟩; omega
            · rw [decide_eq_true (by omega)]
              constructor
              · intro _; exact ⟨⟨rfl, hb⟩, by omega, by omega, by omega⟩
              · intro _; rfl

/-- Data in chunk number 0, and a chunk number above the number of chunks, fail an assertion; without assertions messages are made which
the view does not accept. Chunk number 16385 becomes 1. -/
example : ∃ m, Release.makePropertyData 0x35 1 2 ⟨true, []⟩ 1 0 ⟨false, [0x41]⟩ 3 0x7F = .ok m ∧
    makePropertyData 0x35 1 2 ⟨true, []⟩ 1 0 ⟨false, [0x41]⟩ 3 0x7F = .error .assertFailed ∧
    PropertyDataView.validate m = .ok false := ⟨_, rfl, rfl, rfl⟩
example : ∃ m, Release.makePropertyData 0x35 1 2 ⟨true, []⟩ 1 16385 ⟨false, [0x41]⟩ 3 0x7F = .ok m ∧
    PropertyDataView.validate m = .ok true ∧ PropertyDataView.numberOfThisChunk m = .ok 1 := ⟨_, rfl, rfl, rfl⟩

end CI

end Midi

import Verif.Lemmas.CIFactory

/-!
# Property C38, second part: identity requests and replies
-/

namespace Midi
open Spec UniversalSysex

theorem typeOf_identity (dev sub : Byte) (rest : List Byte) :
    typeOf ⟨universalNonRealtime, dev :: 0x06 :: sub :: rest⟩ = .ok 0x7E06 ∧
    subtypeOf ⟨universalNonRealtime, dev :: 0x06 :: sub :: rest⟩ = .ok sub ∧
    isUniversal ⟨universalNonRealtime, dev :: 0x06 :: sub :: rest⟩ = true := by
  have h : isUniversal ⟨universalNonRealtime, dev :: 0x06 :: sub :: rest⟩ = true := by
    simp [isUniversal]
  refine ⟨?_, ?_, h⟩
  · unfold typeOf
    rw [if_pos h]
    show Except.ok _ = _
    exact congrArg Except.ok (show ((universalNonRealtime >>> 8) ||| (0x06 : Byte).setWidth 32).setWidth 16 = (0x7E06 : U16) by decide)
  · unfold subtypeOf
    simp [isUniversal, index]

/-- C38: an identity request is recognised as such, and only as such, and carries the device id it was made for. -/
theorem C38_identity_request (dev : Byte) :
    (makeIdentityRequest dev).data = [dev, 0x06, 0x01] ∧
    isIdentityRequest (makeIdentityRequest dev) = .ok true ∧ isIdentityReply (makeIdentityRequest dev) = .ok false ∧
    deviceIdOf (makeIdentityRequest dev) = .ok dev := by
  obtain ⟨h1, h2, h3⟩ := typeOf_identity dev 0x01 []
  refine ⟨rfl, ?_, ?_, ?_⟩
  · unfold isIdentityRequest makeIdentityRequest
    rw [h1, h2]; rfl
  · unfold isIdentityReply makeIdentityRequest
    rw [h1, h2]; rfl
  · unfold deviceIdOf makeIdentityRequest
    rw [if_pos h3]; rfl

/-- C38: the identity reply made for a genuine manufacturer id and in range values has the bytes the MIDI standard
prescribes; it is recognised as an identity reply, and the view returns the identity and the device id that were
encoded. -/
theorem C38_identity_reply (i : DeviceIdentity) (dev : Byte) (hid : GenuineId i.manufacturer) (hf : i.family.toNat < 2 ^ 14)
    (hm : i.model.toNat < 2 ^ 14) (hr : i.revision.toNat < 2 ^ 28) (hd : dev.toNat < 0x80) :
    ∃ m, makeIdentityReply i.manufacturer i.family i.model i.revision dev = .ok m ∧
      m.manufacturerID = universalNonRealtime ∧
      m.data = [dev, 0x06, 0x02] ++ idBytes7 i.manufacturer ++ le7 2 i.family.toNat ++ le7 2 i.model.toNat ++
        le7 4 i.revision.toNat ∧
      (∀ b ∈ m.data, b.toNat < 0x80) ∧
      isIdentityReply m = .ok true ∧ isIdentityRequest m = .ok false ∧ asIdentityReplyView m = .ok (some m) ∧
      IdentityReplyView.identity m = .ok i ∧ View.deviceId m = .ok dev := by
  obtain ⟨man, fam, mod, rev⟩ := i
  simp only at hid hf hm hr ⊢
  have hseven : ∀ b ∈ idBytes7 man, b.toNat < 0x80 := by
    intro b hb
    unfold idBytes7 at hb
    rcases hid with ⟨h1, h2, h3⟩ | ⟨h1, h2, h3⟩
    · rw [if_neg (by omega), List.mem_singleton] at hb
      rw [hb, BitVec.toNat_ofNat]; omega
    · rw [if_pos (by omega)] at hb
      simp only [List.mem_cons, List.not_mem_nil, or_false] at hb
      rcases hb with rfl | rfl | rfl
      · decide
      · rw [BitVec.toNat_ofNat]; omega
      · rw [BitVec.toNat_ofNat]; omega
  have hall : ∀ b ∈ [dev, 0x06, 0x02] ++ idBytes7 man ++ le7 2 fam.toNat ++ le7 2 mod.toNat ++ le7 4 rev.toNat,
      b.toNat < 0x80 := by
    intro b hb
    simp only [List.mem_append, List.mem_cons, List.not_mem_nil, or_false] at hb
    rcases hb with (((( rfl | rfl | rfl) | hb) | hb) | hb) | hb
    · exact hd
    · decide
    · decide
    · exact hseven b hb
    · exact le7_seven _ _ b hb
    · exact le7_seven _ _ b hb
    · exact le7_seven _ _ b hb
  -- the bytes
  have hmake : makeIdentityReply man fam mod rev dev = .ok ⟨universalNonRealtime, [dev, 0x06, 0x02] ++ idBytes7 man ++
      le7 2 fam.toNat ++ le7 2 mod.toNat ++ le7 4 rev.toNat⟩ := by
    unfold makeIdentityReply
    have hb : (if man < 0x10000 then
        ({ manufacturerID := universalNonRealtime, data := [dev, 0x06, 0x02] ++ [(0x00 : Byte),
          ((man >>> 8) &&& 0x7F).setWidth 8, (man &&& 0x7F).setWidth 8] } : Sysex)
        else { manufacturerID := universalNonRealtime, data := [dev, 0x06, 0x02] ++ [((man >>> 16) &&& 0x7F).setWidth 8] }) =
        ⟨universalNonRealtime, [dev, 0x06, 0x02] ++ idBytes7 man⟩ := by
      unfold idBytes7
      rw [id7_eq, id7_eq0, id7_eq]
      rcases hid with ⟨h1, h2, h3⟩ | ⟨h1, h2, h3⟩
      · rw [if_neg (by rw [BitVec.lt_def, show (0x10000 : Word).toNat = 65536 from rfl]; omega), if_neg (by omega)]
        rw [Nat.mod_eq_of_lt (by omega)]
        rfl
      · rw [if_pos (by rw [BitVec.lt_def, show (0x10000 : Word).toNat = 65536 from rfl]; omega), if_pos (by omega)]
        rw [Nat.mod_eq_of_lt (a := man.toNat / 2 ^ 8) (by omega), show man.toNat % 128 = man.toNat % 256 by omega]
        rfl
    simp only
    rw [hb, addUint14_le7 _ _ hf, ok_bind, addUint14_le7 _ _ hm, ok_bind, addUint28_le7 _ _ hr]
  refine ⟨_, hmake, rfl, rfl, hall, ?_⟩
  have hlen : ∀ n, (idBytes7 man ++ le7 2 fam.toNat ++ le7 2 mod.toNat ++ le7 4 rev.toNat).length = n →
      (dev :: 0x06 :: 0x02 :: (idBytes7 man ++ le7 2 fam.toNat ++ le7 2 mod.toNat ++ le7 4 rev.toNat)).length = n + 3 := by
    intro n h; simp only [List.length_cons, h]
  show isIdentityReply ⟨universalNonRealtime,
      dev :: 0x06 :: 0x02 :: (idBytes7 man ++ le7 2 fam.toNat ++ le7 2 mod.toNat ++ le7 4 rev.toNat)⟩ = _ ∧
    isIdentityRequest ⟨universalNonRealtime,
      dev :: 0x06 :: 0x02 :: (idBytes7 man ++ le7 2 fam.toNat ++ le7 2 mod.toNat ++ le7 4 rev.toNat)⟩ = _ ∧
    asIdentityReplyView ⟨universalNonRealtime,
      dev :: 0x06 :: 0x02 :: (idBytes7 man ++ le7 2 fam.toNat ++ le7 2 mod.toNat ++ le7 4 rev.toNat)⟩ = _ ∧
    IdentityReplyView.identity ⟨universalNonRealtime,
      dev :: 0x06 :: 0x02 :: (idBytes7 man ++ le7 2 fam.toNat ++ le7 2 mod.toNat ++ le7 4 rev.toNat)⟩ = _ ∧
    View.deviceId ⟨universalNonRealtime,
      dev :: 0x06 :: 0x02 :: (idBytes7 man ++ le7 2 fam.toNat ++ le7 2 mod.toNat ++ le7 4 rev.toNat)⟩ = _
  generalize hm : (⟨universalNonRealtime,
      dev :: 0x06 :: 0x02 :: (idBytes7 man ++ le7 2 fam.toNat ++ le7 2 mod.toNat ++ le7 4 rev.toNat)⟩ : Sysex) = m
  obtain ⟨t1, t2, t3⟩ := typeOf_identity dev 0x02 (idBytes7 man ++ le7 2 fam.toNat ++ le7 2 mod.toNat ++ le7 4 rev.toNat)
  rw [hm] at t1 t2 t3
  have hrep : isIdentityReply m = .ok true := by
    unfold isIdentityReply
    rw [t1, t2]
    rw [andThen_true, andThen_true, orElse_true, andThen_true]
    refine ⟨rfl, rfl, ?_⟩
    rw [← hm]
    rcases hid with ⟨h1, h2, h3⟩ | ⟨h1, h2, h3⟩
    · left
      have he : idBytes7 man = [BitVec.ofNat 8 (man.toNat / 65536)] := by unfold idBytes7; rw [if_neg (by omega)]
      constructor
      · simp [he, le7_length]
      · rw [dataAt_true]
        refine ⟨BitVec.ofNat 8 (man.toNat / 65536), by rw [he]; rfl, ?_⟩
        simp only [bne_iff_ne, ne_eq]
        intro h
        have := congrArg BitVec.toNat h
        rw [BitVec.toNat_ofNat, show (0 : Byte).toNat = 0 from rfl] at this
        omega
    · right
      have he : (idBytes7 man).length = 3 := by unfold idBytes7; rw [if_pos (by omega)]; rfl
      constructor
      · simp [he, le7_length]
        rfl
      · simp [he, le7_length]
  obtain ⟨b, hb1, hb2, hb3, -⟩ := C39_identity_reply m
  rw [hrep] at hb3
  injection hb3 with hb3
  subst hb3
  refine ⟨hrep, ?_, by rw [hb2, ← hm]; rfl, ?_, ?_⟩
  · unfold isIdentityRequest
    rw [t1, t2]; rfl
  · unfold IdentityReplyView.identity
    rcases hid with ⟨h1, h2, h3⟩ | ⟨h1, h2, h3⟩
    · have he : idBytes7 man = [BitVec.ofNat 8 (man.toNat / 65536)] := by unfold idBytes7; rw [if_neg (by omega)]
      rw [he] at hm
      have i3 : index m.data 3 = .ok (BitVec.ofNat 8 (man.toNat / 65536)) := by rw [← hm]; rfl
      have i4 : m.makeUint14 4 = .ok fam := read14 (c := le7 2 mod.toNat ++ le7 4 rev.toNat) hf (by rw [← hm]; rfl)
      have i5 : m.makeUint14 6 = .ok mod := read14 (c := le7 4 rev.toNat) (by omega) (by rw [← hm]; rfl)
      have i6 : m.makeUint28 8 = .ok rev := read28 (c := []) hr (by rw [← hm]; rfl)
      rw [i3, ok_bind, if_pos, i4, ok_bind, i5, ok_bind, i6, ok_bind]
      · rw [pure_eq_ok]
        refine congrArg (fun x => Except.ok (DeviceIdentity.mk x fam mod rev)) ?_
        apply BitVec.eq_of_toNat_eq
        rw [BitVec.toNat_shiftLeft, BitVec.toNat_setWidth, BitVec.toNat_ofNat, Nat.shiftLeft_eq]
        omega
      · intro h
        have := congrArg BitVec.toNat h
        rw [BitVec.toNat_ofNat, show (0 : Byte).toNat = 0 from rfl] at this
        omega
    · have he : idBytes7 man = [0, BitVec.ofNat 8 (man.toNat / 256), BitVec.ofNat 8 (man.toNat % 256)] := by
        unfold idBytes7; rw [if_pos (by omega)]
      rw [he] at hm
      have i3 : index m.data 3 = .ok 0 := by rw [← hm]; rfl
      have j4 : index m.data 4 = .ok (BitVec.ofNat 8 (man.toNat / 256)) := by rw [← hm]; rfl
      have j5 : index m.data 5 = .ok (BitVec.ofNat 8 (man.toNat % 256)) := by rw [← hm]; rfl
      have i4 : m.makeUint14 6 = .ok fam := read14 (c := le7 2 mod.toNat ++ le7 4 rev.toNat) hf (by rw [← hm]; rfl)
      have i5 : m.makeUint14 8 = .ok mod := read14 (c := le7 4 rev.toNat) (by omega) (by rw [← hm]; rfl)
      have i6 : m.makeUint28 10 = .ok rev := read28 (c := []) hr (by rw [← hm]; rfl)
      rw [i3, ok_bind, if_neg (by decide), j4, ok_bind, j5, ok_bind, i4, ok_bind, i5, ok_bind, i6, ok_bind]
      rw [pure_eq_ok]
      refine congrArg (fun x => Except.ok (DeviceIdentity.mk x fam mod rev)) ?_
      apply BitVec.eq_of_toNat_eq
      rw [BitVec.toNat_or, BitVec.toNat_shiftLeft, BitVec.toNat_setWidth, BitVec.toNat_ofNat, BitVec.toNat_setWidth,
        BitVec.toNat_ofNat, Nat.mod_eq_of_lt (a := man.toNat / 256) (by omega),
        Nat.mod_eq_of_lt (a := man.toNat / 256) (by omega), Nat.mod_mod, Nat.mod_eq_of_lt (a := man.toNat % 256) (by omega),
        Nat.shiftLeft_eq, Nat.mod_eq_of_lt (a := man.toNat / 256 * 2 ^ 8) (by omega), Nat.mul_comm,
        ← Nat.two_pow_add_eq_or_of_lt (by omega)]
      omega
  · rw [← hm]; rfl

/-- C38: an identity reply made from an identity alone returns the identity, and is addressed to all devices. -/
theorem C38_identity_reply_of (i : DeviceIdentity) (hid : GenuineId i.manufacturer) (hf : i.family.toNat < 2 ^ 14)
    (hm : i.model.toNat < 2 ^ 14) (hr : i.revision.toNat < 2 ^ 28) :
    ∃ m, makeIdentityReplyOf i = .ok m ∧ isIdentityReply m = .ok true ∧ asIdentityReplyView m = .ok (some m) ∧
      IdentityReplyView.identity m = .ok i ∧ View.deviceId m = .ok 0x7F := by
  obtain ⟨m, h1, -, -, -, h2, -, h3, h4, h5⟩ := C38_identity_reply i 0x7F hid hf hm hr (by decide)
  exact ⟨m, h1, h2, h3, h4, h5⟩

example : GenuineId 0x002109 ∧ GenuineId 0x410000 ∧ ¬ GenuineId 0x012345 := by decide
example : (makeIdentityReply 0x002109 0x1801 0x000B 0x0FFFFFFF 0x10).map Sysex.data =
    .ok [0x10, 0x06, 0x02, 0x00, 0x21, 0x09, 0x01, 0x30, 0x0B, 0x00, 0x7F, 0x7F, 0x7F, 0x7F] := by rfl

end Midi

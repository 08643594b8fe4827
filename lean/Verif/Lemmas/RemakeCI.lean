import Verif.Spec.RemakeCI
import Verif.Props.ViewsExact
import Verif.Props.PropertyExchange
import Verif.Props.CIPayload
import Verif.Props.Identity

/-!
# Lemmas for C90
-/

namespace Midi
open Spec UniversalSysex CI

namespace CI

/-- Seven bit bytes are the digits of a number. -/
theorem digits_exist : ∀ l : List Byte, Spec.Seven l → ∃ n, n < 128 ^ l.length ∧ le7 l.length n = l
  | [], _ => ⟨0, by simp, rfl⟩
  | a :: l, h => by
    obtain ⟨n, hn, e⟩ := digits_exist l (fun b hb => h b (List.mem_cons_of_mem _ hb))
    have ha := h a List.mem_cons_self
    refine ⟨a.toNat + 128 * n, ?_, ?_⟩
    · rw [List.length_cons, Nat.pow_succ]; omega
    · rw [List.length_cons]
      unfold le7
      rw [show (a.toNat + 128 * n) % 128 = a.toNat by omega, show (a.toNat + 128 * n) / 128 = n by omega, e,
        BitVec.ofNat_toNat, BitVec.setWidth_eq]

theorem digits28 (l : List Byte) (h : Spec.Seven l) (hl : l.length = 4) : ∃ w : Word, U28 w ∧ le7 4 w.toNat = l := by
  obtain ⟨n, hn, e⟩ := digits_exist l h
  rw [hl] at hn e
  have : (BitVec.ofNat 32 n).toNat = n := by rw [BitVec.toNat_ofNat]; omega
  exact ⟨BitVec.ofNat 32 n, by unfold U28; omega, by rw [this, e]⟩

theorem digits14 (l : List Byte) (h : Spec.Seven l) (hl : l.length = 2) : ∃ w : U16, U14 w ∧ le7 2 w.toNat = l := by
  obtain ⟨n, hn, e⟩ := digits_exist l h
  rw [hl] at hn e
  have : (BitVec.ofNat 16 n).toNat = n := by rw [BitVec.toNat_ofNat]; omega
  exact ⟨BitVec.ofNat 16 n, by unfold U14; omega, by rw [this, e]⟩

theorem cut (n : Nat) {l : List Byte} (h : n ≤ l.length) : ∃ a b, l = a ++ b ∧ a.length = n :=
  ⟨l.take n, l.drop n, (List.take_append_drop n l).symm, by rw [List.length_take]; omega⟩

theorem seven_left {a b : List Byte} (h : Spec.Seven (a ++ b)) : Spec.Seven a :=
  fun x hx => h x (List.mem_append_left _ hx)

theorem seven_right {a b : List Byte} (h : Spec.Seven (a ++ b)) : Spec.Seven b :=
  fun x hx => h x (List.mem_append_right _ hx)

/-- Every complete message of seven bit bytes is `msg` of what it carries. -/
theorem ci_split {subs : List Byte} {P : Byte → List Byte → Prop} {s : Sysex} (h : CIMessage subs P s)
    (h7 : ∀ b ∈ s.data, b.toNat < 128) : ∃ v st dev src dst payload, s = msg v st dev src dst payload ∧ st ∈ subs ∧
      P v payload ∧ U7 v ∧ U7 dev ∧ U28 src ∧ U28 dst ∧ Spec.Seven payload := by
  obtain ⟨hm, dev, st, v, muids, payload, hd, hst, hl, hp⟩ := h
  rw [hd] at h7
  obtain ⟨a, b, rfl, ha⟩ := cut 4 (l := muids) (by omega)
  have hb : b.length = 4 := by simp at hl; omega
  have s1 := seven_left h7
  have s2 := seven_right s1
  obtain ⟨src, hs, es⟩ := digits28 a (seven_left s2) ha
  obtain ⟨dst, hd', ed⟩ := digits28 b (seven_right s2) hb
  refine ⟨v, st, dev, src, dst, payload, ?_, hst, hp, h7 v (by simp), h7 dev (by simp), hs, hd', seven_right h7⟩
  cases s
  simp only at hm hd
  subst hm hd
  unfold msg ciHeader
  rw [es, ed]
  simp only [List.append_assoc, universalNonRealtime]

/-- The fields of the header are read. -/
theorem reads {v st dev : Byte} {src dst : Word} {p : List Byte} (hs : U28 src) (hd : U28 dst) :
    View.sourceMuid (msg v st dev src dst p) = .ok src ∧ View.destinationMuid (msg v st dev src dst p) = .ok dst ∧
    UniversalSysex.View.deviceId (msg v st dev src dst p) = .ok dev :=
  ⟨read28 (c := le7 4 dst.toNat ++ p) hs rfl, read28 (c := p) hd rfl, rfl⟩

/-- An identity is read from any eleven bytes. -/
theorem identity_exists (l : List Byte) (h : Spec.Seven l) (hl : l.length = 11) :
    ∃ i : DeviceIdentity, ValidIdentity i ∧ identityBytes i = l := by
  obtain ⟨a, r, rfl, ha⟩ := cut 3 (l := l) (by omega)
  obtain ⟨f, r, rfl, hf⟩ := cut 2 (l := r) (by simp at hl; omega)
  obtain ⟨m, r, rfl, hm⟩ := cut 2 (l := r) (by simp at hl; omega)
  have hr : r.length = 4 := by simp at hl; omega
  obtain ⟨family, h1, rfl⟩ := digits14 f (seven_left (seven_right h)) hf
  obtain ⟨model, h2, rfl⟩ := digits14 m (seven_left (seven_right (seven_right h))) hm
  obtain ⟨revision, h3, rfl⟩ := digits28 r (seven_right (seven_right (seven_right h))) hr
  match a, ha with
  | [x, y, z], _ =>
    have hx := h x (by simp)
    have hy := h y (by simp)
    have hz := h z (by simp)
    have e : (BitVec.ofNat 32 (x.toNat * 65536 + y.toNat * 256 + z.toNat)).toNat =
        x.toNat * 65536 + y.toNat * 256 + z.toNat := by rw [BitVec.toNat_ofNat]; omega
    refine ⟨⟨BitVec.ofNat 32 (x.toNat * 65536 + y.toNat * 256 + z.toNat), family, model, revision⟩, ?_, ?_⟩
    · unfold ValidIdentity
      simp only [e]
      exact ⟨by omega, by omega, by omega, h1, h2, h3⟩
    · unfold identityBytes
      simp only [e]
      rw [show (x.toNat * 65536 + y.toNat * 256 + z.toNat) / 65536 = x.toNat by omega,
        show (x.toNat * 65536 + y.toNat * 256 + z.toNat) / 256 % 256 = y.toNat by omega,
        show (x.toNat * 65536 + y.toNat * 256 + z.toNat) % 256 = z.toNat by omega]
      simp only [BitVec.ofNat_toNat, BitVec.setWidth_eq, List.append_assoc]

/-- The same payload, with another header. -/
theorem sameBut_msg {v v' st dev dev' : Byte} {src src' dst dst' : Word} {p p' rest : List Byte} {n : Nat}
    {changes : List (Nat × Byte)} (hn : 12 + p.length = n) (hp : p'.length = p.length)
    (h1 : ∀ i, i < 12 → (ciHeader v' st dev' src' dst')[i]? = (changes.lookup i).or (ciHeader v st dev src dst)[i]?)
    (h2 : ∀ i, i < p.length → p'[i]? = (changes.lookup (12 + i)).or p[i]?) :
    SameBut n changes (msg v st dev src dst (p ++ rest)) (msg v' st dev' src' dst' p') := by
  refine ⟨rfl, by rw [msg_length]; omega, by rw [msg_length, List.length_append]; omega, ?_⟩
  intro i hi
  show (ciHeader v' st dev' src' dst' ++ p')[i]? = (changes.lookup i).or (ciHeader v st dev src dst ++ (p ++ rest))[i]?
  by_cases h : i < 12
  · rw [List.getElem?_append_left (by rw [ciHeader_length]; omega), List.getElem?_append_left (by rw [ciHeader_length]; omega)]
    exact h1 i h
  · rw [List.getElem?_append_right (by rw [ciHeader_length]; omega), List.getElem?_append_right (by rw [ciHeader_length]; omega),
      ciHeader_length, ciHeader_length, List.getElem?_append_left (by omega)]
    have := h2 (i - 12) (by omega)
    rwa [show 12 + (i - 12) = i by omega] at this

/-- The same payload, with a header in which the given bytes are changed. -/
theorem same_header {v v' st dev dev' : Byte} {src src' dst dst' : Word} {p rest : List Byte} {n : Nat}
    {changes : List (Nat × Byte)} (hn : 12 + p.length = n) (hc : ∀ c ∈ changes, c.1 < 12)
    (h1 : ∀ i, i < 12 → (ciHeader v' st dev' src' dst')[i]? = (changes.lookup i).or (ciHeader v st dev src dst)[i]?) :
    SameBut n changes (msg v st dev src dst (p ++ rest)) (msg v' st dev' src' dst' p) := by
  refine sameBut_msg hn rfl h1 ?_
  intro i _
  have : changes.lookup (12 + i) = none := by
    rw [List.lookup_eq_none_iff]
    intro c hc'
    have := hc c hc'
    simp; omega
  rw [this]; rfl

theorem header2 {v st dev : Byte} {src dst : Word} : ∀ i, i < 12 → (ciHeader 2 st dev src dst)[i]? =
    (List.lookup i [(3, (2 : Byte))]).or (ciHeader v st dev src dst)[i]? := by
  intro i hi; interval_cases i <;> rfl

theorem header72 {v st dev : Byte} {src dst : Word} : ∀ i, i < 12 → (ciHeader 2 st 0x7F src dst)[i]? =
    (List.lookup i [(0, (0x7F : Byte)), (3, 2)]).or (ciHeader v st dev src dst)[i]? := by
  intro i hi; interval_cases i <;> rfl

theorem header71 {v st dev : Byte} {src dst : Word} : ∀ i, i < 12 → (ciHeader 1 st 0x7F src dst)[i]? =
    (List.lookup i [(0, (0x7F : Byte)), (3, 1)]).or (ciHeader v st dev src dst)[i]? := by
  intro i hi; interval_cases i <;> rfl

theorem header_broadcast2 {v st dev : Byte} {src dst : Word} : ∀ i, i < 12 →
    (ciHeader 2 st 0x7F src broadcastMuid)[i]? =
    (List.lookup i [(0, (0x7F : Byte)), (3, 2), (8, 0x7F), (9, 0x7F), (10, 0x7F), (11, 0x7F)]).or
      (ciHeader v st dev src dst)[i]? := by
  intro i hi; interval_cases i <;> rfl

theorem header_broadcast1 {v st dev : Byte} {src dst : Word} : ∀ i, i < 12 →
    (ciHeader 1 st 0x7F src broadcastMuid)[i]? =
    (List.lookup i [(0, (0x7F : Byte)), (3, 1), (8, 0x7F), (9, 0x7F), (10, 0x7F), (11, 0x7F)]).or
      (ciHeader v st dev src dst)[i]? := by
  intro i hi; interval_cases i <;> rfl

end CI
end Midi

import Verif.Model.Manufacturers
import Verif.Props.Multiplex
import Verif.Props.Identity
import Verif.Props.ByteStreamSysex

/-!
# Property C81: the named manufacturer ids
-/

namespace Midi
open Spec UniversalSysex

/-- C81: every named manufacturer id is one that exists in MIDI, that is one the properties about sysex messages are stated for. -/
theorem C81_genuine : ∀ m ∈ manufacturers, GenuineId m.2 := by decide +kernel

/-- C81: two different names stand for different manufacturers, except for Focusrite and Novation, which share an id. -/
theorem C81_distinct : ∀ m ∈ manufacturers, ∀ n ∈ manufacturers, m.1 ≠ n.1 →
    (m.2 = n.2 ↔ (m.1 = "focusrite" ∧ n.1 = "novation") ∨ (m.1 = "novation" ∧ n.1 = "focusrite")) := by decide +kernel

/-- C81: no name is given twice. -/
theorem C81_names : (manufacturers.map Prod.fst).Nodup := by decide +kernel

/-- C81: messages of any named manufacturer arrive unchanged, over packets and over a byte stream, whatever was received before. -/
theorem C81_transport (n : String × Word) (hn : n ∈ manufacturers) (data : List Byte) (hd : ∀ b ∈ data, b < 0x80) (g : Byte)
    (hg : g < 16) (hist : List Packet) (p : Parser) (hp : Reached p) (hcb : p.hasSysexCallback = true)
    (hon : p.invokeCallbacks = true) :
    ∃ ps bss c before c' p', sendSysex7 ⟨n.2, data⟩ g = .ok ps ∧
      ({} : Collector7).feedAll hist = .ok (c, before) ∧ c.feedAll ps = .ok (c', [⟨n.2, data⟩]) ∧
      ps.mapM toMidi1ByteStream = .ok bss ∧ p.feedAll bss.flatten = .ok (p', [.sysex ⟨n.2, data⟩]) := by
  have hs : Sendable7 (⟨n.2, data⟩, g) := ⟨C81_genuine n hn, hd, hg⟩
  obtain ⟨ps, bss, p', h1, h2, -, h3⟩ := C35_chain_callback ⟨n.2, data⟩ g hs p hp hcb hon
  have hf : ps.filter (fun q => decide (IsSysex7 q)) = ps := by
    rw [List.filter_eq_self]
    intro q hq
    obtain ⟨ps', e, e2, -⟩ := C17_send_sysex7 ⟨n.2, data⟩ g hg (C81_genuine n hn)
    rw [h1] at e
    obtain rfl := Except.ok.inj e
    exact decide_eq_true (e2 q hq).1
  obtain ⟨c, before, c', e1, e2⟩ := C18_sysex7_round_trip hist [(⟨n.2, data⟩, g)] (by simpa using hs) [ps]
    (by simp [h1, pure_eq_ok, ok_bind]) ps (by rw [hf]; simp)
  exact ⟨ps, bss, c, before, c', p', h1, e1, e2, h2, h3⟩

/-- C81: the identity of a device of any named manufacturer can be read from an identity reply. -/
theorem C81_identity (n : String × Word) (hn : n ∈ manufacturers) (family model : U16) (revision : Word) (dev : Byte)
    (hf : family.toNat < 2 ^ 14) (hm : model.toNat < 2 ^ 14) (hr : revision.toNat < 2 ^ 28) (hd : dev.toNat < 0x80) :
    ∃ m, makeIdentityReply n.2 family model revision dev = .ok m ∧ isIdentityReply m = .ok true ∧
      IdentityReplyView.identity m = .ok ⟨n.2, family, model, revision⟩ := by
  obtain ⟨m, h1, -, -, -, h2, -, -, h3, -⟩ := C38_identity_reply ⟨n.2, family, model, revision⟩ dev (C81_genuine n hn) hf hm hr hd
  exact ⟨m, h1, h2, h3⟩

/-- C81: there are such manufacturers, with ids of one and of three bytes. -/
example : ("roland", 0x410000) ∈ manufacturers ∧ ("native_instruments", 0x002109) ∈ manufacturers ∧
    OneByteId 0x410000 ∧ ThreeByteId 0x002109 ∧ Reached (Parser.new 0 true true) := by
  refine ⟨by decide +kernel, by decide +kernel, by decide, by decide, ?_⟩
  exact ⟨0, true, true, [], [], by decide, by simp [ValidGroups], rfl⟩

end Midi

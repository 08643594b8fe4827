import Verif.Props.ByteStreamSysex
import Verif.Props.Views

/-!
# C39: the read outside of the data can be caused by what is received
-/

namespace Midi
open Spec UniversalSysex CI

/-- C39: anyone who can send to the program can cause the read outside of the data: the parser, whatever it received before, delivers
the message `F0 7E … F7` with fewer than four bytes between, and asking whether it is a discovery message reads outside of it. -/
theorem C39_discovery_reachable (p : Parser) (hp : Reached p) (hm : p.hasSysexCallback = true) (hon : p.invokeCallbacks = true)
    (d : List Byte) (h7 : ∀ b ∈ d, b < 0x80) (hd : d.length < 4) :
    ∃ p' es m, p.feedAll (0xF0 :: (0x7E :: d ++ [0xF7])) = .ok (p', es) ∧ es.filter (fun e => !isRealTime e) = [.sysex m] ∧
      m.data = d ∧ DiscoveryInquiryView.validate m = .error .outOfBounds ∧
      DiscoveryReplyView.validate m = .error .outOfBounds := by
  obtain ⟨p', es, h1, h2, -⟩ := C30_sysex_callback p hp hm hon ⟨0x7E0000, d⟩ (show GenuineId 0x7E0000 by decide) h7 (0x7E :: d) (by
    rw [List.filter_eq_self.2]
    · rw [show idBytes7 (0x7E0000 : Word) = [0x7E] by decide]; rfl
    · intro b hb
      rw [decide_eq_true_eq]
      rcases List.mem_cons.1 hb with rfl | hb
      · decide
      · have := BitVec.lt_def.1 (h7 b hb)
        rw [BitVec.lt_def]
        exact Nat.lt_trans this (by decide))
  obtain ⟨a, b, -⟩ := C39_discovery_validate_reads_outside ⟨0x7E0000, d⟩ rfl hd
  exact ⟨p', es, _, h1, h2, rfl, a, b⟩

example : Reached (Parser.new 3 true true) ∧ (∀ b ∈ ([0x7F, 0x0D, 0x70] : List Byte), b < 0x80) :=
  ⟨⟨3, true, true, [], [], by decide, by simp [ValidGroups], rfl⟩, by decide⟩

end Midi

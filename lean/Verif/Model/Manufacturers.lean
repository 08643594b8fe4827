import Verif.Model.Basic

/-!
# Manufacturer ids

The constants of inc/midi/manufacturer.h, in the order of the file.
-/

namespace Midi

/-- The named manufacturer ids (inc/midi/manufacturer.h 39-120). -/
def manufacturers : List (String × Word) :=
  [("sequential_circuits", 0x010000),
   ("moog", 0x040000),
   ("lexicon", 0x060000),
   ("kurzweil", 0x070000),
   ("fender", 0x080000),
   ("oberheim", 0x100000),
   ("midi9", 0x090000),
   ("simmons", 0x120000),
   ("digidesign", 0x130000),
   ("fairlight", 0x140000),
   ("emu", 0x180000),
   ("hohner", 0x240000),
   ("ppg", 0x290000),
   ("wersi", 0x3B0000),
   ("waldorf", 0x3E0000),
   ("kawai", 0x400000),
   ("roland", 0x410000),
   ("korg", 0x420000),
   ("yamaha", 0x430000),
   ("casio", 0x440000),
   ("akai", 0x450000),
   ("fujitsu", 0x4B0000),
   ("sony", 0x4C0000),
   ("teac", 0x4E0000),
   ("fostex", 0x510000),
   ("zoom", 0x520000),
   ("suzuki", 0x550000),
   ("educational", 0x7D0000),
   ("universal_non_realtime", 0x7E0000),
   ("universal_realtime", 0x7F0000),
   ("rane", 0x000017),
   ("allen_heath", 0x00001A),
   ("motu", 0x00003B),
   ("atari", 0x000058),
   ("mackie", 0x000066),
   ("amd", 0x00006F),
   ("m_audio", 0x000105),
   ("microsoft", 0x00010A),
   ("line6", 0x00010C),
   ("cakewalk", 0x000121),
   ("numark", 0x00013F),
   ("denon", 0x00020B),
   ("google", 0x00020D),
   ("imitone", 0x000213),
   ("universal_audio", 0x000218),
   ("sensel", 0x00021D),
   ("mk2_image", 0x000222),
   ("bon_tempi", 0x00200B),
   ("fatar", 0x00201A),
   ("pinnacle", 0x00201E),
   ("tc_electronics", 0x00201F),
   ("doepfer", 0x002020),
   ("focusrite", 0x002029),
   ("novation", 0x002029),
   ("emagic", 0x002031),
   ("behringer", 0x002032),
   ("access", 0x002033),
   ("terratec", 0x002036),
   ("propellerhead", 0x00203A),
   ("klavis", 0x002047),
   ("vermona", 0x00204D),
   ("nokia", 0x00204E),
   ("hartmann", 0x002050),
   ("waves", 0x002066),
   ("arturia", 0x00206B),
   ("hanpin", 0x002079),
   ("serato", 0x00207F),
   ("presonus", 0x002103),
   ("native_instruments", 0x002109),
   ("ploytec", 0x00210D),
   ("roli", 0x002110),
   ("ik_multimedia", 0x00211A),
   ("ableton", 0x00211D),
   ("bome", 0x002132),
   ("touchkeys", 0x002136)]

end Midi

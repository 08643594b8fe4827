import Verif.Props.Said
import Verif.Spec.Store

/-!
# C107: a device that keeps properties, and its clients
-/

namespace Midi
open Spec UniversalSysex CI

/-! ## Messages -/

theorem property_said {m : Sysex} {k : PropertyKind} {dev : Byte} {src dst : Word} {r : Byte} {hdr : List Byte} {n t : U16} {c : List Byte}
    (h : IsPropertyMessage m k.subtype dev src dst r hdr n t c) :
    understand m = .ok (some ⟨src, dst, dev, .property k r hdr n t c⟩) ∧ Sendable7 (m, 0) := by
  obtain ⟨h, f1, -, f2, f3, f4, -, f5⟩ := h
  have hr : readProperty k m = .ok (some (.property k r hdr n t c)) := by
    refine reading_ok (said_view h ⟨"property_data_message_view", PropertyDataView.validate, [0x34, 0x35, 0x36, 0x37, 0x38, 0x39, 0x3F]⟩
      (by simp [views]) (C39_property_data m) (by simp)) ?_
    rw [f1, ok_bind, f2, ok_bind, f3, ok_bind, f4, ok_bind, f5]; rfl
  refine ⟨understand_eq h.2.2.1 ?_, ?_, ?_, show (0 : Byte) < 16 by decide⟩
  · rw [← hr]
    cases k <;> rfl
  · rw [show (m, (0 : Byte)).1.manufacturerID = _ from h.1]; decide
  · intro b hb
    rw [BitVec.lt_def]
    exact ((C53_is_valid m).1 h.2.2.1.1).2.2.2.2 b hb

theorem resourceOf_header (r : List Byte) : resourceOf (ascii "{\"resource\":\"" ++ r ++ ascii "\"}") = some r := by
  have h : ((ascii "{\"resource\":\"" ++ r ++ ascii "\"}").drop 13).take ((ascii "{\"resource\":\"" ++ r ++ ascii "\"}").length - 15) = r := by
    rw [List.append_assoc, List.drop_left' (show (ascii "{\"resource\":\"").length = 13 by rfl)]
    simp only [List.length_append, show (ascii "{\"resource\":\"").length = 13 by rfl, show (ascii "\"}").length = 2 by rfl]
    rw [show 13 + (r.length + 2) - 15 = r.length by omega, List.take_left]
  unfold resourceOf
  dsimp only
  rw [h, if_pos rfl]

/-! ## What a client sends -/

/-- From the device's point of view the messages complete what they are marked with. -/
def Emits (size : Nat) (who device : Word) : Unfinished → List (Sysex × Option (Word × Request)) → Prop
  | _, [] => True
  | p, (m, mark) :: l => ∃ dev kind rid header n t chunk, U7 rid ∧
      understand m = .ok (some ⟨who, device, dev, .property kind rid header n t chunk⟩) ∧ Sendable7 (m, 0) ∧
      (collect p kind rid header n t chunk).2.map (fun r => (who, r)) = mark ∧
      (∀ r d, mark = some (who, .set r d) → Seven d ∧ d.length ≤ 16383 * size) ∧
      Emits size who device (collect p kind rid header n t chunk).1 l

theorem Emits.prefix {size : Nat} {who device : Word} : ∀ {l l' : List (Sysex × Option (Word × Request))} {p : Unfinished},
    Emits size who device p l → l' <+: l → Emits size who device p l'
  | _, [], _, _, _ => trivial
  | [], _ :: _, _, _, h => absurd h (by simp)
  | (m, mark) :: l, x :: l', p, he, h => by
    obtain ⟨rfl, h'⟩ := List.cons_prefix_cons.1 h
    obtain ⟨dev, kind, rid, header, n, t, chunk, h0, h1, h2, h3, h4, h5⟩ := he
    exact ⟨dev, kind, rid, header, n, t, chunk, h0, h1, h2, h3, h4, h5.prefix h'⟩

theorem header_seven {r : List Byte} (h : Seven r) : Seven (ascii "{\"resource\":\"" ++ r ++ ascii "\"}") :=
  seven_append (seven_append (seven_ascii rfl) h) (seven_ascii rfl)

theorem marked_cons_cons (who : Word) (r : Request) (m m' : Sysex) (ms : List Sysex) :
    marked who r (m :: m' :: ms) = (m, none) :: marked who r (m' :: ms) := rfl

theorem ofNat16_inj {a b : Nat} (ha : a ≤ 16383) (hb : b ≤ 16383) (h : BitVec.ofNat 16 a = BitVec.ofNat 16 b) : a = b := by
  have := congrArg BitVec.toNat h
  simp only [BitVec.toNat_ofNat] at this
  omega

theorem emits_set {size : Nat} {who device : Word} {rid : Byte} (hrid : U7 rid) {r : List Byte} {chunks : List (List Byte)}
    (hlen : chunks.length ≤ 16383) (hsev : Seven chunks.flatten) (hsz : chunks.flatten.length ≤ 16383 * size) {hd : List Byte}
    (hhd : resourceOf hd = some r)
    {rest : List (Sysex × Option (Word × Request))} (hrest : ∀ p, Emits size who device p rest) (todo : List Sysex) :
    ∀ (i : Nat) (p : Unfinished), todo ≠ [] → i + todo.length = chunks.length →
      (∀ j m c, todo[j]? = some m → chunks[i + j]? = some c → IsPropertyMessage m 0x36 0x7F who device rid (if i + j = 0 then hd else [])
        (BitVec.ofNat 16 chunks.length) (BitVec.ofNat 16 (i + j + 1)) c) →
      (0 < i → p rid = (hd, (chunks.take i).flatten)) →
      Emits size who device p (marked who (.set r chunks.flatten) todo ++ rest) := by
  induction todo with
  | nil => exact fun _ _ h => absurd rfl h
  | cons m todo ih =>
    intro i p _ hl hm hp
    rw [List.length_cons] at hl
    have hc : chunks[i]? = some chunks[i] := List.getElem?_eq_getElem (by omega)
    have h0 := hm 0 m chunks[i] rfl hc
    rw [Nat.add_zero] at h0
    obtain ⟨u1, u2⟩ := property_said (k := .setInquiry) h0
    have got : (if BitVec.ofNat 16 (i + 1) = (1 : U16) then ((if i = 0 then hd else []), chunks[i]) else ((p rid).1, (p rid).2 ++ chunks[i])) =
        (hd, (chunks.take (i + 1)).flatten) := by
      have ht : chunks.take (i + 1) = chunks.take i ++ [chunks[i]] := by
        rw [List.take_add_one, hc]; rfl
      by_cases h : i = 0
      · subst h
        simp [ht]
      · rw [if_neg fun e => h (by have := ofNat16_inj (a := i + 1) (b := 1) (by omega) (by omega) e; omega), hp (by omega), ht]
        simp only [List.flatten_append, List.flatten_cons, List.flatten_nil, List.append_nil]
    cases todo with
    | nil =>
      refine ⟨_, _, _, _, _, _, _, hrid, u1, u2, ?_, ?_, ?_⟩
      · simp only [List.length_nil] at hl
        have hll : i + 1 = chunks.length := by omega
        unfold collect
        dsimp only
        rw [got, if_pos (by rw [hll]), hhd, hll, List.take_length]
        rfl
      · intro r' d' e
        obtain ⟨rfl, rfl⟩ : r = r' ∧ chunks.flatten = d' := by simpa using e
        exact ⟨hsev, hsz⟩
      · exact hrest _
    | cons m' todo =>
      refine ⟨_, _, _, _, _, _, _, hrid, u1, u2, ?_, ?_, ?_⟩
      · rw [List.length_cons] at hl
        unfold collect
        dsimp only
        rw [if_neg fun e => by have := ofNat16_inj (by omega) (by omega) e; omega]
        rfl
      · intro r' d' e; exact absurd e (by simp)
      · refine ih (i + 1) _ (by simp) (by omega) ?_ ?_
        · intro j m1 c h1 h2
          have := hm (j + 1) m1 c (by simpa using h1) (by rw [← h2]; congr 1; omega)
          rwa [show i + (j + 1) = i + 1 + j by omega] at this
        · intro _
          unfold collect
          dsimp only
          rw [if_pos rfl, got]

theorem emits_ask {size : Nat} {who device : Word} (hw : U28 who) (hd : U28 device) {rid : Byte} (hrid : U7 rid) {a : Ask} (ha : a.Ok size) :
    ∃ ms, a.messages who device rid = .ok ms ∧ ∀ rest, (∀ p, Emits size who device p rest) →
      ∀ p, Emits size who device p (marked who a.request ms ++ rest) := by
  cases a with
  | get r =>
    obtain ⟨m, e, h⟩ := C42_get_inquiry who device rid 0x7F hw hd hrid (by decide) r ha.1 ha.2
    obtain ⟨u1, u2⟩ := property_said (k := .getInquiry) h
    refine ⟨[m], by unfold Ask.messages; dsimp only; rw [e]; rfl, fun rest hrest p => ⟨_, _, _, _, _, _, _, hrid, u1, u2, ?_, ?_, ?_⟩⟩
    · unfold collect
      dsimp only
      rw [resourceOf_header]
      rfl
    · intro r' d' e; exact absurd e (by simp [Ask.request])
    · exact hrest _
  | set r chunks =>
    obtain ⟨h1, h2, h3, h4, h5, h6⟩ := ha
    obtain ⟨ms, e, hc1, hc2⟩ := set_carries
      (t := ⟨0x36, who, device, 0x7F, rid, ascii "{\"resource\":\"" ++ r ++ ascii "\"}", chunks⟩)
      ⟨hw, hd, show U7 0x7F by decide, hrid, header_seven h1, by
        simp only [List.length_append, show (ascii "{\"resource\":\"").length = 13 by rfl, show (ascii "\"}").length = 2 by rfl]; omega,
        h3, h4, h5⟩ rfl r rfl
    refine ⟨ms, e, fun rest hrest p => ?_⟩
    refine emits_set hrid h4 ?_ h6 (resourceOf_header r) hrest ms 0 p ?_ ?_ ?_ (fun h => absurd h (by omega))
    · intro b hb
      obtain ⟨c, hc, hb⟩ := List.mem_flatten.1 hb
      exact (h5 c hc).1 b hb
    · intro h
      rw [h] at hc1
      exact h3 (List.length_eq_zero_iff.1 hc1.symm)
    · rw [Nat.zero_add]; exact hc1
    · intro j m c a1 a2
      rw [Nat.zero_add] at a2 ⊢
      exact hc2 j m c a1 a2

theorem emits_stream {size : Nat} {who device : Word} (hw : U28 who) (hd : U28 device) : ∀ {asks : List (Byte × Ask)},
    (∀ a ∈ asks, U7 a.1 ∧ a.2.Ok size) → ∃ l, stream who device asks = .ok l ∧ ∀ p, Emits size who device p l
  | [], _ => ⟨[], rfl, fun _ => trivial⟩
  | a :: asks, h => by
    obtain ⟨l, e, hl⟩ := emits_stream hw hd fun b hb => h b (List.mem_cons_of_mem _ hb)
    obtain ⟨ms, e1, h1⟩ := emits_ask hw hd (h a (by simp)).1 (h a (by simp)).2
    refine ⟨marked who a.2.request ms ++ l, ?_, h1 l hl⟩
    unfold stream at e ⊢
    rw [List.mapM_cons, e1]
    cases hx : asks.mapM (fun a => do return marked who a.2.request (← a.2.messages who device a.1)) with
    | error f => rw [hx] at e; cases e
    | ok xs =>
      rw [hx] at e
      have e' : xs.flatten = l := Except.ok.inj e
      rw [← e']
      rfl

/-! ## What the device answers -/

theorem pieces_flatten (size : Nat) : ∀ n d, (pieces size n d).flatten = d
  | 0, d => by simp [pieces]
  | n + 1, d => by
    unfold pieces
    split
    · simp
    · rw [List.flatten_cons, pieces_flatten, List.take_append_drop]

theorem pieces_ne (size n : Nat) (d : List Byte) : pieces size n d ≠ [] := by
  cases n with
  | zero => simp [pieces]
  | succ n => unfold pieces; split <;> simp

theorem pieces_le {size : Nat} (hs : 1 ≤ size) : ∀ n d, d.length ≤ n → ∀ c ∈ pieces size n d, c.length ≤ size
  | 0, d, h, c, hc => by
    simp only [pieces, List.mem_singleton] at hc
    subst hc; omega
  | n + 1, d, h, c, hc => by
    unfold pieces at hc
    split at hc
    · rename_i hl
      simp only [List.mem_singleton] at hc
      subst hc; exact hl
    · rcases List.mem_cons.1 hc with rfl | hc
      · rw [List.length_take]; omega
      · exact pieces_le hs n _ (by rw [List.length_drop]; omega) c hc

theorem pieces_length {size : Nat} : ∀ n d k, 1 ≤ k → d.length ≤ k * size → (pieces size n d).length ≤ k
  | 0, _, k, hk, _ => by simp [pieces]; exact hk
  | n + 1, d, k, hk, h => by
    unfold pieces
    split
    · simpa using hk
    · rename_i hl
      obtain ⟨k, rfl⟩ : ∃ j, k = j + 1 := ⟨k - 1, by omega⟩
      rw [Nat.add_mul, Nat.one_mul] at h
      have hk1 : 1 ≤ k := by
        rcases Nat.eq_zero_or_pos k with rfl | h'
        · omega
        · exact h'
      have := pieces_length (size := size) n (d.drop size) k hk1 (by rw [List.length_drop]; omega)
      rw [List.length_cons]; omega

theorem client_append {c c' : Client} {a b : List Sysex} (h : c.receiveAll a = .ok c') : c.receiveAll (a ++ b) = c'.receiveAll b := by
  unfold Client.receiveAll at *
  rw [List.foldlM_append, h]; rfl

/-- A client for whom an answer is not meant. -/
theorem client_other {c : Client} {who : Word} (hne : who ≠ c.muid) : ∀ {ms : List Sysex},
    (∀ m ∈ ms, ∃ src dev k r hdr n t ch, understand m = .ok (some ⟨src, who, dev, .property k r hdr n t ch⟩)) → c.receiveAll ms = .ok c
  | [], _ => rfl
  | m :: ms, h => by
    obtain ⟨src, dev, k, r, hdr, n, t, ch, e⟩ := h m (by simp)
    have : c.receive m = .ok c := by
      unfold Client.receive
      rw [e, ok_bind]
      cases k <;> simp [hne, pure, Except.pure]
    unfold Client.receiveAll
    rw [List.foldlM_cons, this]
    exact client_other hne fun x hx => h x (List.mem_cons_of_mem _ hx)

/-- The client for whom the data is meant. -/
theorem client_value {src who : Word} {rid : Byte} {chunks : List (List Byte)} {hd : List Byte} (hlen : chunks.length ≤ 16383) (todo : List Sysex) :
    ∀ (i : Nat) (c : Client), c.muid = who → todo ≠ [] → i + todo.length = chunks.length →
      (∀ j m ch, todo[j]? = some m → chunks[i + j]? = some ch → IsPropertyMessage m 0x35 0x7F src who rid (if i + j = 0 then hd else [])
        (BitVec.ofNat 16 chunks.length) (BitVec.ofNat 16 (i + j + 1)) ch) →
      c.data = (chunks.take i).flatten →
      c.receiveAll todo = .ok { c with data := [], answers := c.answers ++ [.value chunks.flatten] } := by
  induction todo with
  | nil => exact fun _ _ _ h => absurd rfl h
  | cons m todo ih =>
    intro i c hc _ hl hm hp
    rw [List.length_cons] at hl
    have hch : chunks[i]? = some chunks[i] := List.getElem?_eq_getElem (by omega)
    have h0 := hm 0 m chunks[i] rfl hch
    rw [Nat.add_zero] at h0
    obtain ⟨u1, -⟩ := property_said (k := .getReply) h0
    have ht : (chunks.take (i + 1)).flatten = c.data ++ chunks[i] := by
      rw [List.take_add_one, hch, hp, List.flatten_append, Option.toList_some, List.flatten_singleton]
    unfold Client.receiveAll
    rw [List.foldlM_cons]
    cases todo with
    | nil =>
      simp only [List.length_nil] at hl
      have hll : i + 1 = chunks.length := by omega
      have : c.receive m = .ok { c with data := [], answers := c.answers ++ [.value chunks.flatten] } := by
        unfold Client.receive
        rw [u1, ok_bind]
        dsimp only
        rw [if_neg (by simp [hc]), if_pos (by rw [hll]), ← ht, hll, List.take_length]
        rfl
      rw [this]; rfl
    | cons m' todo =>
      have : c.receive m = .ok { c with data := c.data ++ chunks[i] } := by
        rw [List.length_cons] at hl
        unfold Client.receive
        rw [u1, ok_bind]
        dsimp only
        rw [if_neg (by simp [hc]), if_neg fun e => by have := ofNat16_inj (by omega) (by omega) e; omega]
        rfl
      rw [this, ok_bind]
      refine ih (i + 1) { c with data := c.data ++ chunks[i] } hc (by simp) (by omega) ?_ ht.symm
      intro j m1 ch h1 h2
      have := hm (j + 1) m1 ch (by simpa using h1) (by rw [← h2]; congr 1; omega)
      rwa [show i + (j + 1) = i + 1 + j by omega] at this

/-- The answer is made, and every client gets what is meant for it. -/
theorem reply_ok {s : Server} (hm : U28 s.muid) (hs : 1 ≤ s.size ∧ s.size ≤ 16383) {who : Word} (hw : U28 who) {rid : Byte} (hrid : U7 rid)
    {a : Answer} (ha : ∀ d, a = .value d → Seven d ∧ d.length ≤ 16383 * s.size) :
    ∃ ms, s.reply who rid a = .ok ms ∧ (∀ m ∈ ms, Sendable7 (m, 0)) ∧ ∀ c : Client, c.data = [] →
      c.receiveAll ms = .ok { c with answers := c.answers ++ if who = c.muid then [a] else [] } := by
  cases a with
  | value d =>
    obtain ⟨h7, hl⟩ := ha d rfl
    have hlen : (pieces s.size d.length d).length ≤ 16383 := pieces_length _ _ _ (by decide) hl
    have hfl := pieces_flatten s.size d.length d
    obtain ⟨ms, e, hc1, hc2⟩ := reply_carries
      (t := ⟨0x35, s.muid, who, 0x7F, rid, ascii "{\"status\":200}", pieces s.size d.length d⟩)
      ⟨hm, hw, show U7 0x7F by decide, hrid, seven_ascii rfl, show (ascii "{\"status\":200}").length ≤ 16383 by decide, pieces_ne _ _ _, hlen, fun c hc =>
        ⟨fun b hb => h7 b (by rw [← hfl]; exact List.mem_flatten.2 ⟨c, hc, hb⟩), (pieces_le hs.1 _ _ (Nat.le_refl _) c hc).trans hs.2⟩⟩ rfl
    have hall : ∀ m ∈ ms, ∃ hdr n t ch, IsPropertyMessage m (PropertyKind.getReply).subtype 0x7F s.muid who rid hdr n t ch := by
      intro m hm'
      obtain ⟨i, hi⟩ := List.getElem?_of_mem hm'
      have hi' : i < (pieces s.size d.length d).length := by
        have := (List.getElem?_eq_some_iff.1 hi).1
        simp only at hc1
        omega
      exact ⟨_, _, _, _, hc2 i m _ hi (List.getElem?_eq_getElem hi')⟩
    refine ⟨ms, e, fun m hm' => ?_, fun c hc => ?_⟩
    · obtain ⟨_, _, _, _, h⟩ := hall m hm'
      exact (property_said h).2
    · by_cases hq : who = c.muid
      · rw [if_pos hq]
        have := client_value (src := s.muid) (who := who) (rid := rid) (hd := ascii "{\"status\":200}") hlen ms 0 c hq.symm ?_ ?_ ?_ ?_
        · rw [this, hfl]
          rw [← hc]
        · intro h
          rw [h] at hc1
          exact pieces_ne _ _ _ (List.length_eq_zero_iff.1 hc1.symm)
        · rw [Nat.zero_add]; exact hc1
        · intro j m ch a1 a2
          rw [Nat.zero_add] at a2 ⊢
          exact hc2 j m ch a1 a2
        · rw [hc]; rfl
      · rw [if_neg hq, client_other hq]
        · rw [List.append_nil]
        · intro m hm'
          obtain ⟨_, _, _, _, h⟩ := hall m hm'
          exact ⟨_, _, _, _, _, _, _, _, (property_said h).1⟩
  | done =>
    obtain ⟨m, e, h⟩ := C42_set_reply s.muid who rid 0x7F hm hw hrid (by decide) 200 (by decide) (by decide)
    obtain ⟨u1, u2⟩ := property_said (k := .setReply) h
    refine ⟨[m], by unfold Server.reply; dsimp only; rw [e]; rfl, fun x hx => by rw [List.mem_singleton.1 hx]; exact u2, fun c _ => ?_⟩
    by_cases hq : who = c.muid
    · rw [if_pos hq]
      have : c.receive m = .ok { c with answers := c.answers ++ [.done] } := by
        unfold Client.receive
        rw [u1, ok_bind]
        dsimp only
        rw [if_neg (by simp [hq])]
        rfl
      unfold Client.receiveAll
      rw [List.foldlM_cons, this]; rfl
    · rw [if_neg hq, client_other hq, List.append_nil]
      intro x hx
      rw [List.mem_singleton.1 hx]
      exact ⟨_, _, _, _, _, _, _, _, u1⟩

/-! ## All together -/

theorem server_ignored {s : Server} {m : Sysex} (h : Ignored s.muid m) : s.receive m = .ok (s, []) := by
  obtain ⟨r, e⟩ := C106_safe m
  unfold Server.receive
  rw [e, ok_bind]
  split
  · rename_i who dest dev kind rid header n t chunk
    split
    · rfl
    · rename_i hd
      rcases h _ _ _ _ _ _ _ _ _ e with h | ⟨h1, h2⟩
      · exact absurd h hd
      · have hc : collect (s.incomplete who) kind rid header n t chunk = (s.incomplete who, none) := by
          cases kind <;> first | rfl | contradiction
        rw [hc]
        dsimp only
        have : (fun x => if x = who then s.incomplete who else s.incomplete x) = s.incomplete := by
          funext x
          split
          · rename_i h; rw [h]
          · rfl
        rw [this]; rfl
  · rfl

theorem store_run (P : Sysex → Prop) (hP : ∀ m, Sendable7 (m, 0) → P m) (keys : List (Option Word)) (hkeys : ∀ (i j : Nat) (a : Word), keys[i]? = some (some a) → keys[j]? = some (some a) → i = j)
    (h28 : ∀ a, some a ∈ keys → U28 a) {ls : List (List (Sysex × Option (Word × Request)))} {w : List (Sysex × Option (Word × Request))}
    (hw : Interleaved ls w) : ∀ (s : Server), U28 s.muid → 1 ≤ s.size ∧ s.size ≤ 16383 → s.table.Ok s.size → ls.length = keys.length →
    (∀ (i : Nat) (a : Word) (l : List (Sysex × Option (Word × Request))), keys[i]? = some (some a) → ls[i]? = some l → Emits s.size a s.muid (s.incomplete a) l) →
    (∀ (i : Nat) (l : List (Sysex × Option (Word × Request))), keys[i]? = some none → ls[i]? = some l → ∀ x ∈ l, Ignored s.muid x.1 ∧ x.2 = none ∧ P x.1) →
    (∀ x ∈ w, P x.1) ∧
    ∃ s' out, s.receiveAll (w.map Prod.fst) = .ok (s', out) ∧ s'.table = (s.table.performAll (w.filterMap Prod.snd)).1 ∧
      (∀ m ∈ out, Sendable7 (m, 0)) ∧ ∀ c : Client, c.data = [] → c.receiveAll out = .ok { c with answers := c.answers ++
        (answersFor c.muid (s.table.performAll (w.filterMap Prod.snd)).2) } := by
  induction hw with
  | nothing ls h =>
    intro s _ _ _ _ _ _
    exact ⟨by simp, s, [], rfl, rfl, by simp, fun c _ => by simp [Table.performAll, answersFor]; rfl⟩
  | next ls i x l w hi _ ih =>
    intro s hm hs ht hlen hE hI
    obtain ⟨hilt, hik⟩ : i < ls.length ∧ i < keys.length := by
      have := (List.getElem?_eq_some_iff.1 hi).1
      omega
    have hset : ∀ j l', (ls.set i l)[j]? = some l' → (j = i ∧ l' = l) ∨ (j ≠ i ∧ ls[j]? = some l') := by
      intro j l' h
      by_cases hj : j = i
      · subst hj
        rw [List.getElem?_set_self hilt] at h
        exact .inl ⟨rfl, (Option.some.inj h).symm⟩
      · rw [List.getElem?_set_ne (Ne.symm hj)] at h
        exact .inr ⟨hj, h⟩
    have hk : keys[i]? = some keys[i] := List.getElem?_eq_getElem hik
    cases hki : keys[i] with
    | none =>
      rw [hki] at hk
      obtain ⟨n1, n2, n3⟩ := hI i _ hk hi x (by simp)
      obtain ⟨i0, s', out, i1, i2, i3, i4⟩ := ih s hm hs ht (by simpa using hlen)
        (fun j a l' h1 h2 => by
          rcases hset j l' h2 with ⟨rfl, -⟩ | ⟨-, h2⟩
          · rw [hk] at h1; exact absurd h1 (by simp)
          · exact hE j a l' h1 h2)
        (fun j l' h1 h2 y hy => by
          rcases hset j l' h2 with ⟨rfl, rfl⟩ | ⟨-, h2⟩
          · exact hI j _ hk hi y (List.mem_cons_of_mem _ hy)
          · exact hI j l' h1 h2 y hy)
      have hf : (x :: w).filterMap Prod.snd = w.filterMap Prod.snd := by
        rw [List.filterMap_cons, n2]
      refine ⟨fun y hy => ?_, s', out, ?_, ?_, i3, ?_⟩
      · rcases List.mem_cons.1 hy with rfl | hy
        · exact n3
        · exact i0 y hy
      · rw [List.map_cons, Server.receiveAll, server_ignored n1, ok_bind]
        dsimp only
        rw [i1]; rfl
      · rw [hf]; exact i2
      · rw [hf]; exact i4
    | some who =>
      rw [hki] at hk
      obtain ⟨m, mark⟩ := x
      obtain ⟨dev, kind, rid, header, n, t, chunk, hrid, u1, u2, hmark, hset', hrest⟩ := hE i who _ hk hi
      have hwho : U28 who := h28 who (List.mem_of_getElem? hk)
      generalize hcol : collect (s.incomplete who) kind rid header n t chunk = cr at hmark hrest
      obtain ⟨p, asked⟩ := cr
      dsimp only at hmark hrest
      -- the rest, from any table
      have go : ∀ (σ : Table), σ.Ok s.size →
          (∀ x ∈ w, P x.1) ∧ ∃ s' out,
          (⟨s.muid, s.size, σ, fun x => if x = who then p else s.incomplete x⟩ : Server).receiveAll (w.map Prod.fst) = .ok (s', out) ∧
          s'.table = (σ.performAll (w.filterMap Prod.snd)).1 ∧ (∀ m ∈ out, Sendable7 (m, 0)) ∧
          ∀ c : Client, c.data = [] → c.receiveAll out = .ok { c with answers := c.answers ++
            (answersFor c.muid (σ.performAll (w.filterMap Prod.snd)).2) } := by
        intro σ hσ
        refine ih ⟨s.muid, s.size, σ, _⟩ hm hs hσ (by simpa using hlen) ?_ ?_
        · intro j a l' h1 h2
          rcases hset j l' h2 with ⟨rfl, rfl⟩ | ⟨hj, h2⟩
          · rw [hk] at h1
            obtain rfl : who = a := by simpa using h1
            show Emits _ _ _ (if who = who then p else s.incomplete who) _
            rw [if_pos rfl]; exact hrest
          · have hne : a ≠ who := fun e => hj (hkeys j i a h1 (by rw [e]; exact hk))
            show Emits _ _ _ (if a = who then p else s.incomplete a) _
            rw [if_neg hne]; exact hE j a l' h1 h2
        · intro j l' h1 h2 y hy
          rcases hset j l' h2 with ⟨rfl, rfl⟩ | ⟨-, h2⟩
          · rw [hk] at h1; exact absurd h1 (by simp)
          · exact hI j l' h1 h2 y hy
      cases asked with
      | none =>
        obtain rfl : none = mark := hmark
        obtain ⟨i0, s', out, i1, i2, i3, i4⟩ := go s.table ht
        refine ⟨fun y hy => ?_, s', out, ?_, i2, i3, i4⟩
        · rcases List.mem_cons.1 hy with rfl | hy
          · exact hP _ u2
          · exact i0 y hy
        · rw [List.map_cons, Server.receiveAll]
          have : s.receive m = .ok (⟨s.muid, s.size, s.table, fun x => if x = who then p else s.incomplete x⟩, []) := by
            unfold Server.receive
            rw [u1, ok_bind]
            dsimp only
            rw [if_neg (by simp), hcol]
            rfl
          rw [this, ok_bind]
          dsimp only
          rw [i1]; rfl
      | some r =>
        obtain rfl : some (who, r) = mark := hmark
        have hσ : (s.table.perform r).1.Ok s.size := by
          cases r with
          | get r => exact ht
          | set r d =>
            intro x
            show Seven (if x = r then d else s.table x) ∧ _
            have := hset' r d rfl
            by_cases hx : x = r
            · simpa [Table.perform, hx] using this
            · simpa [Table.perform, hx] using ht x
        obtain ⟨i0, s', out, i1, i2, i3, i4⟩ := go _ hσ
        obtain ⟨ms, e, r2, r3⟩ := reply_ok (s := ⟨s.muid, s.size, s.table, fun x => if x = who then p else s.incomplete x⟩) hm hs hwho hrid
          (a := (s.table.perform r).2) (by
            intro d hd
            cases r with
            | get r =>
              obtain rfl : s.table r = d := by simpa [Table.perform] using hd
              exact ht r
            | set r d' => exact absurd hd (by simp [Table.perform]))
        refine ⟨fun y hy => ?_, s', ms ++ out, ?_, ?_, ?_, ?_⟩
        · rcases List.mem_cons.1 hy with rfl | hy
          · exact hP _ u2
          · exact i0 y hy
        · rw [List.map_cons, Server.receiveAll]
          have : s.receive m = .ok (⟨s.muid, s.size, (s.table.perform r).1, fun x => if x = who then p else s.incomplete x⟩, ms) := by
            unfold Server.receive
            rw [u1, ok_bind]
            dsimp only
            rw [if_neg (by simp), hcol]
            dsimp only
            rw [e]
            rfl
          rw [this, ok_bind]
          dsimp only
          rw [i1]; rfl
        · rw [List.filterMap_cons]
          exact i2
        · intro y hy
          rcases List.mem_append.1 hy with hy | hy
          · exact r2 y hy
          · exact i3 y hy
        · intro c hc
          rw [client_append (r3 c hc), i4 { c with answers := c.answers ++ if who = c.muid then [(s.table.perform r).2] else [] } hc,
            List.filterMap_cons]
          dsimp only
          rw [Table.performAll]
          by_cases hq : who = c.muid
          · simp [answersFor, hq]
          · simp [answersFor, hq]

theorem streams_made {size : Nat} {device : Word} (hd : U28 device) : ∀ {clients : List (Word × List (Byte × Ask))},
    (∀ c ∈ clients, U28 c.1 ∧ ∀ a ∈ c.2, U7 a.1 ∧ a.2.Ok size) → ∃ streams, clients.mapM (fun c => stream c.1 device c.2) = .ok streams ∧
      List.Forall₂ (fun c l => ∀ p, Emits size c.1 device p l) clients streams
  | [], _ => ⟨[], rfl, .nil⟩
  | c :: cs, h => by
    obtain ⟨ss, e, h1⟩ := streams_made hd fun x hx => h x (List.mem_cons_of_mem _ hx)
    obtain ⟨l, e', h2⟩ := emits_stream (h c (by simp)).1 hd (h c (by simp)).2
    exact ⟨l :: ss, by rw [List.mapM_cons, e', ok_bind, e]; rfl, .cons h2 h1⟩

theorem store_all (s : Server) (hm : U28 s.muid) (hs : 1 ≤ s.size ∧ s.size ≤ 16383) (ht : s.table.Ok s.size)
    (clients : List (Word × List (Byte × Ask))) (hnd : (clients.map Prod.fst).Nodup)
    (hc : ∀ c ∈ clients, U28 c.1 ∧ ∀ a ∈ c.2, U7 a.1 ∧ a.2.Ok s.size) (P : Sysex → Prop) (hP : ∀ m, Sendable7 (m, 0) → P m) :
    ∃ streams, clients.mapM (fun c => stream c.1 s.muid c.2) = .ok streams ∧
      ∀ sent, List.Forall₂ (· <+: ·) sent streams → ∀ other : List Sysex, (∀ m ∈ other, Ignored s.muid m ∧ P m) →
      ∀ w, Interleaved (sent ++ [other.map fun m => (m, none)]) w →
        (∀ x ∈ w, P x.1) ∧
        ∃ s' out, s.receiveAll (w.map Prod.fst) = .ok (s', out) ∧ s'.table = (s.table.performAll (w.filterMap Prod.snd)).1 ∧
          (∀ m ∈ out, Sendable7 (m, 0)) ∧
          ∀ who, ∃ c, ({ muid := who } : Client).receiveAll out = .ok c ∧
            c.answers = answersFor who (s.table.performAll (w.filterMap Prod.snd)).2 := by
  obtain ⟨streams, e, hE⟩ := streams_made (size := s.size) hm hc
  refine ⟨streams, e, fun sent hsent other hother w hw => ?_⟩
  have hl1 : clients.length = streams.length := hE.length_eq
  have hl2 : sent.length = streams.length := hsent.length_eq
  have hkey : ∀ (i : Nat) (a : Word), (clients.map (fun c => some c.1) ++ [none])[i]? = some (some a) →
      i < clients.length ∧ (clients.map Prod.fst)[i]? = some a := by
    intro i a h
    by_cases hi : i < clients.length
    · rw [List.getElem?_append_left (by simpa using hi), List.getElem?_map] at h
      refine ⟨hi, ?_⟩
      rw [List.getElem?_map]
      cases hx : clients[i]? with
      | none => rw [hx] at h; cases h
      | some c =>
        rw [hx] at h
        simpa using h
    · rw [List.getElem?_append_right (by simpa using hi), List.length_map] at h
      cases hk : i - clients.length with
      | zero => rw [hk] at h; exact absurd h (by simp)
      | succ k => rw [hk] at h; exact absurd h (by simp)
  obtain ⟨i0, s', out, i1, i2, i3, i4⟩ := store_run P hP (clients.map (fun c => some c.1) ++ [none])
    (by
      intro i j a h1 h2
      obtain ⟨b1, b2⟩ := hkey i a h1
      obtain ⟨c1, c2⟩ := hkey j a h2
      exact (List.getElem?_inj (by simpa using b1) hnd).1 (b2.trans c2.symm))
    (by
      intro a ha
      rcases List.mem_append.1 ha with ha | ha
      · obtain ⟨c, hc', e⟩ := List.mem_map.1 ha
        obtain rfl : c.1 = a := by simpa using e
        exact (hc c hc').1
      · simp at ha) hw s hm hs ht (by simp; omega)
    (by
      intro i a l h1 h2
      obtain ⟨b1, b2⟩ := hkey i a h1
      rw [List.getElem?_append_left (by omega)] at h2
      obtain ⟨hi, e1⟩ := List.getElem?_eq_some_iff.1 h2
      have hp : sent[i] <+: streams[i]'(by omega) := (List.forall₂_iff_get.1 hsent).2 i hi (by omega)
      have hem := (List.forall₂_iff_get.1 hE).2 i b1 (by omega)
      have hca : (clients[i]'b1).1 = a := by
        rw [List.getElem?_map, List.getElem?_eq_getElem b1] at b2
        simpa using b2
      rw [← e1, ← hca]
      exact (hem _).prefix hp)
    (by
      intro i l h1 h2 x hx
      by_cases hi : i < sent.length
      · rw [List.getElem?_append_left (by simp; omega), List.getElem?_map, List.getElem?_eq_getElem (by omega)] at h1
        simp at h1
      · rw [List.getElem?_append_right (by omega)] at h2
        cases hk : i - sent.length with
        | zero =>
          rw [hk] at h2
          obtain rfl : other.map (fun m => (m, none)) = l := by simpa using h2
          obtain ⟨m, hm', rfl⟩ := List.mem_map.1 hx
          exact ⟨(hother m hm').1, rfl, (hother m hm').2⟩
        | succ k => rw [hk] at h2; simp at h2)
  exact ⟨i0, s', out, i1, i2, i3, fun who => ⟨_, i4 { muid := who } rfl, rfl⟩⟩

/-! ## C107 -/

/-- C107: any number of clients with different MUIDs set and get properties of a device, each of them one thing after the other, with any
request ids and the data cut into any chunks. Every client may stop at any time, also within a set inquiry. Their messages arrive
in any order in which those of each client are in theirs, and other messages may come in between. The device never reads out of bounds nor
fails an assertion, and does what a table does with the requests in the order in which their last messages arrive: it has those properties
in the end, and every client reads exactly these answers from what the device sends, in the order in which it asked. -/
theorem C107_like_a_table (s : Server) (hm : U28 s.muid) (hs : 1 ≤ s.size ∧ s.size ≤ 16383) (ht : s.table.Ok s.size)
    (clients : List (Word × List (Byte × Ask))) (hnd : (clients.map Prod.fst).Nodup)
    (hc : ∀ c ∈ clients, U28 c.1 ∧ ∀ a ∈ c.2, U7 a.1 ∧ a.2.Ok s.size) :
    ∃ streams, clients.mapM (fun c => stream c.1 s.muid c.2) = .ok streams ∧
      ∀ sent, List.Forall₂ (· <+: ·) sent streams → ∀ other : List Sysex, (∀ m ∈ other, Ignored s.muid m) →
      ∀ w, Interleaved (sent ++ [other.map fun m => (m, none)]) w →
        ∃ s' out, s.receiveAll (w.map Prod.fst) = .ok (s', out) ∧ s'.table = (s.table.performAll (w.filterMap Prod.snd)).1 ∧
          ∀ who, ∃ c, ({ muid := who } : Client).receiveAll out = .ok c ∧
            c.answers = answersFor who (s.table.performAll (w.filterMap Prod.snd)).2 := by
  obtain ⟨streams, e, h⟩ := store_all s hm hs ht clients hnd hc (fun _ => True) fun _ _ => trivial
  refine ⟨streams, e, fun sent h1 other h2 w hw => ?_⟩
  obtain ⟨-, s', out, i1, i2, -, i4⟩ := h sent h1 other (fun m hm' => ⟨h2 m hm', trivial⟩) w hw
  exact ⟨s', out, i1, i2, i4⟩

/-- C107: the messages of a request are marked on the last one only, with what is asked for. -/
theorem C107_marks (who device : Word) (hw : U28 who) (hd : U28 device) (rid : Byte) (hrid : U7 rid) (size : Nat) (a : Ask) (ha : a.Ok size) :
    ∃ ms m, a.messages who device rid = .ok (ms ++ [m]) ∧
      marked who a.request (ms ++ [m]) = (ms.map fun x => (x, none)) ++ [(m, some (who, a.request))] := by
  have key : ∀ (ms : List Sysex) (m : Sysex), marked who a.request (ms ++ [m]) = (ms.map fun x => (x, none)) ++ [(m, some (who, a.request))] := by
    intro ms m
    induction ms with
    | nil => rfl
    | cons x ms ih =>
      rw [List.map_cons, List.cons_append, List.cons_append, ← ih]
      cases ms with
      | nil => rfl
      | cons y ms => rfl
  obtain ⟨ms, e, -⟩ := emits_ask hw hd hrid ha
  have hne : ms ≠ [] := by
    intro h
    subst h
    cases a with
    | get r =>
      obtain ⟨m, e', -⟩ := C42_get_inquiry who device rid 0x7F hw hd hrid (by decide) r ha.1 ha.2
      unfold Ask.messages at e
      dsimp only at e
      rw [e'] at e
      cases e
    | set r chunks =>
      obtain ⟨h1, h2, h3, h4, h5, h6⟩ := ha
      obtain ⟨ms, e', hc1, -⟩ := set_carries
        (t := ⟨0x36, who, device, 0x7F, rid, ascii "{\"resource\":\"" ++ r ++ ascii "\"}", chunks⟩)
        ⟨hw, hd, show U7 0x7F by decide, hrid, header_seven h1, by
          simp only [List.length_append, show (ascii "{\"resource\":\"").length = 13 by rfl, show (ascii "\"}").length = 2 by rfl]; omega,
          h3, h4, h5⟩ rfl r rfl
      unfold Ask.messages at e
      dsimp only at e
      rw [e'] at e
      rw [Except.ok.inj e] at hc1
      exact h3 (List.length_eq_zero_iff.1 hc1.symm)
  obtain ⟨l, m, rfl⟩ : ∃ l m, ms = l ++ [m] := ⟨ms.dropLast, ms.getLast hne, (List.dropLast_append_getLast hne).symm⟩
  exact ⟨l, m, e, key l m⟩

/-- C107: all the way over sysex7 packets in any groups, there and back, with other packets between, and whatever the collectors at both
ends received before. -/
theorem C107_over_packets (s : Server) (hm : U28 s.muid) (hs : 1 ≤ s.size ∧ s.size ≤ 16383) (ht : s.table.Ok s.size)
    (clients : List (Word × List (Byte × Ask))) (hnd : (clients.map Prod.fst).Nodup)
    (hc : ∀ c ∈ clients, U28 c.1 ∧ ∀ a ∈ c.2, U7 a.1 ∧ a.2.Ok s.size) (back : Byte) (hback : back < 16) (hist hist' : List Packet) :
    ∃ streams, clients.mapM (fun c => stream c.1 s.muid c.2) = .ok streams ∧
      ∀ sent, List.Forall₂ (· <+: ·) sent streams → ∀ other : List Sysex, (∀ m ∈ other, Ignored s.muid m ∧ Sendable7 (m, 0)) →
      ∀ w : List ((Sysex × Option (Word × Request)) × Byte), Interleaved (sent ++ [other.map fun m => (m, none)]) (w.map Prod.fst) →
        (∀ x ∈ w, x.2 < 16) →
        ∃ there, w.mapM (fun x => sendSysex7 x.1.1 x.2) = .ok there ∧
          ∀ qs : List Packet, qs.filter (fun p => decide (IsSysex7 p)) = there.flatten →
          ∃ c before c' got s' out home, ({} : Collector7).feedAll hist = .ok (c, before) ∧ c.feedAll qs = .ok (c', got) ∧
            s.receiveAll got = .ok (s', out) ∧ s'.table = (s.table.performAll (w.filterMap fun x => x.1.2)).1 ∧
            out.mapM (fun m => sendSysex7 m back) = .ok home ∧
            ∀ qs' : List Packet, qs'.filter (fun p => decide (IsSysex7 p)) = home.flatten →
            ∃ d before' d' got', ({} : Collector7).feedAll hist' = .ok (d, before') ∧ d.feedAll qs' = .ok (d', got') ∧
              ∀ who, ∃ c, ({ muid := who } : Client).receiveAll got' = .ok c ∧
                c.answers = answersFor who (s.table.performAll (w.filterMap fun x => x.1.2)).2 := by
  obtain ⟨streams, e, h⟩ := store_all s hm hs ht clients hnd hc (fun m => Sendable7 (m, 0)) fun _ h => h
  refine ⟨streams, e, fun sent h1 other h2 w hw hg => ?_⟩
  obtain ⟨i0, s', out, i1, i2, i3, i4⟩ := h sent h1 other h2 _ hw
  have hfm : (w.map Prod.fst).filterMap Prod.snd = w.filterMap fun x => x.1.2 := by rw [List.filterMap_map]; rfl
  rw [hfm] at i2 i4
  have hsend : ∀ m ∈ w.map (fun x => (x.1.1, x.2)), Sendable7 m := by
    intro m hm'
    obtain ⟨x, hx, rfl⟩ := List.mem_map.1 hm'
    obtain ⟨a1, a2, -⟩ := i0 x.1 (List.mem_map.2 ⟨x, hx, rfl⟩)
    exact ⟨a1, a2, hg x hx⟩
  obtain ⟨there, e1, -⟩ := C18_send_succeeds _ hsend
  refine ⟨there, by rw [List.mapM_map] at e1; exact e1, fun qs hq => ?_⟩
  obtain ⟨c, before, c', a1, a2⟩ := C18_sysex7_round_trip hist _ hsend there e1 qs hq
  have hsend' : ∀ m ∈ out.map (fun m => (m, back)), Sendable7 m := by
    intro m hm'
    obtain ⟨x, hx, rfl⟩ := List.mem_map.1 hm'
    obtain ⟨a1, a2, -⟩ := i3 x hx
    exact ⟨a1, a2, hback⟩
  obtain ⟨home, e2, -⟩ := C18_send_succeeds _ hsend'
  refine ⟨c, before, c', _, s', out, home, a1, a2, ?_, i2, by rw [List.mapM_map] at e2; exact e2, fun qs' hq' => ?_⟩
  · rw [List.map_map]
    rw [List.map_map] at i1
    exact i1
  · obtain ⟨d, before', d', b1, b2⟩ := C18_sysex7_round_trip hist' _ hsend' home e2 qs' hq'
    refine ⟨d, before', d', _, b1, b2, fun who => ?_⟩
    rw [List.map_map]
    have : (Prod.fst ∘ fun m : Sysex => (m, back)) = id := rfl
    rw [this, List.map_id]
    exact i4 who

/-! Two clients of a device with an empty table: one sets a property in two chunks and gets it, the other gets it before the second chunk
has come and afterwards. -/

def exampleServer : Server := ⟨0x0ABCDEF, 2, fun _ => [], fun _ _ => ([], [])⟩

def exampleClients : List (Word × List (Byte × Ask)) :=
  [(0x111, [(1, .set (ascii "x") [[1], [2, 3]]), (1, .get (ascii "x"))]), (0x222, [(1, .get (ascii "x")), (2, .get (ascii "x"))])]

example : U28 exampleServer.muid ∧ (1 ≤ exampleServer.size ∧ exampleServer.size ≤ 16383) ∧ exampleServer.table.Ok exampleServer.size ∧
    (exampleClients.map Prod.fst).Nodup := ⟨by decide, by decide, fun _ => ⟨fun _ h => absurd h (by simp [exampleServer]), by simp [exampleServer]⟩, by decide⟩

example : ∀ c ∈ exampleClients, U28 c.1 ∧ ∀ a ∈ c.2, U7 a.1 ∧ a.2.Ok exampleServer.size := by decide

example : (do
    let l ← exampleClients.mapM fun c => stream c.1 exampleServer.muid c.2
    match l with
    | [[a, b, c], [d, e]] =>
      let (_, out) ← exampleServer.receiveAll ([a, d, b, e, c].map Prod.fst)
      return ((← ({ muid := 0x111 } : Client).receiveAll out).answers, (← ({ muid := 0x222 } : Client).receiveAll out).answers)
    | _ => return ([], [])) =
    (.ok ([.done, .value [1, 2, 3]], [.value [], .value [1, 2, 3]]) : Except Fault (List Answer × List Answer)) := by
  rfl

example : Ignored 0x0ABCDEF ⟨0x7D0000, [1, 2, 3]⟩ := by
  intro _ _ _ _ _ _ _ _ _ h
  have : understand ⟨0x7D0000, [1, 2, 3]⟩ = .ok none := rfl
  rw [this] at h
  cases h

end Midi

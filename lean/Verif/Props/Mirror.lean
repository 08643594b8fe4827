import Verif.Props.Store
import Verif.Props.Json
import Verif.Spec.Mirror

/-!
# C113: subscribed clients have a copy of a device's properties
-/

namespace Midi
open Spec UniversalSysex CI

/-! ## Headers -/

theorem name_number {n : List Byte} (h : NameOk n) : isNumber n = .ok false := by
  obtain ⟨h1, -, -, h2, -⟩ := h
  cases n with
  | nil => exact absurd rfl h1
  | cons c l => rw [isNumber_iff]; simpa using h2

theorem name_option {k n : List Byte} (hk : k.all Json.plain = true) (h : NameOk n) : Spec.OptionOk (k, n) :=
  ⟨hk, h.2.2.1, h.1, fun e => absurd e h.2.2.2.1⟩

theorem name_value {n : List Byte} (h : NameOk n) : Json.optionValue n = .str n := by
  have hn := name_number h
  cases n with
  | nil => exact absurd rfl h.1
  | cons c l =>
    unfold Json.optionValue
    cases hi : Json.integer (c :: l) with
    | none => rfl
    | some p =>
      obtain ⟨x, r⟩ := p
      cases r with
      | cons _ _ => rfl
      | nil =>
        have := (integer_number hi).1
        rw [hn] at this
        cases this

/-- The header of a subscription message. -/
theorem subscription_header {r c i : List Byte} (hr : NameOk r) (hc : NameOk c) (hcl : c.length ≤ 10) (hi : NameOk i) :
    ∃ h, makeRjsonOptions (ascii "resource") r [(ascii "command", c), (ascii "subscribeId", i)] = .ok h ∧ Seven h ∧ h.length ≤ 16383 ∧
      subscriptionOf h = some (c, i, r) := by
  obtain ⟨t, e, ho⟩ := C52_rjson_string_options_partial (ascii "resource") r [(ascii "command", c), (ascii "subscribeId", i)] (by decide) hr.2.2.1
    (by
      intro o ho
      simp only [List.mem_cons, List.not_mem_nil, or_false] at ho
      rcases ho with rfl | rfl
      · exact name_option (by decide) hc
      · exact name_option (by decide) hi)
  have et : t = ascii "{\"" ++ ascii "resource" ++ ascii "\":\"" ++ r ++ ascii "\"" ++
      (ascii ",\"" ++ ascii "command" ++ ascii "\":\"" ++ c ++ ascii "\"" ++ (ascii ",\"" ++ ascii "subscribeId" ++ ascii "\":\"" ++ i ++ ascii "\"" ++ [])) ++
      ascii "}" := by
    unfold makeRjsonOptions rjsonOptions rjsonOptions rjsonOptions at e
    rw [name_number hc, name_number hi] at e
    exact (Except.ok.inj e).symm
  refine ⟨t, e, ?_, ?_, ?_⟩
  · rw [et]
    have s : ∀ {s : String}, (ascii s).all (fun b => decide (b < 0x80)) = true → Seven (ascii s) := fun h b hb => by
      have := List.all_eq_true.1 h b hb
      simpa [BitVec.lt_def] using this
    have nm : ∀ {n}, NameOk n → Seven n := fun h b hb => by
      have := h.2.1 b hb
      simpa [BitVec.lt_def] using this
    refine seven_append (seven_append (seven_append (seven_append (seven_append (seven_append (s rfl) (s rfl)) (s rfl)) (nm hr)) (s rfl))
      (seven_append (seven_append (seven_append (seven_append (seven_append (s rfl) (s rfl)) (s rfl)) (nm hc)) (s rfl))
        (seven_append (seven_append (seven_append (seven_append (seven_append (s rfl) (s rfl)) (s rfl)) (nm hi)) (s rfl)) ?_))) (s rfl)
    intro b hb; cases hb
  · have l1 := hr.2.2.2.2
    have l2 := hi.2.2.2.2
    rw [et]
    simp only [List.length_append, List.length_nil, show (ascii "{\"").length = 2 by rfl, show (ascii "resource").length = 8 by rfl,
      show (ascii "\":\"").length = 3 by rfl, show (ascii "\"").length = 1 by rfl, show (ascii ",\"").length = 2 by rfl,
      show (ascii "command").length = 7 by rfl, show (ascii "subscribeId").length = 11 by rfl, show (ascii "}").length = 1 by rfl]
    omega
  · unfold subscriptionOf
    rw [ho]
    simp [name_value hc, name_value hi]

/-! ## What the device tells a client -/

theorem mirror_append {c c' : Mirror} {a b : List Sysex} (h : c.receiveAll a = .ok c') : c.receiveAll (a ++ b) = c'.receiveAll b := by
  unfold Mirror.receiveAll at *
  rw [List.foldlM_append, h]; rfl

/-- A client for whom a message is not meant, or that is of another kind. -/
theorem mirror_other {c : Mirror} {ms : List Sysex} (h : ∀ m ∈ ms, ∃ src dst dev k r hdr n t ch,
    understand m = .ok (some ⟨src, dst, dev, .property k r hdr n t ch⟩) ∧ (dst ≠ c.muid ∨ k = .subscriptionReply)) : c.receiveAll ms = .ok c := by
  induction ms with
  | nil => rfl
  | cons m ms ih =>
    obtain ⟨src, dst, dev, k, r, hdr, n, t, ch, e, hk⟩ := h m (by simp)
    have : c.receive m = .ok c := by
      unfold Mirror.receive
      rw [e, ok_bind]
      rcases hk with hk | rfl
      · cases k <;> simp [hk, pure, Except.pure]
      · rfl
    unfold Mirror.receiveAll
    rw [List.foldlM_cons, this]
    exact ih fun x hx => h x (List.mem_cons_of_mem _ hx)

/-- What some messages do: the client they are for gets a copy once they are complete. -/
def Gives (ms : List Sysex) (b : Option (Word × List Byte × List Byte)) : Prop :=
  (∀ m ∈ ms, Sendable7 (m, 0)) ∧ ∀ (c : Mirror) (pre : List Sysex), pre <+: ms → ∃ c', c.receiveAll pre = .ok c' ∧ c'.muid = c.muid ∧
    (pre ≠ ms → c'.copies = c.copies) ∧
    (pre = ms → c'.copies = fun i => match b with
      | some (who, id, d) => if who = c.muid ∧ i = id then some d else c.copies i
      | none => c.copies i)

theorem mirror_value {src who : Word} {rid : Byte} {chunks : List (List Byte)} {hd id r : List Byte} (hhd : subscriptionOf hd = some (ascii "full", id, r))
    (hlen : chunks.length ≤ 16383) (todo : List Sysex) :
    ∀ (i : Nat) (c : Mirror) (pre : List Sysex), c.muid = who → i + todo.length = chunks.length → pre <+: todo →
      (∀ j m ch, todo[j]? = some m → chunks[i + j]? = some ch → IsPropertyMessage m 0x38 0x7F src who rid (if i + j = 0 then hd else [])
        (BitVec.ofNat 16 chunks.length) (BitVec.ofNat 16 (i + j + 1)) ch) →
      (0 < i → c.incomplete src rid = (hd, (chunks.take i).flatten)) → todo ≠ [] →
      ∃ c', c.receiveAll pre = .ok c' ∧ c'.muid = c.muid ∧ (pre ≠ todo → c'.copies = c.copies) ∧
        (pre = todo → c'.copies = fun x => if x = id then some chunks.flatten else c.copies x) := by
  induction todo with
  | nil => exact fun _ _ _ _ _ _ _ _ h => absurd rfl h
  | cons m todo ih =>
    intro i c pre hc hl hpre hm hp _
    cases pre with
    | nil => exact ⟨c, rfl, rfl, fun _ => rfl, fun h => absurd h (by simp)⟩
    | cons m0 pre =>
      obtain ⟨rfl, hpre'⟩ := List.cons_prefix_cons.1 hpre
      rw [List.length_cons] at hl
      have hch : chunks[i]? = some chunks[i] := List.getElem?_eq_getElem (by omega)
      have h0 := hm 0 m0 chunks[i] rfl hch
      rw [Nat.add_zero] at h0
      obtain ⟨u1, -⟩ := property_said (k := .subscriptionInquiry) h0
      have got : (if BitVec.ofNat 16 (i + 1) = (1 : U16) then ((if i = 0 then hd else []), chunks[i])
          else ((c.incomplete src rid).1, (c.incomplete src rid).2 ++ chunks[i])) = (hd, (chunks.take (i + 1)).flatten) := by
        have ht : chunks.take (i + 1) = chunks.take i ++ [chunks[i]] := by
          rw [List.take_add_one, hch]; rfl
        by_cases h : i = 0
        · subst h
          simp [ht]
        · rw [if_neg fun e => h (by have := ofNat16_inj (a := i + 1) (b := 1) (by omega) (by omega) e; omega), hp (by omega), ht]
          simp only [List.flatten_append, List.flatten_cons, List.flatten_nil, List.append_nil]
      cases todo with
      | nil =>
        simp only [List.length_nil] at hl
        have hll : i + 1 = chunks.length := by omega
        obtain rfl := List.prefix_nil.1 hpre'
        have : c.receive m0 = .ok { c with
            incomplete := fun s r => if s = src ∧ r = rid then (hd, (chunks.take (i + 1)).flatten) else c.incomplete s r,
            copies := fun x => if x = id then some (chunks.take (i + 1)).flatten else c.copies x } := by
          unfold Mirror.receive
          rw [u1, ok_bind]
          dsimp only
          rw [if_neg (by simp [hc]), if_pos (by rw [hll]), got]
          unfold Mirror.complete
          rw [hhd]; dsimp only
          rw [if_pos rfl]
          rfl
        have hall : c.receiveAll [m0] = c.receive m0 := by
          unfold Mirror.receiveAll
          rw [List.foldlM_cons, this]; rfl
        refine ⟨_, hall.trans this, rfl, fun h => absurd rfl h, fun _ => ?_⟩
        dsimp only
        rw [hll, List.take_length]
      | cons m' todo =>
        have : c.receive m0 = .ok { c with incomplete := fun s r => if s = src ∧ r = rid then (hd, (chunks.take (i + 1)).flatten) else c.incomplete s r } := by
          rw [List.length_cons] at hl
          unfold Mirror.receive
          rw [u1, ok_bind]
          dsimp only
          rw [if_neg (by simp [hc]), if_neg fun e => by have := ofNat16_inj (by omega) (by omega) e; omega, got]
          rfl
        obtain ⟨c', e, e1, e2, e3⟩ := ih (i + 1) { c with incomplete := fun s r => if s = src ∧ r = rid then (hd, (chunks.take (i + 1)).flatten) else c.incomplete s r }
          pre hc (by omega) hpre' (by
            intro j m1 ch h1 h2
            have := hm (j + 1) m1 ch (by simpa using h1) (by rw [← h2]; congr 1; omega)
            rwa [show i + (j + 1) = i + 1 + j by omega] at this) (fun _ => by simp) (by simp)
        refine ⟨c', ?_, e1, fun h => e2 fun e => h (by rw [e]), fun h => e3 (List.cons.inj h).2⟩
        unfold Mirror.receiveAll at e ⊢
        rw [List.foldlM_cons, this]
        exact e

theorem full_ok : NameOk (ascii "full") := by decide
theorem start_ok : NameOk (ascii "start") := by decide
theorem end_ok : NameOk (ascii "end") := by decide

theorem tell_gives {p : Publisher} (hm : U28 p.muid) (hs : 1 ≤ p.size ∧ p.size ≤ 16383) (hq : U7 p.requestId) (ht : p.table.Ok p.size) {who : Word}
    (hw : U28 who) {id r : List Byte} (hi : NameOk id) (hr : NameOk r) :
    ∃ ms, p.tell who id r = .ok ms ∧ Gives ms (some (who, id, p.table r)) := by
  obtain ⟨h7, hl⟩ := ht r
  obtain ⟨hd, eh, hd7, hdl, hsub⟩ := subscription_header hr full_ok (by decide) hi
  have hlen : (pieces p.size (p.table r).length (p.table r)).length ≤ 16383 := pieces_length _ _ _ (by decide) hl
  have hfl := pieces_flatten p.size (p.table r).length (p.table r)
  have hne := pieces_ne p.size (p.table r).length (p.table r)
  have hle := pieces_le hs.1 _ (p.table r) (Nat.le_refl _)
  unfold Publisher.tell
  dsimp only
  generalize pieces p.size (p.table r).length (p.table r) = chunks at *
  have hchunk := chunk_ok (t := ⟨0x38, p.muid, who, 0x7F, p.requestId, hd, chunks⟩)
      ⟨hm, hw, show U7 0x7F by decide, hq, hd7, hdl, hne, hlen, fun c hc =>
        ⟨fun b hb => h7 b (by rw [← hfl]; exact List.mem_flatten.2 ⟨c, hc, hb⟩), (hle c hc).trans hs.2⟩⟩
  simp only at hchunk
  obtain ⟨ms, e, hc1, hc2⟩ := mapM_zipIdx (fun (x : List Byte × Nat) =>
    if x.2 = 0 then makeSubscriptionInquiryChunks p.muid who r (ascii "full") id (BitVec.ofNat 16 chunks.length) 1 ⟨false, x.1⟩ p.requestId 0x7F
    else makeSubscriptionInquiryChunk p.muid who (BitVec.ofNat 16 chunks.length) (BitVec.ofNat 16 (x.2 + 1)) ⟨false, x.1⟩ p.requestId 0x7F)
    chunks 0 (fun i c m => IsPropertyMessage m 0x38 0x7F p.muid who p.requestId (if i = 0 then hd else [])
      (BitVec.ofNat 16 chunks.length) (BitVec.ofNat 16 (i + 1)) c) (by
      intro i c hc
      rw [Nat.zero_add]
      by_cases h0 : i = 0
      · subst h0
        exact C42_subscription_inquiry_chunks p.muid who p.requestId 0x7F hm hw hq (by decide) r (ascii "full") id hd _ 1 ⟨false, c⟩ eh hd7 hdl
          (hchunk 0 c hc) (by decide)
      · simp only [h0, if_false]
        exact C42_subscription_inquiry_chunk p.muid who p.requestId 0x7F hm hw hq (by decide) _ _ ⟨false, c⟩ (hchunk i c hc))
  have hall : ∀ m ∈ ms, ∃ hdr n t ch, IsPropertyMessage m (PropertyKind.subscriptionInquiry).subtype 0x7F p.muid who p.requestId hdr n t ch := by
    intro m hm'
    obtain ⟨i, hi⟩ := List.getElem?_of_mem hm'
    have hi' : i < chunks.length := by
      have := (List.getElem?_eq_some_iff.1 hi).1
      omega
    exact ⟨_, _, _, _, hc2 i m _ hi (List.getElem?_eq_getElem hi')⟩
  refine ⟨ms, e, fun m hm' => ?_, fun c pre hpre => ?_⟩
  · obtain ⟨_, _, _, _, h⟩ := hall m hm'
    exact (property_said h).2
  · have hms : ms ≠ [] := fun h => hne (List.length_eq_zero_iff.1 (by rw [← hc1, h]; rfl))
    by_cases hwho : who = c.muid
    · obtain ⟨c', e1, e2, e3, e4⟩ := mirror_value (src := p.muid) (who := who) (rid := p.requestId) hsub hlen ms 0 c pre hwho.symm
        (by rw [Nat.zero_add]; exact hc1) hpre (by
          intro j m ch a1 a2
          rw [Nat.zero_add] at a2 ⊢
          exact hc2 j m ch a1 a2) (fun h => absurd h (by omega)) hms
      refine ⟨c', e1, e2, e3, fun h => ?_⟩
      rw [e4 h, hfl]
      simp [hwho]
    · refine ⟨c, mirror_other fun m hm' => ?_, rfl, fun _ => rfl, fun _ => by simp [hwho]⟩
      obtain ⟨_, _, _, _, h⟩ := hall m (hpre.subset hm')
      exact ⟨_, _, _, _, _, _, _, _, _, (property_said h).1, Or.inl hwho⟩

theorem reply_gives {p who : Word} (hp : U28 p) (hw : U28 who) {rid : Byte} (hr : U7 rid) :
    ∃ m, makeSubscriptionReply p who 200 rid 0x7F = .ok m ∧ Gives [m] none := by
  obtain ⟨m, e, h⟩ := C42_subscription_reply p who rid 0x7F hp hw hr (by decide) 200 (by decide) (by decide)
  obtain ⟨u1, u2⟩ := property_said (k := .subscriptionReply) h
  refine ⟨m, e, fun x hx => ?_, fun c pre hpre => ⟨c, mirror_other fun x hx => ?_, rfl, fun _ => rfl, fun _ => rfl⟩⟩
  · rw [List.mem_singleton.1 hx]; exact u2
  · rw [List.mem_singleton.1 (hpre.subset hx)]
    exact ⟨_, _, _, _, _, _, _, _, _, u1, Or.inr rfl⟩

/-! ## What the clients get altogether -/

/-- What a client has after some of it. -/
def given (who : Word) (cs : List Byte → Option (List Byte)) : List (Option (Word × List Byte × List Byte)) → List Byte → Option (List Byte)
  | [] => cs
  | b :: bs => given who (fun i => match b with
      | some (w, id, d) => if w = who ∧ i = id then some d else cs i
      | none => cs i) bs

theorem gives_all {mss : List (List Sysex)} {bs : List (Option (Word × List Byte × List Byte))} (h : List.Forall₂ Gives mss bs) :
    ∀ (c : Mirror) (pre : List Sysex), pre <+: mss.flatten → ∃ k c', k ≤ bs.length ∧ c.receiveAll pre = .ok c' ∧ c'.muid = c.muid ∧
      c'.copies = given c.muid c.copies (bs.take k) ∧ (pre = mss.flatten → k = bs.length) := by
  induction h with
  | nil =>
    intro c pre hpre
    obtain rfl := List.prefix_nil.1 hpre
    exact ⟨0, c, Nat.le_refl _, rfl, rfl, rfl, fun _ => rfl⟩
  | @cons ms b mss bs h1 h2 ih =>
    intro c pre hpre
    rw [List.flatten_cons] at hpre
    by_cases hle : ms.length ≤ pre.length
    · obtain ⟨rest, rfl⟩ : ms <+: pre := List.prefix_of_prefix_length_le (List.prefix_append _ _) hpre hle
      obtain ⟨c1, e1, e2, -, e3⟩ := h1.2 c ms (List.prefix_refl _)
      obtain ⟨k, c', f1, f2, f3, f4, f5⟩ := ih c1 rest ((List.prefix_append_right_inj ms).1 hpre)
      refine ⟨k + 1, c', by simpa using f1, by rw [mirror_append e1, f2], f3.trans e2, ?_, fun h => ?_⟩
      · rw [f4, e3 rfl, e2]
        rfl
      · rw [List.flatten_cons] at h
        rw [List.length_cons, f5 (List.append_cancel_left h)]
    · have hp : pre <+: ms := List.prefix_of_prefix_length_le hpre (List.prefix_append _ _) (by omega)
      have hne : pre ≠ ms := fun h => by rw [h] at hle; exact hle (Nat.le_refl _)
      obtain ⟨c1, e1, e2, e3, -⟩ := h1.2 c pre hp
      refine ⟨0, c1, Nat.zero_le _, e1, e2, e3 hne, fun h => ?_⟩
      rw [h, List.flatten_cons, List.length_append] at hle
      omega

theorem given_append (who : Word) (cs : List Byte → Option (List Byte)) (a b : List (Option (Word × List Byte × List Byte))) :
    given who cs (a ++ b) = given who (given who cs a) b := by
  induction a generalizing cs with
  | nil => rfl
  | cons x a ih => exact ih _

/-- What a client has is what it had or what it was given. -/
theorem given_from {who : Word} {cs : List Byte → Option (List Byte)} {bs : List (Option (Word × List Byte × List Byte))} {id d : List Byte}
    (h : given who cs bs id = some d) : cs id = some d ∨ some (who, id, d) ∈ bs := by
  induction bs generalizing cs with
  | nil => exact Or.inl h
  | cons b bs ih =>
    rcases ih h with h' | h
    · cases b with
      | none => exact Or.inl h'
      | some x =>
        obtain ⟨w, i, e⟩ := x
        simp only at h'
        by_cases hc : w = who ∧ id = i
        · rw [if_pos hc] at h'
          obtain ⟨rfl, rfl⟩ := hc
          obtain rfl := Option.some.inj h'
          exact Or.inr (by simp)
        · rw [if_neg hc] at h'
          exact Or.inl h'
    · exact Or.inr (List.mem_cons_of_mem _ h)

/-- If something was given, and nothing else, a client has it. -/
theorem given_some {who : Word} {id d : List Byte} (bs : List (Option (Word × List Byte × List Byte)))
    (hall : ∀ e, some (who, id, e) ∈ bs → e = d) (cs : List Byte → Option (List Byte)) (h : cs id = some d ∨ some (who, id, d) ∈ bs) :
    given who cs bs id = some d := by
  induction bs generalizing cs with
  | nil =>
    rcases h with h | h
    · exact h
    · cases h
  | cons b bs ih =>
    refine ih (fun e he => hall e (List.mem_cons_of_mem _ he)) _ ?_
    cases b with
    | none =>
      rcases h with h | h
      · exact Or.inl h
      · exact Or.inr ((List.mem_cons.1 h).resolve_left (by simp))
    | some x =>
      obtain ⟨w, i, e⟩ := x
      simp only
      by_cases hc : w = who ∧ id = i
      · obtain ⟨rfl, rfl⟩ := hc
        left
        rw [if_pos ⟨rfl, rfl⟩, hall e (by simp)]
      · rw [if_neg hc]
        rcases h with h | h
        · exact Or.inl h
        · right
          refine (List.mem_cons.1 h).resolve_left fun h => hc ?_
          obtain ⟨rfl, rfl, rfl⟩ : who = w ∧ id = i ∧ d = e := by simpa using h
          exact ⟨rfl, rfl⟩

/-! ## The device -/

/-- What is known of the device. -/
structure PublisherKnows (p : Publisher) (t : Truth) : Prop where
  muid : U28 p.muid
  size : 1 ≤ p.size ∧ p.size ≤ 16383
  requestId : U7 p.requestId
  table : p.table = t.table
  ok : p.table.Ok p.size
  all : ∀ w i r, t.subscribed w i = some r ↔ (w, i, r) ∈ p.subscriptions
  names : ∀ s ∈ p.subscriptions, U28 s.1 ∧ NameOk s.2.1 ∧ NameOk s.2.2

theorem mem_without_sub {l : List (Word × List Byte × List Byte)} {who : Word} {id : List Byte} {s : Word × List Byte × List Byte} :
    s ∈ without l who id ↔ s ∈ l ∧ ¬ (s.1 = who ∧ s.2.1 = id) := by
  unfold without
  rw [List.mem_filter, Bool.not_eq_true', decide_eq_false_iff_not]

theorem knows_after {p : Publisher} {t : Truth} (h : PublisherKnows p t) {e : Incident} (he : e.Ok p.muid p.size) :
    ∃ p' mss bs, p.handle e = .ok (p', mss.flatten) ∧ p'.muid = p.muid ∧ p'.size = p.size ∧ PublisherKnows p' (t.after e) ∧ List.Forall₂ Gives mss bs ∧
      (∀ who id d, some (who, id, d) ∈ bs → ∃ r, (t.after e).subscribed who id = some r ∧ d = (t.after e).table r) ∧
      (∀ who id r, (t.after e).subscribed who id = some r → (∃ d, some (who, id, d) ∈ bs) ∨
        (t.subscribed who id = some r ∧ (t.after e).table r = t.table r)) := by
  obtain ⟨h1, h2, h3, h4, h5, h6, h7⟩ := h
  cases e with
  | change r d =>
    have hk : ∀ l : List (Word × List Byte × List Byte), (∀ s ∈ l, U28 s.1 ∧ NameOk s.2.1 ∧ NameOk s.2.2) →
        ∃ mss, l.mapM (fun s => ({ p with table := fun x => if x = r then d else p.table x } : Publisher).tell s.1 s.2.1 s.2.2) = .ok mss ∧
          List.Forall₂ Gives mss (l.map fun s => some (s.1, s.2.1, (fun x => if x = r then d else p.table x) s.2.2)) := by
      intro l hl
      induction l with
      | nil => exact ⟨[], rfl, .nil⟩
      | cons s l ih =>
        obtain ⟨mss, e1, e2⟩ := ih fun x hx => hl x (List.mem_cons_of_mem _ hx)
        obtain ⟨n1, n2, n3⟩ := hl s (by simp)
        obtain ⟨ms, f1, f2⟩ := tell_gives (p := { p with table := fun x => if x = r then d else p.table x }) h1 h2 h3 (by
          intro x
          dsimp only
          split
          · exact he
          · exact h5 x) n1 n2 n3
        exact ⟨ms :: mss, by rw [List.mapM_cons, f1, ok_bind, e1]; rfl, .cons f2 e2⟩
    obtain ⟨mss, e1, e2⟩ := hk (p.subscriptions.filter fun s => decide (s.2.2 = r)) fun s hs => h7 s (List.mem_filter.1 hs).1
    refine ⟨{ p with table := fun x => if x = r then d else p.table x }, mss, _, ?_, rfl, rfl, ⟨h1, h2, h3, ?_, ?_, h6, h7⟩, e2, ?_, ?_⟩
    · unfold Publisher.handle Publisher.change
      dsimp only
      rw [e1]; rfl
    · rw [h4]; rfl
    · intro x
      dsimp only
      split
      · exact he
      · exact h5 x
    · intro who id x hx
      obtain ⟨s, hs, e⟩ := List.mem_map.1 hx
      obtain ⟨hs, hr⟩ := List.mem_filter.1 hs
      obtain ⟨w, i, r'⟩ := s
      obtain ⟨rfl, rfl, rfl⟩ : w = who ∧ i = id ∧ (if r' = r then d else p.table r') = x := by simpa using e
      exact ⟨r', (h6 _ _ _).2 hs, by rw [h4]; rfl⟩
    · intro who id r' hr
      by_cases e : r' = r
      · subst e
        exact Or.inl ⟨_, List.mem_map.2 ⟨_, List.mem_filter.2 ⟨(h6 _ _ _).1 hr, by simp⟩, rfl⟩⟩
      · exact Or.inr ⟨hr, if_neg e⟩
  | start who rid r id =>
    obtain ⟨k1, k2, k3, k4⟩ := he
    obtain ⟨hd, eh, hd7, hdl, hsub⟩ := subscription_header k3 start_ok (by decide) k4
    obtain ⟨m, em, hm⟩ := C42_subscription_inquiry who p.muid rid 0x7F k1 h1 k2 (by decide) r (ascii "start") id hd eh hd7 hdl
    obtain ⟨u1, -⟩ := property_said (k := .subscriptionInquiry) hm
    obtain ⟨m', em', g1⟩ := reply_gives h1 k1 k2
    obtain ⟨ms, ems, g2⟩ := tell_gives (p := { p with subscriptions := without p.subscriptions who id ++ [(who, id, r)] }) h1 h2 h3 h5 k1 k4 k3
    refine ⟨{ p with subscriptions := without p.subscriptions who id ++ [(who, id, r)] }, [[m'], ms], _, ?_, rfl, rfl,
      ⟨h1, h2, h3, h4, h5, ?_, ?_⟩, .cons g1 (.cons g2 .nil), ?_, ?_⟩
    · unfold Publisher.handle
      dsimp only
      rw [em, ok_bind]
      unfold Publisher.receive
      rw [u1, ok_bind]
      dsimp only
      rw [if_neg (by simp), hsub]
      dsimp only
      rw [if_pos rfl, em', ok_bind, ems]
      simp [pure, Except.pure, Bind.bind, Except.bind]
    · intro w i r'
      unfold Truth.after
      dsimp only
      rw [List.mem_append, mem_without_sub, List.mem_singleton]
      by_cases hwi : w = who ∧ i = id
      · rw [if_pos hwi]
        obtain ⟨rfl, rfl⟩ := hwi
        simp [eq_comm]
      · rw [if_neg hwi, h6]
        constructor
        · exact fun h => Or.inl ⟨h, hwi⟩
        · rintro (h | h)
          · exact h.1
          · exact absurd (by simpa using ⟨congrArg (·.1) h, congrArg (·.2.1) h⟩) hwi
    · intro s hs
      rcases List.mem_append.1 hs with hs | hs
      · exact h7 s (mem_without_sub.1 hs).1
      · rw [List.mem_singleton.1 hs]; exact ⟨k1, k4, k3⟩
    · intro w i d hx
      obtain ⟨rfl, rfl, rfl⟩ : w = who ∧ i = id ∧ d = p.table r := by simpa using hx
      exact ⟨r, by simp [Truth.after], by rw [h4]; rfl⟩
    · intro w i r' hr
      by_cases hwi : w = who ∧ i = id
      · obtain ⟨rfl, rfl⟩ := hwi
        exact Or.inl ⟨_, List.mem_cons_of_mem _ (List.mem_cons_self ..)⟩
      · refine Or.inr ⟨?_, rfl⟩
        simpa [Truth.after, hwi] using hr
  | stop who rid r id =>
    obtain ⟨k1, k2, k3, k4⟩ := he
    obtain ⟨hd, eh, hd7, hdl, hsub⟩ := subscription_header k3 end_ok (by decide) k4
    obtain ⟨m, em, hm⟩ := C42_subscription_inquiry who p.muid rid 0x7F k1 h1 k2 (by decide) r (ascii "end") id hd eh hd7 hdl
    obtain ⟨u1, -⟩ := property_said (k := .subscriptionInquiry) hm
    obtain ⟨m', em', g1⟩ := reply_gives h1 k1 k2
    refine ⟨{ p with subscriptions := without p.subscriptions who id }, [[m']], _, ?_, rfl, rfl,
      ⟨h1, h2, h3, h4, h5, ?_, ?_⟩, .cons g1 .nil, ?_, ?_⟩
    · unfold Publisher.handle
      dsimp only
      rw [em, ok_bind]
      unfold Publisher.receive
      rw [u1, ok_bind]
      dsimp only
      rw [if_neg (by simp), hsub]
      dsimp only
      rw [if_neg (by decide), if_pos rfl, em']
      rfl
    · intro w i r'
      unfold Truth.after
      dsimp only
      rw [mem_without_sub]
      by_cases hwi : w = who ∧ i = id
      · rw [if_pos hwi]
        simp [hwi]
      · rw [if_neg hwi, h6]
        exact ⟨fun h => ⟨h, hwi⟩, fun h => h.1⟩
    · exact fun s hs => h7 s (mem_without_sub.1 hs).1
    · intro w i d hx
      simp at hx
    · intro w i r' hr
      refine Or.inr ⟨?_, rfl⟩
      unfold Truth.after at hr
      dsimp only at hr
      split at hr
      · cases hr
      · exact hr
  | other m =>
    refine ⟨p, [], [], ?_, rfl, rfl, ⟨h1, h2, h3, h4, h5, h6, h7⟩, .nil, fun _ _ _ h => absurd h (by simp), fun _ _ _ h => Or.inr ⟨h, rfl⟩⟩
    obtain ⟨s, hs⟩ := C106_safe m
    unfold Publisher.handle
    dsimp only
    unfold Publisher.receive
    rw [hs, ok_bind]
    rcases s with _ | ⟨src, dst, dev, s⟩
    · rfl
    · cases s with
      | property k rid hdr n t ch =>
        cases k with
        | subscriptionInquiry =>
          dsimp only
          rw [if_pos]
          · rfl
          · rintro rfl
            exact he src dev rid hdr n t ch hs
        | _ => rfl
      | _ => rfl

/-- All incidents. -/
theorem knows_all {es : List Incident} : ∀ {p : Publisher} {t : Truth}, PublisherKnows p t → (∀ e ∈ es, e.Ok p.muid p.size) →
    ∃ p' mss bs, p.handleAll es = .ok (p', mss.flatten) ∧ p'.table = (t.afterAll es).table ∧ List.Forall₂ Gives mss bs ∧
      (∀ who cs k, ∀ id d, given who cs (bs.take k) id = some d → cs id = some d ∨
        ∃ n ≤ es.length, ∃ r, (t.afterAll (es.take n)).subscribed who id = some r ∧ d = (t.afterAll (es.take n)).table r) ∧
      (∀ who cs, (∀ id r, t.subscribed who id = some r → cs id = some (t.table r)) →
        ∀ id r, (t.afterAll es).subscribed who id = some r → given who cs bs id = some ((t.afterAll es).table r)) := by
  induction es with
  | nil =>
    intro p t h _
    exact ⟨p, [], [], rfl, h.table, .nil, fun _ _ _ _ _ h => Or.inl (by simpa [given] using h), fun _ _ h => h⟩
  | cons e es ih =>
    intro p t h hes
    obtain ⟨p1, m1, b1, a1, a2, a3, a4, a5, a6, a7⟩ := knows_after h (hes e (by simp))
    obtain ⟨p', m2, b2, c1, c2, c3, c4, c5⟩ := ih a4 fun x hx => by rw [a2, a3]; exact hes x (List.mem_cons_of_mem _ hx)
    refine ⟨p', m1 ++ m2, b1 ++ b2, ?_, c2, List.rel_append a5 c3, ?_, ?_⟩
    · unfold Publisher.handleAll
      rw [a1, ok_bind]
      dsimp only
      rw [c1, List.flatten_append]
      rfl
    · intro who cs k id d hg
      rw [List.take_append, given_append] at hg
      rcases c4 _ _ _ _ _ hg with hg | ⟨n, hn, r, g1, g2⟩
      · rcases given_from hg with hg | hg
        · exact Or.inl hg
        · obtain ⟨r, g1, g2⟩ := a6 _ _ _ (List.mem_of_mem_take hg)
          exact Or.inr ⟨1, by simp, r, g1, g2⟩
      · exact Or.inr ⟨n + 1, by simpa using hn, r, g1, g2⟩
    · intro who cs hcs
      rw [given_append]
      refine c5 who _ fun id r hr => ?_
      refine given_some b1 (fun x hx => ?_) cs ?_
      · obtain ⟨r', g1, g2⟩ := a6 _ _ _ hx
        rw [hr] at g1
        rw [g2, Option.some.inj g1]
      · rcases a7 _ _ _ hr with ⟨d, hd⟩ | ⟨g1, g2⟩
        · right
          obtain ⟨r', g3, g4⟩ := a6 _ _ _ hd
          rw [hr] at g3
          rw [← Option.some.inj g3] at g4
          rwa [g4] at hd
        · left
          rw [g2]; exact hcs _ _ g1

/-! ## C113 -/

/-- The beginning: nobody has subscribed. -/
def Spec.Publisher.truth (p : Publisher) : Truth := ⟨p.table, fun _ _ => none⟩

/-- C113: a device tells subscribers the values of its properties when they subscribe and when they change. Whatever happens, in any order:
no message is refused, nothing is read out of bounds, the device's properties are as they should be, and all messages can be sent. Whatever
part of the device's messages a client has received, each of its copies is a value that the property subscribed to with that id has had while
it was subscribed; and when it has received all messages, the copy is there and is the value the property has now. -/
theorem C113_copies (p : Publisher) (hm : U28 p.muid) (hs : 1 ≤ p.size ∧ p.size ≤ 16383) (hr : U7 p.requestId) (ht : p.table.Ok p.size)
    (hnew : p.subscriptions = []) (es : List Incident) (hes : ∀ e ∈ es, e.Ok p.muid p.size) :
    ∃ p' out, p.handleAll es = .ok (p', out) ∧ p'.table = (p.truth.afterAll es).table ∧ (∀ m ∈ out, Sendable7 (m, 0)) ∧
      ∀ who, (∀ received, received <+: out → ∃ c, ({ muid := who } : Mirror).receiveAll received = .ok c ∧
          ∀ id d, c.copies id = some d → ∃ n ≤ es.length, ∃ r,
            (p.truth.afterAll (es.take n)).subscribed who id = some r ∧ d = (p.truth.afterAll (es.take n)).table r) ∧
        ∃ c, ({ muid := who } : Mirror).receiveAll out = .ok c ∧
          ∀ id r, (p.truth.afterAll es).subscribed who id = some r → c.copies id = some ((p.truth.afterAll es).table r) := by
  obtain ⟨p', mss, bs, e1, e2, e3, e4, e5⟩ := knows_all (es := es) (p := p) (t := p.truth)
    ⟨hm, hs, hr, rfl, ht, fun w i r => by simp [Publisher.truth, hnew], fun s hs => by rw [hnew] at hs; cases hs⟩ hes
  refine ⟨p', mss.flatten, e1, e2, ?_, fun who => ⟨fun received hrec => ?_, ?_⟩⟩
  · intro m hm'
    obtain ⟨ms, h1, h2⟩ := List.mem_flatten.1 hm'
    obtain ⟨i, hi⟩ := List.getElem?_of_mem h1
    have hl := e3.length_eq
    have hlt := (List.getElem?_eq_some_iff.1 hi).1
    have := (List.forall₂_iff_get.1 e3).2 i hlt (by omega)
    rw [List.get_eq_getElem, (List.getElem?_eq_some_iff.1 hi).2] at this
    exact this.1 m h2
  · obtain ⟨k, c, -, f1, -, f2, -⟩ := gives_all e3 { muid := who } received hrec
    refine ⟨c, f1, fun id d hd => ?_⟩
    rw [f2] at hd
    exact (e4 _ _ _ _ _ hd).resolve_left (by simp)
  · obtain ⟨k, c, -, f1, -, f2, f3⟩ := gives_all e3 { muid := who } _ (List.prefix_refl _)
    refine ⟨c, f1, fun id r h => ?_⟩
    rw [f2, f3 rfl, List.take_length]
    exact e5 who _ (fun id r h => absurd h (by simp [Publisher.truth])) id r h

/-- C113: over sysex7 packets in any group, with other packets between, and whatever the client's collector received before. -/
theorem C113_over_packets (p : Publisher) (hm : U28 p.muid) (hs : 1 ≤ p.size ∧ p.size ≤ 16383) (hr : U7 p.requestId) (ht : p.table.Ok p.size)
    (hnew : p.subscriptions = []) (es : List Incident) (hes : ∀ e ∈ es, e.Ok p.muid p.size) (group : Byte) (hg : group < 16) (hist : List Packet) :
    ∃ p' out sent, p.handleAll es = .ok (p', out) ∧ out.mapM (fun m => sendSysex7 m group) = .ok sent ∧
      ∀ qs : List Packet, qs.filter (fun q => decide (IsSysex7 q)) = sent.flatten →
      ∃ d before d' got, ({} : Collector7).feedAll hist = .ok (d, before) ∧ d.feedAll qs = .ok (d', got) ∧
        ∀ who, ∃ c, ({ muid := who } : Mirror).receiveAll got = .ok c ∧
          ∀ id r, (p.truth.afterAll es).subscribed who id = some r → c.copies id = some ((p.truth.afterAll es).table r) := by
  obtain ⟨p', out, e1, -, e2, e3⟩ := C113_copies p hm hs hr ht hnew es hes
  have hsend : ∀ m ∈ out.map (fun m => (m, group)), Sendable7 m := by
    intro m hm'
    obtain ⟨x, hx, rfl⟩ := List.mem_map.1 hm'
    obtain ⟨a1, a2, -⟩ := e2 x hx
    exact ⟨a1, a2, hg⟩
  obtain ⟨sent, e4, -⟩ := C18_send_succeeds _ hsend
  refine ⟨p', out, sent, e1, by rw [List.mapM_map] at e4; exact e4, fun qs hq => ?_⟩
  obtain ⟨d, before, d', b1, b2⟩ := C18_sysex7_round_trip hist _ hsend sent e4 qs hq
  refine ⟨d, before, d', _, b1, b2, fun who => ?_⟩
  rw [List.map_map]
  have : (Prod.fst ∘ fun m : Sysex => (m, group)) = id := rfl
  rw [this, List.map_id]
  exact (e3 who).2

/-- C113: why ids must not look like numbers: the id "12" is sent as the number 12, so that a device that expects a string does not accept
the subscription. -/
theorem C113_number_id : (do
    let h ← makeRjsonOptions (ascii "resource") (ascii "X-Tune") [(ascii "command", ascii "start"), (ascii "subscribeId", ascii "12")]
    return (h, Json.object h, subscriptionOf h)) = (.ok (ascii "{\"resource\":\"X-Tune\",\"command\":\"start\",\"subscribeId\":12}",
      some [(ascii "resource", .str (ascii "X-Tune")), (ascii "command", .str (ascii "start")), (ascii "subscribeId", .num 12)], none) :
      Except Fault (List Byte × Option (List (List Byte × Json.Value)) × Option (List Byte × List Byte × List Byte))) := by
  rfl

/-! Two clients of a device: both subscribe to a property, which changes; one ends its subscription, and the property changes again. -/

def examplePublisher : Publisher := ⟨0x0ABCDEF, 2, 5, fun _ => [], []⟩

def exampleIncidents : List Incident :=
  [.start 0x111 1 (ascii "X-Tune") (ascii "a1"), .start 0x222 1 (ascii "X-Tune") (ascii "b"), .change (ascii "X-Tune") [1, 2, 3],
    .stop 0x111 2 (ascii "X-Tune") (ascii "a1"), .other ⟨0x7D0000, [1, 2, 3]⟩, .change (ascii "X-Tune") [4]]

example : U28 examplePublisher.muid ∧ (1 ≤ examplePublisher.size ∧ examplePublisher.size ≤ 16383) ∧ U7 examplePublisher.requestId ∧
    examplePublisher.table.Ok examplePublisher.size ∧ examplePublisher.subscriptions = [] :=
  ⟨by decide, by decide, by decide, fun _ => ⟨fun _ h => absurd h (by simp [examplePublisher]), by simp [examplePublisher]⟩, rfl⟩

example : ∀ e ∈ exampleIncidents, e.Ok examplePublisher.muid examplePublisher.size := by
  intro e he
  simp only [exampleIncidents, List.mem_cons, List.not_mem_nil, or_false] at he
  rcases he with rfl | rfl | rfl | rfl | rfl | rfl
  · exact ⟨by decide, by decide, by decide, by decide⟩
  · exact ⟨by decide, by decide, by decide, by decide⟩
  · exact ⟨by decide, by decide⟩
  · exact ⟨by decide, by decide, by decide, by decide⟩
  · intro _ _ _ _ _ _ _ h
    have : understand ⟨0x7D0000, [1, 2, 3]⟩ = .ok none := rfl
    rw [this] at h
    cases h
  · exact ⟨by decide, by decide⟩

example : (do
    let (_, out) ← examplePublisher.handleAll exampleIncidents
    return ((← ({ muid := 0x111 } : Mirror).receiveAll out).copies (ascii "a1"), (← ({ muid := 0x222 } : Mirror).receiveAll out).copies (ascii "b"))) =
    (.ok (some [1, 2, 3], some [4]) : Except Fault (Option (List Byte) × Option (List Byte))) := by
  rfl

end Midi

import Verif.Props.ExceptionsCollector
import Verif.Props.ExceptionsCollector8

/-!
# C72: collecting without allocating memory

`set_max_sysex_data_size` reserves the storage for the largest message. That feeding packets then needs no memory is said here
without looking into the collector: it makes no difference whether allocations fail.
-/

namespace Midi
open Spec

theorem grown_reserved {limit storage need : Nat} (h0 : limit ≠ 0) (h : limit ≤ storage) : grown limit storage need = storage := by
  unfold grown; split
  · rfl
  · omega

/-! ## 7 bit sysex -/

/-- All the storage a limit of `n` asks for is there, and it is not more than what the collector keeps. -/
def Reserved7 (n : Nat) (s : Held7) : Prop := n ≠ 0 ∧ s.limit = n ∧ n ≤ s.storage ∧ s.storage ≤ 16384

theorem reserved7_cleared {n : Nat} {s : Held7} (h : Reserved7 n s) : Reserved7 n s.cleared := by
  obtain ⟨h0, h1, h2, h3⟩ := h
  refine ⟨h0, h1, ?_, ?_⟩ <;> simp only [Held7.cleared] <;> split <;> omega

theorem reserved7_tryAdd {n : Nat} {s : Held7} (h : Reserved7 n s) (f : Bool) (d : List Byte) (t : Trouble) :
    s.tryAdd f d t = s.tryAdd f d { t with memory := false } ∧ Reserved7 n (s.tryAdd f d t).1 := by
  have hg : ∀ need, grown s.limit s.storage need = s.storage := fun need => grown_reserved (by rw [h.2.1]; exact h.1) (by rw [h.2.1]; exact h.2.2.1)
  unfold Held7.tryAdd
  simp only [hg, Nat.lt_irrefl, and_false, if_false]
  refine ⟨trivial, ?_⟩
  split
  · exact h
  · unfold Held7.add
    simp only [hg]
    split
    · split
      · exact reserved7_cleared h
      · exact h
    · exact h

theorem reserved7_tryOne {n : Nat} {s : Held7} (h : Reserved7 n s) (o : CollectorTry) (ho : KeepsLimit o) :
    s.tryOne o = s.tryOne (spared o) ∧ Reserved7 n (s.tryOne o).1 := by
  cases o with
  | feed p t =>
    simp only [Held7.tryOne, spared]
    by_cases hp : IsSysex7 p
    · simp only [if_pos hp, Held7.tryPacket]
      have h' : Reserved7 n (if s.running then s.cleared else s) := by
        split
        · exact reserved7_cleared h
        · exact h
      split
      · exact reserved7_tryAdd h' _ _ t
      · split
        · exact reserved7_tryAdd h _ _ t
        · exact ⟨rfl, reserved7_cleared h⟩
    · simp only [if_neg hp]; exact ⟨trivial, h⟩
  | setMaxSize _ _ => exact ho.elim
  | setCallback b => exact ⟨rfl, h⟩
  | reset => exact ⟨rfl, reserved7_cleared h⟩

theorem reserved7_tries {n : Nat} (os : List CollectorTry) (ho : ∀ o ∈ os, KeepsLimit o) : ∀ s : Held7, Reserved7 n s →
    s.tries os = s.tries (os.map spared) ∧ Reserved7 n (s.tries os).1 := by
  induction os with
  | nil => intro s h; exact ⟨rfl, h⟩
  | cons o os ih =>
    intro s h
    obtain ⟨e1, h1⟩ := reserved7_tryOne h o (ho o (by simp))
    obtain ⟨e2, h2⟩ := ih (fun o hx => ho o (by simp [hx])) _ h1
    refine ⟨?_, h2⟩
    rw [List.map_cons, Held7.tries, Held7.tries, ← e1]
    dsimp only
    rw [e2]

/-- C72, partial: after any history, once a limit of up to 16384 bytes has been set, and if the collector had no larger storage
before, it makes no difference whether there is memory: for all calls that follow, other than setting the limit, the messages
delivered and the final state are the same as if all allocations succeeded. What is missing: see `C72_large_limit` and
`C72_large_storage`. -/
theorem C72_no_memory_needed_partial (os : List CollectorTry) (c : Collector7) (out : List Sysex)
    (h : ({} : Collector7).tryAll os = .ok (c, out)) (hcap : c.capacity ≤ 16384) (n : Nat) (hn : 0 < n ∧ n ≤ 16384)
    (calls : List CollectorTry) (hk : ∀ o ∈ calls, KeepsLimit o) :
    (c.setMaxSize n).tryAll calls = (c.setMaxSize n).tryAll (calls.map spared) := by
  obtain ⟨e, hg⟩ := tries7_exact os {} (Nat.le_refl _)
  rw [show conc7 {} = ({} : Collector7) from rfl, h] at e
  cases e
  generalize (({} : Held7).tries os).1 = s at hg hcap ⊢
  replace hcap : s.storage ≤ 16384 := hcap
  have hs : (conc7 s).setMaxSize n = conc7 { s with limit := n, storage := max s.storage n } := by
    have := (history7_exact [.setMaxSize n] s hg).1
    simp only [Collector7.run, Held7.history] at this
    exact congrArg Prod.fst (Except.ok.inj this)
  have hg' : Good7 { s with limit := n, storage := max s.storage n } := le_trans hg (Nat.le_max_left _ _)
  obtain ⟨e, -⟩ := reserved7_tries (n := n) calls hk { s with limit := n, storage := max s.storage n }
    ⟨by omega, rfl, by show n ≤ max _ _; omega, by show max _ _ ≤ _; omega⟩
  rw [hs, (tries7_exact calls _ hg').1, (tries7_exact _ _ hg').1, ← e]

example := C72_no_memory_needed_partial [.feed ⟨0x30127E01, 0, 0, 0⟩ {}, .feed ⟨0x30327E01, 0, 0, 0⟩ {}] _ _ rfl (by decide) 16384 (by decide)
  [.feed ⟨0x30127E01, 0, 0, 0⟩ {}, .feed ⟨0x30327E01, 0, 0, 0⟩ {}] (by decide)

theorem spared7_calm (s : Held7) (p : Packet) (m : Bool) : (s.tryOne (spared (.feed p { memory := m }))).2.2 = false := by
  simp only [Held7.tryOne, spared]
  split
  · simp only [Held7.tryPacket, Held7.tryAdd, Bool.false_eq_true, false_and, if_false]
    split
    · rfl
    · split <;> rfl
  · rfl

/-- C72, partial: and then no call throws, unless the callback does. -/
theorem C72_no_exception_partial (os : List CollectorTry) (c : Collector7) (out : List Sysex)
    (h : ({} : Collector7).tryAll os = .ok (c, out)) (hcap : c.capacity ≤ 16384) (n : Nat) (hn : 0 < n ∧ n ≤ 16384)
    (calls : List CollectorTry) (hk : ∀ o ∈ calls, KeepsLimit o) (c' : Collector7) (out' : List Sysex)
    (h' : (c.setMaxSize n).tryAll calls = .ok (c', out')) (p : Packet) (memory : Bool) :
    ∃ c'' ms, c'.tryFeed p { memory := memory } = .ok (c'', ms, false) := by
  obtain ⟨e, hg⟩ := tries7_exact os {} (Nat.le_refl _)
  rw [show conc7 {} = ({} : Collector7) from rfl, h] at e
  cases e
  generalize (({} : Held7).tries os).1 = s at hg hcap h'
  replace hcap : s.storage ≤ 16384 := hcap
  have hs : (conc7 s).setMaxSize n = conc7 { s with limit := n, storage := max s.storage n } := by
    have := (history7_exact [.setMaxSize n] s hg).1
    simp only [Collector7.run, Held7.history] at this
    exact congrArg Prod.fst (Except.ok.inj this)
  have hg' : Good7 { s with limit := n, storage := max s.storage n } := le_trans hg (Nat.le_max_left _ _)
  obtain ⟨-, hr⟩ := reserved7_tries (n := n) calls hk { s with limit := n, storage := max s.storage n }
    ⟨by omega, rfl, by show n ≤ max _ _; omega, by show max _ _ ≤ _; omega⟩
  obtain ⟨e2, hg2⟩ := tries7_exact calls _ hg'
  rw [hs, e2] at h'
  cases h'
  obtain ⟨e3, -⟩ := reserved7_tryOne hr (.feed p { memory := memory }) trivial
  have e4 := (try7_exact _ hg2 (.feed p { memory := memory })).1
  rw [e3] at e4
  rw [spared7_calm] at e4
  exact ⟨_, _, e4⟩

example := C72_no_exception_partial [.feed ⟨0x30127E01, 0, 0, 0⟩ {}, .feed ⟨0x30327E01, 0, 0, 0⟩ {}] _ _ rfl (by decide) 16384 (by decide)
  [.feed ⟨0x30127E01, 0, 0, 0⟩ {}, .feed ⟨0x30327E01, 0, 0, 0⟩ {}] (by decide) _ _ rfl ⟨0x30127E01, 0, 0, 0⟩ false

/-- C72 is false for limits of more than 16384 bytes: the storage is given back with the first message, and the next one needs
memory again. -/
theorem C72_large_limit (n : Nat) (hn : 16384 < n) (p : Packet) (hp : IsSysex7 p) (h0 : formatCode p = 0) (hd : payload7 p ≠ []) :
    (({} : Collector7).tryAll [.setMaxSize n false, .feed p {}, .feed p { memory := true }]).map Prod.snd =
      .ok [message7 (payload7 p)] := by
  rw [tried7]
  have hl : (payload7 p).length ≤ 6 := by
    rw [payload7_eq_range']; simpa using (C15_view_payload p ((C15_is_sysex7_packet_iff p).2 hp)).1
  have h1 : 0 < (payload7 p).length := List.length_pos_iff.2 hd
  have e0 : (message7 []).data.length = 0 := rfl
  have eg : grown n n (payload7 p).length = n := by
    unfold grown; split
    · rfl
    · omega
  have eg' : 0 < grown n 0 (payload7 p).length := by
    unfold grown; rw [if_neg (by omega), if_neg (by omega)]; omega
  have er : room n n (payload7 p).length = true := by
    simp [room]; omega
  simp [Held7.tries, Held7.tryOne, if_pos hp, h0, Held7.tryPacket, Held7.tryAdd, Held7.add, Held7.cleared, e0, er, eg', eg, hn]

/-- C72 is false if the collector had a storage of more than 16384 bytes when the limit was set. -/
theorem C72_large_storage (n k : Nat) (hn : 0 < n ∧ 16384 < k) (p : Packet) (hp : IsSysex7 p)
    (h0 : formatCode p = 0) (hd : payload7 p ≠ []) :
    (({} : Collector7).tryAll [.setMaxSize k false, .setMaxSize n false, .feed p {}, .feed p { memory := true }]).map Prod.snd =
      .ok [message7 (payload7 p)] := by
  rw [tried7]
  have hl : (payload7 p).length ≤ 6 := by
    rw [payload7_eq_range']; simpa using (C15_view_payload p ((C15_is_sysex7_packet_iff p).2 hp)).1
  have h1 : 0 < (payload7 p).length := List.length_pos_iff.2 hd
  have e0 : (message7 []).data.length = 0 := rfl
  have hk : 16384 < max k n := by omega
  have eg : grown n (max k n) (payload7 p).length = max k n := by
    unfold grown; split
    · rfl
    · omega
  have eg' : 0 < grown n 0 (payload7 p).length := by
    unfold grown; rw [if_neg (by omega), if_neg (by omega)]; omega
  have er : room n (max k n) (payload7 p).length = true := by
    simp [room]; omega
  simp [Held7.tries, Held7.tryOne, if_pos hp, h0, Held7.tryPacket, Held7.tryAdd, Held7.add, Held7.cleared, e0, er, eg', eg, hk]

-- the hypotheses are met
example : IsSysex7 ⟨0x30027E01, 0, 0, 0⟩ ∧ formatCode ⟨0x30027E01, 0, 0, 0⟩ = 0 ∧ payload7 ⟨0x30027E01, 0, 0, 0⟩ ≠ [] := by decide +kernel

example : ∃ c out, ({} : Collector7).tryAll [.feed ⟨0x30127E01, 0, 0, 0⟩ {}, .feed ⟨0x30327E01, 0, 0, 0⟩ {}] = .ok (c, out) ∧ out ≠ [] ∧
    c.capacity ≤ 16384 := ⟨_, _, rfl, by decide, by decide⟩

/-- C72, exactly: after any history, and once a limit has been set, the messages delivered are the same whether there is memory or not, for
all calls that follow, exactly if the limit is at most 16384 bytes and the collector had no larger storage before. -/
theorem C72_exactly (os : List CollectorTry) (c : Collector7) (out : List Sysex)
    (h : ({} : Collector7).tryAll os = .ok (c, out)) (n : Nat) (hn : 0 < n) :
    (∀ calls : List CollectorTry, (∀ o ∈ calls, KeepsLimit o) →
      ((c.setMaxSize n).tryAll calls).map Prod.snd = ((c.setMaxSize n).tryAll (calls.map spared)).map Prod.snd) ↔
    n ≤ 16384 ∧ c.capacity ≤ 16384 := by
  refine ⟨fun hall => ?_, fun hc calls hk => by rw [C72_no_memory_needed_partial os c out h hc.2 n ⟨hn, hc.1⟩ calls hk]⟩
  obtain ⟨e, hg⟩ := tries7_exact os {} (Nat.le_refl _)
  rw [show conc7 {} = ({} : Collector7) from rfl, h] at e
  cases e
  generalize (({} : Held7).tries os).1 = s at hg hall ⊢
  have hs : (conc7 s).setMaxSize n = conc7 { s with limit := n, storage := max s.storage n } := by
    have := (history7_exact [.setMaxSize n] s hg).1
    simp only [Collector7.run, Held7.history] at this
    exact congrArg Prod.fst (Except.ok.inj this)
  have hg' : Good7 { s with limit := n, storage := max s.storage n } := le_trans hg (Nat.le_max_left _ _)
  by_contra hc
  have hbig : max s.storage n > 16384 := by
    have : ¬ (n ≤ 16384 ∧ s.storage ≤ 16384) := hc
    omega
  generalize max s.storage n = k at hs hg' hbig
  obtain ⟨p, hp, h0, hd⟩ : ∃ p, IsSysex7 p ∧ formatCode p = 0 ∧ payload7 p = [1] :=
    ⟨⟨0x30010100, 0, 0, 0⟩, by decide +kernel, by decide +kernel, by decide +kernel⟩
  have := hall [.setCallback true, .reset, .feed p { memory := true }] (by simp [KeepsLimit])
  rw [hs, (tries7_exact _ _ hg').1, (tries7_exact _ _ hg').1] at this
  have e0 : (message7 []).data.length = 0 := rfl
  have eg : 0 < grown n 0 1 := by
    unfold grown; rw [if_neg (by omega), if_neg (by omega)]; omega
  have er : room n 0 1 = true := by
    simp [room]; omega
  simp [Except.map, Held7.tries, Held7.tryOne, spared, hp, h0, hd, Held7.tryPacket, Held7.tryAdd, Held7.add, Held7.cleared, hbig, e0, eg, er] at this

example := C72_exactly [.feed ⟨0x30127E01, 0, 0, 0⟩ {}, .feed ⟨0x30327E01, 0, 0, 0⟩ {}] _ _ rfl 20000 (by decide)

/-! ## 8 bit sysex -/

/-- All the storage a limit of `n` asks for is there, and it is not more than what the collector keeps. -/
def Reserved8 (n : Nat) (s : Held8) : Prop := n ≠ 0 ∧ s.limit = n ∧ n ≤ s.storage ∧ s.storage ≤ 16384

theorem reserved8_cleared {n : Nat} {s : Held8} (h : Reserved8 n s) : Reserved8 n s.cleared := by
  obtain ⟨h0, h1, h2, h3⟩ := h
  refine ⟨h0, h1, ?_, ?_⟩ <;> simp only [Held8.cleared] <;> split <;> omega

theorem reserved8_tryAdd {n : Nat} {s : Held8} (h : Reserved8 n s) (f : Bool) (d : List Byte) (t : Trouble) :
    s.tryAdd f d t = s.tryAdd f d { t with memory := false } ∧ Reserved8 n (s.tryAdd f d t).1 := by
  have hg : ∀ need, grown s.limit s.storage need = s.storage := fun need => grown_reserved (by rw [h.2.1]; exact h.1) (by rw [h.2.1]; exact h.2.2.1)
  unfold Held8.tryAdd
  simp only [hg, Nat.lt_irrefl, and_false, if_false]
  refine ⟨trivial, ?_⟩
  split
  · exact h
  · unfold Held8.add
    simp only [hg]
    split
    · split
      · exact reserved8_cleared h
      · exact h
    · exact h

theorem reserved8_tryOne {n : Nat} {s : Held8} (h : Reserved8 n s) (o : CollectorTry) (ho : KeepsLimit o) :
    s.tryOne o = s.tryOne (spared o) ∧ Reserved8 n (s.tryOne o).1 := by
  cases o with
  | feed p t =>
    simp only [Held8.tryOne, spared]
    by_cases hp : IsSysex8 p
    · simp only [if_pos hp, Held8.tryPacket]
      have h' : Reserved8 n (if s.running then s.cleared else s) := by
        split
        · exact reserved8_cleared h
        · exact h
      split
      · exact reserved8_tryAdd (s := { (if s.running then s.cleared else s) with stream := stream8 p }) h' _ _ t
      · split
        · split
          · exact reserved8_tryAdd h _ _ t
          · exact ⟨rfl, h⟩
        · exact ⟨rfl, reserved8_cleared h⟩
    · simp only [if_neg hp]; exact ⟨trivial, h⟩
  | setMaxSize _ _ => exact ho.elim
  | setCallback b => exact ⟨rfl, h⟩
  | reset => exact ⟨rfl, reserved8_cleared h⟩

theorem reserved8_tries {n : Nat} (os : List CollectorTry) (ho : ∀ o ∈ os, KeepsLimit o) : ∀ s : Held8, Reserved8 n s →
    s.tries os = s.tries (os.map spared) ∧ Reserved8 n (s.tries os).1 := by
  induction os with
  | nil => intro s h; exact ⟨rfl, h⟩
  | cons o os ih =>
    intro s h
    obtain ⟨e1, h1⟩ := reserved8_tryOne h o (ho o (by simp))
    obtain ⟨e2, h2⟩ := ih (fun o hx => ho o (by simp [hx])) _ h1
    refine ⟨?_, h2⟩
    rw [List.map_cons, Held8.tries, Held8.tries, ← e1]
    dsimp only
    rw [e2]

/-- C72 for 8 bit sysex, partial: after any history, once a limit of up to 16384 bytes has been set, and if the collector had no larger storage
before, it makes no difference whether there is memory: for all calls that follow, other than setting the limit, the messages
delivered and the final state are the same as if all allocations succeeded. What is missing: see `C72_large_limit8` and
`C72_large_storage8`. -/
theorem C72_no_memory_needed8_partial (os : List CollectorTry) (c : Collector8) (out : List (Sysex × Byte))
    (h : ({} : Collector8).tryAll os = .ok (c, out)) (hcap : c.capacity ≤ 16384) (n : Nat) (hn : 0 < n ∧ n ≤ 16384)
    (calls : List CollectorTry) (hk : ∀ o ∈ calls, KeepsLimit o) :
    (c.setMaxSize n).tryAll calls = (c.setMaxSize n).tryAll (calls.map spared) := by
  obtain ⟨e, hg⟩ := tries8_exact os {} (Nat.le_refl _)
  rw [show conc8 {} = ({} : Collector8) from rfl, h] at e
  cases e
  generalize (({} : Held8).tries os).1 = s at hg hcap ⊢
  replace hcap : s.storage ≤ 16384 := hcap
  have hs : (conc8 s).setMaxSize n = conc8 { s with limit := n, storage := max s.storage n } := by
    have := (history8_exact [.setMaxSize n] s hg).1
    simp only [Collector8.run, Held8.history] at this
    exact congrArg Prod.fst (Except.ok.inj this)
  have hg' : Good8 { s with limit := n, storage := max s.storage n } := le_trans hg (Nat.le_max_left _ _)
  obtain ⟨e, -⟩ := reserved8_tries (n := n) calls hk { s with limit := n, storage := max s.storage n }
    ⟨by omega, rfl, by show n ≤ max _ _; omega, by show max _ _ ≤ _; omega⟩
  rw [hs, (tries8_exact calls _ hg').1, (tries8_exact _ _ hg').1, ← e]

example := C72_no_memory_needed8_partial [.feed ⟨0x50140000, 0x7E010000, 0, 0⟩ {}, .feed ⟨0x50340002, 0x03040000, 0, 0⟩ {}] _ _ rfl (by decide) 16384 (by decide)
  [.feed ⟨0x50140000, 0x7E010000, 0, 0⟩ {}, .feed ⟨0x50340002, 0x03040000, 0, 0⟩ {}] (by decide)

theorem spared8_calm (s : Held8) (p : Packet) (m : Bool) : (s.tryOne (spared (.feed p { memory := m }))).2.2 = false := by
  simp only [Held8.tryOne, spared]
  split
  · simp only [Held8.tryPacket, Held8.tryAdd, Bool.false_eq_true, false_and, if_false]
    split
    · rfl
    · split
      · split <;> rfl
      · rfl
  · rfl

/-- C72 for 8 bit sysex, partial: and then no call throws, unless the callback does. -/
theorem C72_no_exception8_partial (os : List CollectorTry) (c : Collector8) (out : List (Sysex × Byte))
    (h : ({} : Collector8).tryAll os = .ok (c, out)) (hcap : c.capacity ≤ 16384) (n : Nat) (hn : 0 < n ∧ n ≤ 16384)
    (calls : List CollectorTry) (hk : ∀ o ∈ calls, KeepsLimit o) (c' : Collector8) (out' : List (Sysex × Byte))
    (h' : (c.setMaxSize n).tryAll calls = .ok (c', out')) (p : Packet) (memory : Bool) :
    ∃ c'' ms, c'.tryFeed p { memory := memory } = .ok (c'', ms, false) := by
  obtain ⟨e, hg⟩ := tries8_exact os {} (Nat.le_refl _)
  rw [show conc8 {} = ({} : Collector8) from rfl, h] at e
  cases e
  generalize (({} : Held8).tries os).1 = s at hg hcap h'
  replace hcap : s.storage ≤ 16384 := hcap
  have hs : (conc8 s).setMaxSize n = conc8 { s with limit := n, storage := max s.storage n } := by
    have := (history8_exact [.setMaxSize n] s hg).1
    simp only [Collector8.run, Held8.history] at this
    exact congrArg Prod.fst (Except.ok.inj this)
  have hg' : Good8 { s with limit := n, storage := max s.storage n } := le_trans hg (Nat.le_max_left _ _)
  obtain ⟨-, hr⟩ := reserved8_tries (n := n) calls hk { s with limit := n, storage := max s.storage n }
    ⟨by omega, rfl, by show n ≤ max _ _; omega, by show max _ _ ≤ _; omega⟩
  obtain ⟨e2, hg2⟩ := tries8_exact calls _ hg'
  rw [hs, e2] at h'
  cases h'
  obtain ⟨e3, -⟩ := reserved8_tryOne hr (.feed p { memory := memory }) trivial
  have e4 := (try8_exact _ hg2 (.feed p { memory := memory })).1
  rw [e3] at e4
  rw [spared8_calm] at e4
  exact ⟨_, _, e4⟩

example := C72_no_exception8_partial [.feed ⟨0x50140000, 0x7E010000, 0, 0⟩ {}, .feed ⟨0x50340002, 0x03040000, 0, 0⟩ {}] _ _ rfl (by decide) 16384 (by decide)
  [.feed ⟨0x50140000, 0x7E010000, 0, 0⟩ {}, .feed ⟨0x50340002, 0x03040000, 0, 0⟩ {}] (by decide) _ _ rfl ⟨0x30127E01, 0, 0, 0⟩ false

/-- C72 for 8 bit sysex is false for limits of more than 16384 bytes: the storage is given back with the first message, and the next one needs
memory again. -/
theorem C72_large_limit8 (n : Nat) (hn : 16384 < n) (p : Packet) (hp : IsSysex8 p) (h0 : formatCode p = 0) (hd : payload8 p ≠ []) :
    (({} : Collector8).tryAll [.setMaxSize n false, .feed p {}, .feed p { memory := true }]).map Prod.snd =
      .ok [(message8 (payload8 p), stream8 p)] := by
  rw [tried8]
  have hl : (payload8 p).length ≤ 13 := by
    rw [payload8_eq_range' p hp]; simpa using (C16_view_payload p ((C16_is_sysex8_packet_iff p).2 hp)).1
  have h1 : 0 < (payload8 p).length := List.length_pos_iff.2 hd
  have e0 : (message8 []).data.length = 0 := rfl
  have eg : grown n n (payload8 p).length = n := by
    unfold grown; split
    · rfl
    · omega
  have eg' : 0 < grown n 0 (payload8 p).length := by
    unfold grown; rw [if_neg (by omega), if_neg (by omega)]; omega
  have er : room n n (payload8 p).length = true := by
    simp [room]; omega
  simp [Held8.tries, Held8.tryOne, if_pos hp, h0, Held8.tryPacket, Held8.tryAdd, Held8.add, Held8.cleared, e0, er, eg', eg, hn]

/-- C72 for 8 bit sysex is false if the collector had a storage of more than 16384 bytes when the limit was set. -/
theorem C72_large_storage8 (n k : Nat) (hn : 0 < n ∧ 16384 < k) (p : Packet) (hp : IsSysex8 p)
    (h0 : formatCode p = 0) (hd : payload8 p ≠ []) :
    (({} : Collector8).tryAll [.setMaxSize k false, .setMaxSize n false, .feed p {}, .feed p { memory := true }]).map Prod.snd =
      .ok [(message8 (payload8 p), stream8 p)] := by
  rw [tried8]
  have hl : (payload8 p).length ≤ 13 := by
    rw [payload8_eq_range' p hp]; simpa using (C16_view_payload p ((C16_is_sysex8_packet_iff p).2 hp)).1
  have h1 : 0 < (payload8 p).length := List.length_pos_iff.2 hd
  have e0 : (message8 []).data.length = 0 := rfl
  have hk : 16384 < max k n := by omega
  have eg : grown n (max k n) (payload8 p).length = max k n := by
    unfold grown; split
    · rfl
    · omega
  have eg' : 0 < grown n 0 (payload8 p).length := by
    unfold grown; rw [if_neg (by omega), if_neg (by omega)]; omega
  have er : room n (max k n) (payload8 p).length = true := by
    simp [room]; omega
  simp [Held8.tries, Held8.tryOne, if_pos hp, h0, Held8.tryPacket, Held8.tryAdd, Held8.add, Held8.cleared, e0, er, eg', eg, hk]

-- the hypotheses are met
example : IsSysex8 ⟨0x50040000, 0x7E010000, 0, 0⟩ ∧ formatCode ⟨0x50040000, 0x7E010000, 0, 0⟩ = 0 ∧ payload8 ⟨0x50040000, 0x7E010000, 0, 0⟩ ≠ [] := by decide +kernel

example : ∃ c out, ({} : Collector8).tryAll [.feed ⟨0x50140000, 0x7E010000, 0, 0⟩ {}, .feed ⟨0x50340002, 0x03040000, 0, 0⟩ {}] = .ok (c, out) ∧ out ≠ [] ∧
    c.capacity ≤ 16384 := ⟨_, _, rfl, by decide, by decide⟩

/-- C72 for 8 bit sysex, exactly: after any history, and once a limit has been set, the messages delivered are the same whether there is memory or not, for
all calls that follow, exactly if the limit is at most 16384 bytes and the collector had no larger storage before. -/
theorem C72_exactly8 (os : List CollectorTry) (c : Collector8) (out : List (Sysex × Byte))
    (h : ({} : Collector8).tryAll os = .ok (c, out)) (n : Nat) (hn : 0 < n) :
    (∀ calls : List CollectorTry, (∀ o ∈ calls, KeepsLimit o) →
      ((c.setMaxSize n).tryAll calls).map Prod.snd = ((c.setMaxSize n).tryAll (calls.map spared)).map Prod.snd) ↔
    n ≤ 16384 ∧ c.capacity ≤ 16384 := by
  refine ⟨fun hall => ?_, fun hc calls hk => by rw [C72_no_memory_needed8_partial os c out h hc.2 n ⟨hn, hc.1⟩ calls hk]⟩
  obtain ⟨e, hg⟩ := tries8_exact os {} (Nat.le_refl _)
  rw [show conc8 {} = ({} : Collector8) from rfl, h] at e
  cases e
  generalize (({} : Held8).tries os).1 = s at hg hall ⊢
  have hs : (conc8 s).setMaxSize n = conc8 { s with limit := n, storage := max s.storage n } := by
    have := (history8_exact [.setMaxSize n] s hg).1
    simp only [Collector8.run, Held8.history] at this
    exact congrArg Prod.fst (Except.ok.inj this)
  have hg' : Good8 { s with limit := n, storage := max s.storage n } := le_trans hg (Nat.le_max_left _ _)
  by_contra hc
  have hbig : max s.storage n > 16384 := by
    have : ¬ (n ≤ 16384 ∧ s.storage ≤ 16384) := hc
    omega
  generalize max s.storage n = k at hs hg' hbig
  obtain ⟨p, hp, h0, hd⟩ : ∃ p, IsSysex8 p ∧ formatCode p = 0 ∧ payload8 p = [1] :=
    ⟨⟨0x50020001, 0, 0, 0⟩, by decide +kernel, by decide +kernel, by decide +kernel⟩
  have := hall [.setCallback true, .reset, .feed p { memory := true }] (by simp [KeepsLimit])
  rw [hs, (tries8_exact _ _ hg').1, (tries8_exact _ _ hg').1] at this
  have e0 : (message8 []).data.length = 0 := rfl
  have eg : 0 < grown n 0 1 := by
    unfold grown; rw [if_neg (by omega), if_neg (by omega)]; omega
  have er : room n 0 1 = true := by
    simp [room]; omega
  simp [Except.map, Held8.tries, Held8.tryOne, spared, hp, h0, hd, Held8.tryPacket, Held8.tryAdd, Held8.add, Held8.cleared, hbig, e0, eg, er] at this

example := C72_exactly8 [.feed ⟨0x50140000, 0x7E010000, 0, 0⟩ {}, .feed ⟨0x50340002, 0x03040000, 0, 0⟩ {}] _ _ rfl 20000 (by decide)

end Midi

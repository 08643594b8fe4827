import Verif.Props.JitterExact
import Verif.Spec.Punctual
import Mathlib.Data.List.Forall2

/-!
# Property C99: jitter reduction from the sending to the receiving device
-/

namespace Midi.Jr
open Spec.Jr

/-- The message as an event of an ideal sender. -/
def Shipped.event (start : Int) (m : Shipped) : Event :=
  if m.isClock then .clock ((m.time - start) / 32000).toNat m.arrival else .message ((m.time - start) / 32000).toNat m.arrival

theorem event_sent (start : Int) (m : Shipped) : (Shipped.event start m).sent = ((m.time - start) / 32000).toNat := by
  unfold Shipped.event; split <;> rfl

theorem event_received (start : Int) (m : Shipped) : (Shipped.event start m).received = m.arrival := by
  unfold Shipped.event; split <;> rfl

theorem event_isClock (start : Int) (m : Shipped) : (Shipped.event start m).isClock = m.isClock := by
  unfold Shipped.event; split <;> simp_all [Event.isClock]

theorem clockNow_tick (start t : Int) (h1 : start ≤ t) (h2 : t < start + 2 ^ 57) :
    clockNow start t = .ok (BitVec.ofNat 16 ((t - start) / 32000).toNat) := by
  unfold clockNow chk64
  rw [if_pos (by omega), ok_bind, Int.tdiv_eq_ediv_of_nonneg (by omega), pure_eq_ok]
  refine congrArg Except.ok (BitVec.eq_of_toNat_eq ?_)
  rw [BitVec.toNat_ofInt, BitVec.toNat_ofNat]
  omega

/-- Sending and receiving a message is a call to the follower. -/
theorem send_receive (start : Int) (m : Shipped) (f : Follower) (h1 : start ≤ m.time) (h2 : m.time < start + 2 ^ 57) :
    (do let p ← send start m; receive f m.arrival p) = f.call (Shipped.event start m).call := by
  obtain ⟨⟨p, a1, -, -, a2, a3, a4⟩, ⟨q, b1, -, -, b2, b3, b4⟩⟩ := C14_jr_messages (BitVec.ofNat 16 ((m.time - start) / 32000).toNat)
  unfold send Shipped.event
  rw [clockNow_tick start m.time h1 h2, ok_bind]
  cases hc : m.isClock
  · simp only [Bool.false_eq_true, if_false]
    rw [b1, ok_bind]
    unfold receive
    rw [b2, ok_bind, b3, b4]
    rfl
  · simp only [if_true]
    rw [a1, ok_bind]
    unfold receive
    rw [a2, ok_bind, a3, a4]
    rfl

theorem deliver_run (start : Int) (ms : List Shipped) (h : ∀ m ∈ ms, start ≤ m.time ∧ m.time < start + 2 ^ 57) : ∀ f : Follower,
    deliver start f ms = (f.run ((ms.map (Shipped.event start)).map Event.call)).map Prod.snd := by
  induction ms with
  | nil => intro f; rfl
  | cons m ms ih =>
    intro f
    have e := send_receive start m f (h m (by simp)).1 (h m (by simp)).2
    unfold deliver
    rw [List.map_cons, List.map_cons, Follower.run, ← e]
    cases send start m with
    | error x => rfl
    | ok p =>
      rw [ok_bind, ok_bind]
      cases receive f m.arrival p with
      | error x => rfl
      | ok q =>
        obtain ⟨g, o⟩ := q
        rw [ok_bind, ok_bind]
        dsimp only
        rw [ih (fun m hm => h m (by simp [hm]))]
        cases g.run ((ms.map (Shipped.event start)).map Event.call) <;> rfl

theorem closeToClock_within (start : Int) (ms : List Shipped) (h : ∀ m ∈ ms, start ≤ m.time) : ∀ last : Option Int,
    (∀ c, last = some c → start ≤ c) → withinTwoSeconds last ms = true →
    closeToClock (last.map fun c => ((c - start) / 32000).toNat) (ms.map (Shipped.event start)) = true := by
  induction ms with
  | nil => intros; rfl
  | cons m ms ih =>
    intro last hl hw
    unfold withinTwoSeconds at hw
    rw [Bool.and_eq_true] at hw
    have hm := h m (by simp)
    rw [List.map_cons]
    unfold closeToClock
    rw [Bool.and_eq_true, event_isClock, event_sent]
    constructor
    · cases last with
      | none => rfl
      | some c =>
        have h1 := hl c rfl
        have h2 := of_decide_eq_true hw.1
        simp only [Option.map_some, near, event_sent]
        refine decide_eq_true ?_
        omega
    · have := ih (fun m hm => h m (by simp [hm])) (if m.isClock then some m.time else last) (by
        intro c hc
        split at hc
        · injection hc with hc; omega
        · exact hl c hc) hw.2
      rw [apply_ite (Option.map _)] at this
      exact this

theorem normal_ideal (start zero : Int) (ms : List Shipped) (h : Normal start zero ms) : Ideal zero (ms.map (Shipped.event start)) := by
  obtain ⟨-, -, h1, h2, h3⟩ := h
  refine ⟨?_, closeToClock_within start ms (fun m hm => (h3 m hm).1) none (fun c hc => by cases hc) h2, ?_⟩
  · rw [List.pairwise_map]
    refine h1.imp_of_mem fun ha hb hab => ?_
    have := (h3 _ ha).1
    have := (h3 _ hb).1
    rw [event_sent, event_sent, event_received, event_received]
    exact ⟨by omega, hab.2⟩
  · intro e he
    obtain ⟨m, hm, rfl⟩ := List.mem_map.1 he
    rw [event_received]
    exact (h3 m hm).2.2.1

theorem forall₂_append {α β : Type} {R : α → β → Prop} {a : List α} {b : List β} {a' : List α} {b' : List β} (h : List.Forall₂ R a b)
    (h' : List.Forall₂ R a' b') : List.Forall₂ R (a ++ a') (b ++ b') := by
  induction h with
  | nil => exact h'
  | cons x _ ih => exact List.Forall₂.cons x ih

/-- What the plan knows after messages of which the first one is a clock message. -/
theorem plan_punctual (start zero least most : Int) (ms : List Shipped) (hs : ∀ m ∈ ms, start ≤ m.time)
    (ho : ms.Pairwise fun a b => a.time ≤ b.time) (hc : ClocksTake least most ms) (hf : ∀ m ∈ ms.head?, m.isClock = true) :
    let p := (Plan.run ⟨none, zero⟩ (ms.map (Shipped.event start))).1
    List.Forall₂ (fun m x => m.time + least + 2000000 - 32000 < x ∧
        x < m.time + most + max 2000000 ((most - least + 31999) * 12 / 10) + 32000)
      (ms.filter fun m => !m.isClock) (Plan.run ⟨none, zero⟩ (ms.map (Shipped.event start))).2 ∧
    (p.took = none → ms = []) ∧
    ∀ lo hi, p.took = some (lo, hi) → start + least ≤ lo ∧ lo ≤ hi ∧ hi ≤ start + most + 31999 ∧
      ∀ t : Int, (∀ m ∈ ms, m.time ≤ t) → p.floor ≤ 32000 * ((t - start) / 32000) + hi := by
  induction ms using List.reverseRecOn with
  | nil => exact ⟨List.Forall₂.nil, fun _ => rfl, fun lo hi h => by cases h⟩
  | append_singleton a m ih =>
    rw [List.pairwise_append] at ho
    obtain ⟨i1, i2, i3⟩ := ih (fun m hm => hs m (by simp [hm])) ho.1 (fun m hm => hc m (by simp [hm])) (by
      cases a with
      | nil => intro m hm; cases hm
      | cons x a => exact hf)
    have hm := hs m (by simp)
    have hle : ∀ x ∈ a, x.time ≤ m.time := fun x hx => ho.2.2 x hx m (by simp)
    rw [List.map_append, List.map_singleton, plan_append, List.filter_append]
    generalize Plan.run ⟨none, zero⟩ (a.map (Shipped.event start)) = pl at *
    obtain ⟨⟨took, floor⟩, outs⟩ := pl
    dsimp only at i1 i2 i3 ⊢
    have harr : m.arrival = m.time + m.took := rfl
    have et : (((m.time - start) / 32000).toNat : Int) = (m.time - start) / 32000 := by omega
    cases hk : m.isClock with
    | false =>
      cases took with
      | none =>
        obtain rfl := i2 rfl
        have := hf m (by simp)
        rw [hk] at this; cases this
      | some q =>
        obtain ⟨lo, hi⟩ := q
        obtain ⟨k1, k0, k2, k3⟩ := i3 lo hi rfl
        have k4 := k3 m.time hle
        have ee : Shipped.event start m = .message ((m.time - start) / 32000).toNat m.arrival := by simp [Shipped.event, hk]
        rw [ee]
        simp only [Plan.step, Plan.offset]
        rw [et]
        have ef : List.filter (fun m => !m.isClock) [m] = [m] := by simp [hk]
        rw [ef]
        refine ⟨forall₂_append i1 (List.Forall₂.cons ⟨by omega, by omega⟩ List.Forall₂.nil), (fun h => absurd h (by simp)), fun lo' hi' h => ?_⟩
        injection h with h
        injection h with h1 h2
        subst h1 h2
        refine ⟨k1, k0, k2, fun t ht => ?_⟩
        have := ht m (by simp)
        omega
    | true =>
      have ee : Shipped.event start m = .clock ((m.time - start) / 32000).toNat m.arrival := by simp [Shipped.event, hk]
      have ef : List.filter (fun m => !m.isClock) [m] = [] := by simp [hk]
      have hb := hc m (by simp) hk
      rw [ee, ef, List.append_nil]
      cases took with
      | none =>
        simp only [Plan.step, List.append_nil]
        rw [et, harr]
        refine ⟨i1, (fun h => absurd h (by simp)), fun lo' hi' h => ?_⟩
        injection h with h
        injection h with h1 h2
        subst h1 h2
        refine ⟨by omega, by omega, by omega, fun t ht => ?_⟩
        have := ht m (by simp)
        omega
      | some q =>
        obtain ⟨lo, hi⟩ := q
        obtain ⟨k1, k0, k2, k3⟩ := i3 lo hi rfl
        have k4 := k3 m.time hle
        simp only [Plan.step, List.append_nil]
        rw [et, harr]
        refine ⟨i1, (fun h => absurd h (by simp)), fun lo' hi' h => ?_⟩
        injection h with h
        injection h with h1 h2
        subst h1 h2
        refine ⟨by omega, by omega, by omega, fun t ht => ?_⟩
        have := ht m (by simp)
        split <;> omega

/-- C99: jitter reduction works from one device to the other. The first message is a clock message, clock messages take between `least` and
`most`, and the other messages any time. Then each of the other messages is scheduled for a time that lies between the time it was sent,
plus `least`, plus 2 ms, and the time it was sent, plus `most`, plus the larger of 2 ms and 1.2 times the spread, with an error of
at most one tick of 32 us in the measurements. How long the message itself took does not matter. -/
theorem C99_punctual (start zero least most : Int) (first : Shipped) (ms : List Shipped) (hf : first.isClock = true)
    (hn : Normal start zero (first :: ms)) (hc : ClocksTake least most (first :: ms)) :
    ∃ times, deliver start (Follower.init zero) (first :: ms) = .ok times ∧
      List.Forall₂ (fun m x => m.time + least + 2000000 - 32000 < x ∧
          x < m.time + most + max 2000000 ((most - least + 31999) * 12 / 10) + 32000)
        (ms.filter fun m => !m.isClock) times := by
  have hi := normal_ideal start zero _ hn
  obtain ⟨z1, z2, h1, -, h3⟩ := hn
  obtain ⟨s, outs, hr⟩ := C48_ideal_no_fault zero _ z1 z2 hi (by
    intro e he
    obtain ⟨m, hm, rfl⟩ := List.mem_map.1 he
    obtain ⟨a, b, -, c⟩ := h3 m hm
    rw [event_received, event_sent]
    exact ⟨c, by omega⟩)
  refine ⟨outs, ?_, ?_⟩
  · rw [deliver_run start _ fun m hm => ⟨(h3 m hm).1, (h3 m hm).2.1⟩, hr]
    rfl
  · have := (plan_punctual start zero least most (first :: ms) (fun m hm => (h3 m hm).1) (h1.imp fun h => h.1) hc
      (by intro m hm; injection hm with hm; subst hm; exact hf)).1
    rw [← C49_exactly zero _ s outs hi hr, List.filter_cons_of_neg (by simp [hf])] at this
    exact this

/-- C99: with clock messages that all take the same time, every other message is scheduled 2 ms after that time, up to one tick of
32 us, and messages that do not take 1.9 ms longer than the clock messages are scheduled for a time in the future. -/
theorem C99_steady (start zero took : Int) (first : Shipped) (ms : List Shipped) (hf : first.isClock = true)
    (hn : Normal start zero (first :: ms)) (hc : ∀ m ∈ first :: ms, m.isClock = true → m.took = took) :
    ∃ times, deliver start (Follower.init zero) (first :: ms) = .ok times ∧
      List.Forall₂ (fun m x => |x - (m.time + took + 2000000)| < 32000 ∧ (m.took ≤ took + 1900000 → m.arrival < x))
        (ms.filter fun m => !m.isClock) times := by
  obtain ⟨times, h1, h2⟩ := C99_punctual start zero took took first ms hf hn
    fun m hm hk => ⟨Int.le_of_eq (hc m hm hk).symm, Int.le_of_eq (hc m hm hk)⟩
  refine ⟨times, h1, h2.imp fun m x h => ?_⟩
  obtain ⟨a, b⟩ := h
  have harr : m.arrival = m.time + m.took := rfl
  rw [Int.sub_self, show max (2000000 : Int) ((0 + 31999) * 12 / 10) = 2000000 by decide] at b
  exact ⟨abs_lt.2 ⟨by omega, by omega⟩, by omega⟩

/-- C99: clock messages that take 1 ms, and other messages that take between 1 ms and 2.5 ms. -/
def steadyTrip : List Shipped := [⟨false, 50000, 2500000⟩, ⟨false, 3000000, 1000000⟩, ⟨true, 1500000000, 1000000⟩, ⟨false, 1500123456, 1234567⟩,
  ⟨true, 3000000000, 1000000⟩, ⟨false, 3100000000, 1100000⟩]

example : ∃ times, deliver 5 (Follower.init 7) (⟨true, 40000, 1000000⟩ :: steadyTrip) = .ok times ∧
    List.Forall₂ (fun m x => |x - (m.time + 1000000 + 2000000)| < 32000 ∧ (m.took ≤ 1000000 + 1900000 → m.arrival < x))
      (steadyTrip.filter fun m => !m.isClock) times :=
  C99_steady 5 7 1000000 ⟨true, 40000, 1000000⟩ steadyTrip rfl (by decide +kernel) (by decide +kernel)

example : deliver 5 (Follower.init 7) (⟨true, 40000, 1000000⟩ :: steadyTrip) = .ok [3040000, 5984000, 1503104000, 3102976000] := by
  decide +kernel

/-- C99: clock messages that take between 1 ms and 4 ms. -/
def roughTrip : List Shipped := [⟨false, 50000, 4000000⟩, ⟨true, 1500000000, 4000000⟩, ⟨false, 1500123456, 5000000⟩,
  ⟨true, 3000000000, 1000000⟩, ⟨false, 3100000000, 1100000⟩]

example : deliver 5 (Follower.init 7) (⟨true, 40000, 1500000⟩ :: roughTrip) = .ok [3540000, 1507028800, 3104600000] := by
  decide +kernel

example : Normal 5 7 (⟨true, 40000, 1500000⟩ :: roughTrip) ∧ ClocksTake 1000000 4000000 (⟨true, 40000, 1500000⟩ :: roughTrip) ∧
    (fun least most : Int => max 2000000 ((most - least + 31999) * 12 / 10)) 1000000 4000000 = 3638398 := by decide +kernel

end Midi.Jr

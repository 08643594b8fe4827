import Verif.Lemmas.Sysex

/-!
# Helper lemmas: splitting a message into packets
-/

namespace Midi
open Spec

/-- A packet seen as format and payload. -/
abbrev Chunk := Format × List Byte

/-- The loop of `send_sysex7` and `send_sysex8` on chunks instead of packets. -/
def chunkLoop (N : Nat) (m : Byte → Byte) (f : Format) (pl : List Byte) (left : Nat) : List Byte → List Chunk × Chunk
  | [] => ([], (f, pl))
  | b :: bs =>
    if (pl ++ [m b]).length = N then
      let r := chunkLoop N m (if left - 1 ≤ N then .fin else .cont) [] (left - 1) bs
      ((f, pl ++ [m b]) :: r.1, r.2)
    else chunkLoop N m f (pl ++ [m b]) (left - 1) bs

/-- All chunks, including the last one if it is not empty. -/
def chunks (N : Nat) (m : Byte → Byte) (f : Format) (pl : List Byte) (bs : List Byte) : List Chunk :=
  let r := chunkLoop N m f pl bs.length bs
  if r.2.2.length ≠ 0 then r.1 ++ [r.2] else r.1

theorem sendSysex7Loop_eq {g : Byte} (hg : g < 16) (bs : List Byte) : ∀ (f : Format) (pl : List Byte) (left : Nat),
    pl.length < 6 →
    sendSysex7Loop g (mk7 f g pl) left bs =
      .ok ((chunkLoop 6 (· &&& 0x7F) f pl left bs).1.map fun c => mk7 c.1 g c.2,
        mk7 (chunkLoop 6 (· &&& 0x7F) f pl left bs).2.1 g (chunkLoop 6 (· &&& 0x7F) f pl left bs).2.2) := by
  induction bs with
  | nil => intro f pl left _; rfl
  | cons b bs ih =>
    intro f pl left h
    unfold sendSysex7Loop chunkLoop
    rw [addPayload_mk7 f h]
    simp only [ok_bind]
    rw [payloadSize_mk7 _ _ (by simp; omega)]
    by_cases h6 : (pl ++ [b &&& 0x7F]).length = 6
    · rw [if_pos h6, if_pos h6, makeSysex7_eq _ hg]
      simp only [ok_bind]
      rw [ih _ _ _ (by simp)]
      rfl
    · rw [if_neg h6, if_neg h6, ih _ _ _ (by simp at h6 ⊢; omega)]

theorem sendSysex8Loop_eq {g : Byte} (s : Byte) (hg : g < 16) (bs : List Byte) :
    ∀ (f : Format) (pl : List Byte) (left : Nat), pl.length < 13 →
    sendSysex8Loop s g (mk8 f s g pl) left bs =
      .ok ((chunkLoop 13 id f pl left bs).1.map fun c => mk8 c.1 s g c.2,
        mk8 (chunkLoop 13 id f pl left bs).2.1 s g (chunkLoop 13 id f pl left bs).2.2) := by
  induction bs with
  | nil => intro f pl left _; rfl
  | cons b bs ih =>
    intro f pl left h
    unfold sendSysex8Loop chunkLoop
    rw [addPayload_mk8 f s h]
    simp only [ok_bind, id_eq]
    rw [payloadSize_mk8 _ _ _ (by simp; omega)]
    by_cases h6 : (pl ++ [b]).length = 13
    · rw [if_pos h6, if_pos h6, makeSysex8_eq _ _ hg]
      rw [ih _ _ _ (by simp)]
      rfl
    · rw [if_neg h6, if_neg h6, ih _ _ _ (by simp at h6 ⊢; omega)]

theorem chunkLoop_short {N : Nat} (m : Byte → Byte) (bs : List Byte) : ∀ (f : Format) (pl : List Byte) (left : Nat),
    pl.length + bs.length < N → chunkLoop N m f pl left bs = ([], (f, pl ++ bs.map m)) := by
  induction bs with
  | nil => intro f pl left _; simp [chunkLoop]
  | cons b bs ih =>
    intro f pl left h
    simp only [List.length_cons] at h
    unfold chunkLoop
    rw [if_neg (by simp; omega), ih _ _ _ (by simp; omega)]
    simp

theorem chunkLoop_long {N : Nat} (m : Byte → Byte) (bs : List Byte) : ∀ (f : Format) (pl : List Byte) (left : Nat),
    pl.length < N → N ≤ pl.length + bs.length → left = bs.length →
    chunkLoop N m f pl left bs =
      (let rest := bs.drop (N - pl.length)
       let r := chunkLoop N m (if rest.length ≤ N then .fin else .cont) [] rest.length rest
       ((f, pl ++ (bs.take (N - pl.length)).map m) :: r.1, r.2)) := by
  induction bs with
  | nil => intro f pl left h1 h2 _; simp at h2; omega
  | cons b bs ih =>
    intro f pl left h1 h2 hl
    simp only [List.length_cons] at h2 hl
    rw [show chunkLoop N m f pl left (b :: bs) = _ from chunkLoop.eq_2 ..]
    by_cases h : (pl ++ [m b]).length = N
    · rw [if_pos h]
      have e : N - pl.length = 1 := by simp at h; omega
      have hl' : left - 1 = bs.length := by omega
      simp [e, hl']
    · rw [if_neg h, ih _ _ _ (by simp at h ⊢; omega) (by simp; omega) (by omega)]
      have e : N - pl.length = (N - (pl ++ [m b]).length) + 1 := by simp at h ⊢; omega
      rw [e]
      simp only [List.drop_succ_cons, List.take_succ_cons, List.map_cons, List.append_assoc, List.singleton_append]

theorem chunks_one {N : Nat} (m : Byte → Byte) (f : Format) (pl bs : List Byte) (h0 : pl.length < N)
    (h1 : 0 < pl.length + bs.length) (h2 : pl.length + bs.length ≤ N) :
    chunks N m f pl bs = [(f, pl ++ bs.map m)] := by
  unfold chunks
  by_cases h : pl.length + bs.length < N
  · rw [chunkLoop_short m bs f pl _ h]
    simp only [List.length_append, List.length_map]
    rw [if_pos (by omega)]
    rfl
  · rw [chunkLoop_long m bs f pl _ h0 (by omega) rfl]
    rw [List.drop_of_length_le (by omega), List.take_of_length_le (by omega)]
    simp [chunkLoop]

theorem chunks_more {N : Nat} (m : Byte → Byte) (f : Format) (pl bs : List Byte) (h0 : pl.length < N)
    (h2 : N < pl.length + bs.length) :
    chunks N m f pl bs = (f, pl ++ (bs.take (N - pl.length)).map m) ::
      chunks N m (if (bs.drop (N - pl.length)).length ≤ N then .fin else .cont) [] (bs.drop (N - pl.length)) := by
  unfold chunks
  rw [chunkLoop_long m bs f pl _ h0 (by omega) rfl]
  simp only
  generalize chunkLoop N m (if (bs.drop (N - pl.length)).length ≤ N then Format.fin else Format.cont) [] _ _ = r
  by_cases h : r.2.2.length ≠ 0
  · rw [if_pos h, if_pos h]; rfl
  · rw [if_neg h, if_neg h]

theorem chunkLoop_last_lt {N : Nat} (hN : 0 < N) (m : Byte → Byte) (bs : List Byte) :
    ∀ (f : Format) (pl : List Byte) (left : Nat), pl.length < N → (chunkLoop N m f pl left bs).2.2.length < N := by
  induction bs with
  | nil => intro f pl left h; simpa [chunkLoop] using h
  | cons b bs ih =>
    intro f pl left h
    unfold chunkLoop
    by_cases h6 : (pl ++ [m b]).length = N
    · rw [if_pos h6]; exact ih _ _ _ (by simpa using hN)
    · rw [if_neg h6]; exact ih _ _ _ (by simp at *; omega)

theorem flatMap_congr_mem {α β : Type _} {f g : α → List β} {l : List α} (h : ∀ a ∈ l, f a = g a) :
    l.flatMap f = l.flatMap g := by
  rw [List.flatMap_def, List.flatMap_def, List.map_congr_left h]

/-- What the loop yields for a message that does not fit into one packet. -/
theorem chunks_framed {N : Nat} (m : Byte → Byte) (n : Nat) : ∀ (f : Format) (pl bs : List Byte), bs.length = n →
    pl.length < N → N < pl.length + bs.length →
    (∃ k, (chunks N m f pl bs).map (·.1.code.toNat) = f.code.toNat :: (List.replicate k 2 ++ [3])) ∧
    (chunks N m f pl bs).flatMap (·.2) = pl ++ bs.map m ∧
    (∀ c ∈ (chunks N m f pl bs).dropLast, c.2.length = N) ∧
    (∀ c ∈ chunks N m f pl bs, 0 < c.2.length ∧ c.2.length ≤ N) := by
  induction n using Nat.strongRecOn with
  | ind n ih =>
    intro f pl bs hn h0 h1
    rw [chunks_more m f pl bs h0 h1]
    set rest := bs.drop (N - pl.length) with hrest
    have hlen : rest.length = bs.length - (N - pl.length) := by simp [hrest]
    have hfull : (pl ++ (bs.take (N - pl.length)).map m).length = N := by simp; omega
    have hcat : pl ++ bs.map m = (pl ++ (bs.take (N - pl.length)).map m) ++ rest.map m := by
      rw [List.append_assoc, ← List.map_append, hrest, List.take_append_drop]
    by_cases hle : rest.length ≤ N
    · rw [if_pos hle, chunks_one m _ [] rest (by simp; omega) (by simp; omega) (by simpa using hle)]
      refine ⟨⟨0, ?_⟩, ?_, ?_, ?_⟩
      · simp; decide
      · simp [hcat]
      · simp; omega
      · simp; omega
    · rw [if_neg hle]
      obtain ⟨⟨k, hk⟩, hf, hd, ha⟩ :=
        ih rest.length (by omega) .cont [] rest rfl (by simp; omega) (by simp; omega)
      have hne : chunks N m .cont [] rest ≠ [] := by
        intro h; rw [h] at hk; simp at hk
      refine ⟨⟨k + 1, ?_⟩, ?_, ?_, ?_⟩
      · rw [List.map_cons, hk]; rfl
      · rw [List.flatMap_cons, hf, hcat]; simp
      · rw [List.dropLast_cons_of_ne_nil hne]
        intro c hc
        rcases List.mem_cons.1 hc with rfl | hc
        · exact hfull
        · exact hd c hc
      · intro c hc
        rcases List.mem_cons.1 hc with rfl | hc
        · simp only [hfull]; omega
        · exact ha c hc

end Midi

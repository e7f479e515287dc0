import Verif.Proofs.CheckedBoard
import Verif.Proofs.Merge
/-!
# When the counters do not overflow
-/
namespace Pokers
open Spec
open Finset (range)

/-- Counters that only grow: if the last state is in bounds, no step overflows. -/
theorem foldlM_good {σ α : Type} {le : σ → σ → Prop} {Good : σ → Prop} (hrefl : ∀ s, le s s)
    (htrans : ∀ a b c, le a b → le b c → le a c) (hdown : ∀ a b, le a b → Good b → Good a) {f : σ → α → σ} {fC : σ → α → Option σ}
    (l : List α) (hle : ∀ s, ∀ a ∈ l, le s (f s a)) (hstep : ∀ s, ∀ a ∈ l, Good (f s a) → fC s a = some (f s a)) :
    ∀ s, le s (l.foldl f s) ∧ (Good (l.foldl f s) → l.foldlM fC s = some (l.foldl f s)) := by
  induction l with
  | nil => intro s; exact ⟨hrefl s, fun _ => rfl⟩
  | cons a l ih =>
    intro s
    obtain ⟨h1, h2⟩ := ih (fun s b hb => hle s b (by simp [hb])) (fun s b hb => hstep s b (by simp [hb])) (f s a)
    refine ⟨htrans _ _ _ (hle s a (by simp)) h1, fun hg => ?_⟩
    rw [List.foldlM_cons, hstep s a (by simp) (hdown _ _ h1 hg)]
    exact h2 hg

/-! ## One evaluation -/

/-- The counters of one hand fit into 64 bits. -/
def UFits (u : UnitResults) : Prop := u.wins < 2 ^ 64 ∧ u.ties < 2 ^ 64 ∧ u.total < 2 ^ 64
/-- The counters of one hand do not decrease. -/
def ULe (u v : UnitResults) : Prop := u.wins ≤ v.wins ∧ u.ties ≤ v.ties ∧ u.total ≤ v.total

theorem ULe.refl (u : UnitResults) : ULe u u := ⟨le_rfl, le_rfl, le_rfl⟩
theorem ULe.trans {u v w : UnitResults} (h : ULe u v) (h' : ULe v w) : ULe u w :=
  ⟨h.1.trans h'.1, h.2.1.trans h'.2.1, h.2.2.trans h'.2.2⟩
theorem ULe.fits {u v : UnitResults} (h : ULe u v) (hv : UFits v) : UFits u :=
  ⟨lt_of_le_of_lt h.1 hv.1, lt_of_le_of_lt h.2.1 hv.2.1, lt_of_le_of_lt h.2.2 hv.2.2⟩

/-- The counters of the first `len` hands fit into 64 bits. -/
def HFits (len : Nat) (hs : HandStats) : Prop := ∀ k < len, UFits (hs k)
def HLe (hs hs' : HandStats) : Prop := ∀ k, ULe (hs k) (hs' k)

theorem HLe.refl (hs : HandStats) : HLe hs hs := fun _ => ULe.refl _
theorem HLe.trans {a b c : HandStats} (h : HLe a b) (h' : HLe b c) : HLe a c := fun k => (h k).trans (h' k)
theorem HLe.fits {a b : HandStats} (len : Nat) (h : HLe a b) (hb : HFits len b) : HFits len a := fun k hk => (h k).fits (hb k hk)

theorem modify_le (hs : HandStats) (k : Nat) {f : UnitResults → UnitResults} (hf : ∀ u, ULe u (f u)) : HLe hs (modify hs k f) := by
  intro j
  unfold modify
  by_cases h : j = k
  · subst h; rw [Function.update_self]; exact hf _
  · rw [Function.update_of_ne h]; exact ULe.refl _

theorem modifyC_eq {len : Nat} {hs : HandStats} {k : Nat} (hk : k < len) {f : UnitResults → UnitResults} {fC : UnitResults → Option UnitResults}
    (hf : ∀ u, UFits (f u) → fC u = some (f u)) (h : HFits len (modify hs k f)) : modifyC len hs k fC = some (modify hs k f) := by
  have := h k hk
  unfold modify at this
  rw [Function.update_self] at this
  unfold modifyC
  rw [if_pos hk, hf _ this]
  rfl

theorem modify_foldC {len : Nat} {α : Type} (l : List α) (key : α → Nat) (hk : ∀ a ∈ l, key a < len) {f : UnitResults → UnitResults}
    {fC : UnitResults → Option UnitResults} (hle : ∀ u, ULe u (f u)) (hf : ∀ u, UFits (f u) → fC u = some (f u)) (hs : HandStats) :
    HLe hs (l.foldl (fun hs a => modify hs (key a) f) hs) ∧
    (HFits len (l.foldl (fun hs a => modify hs (key a) f) hs) →
      l.foldlM (fun hs a => modifyC len hs (key a) fC) hs = some (l.foldl (fun hs a => modify hs (key a) f) hs)) :=
  foldlM_good HLe.refl (fun _ _ _ => HLe.trans) (fun _ _ => HLe.fits len) l (fun s a _ => modify_le s (key a) hle)
    (fun _ a ha hg => modifyC_eq (hk a ha) hf hg) hs

theorem updateTotal_le (w : Nat) (u : UnitResults) : ULe u (u.updateTotal w) := ⟨le_rfl, le_rfl, Nat.le_add_right _ _⟩
theorem updateWins_le (w : Nat) (u : UnitResults) : ULe u (u.updateWins w) := ⟨Nat.le_add_right _ _, le_rfl, le_rfl⟩
theorem updateTies_le (w c : Nat) (u : UnitResults) : ULe u (u.updateTies w c) := ⟨le_rfl, Nat.le_add_right _ _, le_rfl⟩
theorem updateTotalC_eq (w : Nat) (u : UnitResults) (h : UFits (u.updateTotal w)) : u.updateTotalC w = some (u.updateTotal w) := by
  have h' : u.total + w < 2 ^ 64 := h.2.2
  unfold UnitResults.updateTotalC; rw [fits_some h']; rfl
theorem updateWinsC_eq (w : Nat) (u : UnitResults) (h : UFits (u.updateWins w)) : u.updateWinsC w = some (u.updateWins w) := by
  have h' : u.wins + w < 2 ^ 64 := h.1
  unfold UnitResults.updateWinsC; rw [fits_some h']; rfl
theorem updateTiesC_eq (w c : Nat) (u : UnitResults) (h : UFits (u.updateTies w c)) : u.updateTiesC w c = some (u.updateTies w c) := by
  have h' : u.ties + w < 2 ^ 64 := h.2.1
  unfold UnitResults.updateTiesC; rw [fits_some h']; rfl

/-- The counters of a thread fit into 64 bits. -/
structure SFits (n : Nat) (st : Batch × HandStats) : Prop where
  hands : HFits (NUM_HANDS * n) st.2
  masks : ∀ i < 2 ^ n, st.1.winsByMask i < 2 ^ 64
  evals : st.1.evalCount < 2 ^ 64

structure SLe (st st' : Batch × HandStats) : Prop where
  hands : HLe st.2 st'.2
  masks : ∀ i, st.1.winsByMask i ≤ st'.1.winsByMask i
  evals : st.1.evalCount ≤ st'.1.evalCount

theorem SLe.refl (st : Batch × HandStats) : SLe st st := ⟨HLe.refl _, fun _ => le_rfl, le_rfl⟩
theorem SLe.trans {a b c : Batch × HandStats} (h : SLe a b) (h' : SLe b c) : SLe a c :=
  ⟨h.hands.trans h'.hands, fun i => (h.masks i).trans (h'.masks i), h.evals.trans h'.evals⟩
theorem SLe.fits {a b : Batch × HandStats} (n : Nat) (h : SLe a b) (hb : SFits n b) : SFits n a :=
  ⟨h.hands.fits _ hb.hands, fun i hi => lt_of_le_of_lt (h.masks i) (hb.masks i hi), lt_of_le_of_lt h.evals hb.evals⟩

theorem evaluateHandsC_eq {n : Nat} (hn : 0 < n) (hands : Nat → Hand) (weight : Nat) (board : Hand) {lookup : Nat → Nat}
    (hl : ∀ i < n, lookup i < NUM_HANDS * n) (flush : Bool) (st : Batch × HandStats) :
    SLe st (evaluateHands n hands weight board lookup flush st) ∧
    (SFits n (evaluateHands n hands weight board lookup flush st) →
      evaluateHandsC n (n * NUM_HANDS) hands weight board lookup flush st = some (evaluateHands n hands weight board lookup flush st)) := by
  obtain ⟨_, _, h3, h4, h5⟩ := scanSc_eq (scoresOf hands board flush) n
  have hlt := (u8Mask_lt (scoresOf hands board flush) n).1
  have hne := topPlayers_ne_nil (scoresOf hands board flush) hn
  have htl : ∀ i ∈ topPlayers (scoresOf hands board flush) n, i < n := fun i hi => topPlayers_lt hi
  rw [← scan_eq] at h3 h4 h5
  unfold evaluateHands evaluateHandsC
  rw [Nat.mul_comm n NUM_HANDS]
  generalize scan n hands board flush = s at h3 h4 h5
  generalize topPlayers (scoresOf hands board flush) n = W at h3 h4 h5 hlt hne htl
  have hidx : ∀ j < s.counter, lookup (s.indexes j) < NUM_HANDS * n := by
    intro j hj
    rw [h4] at hj
    rw [h5 j hj]
    exact hl _ (htl _ (List.getElem_mem hj))
  have hc0 : 0 < s.counter := by rw [h4]; exact List.length_pos_iff.2 hne
  obtain ⟨a1, a2⟩ := modify_foldC (List.range n) lookup (fun i hi => hl i (List.mem_range.1 hi)) (updateTotal_le weight)
    (updateTotalC_eq weight) st.2
  generalize hhs1 : (List.range n).foldl (fun hs i => modify hs (lookup i) (·.updateTotal weight)) st.2 = hs1 at a1 a2
  simp only [Option.bind_eq_bind]
  have main : ∀ (hs2 : HandStats) (c : Option HandStats), HLe hs1 hs2 → (HFits (NUM_HANDS * n) hs2 → c = some hs2) →
      SLe st ({ st.1 with
          winsByMask := Function.update st.1.winsByMask s.winnerMask (st.1.winsByMask s.winnerMask + weight),
          evalCount := st.1.evalCount + 1 }, hs2) ∧
      (SFits n ({ st.1 with
          winsByMask := Function.update st.1.winsByMask s.winnerMask (st.1.winsByMask s.winnerMask + weight),
          evalCount := st.1.evalCount + 1 }, hs2) →
        (((List.range n).foldlM (fun hs i => modifyC (NUM_HANDS * n) hs (lookup i) (·.updateTotalC weight)) st.2).bind fun _ =>
          c.bind fun hs => (fits 64 (st.1.winsByMask s.winnerMask + weight)).bind fun wins =>
            (fits 64 (st.1.evalCount + 1)).bind fun evals =>
              some (({ st.1 with winsByMask := Function.update st.1.winsByMask s.winnerMask wins, evalCount := evals }, hs) : Batch × HandStats)) =
        some ({ st.1 with
          winsByMask := Function.update st.1.winsByMask s.winnerMask (st.1.winsByMask s.winnerMask + weight),
          evalCount := st.1.evalCount + 1 }, hs2)) := by
    intro hs2 c hle hc
    refine ⟨⟨a1.trans hle, fun i => ?_, Nat.le_succ _⟩, fun hf => ?_⟩
    · show st.1.winsByMask i ≤ Function.update st.1.winsByMask s.winnerMask _ i
      by_cases h : i = s.winnerMask
      · subst h; rw [Function.update_self]; exact Nat.le_add_right _ _
      · rw [Function.update_of_ne h]
    · have hm := hf.masks s.winnerMask (by rw [h3]; exact hlt)
      have he := hf.evals
      simp only [Function.update_self] at hm he
      rw [a2 (hle.fits _ hf.hands), hc hf.hands, fits_some hm, fits_some he]
      rfl
  by_cases hc : s.counter = 1
  · simp only [if_pos hc]
    obtain ⟨m1, m2⟩ := main (modify hs1 (lookup (s.indexes 0)) (·.updateWins weight))
      (modifyC (NUM_HANDS * n) hs1 (lookup (s.indexes 0)) (·.updateWinsC weight)) (modify_le _ _ (updateWins_le weight))
      (fun hf => modifyC_eq (hidx 0 hc0) (updateWinsC_eq weight) hf)
    refine ⟨m1, fun hf => ?_⟩
    rw [← m2 hf, a2 ((modify_le _ _ (updateWins_le weight)).fits _ hf.hands)]
    rfl
  · simp only [if_neg hc]
    obtain ⟨b1, b2⟩ := modify_foldC (len := NUM_HANDS * n) (List.range s.counter) (fun j => lookup (s.indexes j))
      (fun j hj => hidx j (List.mem_range.1 hj)) (updateTies_le weight s.counter) (updateTiesC_eq weight s.counter) hs1
    obtain ⟨m1, m2⟩ := main _ _ b1 b2
    refine ⟨m1, fun hf => ?_⟩
    rw [← m2 hf, a2 (b1.fits _ hf.hands)]
    rfl

/-! ## Adding a batch to the results -/

theorem addAssign_foldl (hb : HandStats) (hr : Nat → UnitResults) : ∀ N,
    (List.range N).foldl (fun (hr : Nat → UnitResults) k => Function.update hr k ((hr k).addAssign (hb k))) hr =
      fun k => if k < N then (hr k).addAssign (hb k) else hr k := by
  intro N
  induction N with
  | zero => rfl
  | succ N ih =>
    rw [List.range_succ, List.foldl_append, ih]
    funext k
    rw [List.foldl_cons, List.foldl_nil]
    by_cases h : k = N
    · subst h; simp
    · have : k < N ↔ k < N + 1 := by omega
      simp [h, this]

theorem addAssign_le (u o : UnitResults) : ULe u (u.addAssign o) := ⟨Nat.le_add_right _ _, Nat.le_add_right _ _, Nat.le_add_right _ _⟩

theorem addAssignC_eq {u o : UnitResults} (h : UFits (u.addAssign o)) : u.addAssignC o = some (u.addAssign o) := by
  have h1 : u.wins + o.wins < 2 ^ 64 := h.1
  have h2 : u.ties + o.ties < 2 ^ 64 := h.2.1
  have h3 : u.total + o.total < 2 ^ 64 := h.2.2
  unfold UnitResults.addAssignC
  rw [fits_some h1, fits_some h2, fits_some h3]
  rfl

/-- The counters changed by `update_results`. -/
structure MFits (n : Nat) (m : Merge) : Prop where
  wins : ∀ p < n, m.wins p < 2 ^ 64
  masks : ∀ i < 2 ^ n, m.winsByMask i < 2 ^ 64
  hands : m.batchHands < 2 ^ 64

structure MLe (m m' : Merge) : Prop where
  wins : ∀ p, m.wins p ≤ m'.wins p
  masks : ∀ i, m.winsByMask i ≤ m'.winsByMask i
  hands : m.batchHands ≤ m'.batchHands

theorem MLe.refl (m : Merge) : MLe m m := ⟨fun _ => le_rfl, fun _ => le_rfl, le_rfl⟩
theorem MLe.trans {a b c : Merge} (h : MLe a b) (h' : MLe b c) : MLe a c :=
  ⟨fun i => (h.wins i).trans (h'.wins i), fun i => (h.masks i).trans (h'.masks i), h.hands.trans h'.hands⟩
theorem MLe.fits {a b : Merge} (n : Nat) (h : MLe a b) (hb : MFits n b) : MFits n a :=
  ⟨fun i hi => lt_of_le_of_lt (h.wins i) (hb.wins i hi), fun i hi => lt_of_le_of_lt (h.masks i) (hb.masks i hi),
    lt_of_le_of_lt h.hands hb.hands⟩

theorem mergePlayersC_eq {n : Nat} {b : Batch} (hb : IdPlayers n b) (i : Nat) (m : Merge) :
    MLe m (mergePlayers n b i m).1 ∧ (MFits n (mergePlayers n b i m).1 → mergePlayersC n b i m = some (mergePlayers n b i m)) := by
  unfold mergePlayers mergePlayersC
  simp only
  have hup : ∀ (f : Nat → Nat) (p x q : Nat), f q ≤ Function.update f p (f p + x) q := by
    intro f p x q
    by_cases h : q = p
    · subst h; rw [Function.update_self]; exact Nat.le_add_right _ _
    · rw [Function.update_of_ne h]
  have := foldlM_good (σ := Merge × Nat) (le := fun x y => MLe x.1 y.1) (Good := fun x => MFits n x.1) (fun x => MLe.refl _)
    (fun _ _ _ => MLe.trans) (fun _ _ => MLe.fits n)
    (f := fun (x : Merge × Nat) j =>
      if i &&& (1 <<< j) ≠ 0 then
        (if countOnes i = 1 then
          { x.1 with
            wins := Function.update x.1.wins (b.playerIds j) (x.1.wins (b.playerIds j) + b.winsByMask i),
            batchEquity := if b.playerIds j = 0 then x.1.batchEquity + (b.winsByMask i : ℚ) else x.1.batchEquity }
        else
          { x.1 with
            ties := Function.update x.1.ties (b.playerIds j) (x.1.ties (b.playerIds j) + ((b.winsByMask i / countOnes i : Nat) : ℚ)),
            batchEquity := if b.playerIds j = 0 then x.1.batchEquity + ((b.winsByMask i / countOnes i : Nat) : ℚ) else x.1.batchEquity },
         x.2 ||| (1 <<< b.playerIds j))
      else x)
    (fC := fun (x : Merge × Nat) j =>
      if i &&& (1 <<< j) ≠ 0 then do
        let p := b.playerIds j
        let m ←
          if countOnes i = 1 then
            (fits 64 (x.1.wins p + b.winsByMask i)).map fun wins =>
              { x.1 with
                wins := Function.update x.1.wins p wins,
                batchEquity := if p = 0 then x.1.batchEquity + (b.winsByMask i : ℚ) else x.1.batchEquity }
          else
            some { x.1 with
              ties := Function.update x.1.ties p (x.1.ties p + ((b.winsByMask i / countOnes i : Nat) : ℚ)),
              batchEquity :=
                if p = 0 then x.1.batchEquity + ((b.winsByMask i / countOnes i : Nat) : ℚ) else x.1.batchEquity }
        some (m, x.2 ||| (1 <<< p))
      else some x)
    (List.range n) ?_ ?_ (m, 0)
  · exact this
  · intro x j hj
    simp only
    split
    · split
      · exact ⟨hup _ _ _, fun _ => le_rfl, le_rfl⟩
      · exact ⟨fun _ => le_rfl, fun _ => le_rfl, le_rfl⟩
    · exact MLe.refl _
  · intro x j hj hg
    have hid := hb j (List.mem_range.1 hj)
    simp only at hg ⊢
    by_cases h1 : i &&& (1 <<< j) ≠ 0
    · rw [if_pos h1] at hg ⊢
      rw [if_pos h1]
      by_cases h2 : countOnes i = 1
      · rw [if_pos h2] at hg ⊢
        rw [if_pos h2]
        have := hg.wins (b.playerIds j) (by rw [hid]; exact List.mem_range.1 hj)
        simp only [Function.update_self] at this
        rw [fits_some this]
        rfl
      · rw [if_neg h2]
        rw [if_neg h2]
        rfl
    · rw [if_neg h1, if_neg h1]

theorem mergeMasksC_eq {n : Nat} {b : Batch} (hb : IdPlayers n b) (m : Merge) (h : MFits n (mergeMasks n b m)) :
    mergeMasksC n b m = some (mergeMasks n b m) := by
  unfold mergeMasks mergeMasksC at *
  refine (foldlM_good (σ := Merge) (le := MLe) (Good := MFits n) MLe.refl (fun _ _ _ => MLe.trans) (fun _ _ => MLe.fits n)
    (List.range (1 <<< n)) ?_ ?_ m).2 h
  · intro m i hi
    have hi : i < 2 ^ n := by rw [← Nat.one_shiftLeft]; exact List.mem_range.1 hi
    obtain ⟨h1, _⟩ := mergePlayersC_eq hb i { m with batchHands := m.batchHands + b.winsByMask i }
    simp only
    generalize mergePlayers n b i { m with batchHands := m.batchHands + b.winsByMask i } = x at h1
    refine ⟨h1.wins, fun j => (h1.masks j).trans ?_, le_trans (Nat.le_add_right _ _) h1.hands⟩
    show x.1.winsByMask j ≤ Function.update x.1.winsByMask x.2 _ j
    by_cases h : j = x.2
    · subst h; rw [Function.update_self]; exact Nat.le_add_right _ _
    · rw [Function.update_of_ne h]
  · intro m i hi hg
    have hi : i < 2 ^ n := by rw [← Nat.one_shiftLeft]; exact List.mem_range.1 hi
    obtain ⟨h1, h2⟩ := mergePlayersC_eq hb i { m with batchHands := m.batchHands + b.winsByMask i }
    have h3 := (mergePlayers_eq n b hb i { m with batchHands := m.batchHands + b.winsByMask i } n le_rfl).1
    rw [Nat.mod_eq_of_lt hi] at h3
    simp only at hg
    have hh : m.batchHands + b.winsByMask i < 2 ^ 64 := lt_of_le_of_lt h1.hands hg.hands
    rw [fits_some hh]
    simp only [Option.bind_eq_bind, Option.bind_some]
    generalize mergePlayers n b i { m with batchHands := m.batchHands + b.winsByMask i } = x at h1 h2 h3 hg
    have hmask := hg.masks x.2 (by rw [h3]; exact hi)
    simp only [Function.update_self] at hmask
    rw [h2 ⟨hg.wins, fun j hj => ?_, hg.hands⟩]
    · simp only [Option.bind_some]
      rw [fits_some hmask]
      rfl
    · refine lt_of_le_of_lt ?_ (hg.masks j hj)
      show x.1.winsByMask j ≤ Function.update x.1.winsByMask x.2 _ j
      by_cases h : j = x.2
      · subst h; rw [Function.update_self]; exact Nat.le_add_right _ _
      · rw [Function.update_of_ne h]

/-- `update_results` does not panic if its result fits into 64 bits and the batch holds less than `2^64` hands. -/
theorem updateResultsC_eq {sqrt : ℚ → ℚ} {n : Nat} {ex : Bool} {b : Batch} (hid : IdPlayers n b) {hb : HandStats} {r : Results}
    (hcells : ∀ k < NUM_HANDS * n, UFits ((r.handResults k).addAssign (hb k)))
    (hmasks : ∀ i < 2 ^ n, r.winsByMask i + b.winsByMask i < 2 ^ 64)
    (hwins : ∀ p < n, r.wins p + ∑ i ∈ range (2 ^ n), maskWins b p i < 2 ^ 64)
    (hhands : ∑ i ∈ range (2 ^ n), b.winsByMask i < 2 ^ 64) (hevals : r.evalCount + b.evalCount < 2 ^ 64) :
    updateResultsC sqrt n ex b hb r = some (updateResults sqrt n ex b hb r) := by
  have e1 : (List.range (NUM_HANDS * n)).foldlM (fun (hr : Nat → UnitResults) k =>
      ((hr k).addAssignC (hb k)).map (Function.update hr k)) r.handResults =
      some (fun k => if k < NUM_HANDS * n then (r.handResults k).addAssign (hb k) else r.handResults k) := by
    rw [← addAssign_foldl]
    refine (foldlM_good (le := HLe) (Good := HFits (NUM_HANDS * n)) HLe.refl (fun _ _ _ => HLe.trans) (fun _ _ => HLe.fits _)
      (List.range (NUM_HANDS * n)) ?_ ?_ r.handResults).2 ?_
    · intro s k _
      exact modify_le s k (f := fun u => u.addAssign (hb k)) (fun u => addAssign_le u _)
    · intro s k hk hg
      have := hg k (List.mem_range.1 hk)
      rw [Function.update_self] at this
      rw [addAssignC_eq this]
      rfl
    · rw [addAssign_foldl]
      intro k hk
      simp only [if_pos hk]
      exact hcells k hk
  have e2 : mergeMasksC n b ⟨r.wins, r.ties, r.winsByMask, 0, 0⟩ = some (mergeMasks n b ⟨r.wins, r.ties, r.winsByMask, 0, 0⟩) := by
    obtain ⟨h1, h2, _, _, _, h6, _⟩ := mergeMasks_eq n b hid ⟨r.wins, r.ties, r.winsByMask, 0, 0⟩
    refine mergeMasksC_eq hid _ ⟨fun p hp => ?_, fun i hi => ?_, ?_⟩
    · rw [h2 p hp]; exact hwins p hp
    · rw [h1]; simp only [if_pos hi]; exact hmasks i hi
    · rw [h6]; simpa using hhands
  unfold updateResultsC updateResults
  rw [e1, e2, fits_some hevals]
  simp only [Option.bind_eq_bind, Option.bind_some]
  cases ex <;> rfl

end Pokers

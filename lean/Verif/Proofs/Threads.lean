import Mathlib.Algebra.BigOperators.Group.Multiset.Basic
import Mathlib.Algebra.BigOperators.Group.Finset.Basic
import Mathlib.Data.Multiset.Range
import Mathlib.Tactic.Abel
import Verif.Proofs.Merge
import Verif.Model.Simulator
/-!
# The threads share the work without loss or duplication
-/
namespace Pokers
open Finset (range)

/-- All counters: winner masks, hand cells and the number of evaluations. -/
abbrev FT := Tally × Nat

/-- The counters of a thread. -/
def full (st : Batch × HandStats) : FT := (tallyOf st, st.1.evalCount)

/-- The counters of the results. -/
def resFull (r : Results) : FT := ((r.winsByMask, fun k => cellOf (r.handResults k)), r.evalCount)

/-- The first `N` entries. -/
def cut {M : Type} [Zero M] (N : Nat) (f : Nat → M) (i : Nat) : M := if i < N then f i else 0

theorem cut_add {M : Type} [AddZeroClass M] (N : Nat) (f g : Nat → M) : cut N (f + g) = cut N f + cut N g := by
  funext i
  rw [Pi.add_apply]
  unfold cut
  split
  · rfl
  · rw [add_zero]

theorem cut_zero {M : Type} [Zero M] (N : Nat) : cut N (0 : Nat → M) = 0 := by
  funext i
  unfold cut
  split <;> rfl

theorem cut_eq {M : Type} [Zero M] {N : Nat} {f g : Nat → M} (h : ∀ i < N, f i = g i) : cut N f = cut N g := by
  funext i
  unfold cut
  split
  · exact h i (by assumption)
  · rfl

theorem cut_apply {M : Type} [Zero M] {N : Nat} (f : Nat → M) {i : Nat} (h : i < N) : cut N f i = f i := if_pos h

/-- The entries of the vectors that exist with `n` players. -/
def trunc (n : Nat) : FT →+ FT where
  toFun x := ((cut (2 ^ n) x.1.1, cut (NUM_HANDS * n) x.1.2), x.2)
  map_zero' := Prod.ext (Prod.ext (cut_zero _) (cut_zero _)) rfl
  map_add' _ _ := Prod.ext (Prod.ext (cut_add _ _ _) (cut_add _ _ _)) rfl

theorem cellOf_addAssign (u o : UnitResults) : cellOf (u.addAssign o) = cellOf u + cellOf o := rfl

theorem resFull_update (sqrt : ℚ → ℚ) (n : Nat) (ex : Bool) (x : Batch × HandStats) (r : Results) (hid : IdPlayers n x.1) :
    trunc n (resFull (updateResults sqrt n ex x.1 x.2 r)) = trunc n (resFull r) + trunc n (full x) := by
  have h := updateResults_merged sqrt n ex x.1 x.2 r hid
  refine Prod.ext (Prod.ext ?_ ?_) h.evals
  · refine Eq.trans ?_ (cut_add _ _ _)
    exact cut_eq h.masks
  · refine Eq.trans ?_ (cut_add _ _ _)
    apply cut_eq
    intro k hk
    show cellOf _ = cellOf _ + cellOf _
    rw [h.cells k hk, cellOf_addAssign]

/-- The results after a series of flushes. -/
def applyFlushes (sqrt : ℚ → ℚ) (n : Nat) (ex : Bool) (hist : List (Batch × HandStats)) (r : Results) : Results :=
  hist.foldl (fun r x => updateResults sqrt n ex x.1 x.2 r) r

theorem applyFlushes_snoc (sqrt : ℚ → ℚ) (n : Nat) (ex : Bool) (hist : List (Batch × HandStats)) (x : Batch × HandStats) (r : Results) :
    applyFlushes sqrt n ex (hist ++ [x]) r = updateResults sqrt n ex x.1 x.2 (applyFlushes sqrt n ex hist r) := by
  unfold applyFlushes; rw [List.foldl_append]; rfl

theorem applyFlushes_full (sqrt : ℚ → ℚ) (n : Nat) (ex : Bool) (hist : List (Batch × HandStats)) (r : Results)
    (h : ∀ x ∈ hist, IdPlayers n x.1) :
    trunc n (resFull (applyFlushes sqrt n ex hist r)) = trunc n (resFull r) + (hist.map fun x => trunc n (full x)).sum := by
  induction hist generalizing r with
  | nil => simp [applyFlushes]
  | cons x xs ih =>
    show trunc n (resFull (applyFlushes sqrt n ex xs (updateResults sqrt n ex x.1 x.2 r))) = _
    rw [ih _ (fun y hy => h y (by simp [hy])), resFull_update _ _ _ _ _ (h x (by simp)), List.map_cons, List.sum_cons, add_assoc]

/-! ## Segments of positions -/

/-- The positions `a, …, b-1`. -/
def seg (a b : Nat) : Multiset Nat := ((List.range' a (b - a) : List Nat) : Multiset Nat)

theorem seg_empty {a b : Nat} (h : b ≤ a) : seg a b = 0 := by
  unfold seg; rw [Nat.sub_eq_zero_of_le h]; rfl

theorem seg_cons {a b : Nat} (h : a < b) : seg a b = {a} + seg (a + 1) b := by
  unfold seg
  rw [show b - a = (b - (a + 1)) + 1 by omega, List.range'_succ]
  rfl

theorem range_seg {a b : Nat} (h : a ≤ b) : Multiset.range b = Multiset.range a + seg a b := by
  unfold seg
  rw [← Multiset.coe_range, ← Multiset.coe_range, Multiset.coe_add, List.range_eq_range', List.range_eq_range']
  congr 1
  have := List.range'_append_1 (s := 0) (m := a) (n := b - a)
  rw [Nat.zero_add, Nat.add_sub_cancel' h] at this
  exact this.symm

/-- The positions a thread has reserved and not yet processed. -/
def pend (l : Local) : Multiset Nat :=
  match l.pc with
  | .work => seg l.pos l.stop
  | .flush | .check => seg (l.pos + 1) l.stop
  | _ => 0

theorem pend_advance (l : Local) : pend l.advance = seg (l.pos + 1) l.stop := by
  unfold Local.advance
  by_cases h : l.pos + 1 ≥ l.stop
  · simp only [h, if_true, pend]; rw [seg_empty h]
  · simp only [h, if_false, pend]

/-! ## The invariant -/

/-- Processing a position adds `c pos` to the counters. -/
def Processes (s : Sim) (ds : List DividerU64) (total : Nat) (c : Nat → FT) : Prop :=
  ∀ pos < total, ∀ st : Batch × HandStats, IdPlayers s.nPlayers st.1 → ∃ st', s.processPos ds pos st = some st' ∧
    trunc s.nPlayers (full st') = trunc s.nPlayers (full st) + c pos ∧ st'.1.playerIds = st.1.playerIds

/-- Sum of the contributions of a collection of positions. -/
def sumOf (c : Nat → FT) (D : Multiset Nat) : FT := (D.map c).sum

theorem sumOf_add (c : Nat → FT) (D E : Multiset Nat) : sumOf c (D + E) = sumOf c D + sumOf c E := by
  unfold sumOf; rw [Multiset.map_add, Multiset.sum_add]

theorem sumOf_zero (c : Nat → FT) : sumOf c 0 = 0 := rfl

theorem sumOf_singleton (c : Nat → FT) (p : Nat) : sumOf c {p} = c p := by simp [sumOf]

/-- The state of the system, with the ghost variables `hist` (the flushes so far), `Dr` (the positions whose counts are in the
results), `Dl t` (those in the counters of thread `t`) and `A` (the positions given up after cancellation). -/
structure Inv (s : Sim) (total : Nat) (c : Nat → FT) (r0 : Results) (nT : Nat) (w : World) (hist : List (Batch × HandStats))
    (Dr A : Multiset Nat) (Dl : Nat → Multiset Nat) : Prop where
  part : Dr + ∑ t ∈ range nT, (Dl t + pend (w.locals t)) + A = Multiset.range w.shared.enumPos
  res : w.shared.results = applyFlushes id s.nPlayers s.calcExact hist r0
  sent : w.shared.sent.length = hist.length
  hids : ∀ x ∈ hist, IdPlayers s.nPlayers x.1
  hbatch : ∀ x ∈ hist, ∃ D ≤ Dr, trunc s.nPlayers (full x) = sumOf c D
  hsum : (hist.map fun x => trunc s.nPlayers (full x)).sum = sumOf c Dr
  loc : ∀ t < nT, (w.locals t).pc ≠ .done → trunc s.nPlayers (full ((w.locals t).stats, (w.locals t).hands)) = sumOf c (Dl t)
  done : ∀ t < nT, (w.locals t).pc = .done → Dl t = 0
  ids : ∀ t < nT, IdPlayers s.nPlayers (w.locals t).stats
  le : w.shared.enumPos ≤ total
  stop : A ≠ 0 → w.shared.stopped = true
  inside : ∀ t < nT, (w.locals t).pc = .work ∨ (w.locals t).pc = .flush ∨ (w.locals t).pc = .check →
    (w.locals t).pos < (w.locals t).stop ∧ (w.locals t).stop ≤ total
  fin : ∀ t < nT, (w.locals t).pc = .final ∨ (w.locals t).pc = .done → w.shared.enumPos = total ∨ w.shared.stopped = true

theorem full_init (n : Nat) : full (Batch.init n, HandStats.init) = 0 := rfl

theorem Inv.init (s : Sim) (total : Nat) (c : Nat → FT) (r0 : Results) (nT : Nat) (cancelled : Bool) :
    Inv s total c r0 nT (World.init s r0 cancelled) [] 0 0 (fun _ => 0) where
  part := by
    have : ∀ t, (0 : Multiset Nat) + pend ((World.init s r0 cancelled).locals t) = 0 := fun t => rfl
    simp only [this, Finset.sum_const_zero, add_zero]; rfl
  res := rfl
  sent := rfl
  hids := by simp
  hbatch := by simp
  hsum := rfl
  loc := fun t _ _ => by
    show trunc s.nPlayers (full (Batch.init s.nPlayers, HandStats.init)) = 0
    rw [full_init, map_zero]
  done := fun t _ _ => rfl
  ids := fun t _ => batchInit_ids s.nPlayers
  le := Nat.zero_le _
  stop := fun h => absurd rfl h
  inside := fun t _ h => by
    have : ((World.init s r0 cancelled).locals t).pc = .reserve := rfl
    rw [this] at h
    rcases h with h | h | h <;> cases h
  fin := fun t _ h => by
    have : ((World.init s r0 cancelled).locals t).pc = .reserve := rfl
    rw [this] at h
    rcases h with h | h <;> cases h

variable {s : Sim} {ds : List DividerU64} {total size nT : Nat} {c : Nat → FT} {r0 : Results}

/-- What a step of thread `t` has to establish. -/
theorem Inv.thread {w : World} {hist : List (Batch × HandStats)} {Dr A : Multiset Nat} {Dl : Nat → Multiset Nat}
    (h : Inv s total c r0 nT w hist Dr A Dl) {t : Nat} (ht : t < nT) {l' : Local} {g' : Shared} {hist' : List (Batch × HandStats)}
    {Dr' A' D' : Multiset Nat} (rest : Multiset Nat)
    (hpart : Dr + (Dl t + pend (w.locals t) + rest) + A = Multiset.range w.shared.enumPos →
      Dr' + (D' + pend l' + rest) + A' = Multiset.range g'.enumPos)
    (hrest : rest = ∑ u ∈ (range nT).erase t, (Dl u + pend (w.locals u)))
    (hres : g'.results = applyFlushes id s.nPlayers s.calcExact hist' r0) (hsent : g'.sent.length = hist'.length)
    (hids' : ∀ x ∈ hist', IdPlayers s.nPlayers x.1)
    (hbatch : ∀ x ∈ hist', ∃ D ≤ Dr', trunc s.nPlayers (full x) = sumOf c D)
    (hsum : (hist'.map fun x => trunc s.nPlayers (full x)).sum = sumOf c Dr')
    (hloc : l'.pc ≠ .done → trunc s.nPlayers (full (l'.stats, l'.hands)) = sumOf c D') (hdone : l'.pc = .done → D' = 0)
    (hids : IdPlayers s.nPlayers l'.stats) (hle : g'.enumPos ≤ total) (hstop : A' ≠ 0 → g'.stopped = true)
    (hinside : l'.pc = .work ∨ l'.pc = .flush ∨ l'.pc = .check → l'.pos < l'.stop ∧ l'.stop ≤ total)
    (hfin : l'.pc = .final ∨ l'.pc = .done → g'.enumPos = total ∨ g'.stopped = true)
    (hmono : w.shared.enumPos = total ∨ w.shared.stopped = true → g'.enumPos = total ∨ g'.stopped = true) :
    Inv s total c r0 nT { locals := Function.update w.locals t l', shared := g' } hist' Dr' A' (Function.update Dl t D') where
  part := by
    have e : ∀ (L : Nat → Local) (D : Nat → Multiset Nat), ∑ u ∈ range nT, (D u + pend (L u)) =
        (D t + pend (L t)) + ∑ u ∈ (range nT).erase t, (D u + pend (L u)) := fun L D =>
      (Finset.add_sum_erase _ (fun u => D u + pend (L u)) (Finset.mem_range.2 ht)).symm
    have h0 := h.part
    rw [e, ← hrest] at h0
    rw [e]
    simp only [Function.update_self]
    have : ∑ u ∈ (range nT).erase t, (Function.update Dl t D' u + pend (Function.update w.locals t l' u)) = rest := by
      rw [hrest]
      apply Finset.sum_congr rfl
      intro u hu
      have : u ≠ t := (Finset.mem_erase.1 hu).1
      rw [Function.update_of_ne this, Function.update_of_ne this]
    rw [this]
    exact hpart h0
  res := hres
  sent := hsent
  hids := hids'
  hbatch := hbatch
  hsum := hsum
  loc := fun u hu => by
    show (Function.update w.locals t l' u).pc ≠ .done → _
    by_cases hut : u = t
    · subst hut; simp only [Function.update_self]; exact hloc
    · simp only [Function.update_of_ne hut]; exact h.loc u hu
  done := fun u hu => by
    show (Function.update w.locals t l' u).pc = .done → _
    by_cases hut : u = t
    · subst hut; simp only [Function.update_self]; exact hdone
    · simp only [Function.update_of_ne hut]; exact h.done u hu
  ids := fun u hu => by
    show IdPlayers _ (Function.update w.locals t l' u).stats
    by_cases hut : u = t
    · subst hut; rw [Function.update_self]; exact hids
    · rw [Function.update_of_ne hut]; exact h.ids u hu
  le := hle
  stop := hstop
  inside := fun u hu => by
    show (Function.update w.locals t l' u).pc = .work ∨ (Function.update w.locals t l' u).pc = .flush ∨ _ → _
    by_cases hut : u = t
    · subst hut; simp only [Function.update_self]; exact hinside
    · simp only [Function.update_of_ne hut]; exact h.inside u hu
  fin := fun u hu => by
    show (Function.update w.locals t l' u).pc = .final ∨ (Function.update w.locals t l' u).pc = .done → _
    by_cases hut : u = t
    · subst hut; simp only [Function.update_self]; exact hfin
    · simp only [Function.update_of_ne hut]; exact fun hx => hmono (h.fin u hu hx)

theorem advance_pc (l : Local) : l.advance.pc = .reserve ∨ l.advance.pc = .work := by
  unfold Local.advance
  by_cases h : l.pos + 1 ≥ l.stop
  · left; simp only [h, if_true]
  · right; simp only [h, if_false]

theorem advance_inside {l : Local} {total : Nat} (h : l.stop ≤ total) :
    l.advance.pc = .work ∨ l.advance.pc = .flush ∨ l.advance.pc = .check → l.advance.pos < l.advance.stop ∧ l.advance.stop ≤ total := by
  intro hpc
  refine ⟨?_, h⟩
  unfold Local.advance at hpc ⊢
  by_cases hh : l.pos + 1 ≥ l.stop
  · simp only [hh, if_true] at hpc; rcases hpc with hpc | hpc | hpc <;> cases hpc
  · show l.pos + 1 < l.stop; omega

theorem Inv.step (hp : Processes s ds total c) (hsize : 0 < size) {w w' : World} {hist : List (Batch × HandStats)}
    {Dr A : Multiset Nat} {Dl : Nat → Multiset Nat} (h : Inv s total c r0 nT w hist Dr A Dl)
    (hs : Step s ds total size nT w w') : ∃ hist' Dr' A' Dl', Inv s total c r0 nT w' hist' Dr' A' Dl' := by
  cases hs with
  | cancel =>
    exact ⟨hist, Dr, A, Dl, ⟨h.part, h.res, h.sent, h.hids, h.hbatch, h.hsum, h.loc, h.done, h.ids, h.le, fun _ => rfl, h.inside,
      fun _ _ _ => Or.inr rfl⟩⟩
  | thread t ht hpc =>
    have hloc := h.loc t ht
    have hin := h.inside t ht
    have hid := h.ids t ht
    have hfin := h.fin t ht
    generalize hl : w.locals t = l at hpc hloc hin hid hfin ⊢
    have hpend : pend (w.locals t) = pend l := by rw [hl]
    cases hc : l.pc with
    | done => exact absurd hc hpc.1
    | panicked => exact absurd hc hpc.2
    | reserve =>
      have hp0 : pend l = 0 := by unfold pend; rw [hc]
      unfold threadStep
      rw [hc]
      simp only
      cases hf : fits 64 (w.shared.enumPos + size) with
      | none =>
        simp only
        refine ⟨hist, Dr, A, _, h.thread ht (D' := Dl t) _ (fun h0 => ?_) rfl h.res h.sent h.hids h.hbatch h.hsum
          (fun _ => hloc (by rw [hc]; decide)) (fun hx => by cases hx) hid h.le h.stop (fun hx => by rcases hx with hx | hx | hx <;> cases hx)
          (fun hx => by rcases hx with hx | hx <;> cases hx) (fun hx => hx)⟩
        rw [hpend, hp0] at h0
        exact h0
      | some e =>
        simp only
        have he : e = w.shared.enumPos + size := by
          unfold fits at hf
          split at hf
          · exact (Option.some.inj hf).symm
          · cases hf
        have hle := h.le
        have hse : w.shared.enumPos ≤ min total e := by omega
        refine ⟨hist, Dr, A, _, h.thread ht (D' := Dl t) _ (fun h0 => ?_) rfl h.res h.sent h.hids h.hbatch h.hsum
          (fun _ => hloc (by rw [hc]; decide)) (fun hx => ?_) hid (by show min total e ≤ total; omega) h.stop ?_ ?_ ?_⟩
        · rw [hpend, hp0] at h0
          show _ = Multiset.range (min total e)
          rw [range_seg hse, ← h0]
          have : pend { l with pos := w.shared.enumPos, stop := min total e, pc := if w.shared.enumPos ≥ min total e then .final else .work } =
              seg w.shared.enumPos (min total e) := by
            by_cases hx : w.shared.enumPos ≥ min total e
            · simp only [hx, if_true, pend]; rw [seg_empty hx]
            · simp only [hx, if_false, pend]
          rw [this]
          abel
        · exfalso
          by_cases hx' : w.shared.enumPos ≥ min total e
          · simp only [hx', if_true] at hx; cases hx
          · simp only [hx', if_false] at hx; cases hx
        · intro hx
          by_cases hx' : w.shared.enumPos ≥ min total e
          · simp only [hx', if_true] at hx; rcases hx with hx | hx | hx <;> cases hx
          · exact ⟨by show w.shared.enumPos < min total e; omega, by show min total e ≤ total; omega⟩
        · intro hx
          left
          show min total e = total
          by_cases hx' : w.shared.enumPos ≥ min total e
          · omega
          · simp only [hx', if_false] at hx; rcases hx with hx | hx <;> cases hx
        · rintro (hx | hx)
          · left; show min total e = total; omega
          · right; exact hx
    | work =>
      obtain ⟨hlt, hst⟩ := hin (Or.inl hc)
      have hp0 : pend l = seg l.pos l.stop := by unfold pend; rw [hc]
      obtain ⟨st', h1, h2, h3⟩ := hp l.pos (by omega) (l.stats, l.hands) hid
      have hsumD : trunc s.nPlayers (full st') = sumOf c (Dl t + {l.pos}) := by
        rw [h2, hloc (by rw [hc]; decide), sumOf_add, sumOf_singleton]
      have hid' : IdPlayers s.nPlayers st'.1 := fun j hj => by rw [h3]; exact hid j hj
      unfold threadStep
      rw [hc]
      simp only [h1]
      by_cases he : st'.1.evalCount ≥ 10000
      · simp only [he, if_true]
        refine ⟨hist, Dr, A, _, h.thread ht (D' := Dl t + ({l.pos} : Multiset Nat)) _ (fun h0 => ?_) rfl h.res h.sent h.hids h.hbatch h.hsum
          (fun _ => hsumD) (fun hx => by cases hx) hid' h.le h.stop (fun _ => ⟨hlt, hst⟩)
          (fun hx => by rcases hx with hx | hx <;> cases hx) (fun hx => hx)⟩
        rw [hpend, hp0, seg_cons hlt] at h0
        rw [← h0]
        have : pend { pc := .flush, pos := l.pos, stop := l.stop, stats := st'.1, hands := st'.2 } = seg (l.pos + 1) l.stop := rfl
        rw [this]
        abel
      · simp only [he, if_false]
        have hadv := pend_advance { pc := .work, pos := l.pos, stop := l.stop, stats := st'.1, hands := st'.2 }
        have hapc := advance_pc { pc := .work, pos := l.pos, stop := l.stop, stats := st'.1, hands := st'.2 }
        have hain := advance_inside (l := { pc := .work, pos := l.pos, stop := l.stop, stats := st'.1, hands := st'.2 }) hst
        refine ⟨hist, Dr, A, _, h.thread ht (D' := Dl t + ({l.pos} : Multiset Nat)) _ (fun h0 => ?_) rfl h.res h.sent h.hids h.hbatch h.hsum
          (fun _ => (hsumD :)) (fun hx => by rw [hx] at hapc; rcases hapc with hy | hy <;> cases hy) hid' h.le h.stop hain
          (fun hx => by rcases hx with hx | hx <;> (rw [hx] at hapc; rcases hapc with hy | hy <;> cases hy)) (fun hx => hx)⟩
        rw [hpend, hp0, seg_cons hlt] at h0
        rw [← h0, hadv]
        abel
    | flush =>
      have hin' := hin (Or.inr (Or.inl hc))
      have hp0 : pend l = seg (l.pos + 1) l.stop := by unfold pend; rw [hc]
      unfold threadStep
      rw [hc]
      simp only
      refine ⟨hist ++ [(l.stats, l.hands)], Dr + Dl t, A, _, h.thread ht (D' := 0) _ (fun h0 => ?_) rfl ?_ ?_ ?_ ?_ ?_
        (fun _ => ?_) (fun hx => by cases hx) (batchInit_ids _) h.le h.stop (fun _ => hin')
        (fun hx => by rcases hx with hx | hx <;> cases hx) (fun hx => hx)⟩
      · rw [hpend, hp0] at h0
        show _ = Multiset.range w.shared.enumPos
        rw [← h0]
        have : pend { pc := .check, pos := l.pos, stop := l.stop, stats := Batch.init s.nPlayers, hands := HandStats.init } =
          seg (l.pos + 1) l.stop := rfl
        rw [this]
        abel
      · rw [applyFlushes_snoc, ← h.res]; rfl
      · show (w.shared.sent ++ [_]).length = _
        rw [List.length_append, List.length_append, h.sent]; rfl
      · intro x hx
        rcases List.mem_append.1 hx with hx | hx
        · exact h.hids x hx
        · rw [List.mem_singleton] at hx; subst hx; exact hid
      · intro x hx
        rcases List.mem_append.1 hx with hx | hx
        · obtain ⟨D, h1, h2⟩ := h.hbatch x hx
          exact ⟨D, h1.trans (Multiset.le_add_right _ _), h2⟩
        · rw [List.mem_singleton] at hx; subst hx
          exact ⟨Dl t, Multiset.le_add_left _ _, hloc (by rw [hc]; decide)⟩
      · rw [List.map_append, List.sum_append, h.hsum, sumOf_add, ← hloc (by rw [hc]; decide)]
        simp
      · show trunc s.nPlayers (full (Batch.init s.nPlayers, HandStats.init)) = 0
        rw [full_init, map_zero]
    | check =>
      have hin' := hin (Or.inr (Or.inr hc))
      have hp0 : pend l = seg (l.pos + 1) l.stop := by unfold pend; rw [hc]
      unfold threadStep
      rw [hc]
      simp only
      cases hst : w.shared.stopped with
      | true =>
        simp only [if_true]
        refine ⟨hist, Dr, A + seg (l.pos + 1) l.stop, _, h.thread ht (D' := Dl t) _ (fun h0 => ?_) rfl h.res h.sent h.hids h.hbatch h.hsum
          (fun _ => hloc (by rw [hc]; decide)) (fun hx => by cases hx) hid h.le (fun _ => hst)
          (fun hx => by rcases hx with hx | hx | hx <;> cases hx) (fun _ => Or.inr hst) (fun hx => hx)⟩
        rw [hpend, hp0] at h0
        rw [← h0]
        have : pend { l with pc := .final } = 0 := rfl
        rw [this]
        abel
      | false =>
        simp only [Bool.false_eq_true, if_false]
        have hapc := advance_pc l
        refine ⟨hist, Dr, A, _, h.thread ht (D' := Dl t) _ (fun h0 => ?_) rfl h.res h.sent h.hids h.hbatch h.hsum
          (fun _ => hloc (by rw [hc]; decide)) (fun hx => by rw [hx] at hapc; rcases hapc with hy | hy <;> cases hy) hid h.le
          h.stop (advance_inside hin'.2)
          (fun hx => by rcases hx with hx | hx <;> (rw [hx] at hapc; rcases hapc with hy | hy <;> cases hy)) (fun hx => hx)⟩
        rw [hpend, hp0] at h0
        rw [pend_advance]
        exact h0
    | final =>
      have hp0 : pend l = 0 := by unfold pend; rw [hc]
      unfold threadStep
      rw [hc]
      simp only
      refine ⟨hist ++ [(l.stats, l.hands)], Dr + Dl t, A, _, h.thread ht (D' := 0) _ (fun h0 => ?_) rfl ?_ ?_ ?_ ?_ ?_
        (fun hx => absurd rfl hx) (fun _ => rfl) hid h.le h.stop (fun hx => by rcases hx with hx | hx | hx <;> cases hx)
        (fun _ => hfin (Or.inl hc)) (fun hx => hx)⟩
      · rw [hpend, hp0] at h0
        show _ = Multiset.range w.shared.enumPos
        rw [← h0]
        have : pend { l with pc := .done } = 0 := rfl
        rw [this]
        abel
      · rw [applyFlushes_snoc, ← h.res]; rfl
      · show (w.shared.sent ++ [_]).length = _
        rw [List.length_append, List.length_append, h.sent]; rfl
      · intro x hx
        rcases List.mem_append.1 hx with hx | hx
        · exact h.hids x hx
        · rw [List.mem_singleton] at hx; subst hx; exact hid
      · intro x hx
        rcases List.mem_append.1 hx with hx | hx
        · obtain ⟨D, h1, h2⟩ := h.hbatch x hx
          exact ⟨D, h1.trans (Multiset.le_add_right _ _), h2⟩
        · rw [List.mem_singleton] at hx; subst hx
          exact ⟨Dl t, Multiset.le_add_left _ _, hloc (by rw [hc]; decide)⟩
      · rw [List.map_append, List.sum_append, h.hsum, sumOf_add, ← hloc (by rw [hc]; decide)]
        simp

theorem Inv.steps (hp : Processes s ds total c) (hsize : 0 < size) {cancelled : Bool} {w : World}
    (hs : Steps s ds total size nT (World.init s r0 cancelled) w) :
    ∃ hist Dr A Dl, Inv s total c r0 nT w hist Dr A Dl := by
  induction hs with
  | refl => exact ⟨_, _, _, _, Inv.init s total c r0 nT cancelled⟩
  | step _ hstep ih =>
    obtain ⟨_, _, _, _, h⟩ := ih
    exact h.step hp hsize hstep

/-- When all threads have finished, the results contain the positions of a set `D`, each exactly once; without cancellation `D`
is the set of all positions. -/
theorem run_result (hp : Processes s ds total c) (hsize : 0 < size) {cancelled : Bool} {w : World}
    (hs : Steps s ds total size nT (World.init s r0 cancelled) w) (hd : ∀ t < nT, (w.locals t).pc = .done) :
    ∃ hist D, w.shared.results = applyFlushes id s.nPlayers s.calcExact hist r0 ∧ w.shared.sent.length = hist.length ∧
      (∀ x ∈ hist, IdPlayers s.nPlayers x.1) ∧ (∀ x ∈ hist, ∃ D' ≤ D, trunc s.nPlayers (full x) = sumOf c D') ∧
      (hist.map fun x => trunc s.nPlayers (full x)).sum = sumOf c D ∧
      D ≤ Multiset.range total ∧ (0 < nT → w.shared.stopped = false → D = Multiset.range total) := by
  obtain ⟨hist, Dr, A, Dl, h⟩ := Inv.steps hp hsize hs
  have h0 : ∑ t ∈ range nT, (Dl t + pend (w.locals t)) = 0 := by
    apply Finset.sum_eq_zero
    intro t ht
    have ht := Finset.mem_range.1 ht
    rw [h.done t ht (hd t ht)]
    unfold pend
    rw [hd t ht]
    rfl
  have hpart := h.part
  rw [h0, add_zero] at hpart
  refine ⟨hist, Dr, h.res, h.sent, h.hids, h.hbatch, h.hsum, ?_, ?_⟩
  · calc Dr ≤ Dr + A := Multiset.le_add_right _ _
      _ = _ := hpart
      _ ≤ _ := Multiset.range_le.2 h.le
  · intro hn hst
    have hA : A = 0 := by
      by_contra hA
      have := h.stop hA
      rw [hst] at this
      cases this
    have : w.shared.enumPos = total := by
      rcases h.fin 0 hn (Or.inr (hd 0 hn)) with hx | hx
      · exact hx
      · rw [hst] at hx; cases hx
    rw [hA, add_zero, this] at hpart
    exact hpart

end Pokers

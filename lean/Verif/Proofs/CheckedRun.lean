import Mathlib.Algebra.Order.BigOperators.Group.Finset
import Mathlib.Algebra.Order.BigOperators.Group.List
import Verif.Proofs.CheckedCount
import Verif.Proofs.Run
import Verif.Spec.Totals
/-!
# Runs with and without the checks
-/
namespace Pokers
open Spec CombinedRange
open Finset (range)

/-! ## Bounds of the counters -/

/-- All counters fit into 64 bits, and so does the sum of the winner masks. -/
structure FFits (n : Nat) (x : FT) : Prop where
  cells : ∀ k < NUM_HANDS * n, (x.1.2 k).1 < 2 ^ 64 ∧ (x.1.2 k).2.1 < 2 ^ 64 ∧ (x.1.2 k).2.2.1 < 2 ^ 64
  masks : ∑ i ∈ range (2 ^ n), x.1.1 i < 2 ^ 64
  evals : x.2 < 2 ^ 64

theorem FFits.mask {n : Nat} {x : FT} (h : FFits n x) {i : Nat} (hi : i < 2 ^ n) : x.1.1 i < 2 ^ 64 :=
  lt_of_le_of_lt (Finset.single_le_sum (f := x.1.1) (fun _ _ => Nat.zero_le _) (Finset.mem_range.2 hi)) h.masks

theorem FFits.of_trunc {n : Nat} {x : FT} (h : FFits n (trunc n x)) : FFits n x where
  cells := fun k hk => by
    have := h.cells k hk
    have e : (trunc n x).1.2 k = x.1.2 k := cut_apply _ hk
    rwa [e] at this
  masks := by
    have e : ∀ i ∈ range (2 ^ n), (trunc n x).1.1 i = x.1.1 i := fun i hi => cut_apply _ (Finset.mem_range.1 hi)
    have := h.masks
    rwa [Finset.sum_congr rfl e] at this
  evals := h.evals

theorem FFits.state {n : Nat} {st : Batch × HandStats} (h : FFits n (full st)) : SFits n st where
  hands := fun k hk => h.cells k hk
  masks := fun _ hi => h.mask hi
  evals := h.evals

theorem weightOf_le_total (sd : List (List WHand × List Nat)) (P : List WHand × List Nat → Prop) [DecidablePred P] :
    weightOf sd P ≤ totalWeight sd := by
  induction sd with
  | nil => exact le_rfl
  | cons x sd ih =>
    rw [weightOf_cons]
    show _ ≤ Spec.dealWeight x.1 + totalWeight sd
    split <;> omega

theorem sum_masks_le (N : Nat) (m : List WHand × List Nat → Nat) (sd : List (List WHand × List Nat)) :
    ∑ i ∈ range N, weightOf sd (fun x => m x = i) ≤ totalWeight sd := by
  induction sd with
  | nil => simp [weightOf_nil]
  | cons x sd ih =>
    simp only [weightOf_cons]
    rw [Finset.sum_add_distrib]
    show _ ≤ Spec.dealWeight x.1 + totalWeight sd
    refine Nat.add_le_add ?_ ih
    rw [Finset.sum_ite_eq]
    split <;> omega

theorem totalWeight_subperm {sd sd' : List (List WHand × List Nat)} (h : sd.Subperm sd') : totalWeight sd ≤ totalWeight sd' := by
  obtain ⟨l, hl, hs⟩ := h
  unfold totalWeight
  rw [← (hl.map _).sum_eq]
  exact (hs.map _).sum_le_sum (fun _ _ => Nat.zero_le _)

theorem card_index_surj {n k : Nat} (hk : k < NUM_HANDS * n) :
    ∃ p < n, ∃ a < 52, ∃ b < 52, a ≠ b ∧ k = NUM_HANDS * p + getCardIndex a b := by
  have h1 : k % NUM_HANDS < 1326 := Nat.mod_lt _ (by decide)
  obtain ⟨a, ha, b, hb, hab, he⟩ := C10_card_index_bijective.2.2.2 _ h1
  refine ⟨k / NUM_HANDS, Nat.div_lt_of_lt_mul hk, a, ha, b, hb, hab, ?_⟩
  rw [he]
  exact (Nat.div_add_mod _ _).symm

section
variable {ranges : List (List Combo)} {b d : Nat} {s : Sim} {ds : List DividerU64} {total size : Nat}

/-- The number of evaluations is at most the number of showdowns. -/
theorem Ready.evals_le (h : Ready ranges b d s ds total size) (L : List Nat) (hL : ∀ p ∈ L, p < total) :
    (sumOf (posFull s ds) (L : Multiset Nat)).2 ≤ (L.flatMap (posShows s ds)).length := by
  obtain ⟨h1, h2, h3, h4, _⟩ := h.fields
  induction L with
  | nil => exact le_rfl
  | cons p L ih =>
    have e : sumOf (posFull s ds) ((p :: L : List Nat) : Multiset Nat) = posFull s ds p + sumOf (posFull s ds) (L : Multiset Nat) := by
      unfold sumOf
      rw [← Multiset.cons_coe, Multiset.map_cons, Multiset.sum_cons]
    rw [e, List.flatMap_cons, List.length_append]
    refine Nat.add_le_add ?_ (ih (fun q hq => hL q (by simp [hq])))
    unfold posFull posShows
    cases hdec : s.decode ds p with
    | none => exact le_rfl
    | some o =>
      cases o with
      | none => exact le_rfl
      | some x =>
        obtain ⟨dd, hdd, hx⟩ := h.decode_mem (hL p (by simp)) hdec
        have hl := (deals_wf h.wf hdd).1
        have hB := boardEvents_length (h.dealOk hdd) (ph := x.2) (fun i hi => by rw [hx]; exact assign_get dd _ hi) (used := x.1)
          (fun c hc => by rw [hx]; exact used_testBit b d dd hc) (Sim.dealWeight s.nPlayers x.2)
        have em : (List.range s.nPlayers).map x.2 = dd := by rw [hx, h1, ← hl, assign_map]
        show (boardEvents s.nPlayers x.2 (Sim.dealWeight s.nPlayers x.2) s.fixedBoard x.1).length ≤ _
        simp only
        rw [em, h2, h3, h4, h1, ← hl]
        unfold dealShows
        rw [List.length_map]
        rw [h1, ← hl] at hB
        exact hB

/-- What the weights have to satisfy for the weight of a single deal. -/
structure SmallDeals (ranges : List (List Combo)) (b d : Nat) : Prop where
  /-- no percentage is above 100 -/
  percent : ∀ r ∈ ranges, ∀ c ∈ r, c.w ≤ 100
  /-- the largest weight a group of equivalent boards can get -/
  deal : ∀ dd ∈ deals (specRanges ranges) (maskCards b ++ maskCards d), Spec.dealWeight dd * 4 ^ 5 < 2 ^ 64

/-- The size of the calculation: what all showdowns together weigh, and how many there are. -/
structure Small (ranges : List (List Combo)) (b d : Nat) : Prop extends SmallDeals ranges b d where
  weight : totalWeight (showdowns (specRanges ranges) (maskCards b) (maskCards d)) < 2 ^ 64
  number : (showdowns (specRanges ranges) (maskCards b) (maskCards d)).length < 2 ^ 64

theorem Ready.bounded (h : Ready ranges b d s ds total size) (hS : Small ranges b d) {D : Multiset Nat} (hD : D ≤ Multiset.range total) :
    FFits s.nPlayers (sumOf (posFull s ds) D) := by
  obtain ⟨L, rfl⟩ := Quot.exists_rep D
  have hL : L.Subperm (List.range total) := by
    rw [← Multiset.coe_range] at hD
    exact Multiset.coe_le.1 hD
  have hsub : (L.flatMap (posShows s ds)).Subperm (showdowns (specRanges ranges) (maskCards b) (maskCards d)) := by
    obtain ⟨l, hl1, hl2⟩ := hL
    have : (L.flatMap (posShows s ds)).Subperm ((List.range total).flatMap (posShows s ds)) :=
      ⟨l.flatMap (posShows s ds), hl1.flatMap_right _, hl2.flatMap _⟩
    exact this.trans h.all_showdowns.subperm
  have hwf : ∀ x ∈ L.flatMap (posShows s ds), WfDeal x.1 := fun x hx => (showdowns_wf h.wf (hsub.subset hx)).1
  have hw := lt_of_le_of_lt (totalWeight_subperm hsub) hS.weight
  have hsum := sumOf_posFull s ds L
  have hev := h.evals_le L (fun p hp => List.mem_range.1 (hL.subset hp))
  have hn := lt_of_le_of_lt hsub.length_le hS.number
  show FFits s.nPlayers (sumOf (posFull s ds) (L : Multiset Nat))
  generalize sumOf (posFull s ds) (L : Multiset Nat) = y at hsum hev
  generalize L.flatMap (posShows s ds) = sd at hwf hw hsum hev hn
  constructor
  · intro k hk
    have e : y.1.2 k = (sdTally sd).2 k := by rw [hsum]; exact cut_apply _ hk
    obtain ⟨p, hp, x, hx, y', hy, hxy, rfl⟩ := card_index_surj hk
    rw [e, sdTally_cell sd hwf hx hy hxy]
    exact ⟨lt_of_le_of_lt (weightOf_le_total _ _) hw, lt_of_le_of_lt (weightOf_le_total _ _) hw, lt_of_le_of_lt (weightOf_le_total _ _) hw⟩
  · have e : ∀ i ∈ range (2 ^ s.nPlayers), y.1.1 i = weightOf sd fun x => u8Mask (winners x.2 x.1) = i := by
      intro i hi
      rw [← sdTally_mask, hsum]
      exact cut_apply _ (Finset.mem_range.1 hi)
    rw [Finset.sum_congr rfl e]
    exact lt_of_le_of_lt (sum_masks_le _ _ sd) hw
  · exact lt_of_le_of_lt hev hn

/-! ## One position -/

theorem prod_le_pow : ∀ (l : List Nat), (∀ x ∈ l, x ≤ 100) → l.prod ≤ 100 ^ l.length
  | [], _ => le_rfl
  | a :: l, h => by
    rw [List.prod_cons, List.length_cons, pow_succ, Nat.mul_comm]
    exact Nat.mul_le_mul (prod_le_pow l (fun x hx => h x (by simp [hx]))) (h a (by simp))

theorem dealWeightC_eq (ph : Nat → Hole) : ∀ n, n ≤ 9 → (∀ i < n, (ph i).2.2 ≤ 100) →
    Sim.dealWeightC n ph = some (Sim.dealWeight n ph) ∧ Sim.dealWeight n ph ≤ 100 ^ n := by
  intro n
  induction n with
  | zero => intro _ _; exact ⟨rfl, le_rfl⟩
  | succ n ih =>
    intro hn hw
    obtain ⟨h1, h2⟩ := ih (by omega) (fun i hi => hw i (by omega))
    have e : Sim.dealWeight (n + 1) ph = Sim.dealWeight n ph * (ph n).2.2 := by
      unfold Sim.dealWeight; rw [List.range_succ, List.foldl_append]; rfl
    have hle : Sim.dealWeight (n + 1) ph ≤ 100 ^ (n + 1) := by
      rw [e, pow_succ]; exact Nat.mul_le_mul h2 (hw n (by omega))
    refine ⟨?_, hle⟩
    have hlt : Sim.dealWeight n ph * (ph n).2.2 < 2 ^ 64 := by
      rw [← e]
      refine lt_of_le_of_lt hle (lt_of_le_of_lt (Nat.pow_le_pow_right (by decide) hn) (by decide))
    unfold Sim.dealWeightC at h1 ⊢
    rw [List.range_succ, List.foldlM_append, h1]
    simp only [Option.bind_eq_bind, Option.bind_some, List.foldlM_cons, List.foldlM_nil]
    rw [fits_some hlt, e]
    rfl

/-- The weight of a deal and the boards of a position are found without overflow. -/
theorem Ready.processPosC_cases (h : Ready ranges b d s ds total size) (hS : SmallDeals ranges b d) {pos : Nat} (hpos : pos < total)
    (st : Batch × HandStats) (hid : IdPlayers s.nPlayers st.1) :
    (s.processPos ds pos st = some st ∧ s.processPosC ds pos st = some st) ∨
    ∃ (hands : Nat → Hand) (lookup : Nat → Nat) (es : List Ev), (∀ i < s.nPlayers, lookup i < NUM_HANDS * s.nPlayers) ∧
      s.processPos ds pos st = some (es.foldl (fun st e => evaluateHands s.nPlayers hands e.weight e.board lookup e.flush st) st) ∧
      s.processPosC ds pos st =
        es.foldlM (fun st e => evaluateHandsC s.nPlayers (s.nPlayers * NUM_HANDS) hands e.weight e.board lookup e.flush st) st := by
  obtain ⟨h1, h2, h3, h4, _, h6, h7, _⟩ := h.fields
  obtain ⟨_, _, hdec⟩ := decode_pure h.ok h.dividers h.count
  obtain ⟨o, hdec, _⟩ := hdec pos hpos
  unfold Sim.processPosC Sim.processPos
  rw [hdec]
  cases o with
  | none => exact Or.inl ⟨rfl, rfl⟩
  | some x =>
    right
    obtain ⟨dd, hdd, hx⟩ := h.decode_mem hpos hdec
    have hwd := deals_wf h.wf hdd
    have hl := hwd.1
    have hph : ∀ i < dd.length, x.2 i = dd.getD i (0, 0, 0) := fun i hi => by rw [hx]; exact assign_get dd _ hi
    have hget : ∀ i < s.nPlayers, x.2 i ∈ dd := by
      intro i hi
      have hi' : i < dd.length := by rw [hl, ← h1]; exact hi
      rw [hph i hi', List.getD_eq_getElem _ _ hi']
      exact List.getElem_mem hi'
    have hw100 : ∀ i < s.nPlayers, (x.2 i).2.2 ≤ 100 := by
      intro i hi
      have hi' : i < dd.length := by rw [hl, ← h1]; exact hi
      rw [hph i hi', List.getD_eq_getElem _ _ hi']
      unfold deals at hdd
      have hc := (List.mem_filter.1 hdd).1
      have := ((mem_choices _ _).1 hc).2 i hi' (by simp [specRanges]; omega)
      unfold specRanges at this
      rw [List.getElem_map, List.mem_map] at this
      obtain ⟨k, hk, he⟩ := this
      rw [← he]
      exact hS.percent _ (List.getElem_mem _) k hk
    have em : (List.range s.nPlayers).map x.2 = dd := by rw [hx, h1, ← hl, assign_map]
    obtain ⟨hW, _⟩ := dealWeightC_eq x.2 s.nPlayers (by omega) hw100
    have hev := boardEventsC_eq (h.dealOk hdd) x.2 (used := x.1)
      (fun c hc => by rw [hx]; exact used_testBit b d dd hc) (w := Sim.dealWeight s.nPlayers x.2)
      (by rw [simDealWeight_eq, em]; exact hS.deal dd hdd)
    rw [hl, ← h1, ← h4] at hev
    refine ⟨fun i => Hand.fromHoleCards (x.2 i).1 (x.2 i).2.1, fun i => NUM_HANDS * st.1.playerIds i + getCardIndex (x.2 i).1 (x.2 i).2.1,
      boardEvents s.nPlayers x.2 (Sim.dealWeight s.nPlayers x.2) s.fixedBoard x.1, ?_, rfl, ?_⟩
    · intro i hi
      simp only
      rw [hid i hi]
      have := hwd.2.1 _ (hget i hi)
      exact cell_lt hi this.1 this.2.1 this.2.2
    · simp only
      rw [hW]
      simp only [Option.bind_eq_bind, Option.bind_some]
      unfold Sim.enumerateBoardC
      rw [hev.1]
      rfl

/-- The checks of one position succeed if its result fits. -/
theorem Ready.processPosC_eq (h : Ready ranges b d s ds total size) (hS : SmallDeals ranges b d) {pos : Nat} (hpos : pos < total)
    {st st' : Batch × HandStats} (hid : IdPlayers s.nPlayers st.1) (he : s.processPos ds pos st = some st') (hf : SFits s.nPlayers st') :
    s.processPosC ds pos st = some st' := by
  rcases h.processPosC_cases hS hpos st hid with ⟨h1, h2⟩ | ⟨hands, lookup, es, hlk, h1, h2⟩
  · rw [h2, ← h1, he]
  · rw [h1] at he
    have he := Option.some.inj he
    subst he
    have hn0 : 0 < s.nPlayers := by
      obtain ⟨e, _, _, _, _, h6, _⟩ := h.fields
      omega
    rw [h2]
    exact (foldlM_good (σ := Batch × HandStats) (le := SLe) (Good := SFits s.nPlayers) SLe.refl (fun _ _ _ => SLe.trans)
      (fun _ _ => SLe.fits s.nPlayers) _ (fun u e _ => (evaluateHandsC_eq hn0 _ _ _ hlk _ u).1)
      (fun u e _ hg => (evaluateHandsC_eq hn0 _ _ _ hlk _ u).2 hg) st).2 hf

/-! ## One step of a thread -/

theorem Ready.threadStepC_eq (h : Ready ranges b d s ds total size) (hS : Small ranges b d) {r0 : Results} {flag : Nat}
    (hr0 : startResults s = some (r0, flag)) {nT : Nat} {w : World} {hist : List (Batch × HandStats)} {Dr A : Multiset Nat}
    {Dl : Nat → Multiset Nat} (hI : Inv s total (posFull s ds) r0 nT w hist Dr A Dl) {t : Nat} (ht : t < nT) :
    threadStepC s ds total size (w.locals t) w.shared = threadStep s ds total size (w.locals t) w.shared := by
  have hsub : Dr + (Dl t + pend (w.locals t)) ≤ Multiset.range total := by
    refine le_trans ?_ (le_trans (le_of_eq hI.part) (Multiset.range_le.2 hI.le))
    refine le_trans ?_ (Multiset.le_add_right _ _)
    exact Multiset.add_le_add_left (Finset.single_le_sum (f := fun t => Dl t + pend (w.locals t)) (fun _ _ => Multiset.zero_le _)
      (Finset.mem_range.2 ht))
  have hloc := hI.loc t ht
  have hin := hI.inside t ht
  have hid := hI.ids t ht
  have hn := h.fields.1
  have h9 := h.fields.2.2.2.2.2.2.1
  have hfl : (w.locals t).pc ≠ .done → updateResultsC id s.nPlayers s.calcExact (w.locals t).stats (w.locals t).hands w.shared.results =
      some (updateResults id s.nPlayers s.calcExact (w.locals t).stats (w.locals t).hands w.shared.results) := by
    intro hpc
    have hF := (h.bounded hS (D := Dr + Dl t) (le_trans (Multiset.add_le_add_left (Multiset.le_add_right _ _)) hsub))
    have hres : trunc s.nPlayers (resFull w.shared.results) = sumOf (posFull s ds) Dr := by
      rw [hI.res, applyFlushes_full _ _ _ _ _ hI.hids, (startResults_counts hr0).2.2.1, map_zero, zero_add, hI.hsum]
    have hwins : ∀ p < s.nPlayers, w.shared.results.wins p = w.shared.results.winsByMask (2 ^ p) := by
      rw [hI.res]
      obtain ⟨g1, _, g3, _⟩ := startResults_counts hr0
      refine applyFlushes_wins (by omega) (fun p hp => ?_) hI.hids
      rw [g1 p]
      exact (congrFun (congrArg (fun x : FT => x.1.1) g3) (2 ^ p)).symm
    rw [sumOf_add, ← hres, ← hloc hpc, ← map_add] at hF
    have hF := hF.of_trunc
    refine updateResultsC_eq hid (fun k hk => hF.cells k hk) (fun i hi => hF.mask hi) ?_ ?_ hF.evals
    · intro p hp
      rw [sum_maskWins _ hp (by omega), hwins p hp]
      exact hF.mask (Nat.pow_lt_pow_right (by decide) hp)
    · refine lt_of_le_of_lt (Finset.sum_le_sum fun i _ => ?_) hF.masks
      exact Nat.le_add_left _ _
  generalize hl : w.locals t = l at *
  unfold threadStepC
  cases hc : l.pc with
  | work =>
    obtain ⟨hlt, hst⟩ := hin (Or.inl hc)
    obtain ⟨st', e1, e2, e3⟩ := h.processes l.pos (by omega) (l.stats, l.hands) hid
    have hle : Dl t + {l.pos} ≤ Multiset.range total := by
      refine le_trans ?_ hsub
      have hp0 : pend l = {l.pos} + seg (l.pos + 1) l.stop := by unfold pend; rw [hc]; exact seg_cons hlt
      rw [hp0, ← add_assoc (Dl t)]
      exact le_trans (Multiset.le_add_right _ _) (Multiset.le_add_left _ _)
    have hF := h.bounded hS hle
    rw [sumOf_add, sumOf_singleton, ← hloc (by rw [hc]; decide), ← e2] at hF
    have e4 := h.processPosC_eq hS.toSmallDeals (by omega) hid e1 hF.of_trunc.state
    unfold threadStep
    rw [hc]
    simp only [e1, e4]
  | flush =>
    unfold threadStep
    rw [hc]
    simp only
    rw [hfl (by rw [hc]; decide)]
    rfl
  | final =>
    unfold threadStep
    rw [hc]
    simp only
    rw [hfl (by rw [hc]; decide)]
    rfl
  | _ => rfl

/-- The runs with checks are the runs without. -/
theorem Ready.stepsC_iff (h : Ready ranges b d s ds total size) (hS : Small ranges b d) {r0 : Results} {flag : Nat}
    (hr0 : startResults s = some (r0, flag)) {nT : Nat} {cancelled : Bool} {w : World} :
    StepsC s ds total size nT (World.init s r0 cancelled) w ↔ Steps s ds total size nT (World.init s r0 cancelled) w := by
  constructor
  · intro hs
    induction hs with
    | refl => exact .refl
    | step _ hstep ih =>
      obtain ⟨_, _, _, _, hI⟩ := Inv.steps h.processes h.size_pos ih
      refine .step ih ?_
      cases hstep with
      | thread t ht hpc => rw [h.threadStepC_eq hS hr0 hI ht]; exact .thread _ t ht hpc
      | cancel => exact .cancel _
  · intro hs
    induction hs with
    | refl => exact .refl
    | step hs' hstep ih =>
      obtain ⟨_, _, _, _, hI⟩ := Inv.steps h.processes h.size_pos hs'
      refine .step ih ?_
      cases hstep with
      | thread t ht hpc => rw [← h.threadStepC_eq hS hr0 hI ht]; exact .thread _ t ht hpc
      | cancel => exact .cancel _

end

end Pokers

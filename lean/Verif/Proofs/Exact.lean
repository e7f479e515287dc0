import Verif.Proofs.Showdown
import Verif.Proofs.Threads
import Verif.Props.Deals
/-!
# The positions of the exact calculation and their contributions
-/
namespace Pokers
open Spec CombinedRange

/-- What the showdowns of the deal `d` add to the counters. -/
def dealTally (board dead : List Nat) (d : List WHand) : Tally :=
  Spec.dealWeight d • ((boards board dead d).map fun B => contrib d.length (cellIndex (phOf d)) (winners B d)).sum

/-- The contribution of a decoded position, including the number of evaluations. -/
def dealFull (s : Sim) (x : Nat × (Nat → Hole)) : FT :=
  (dealTally (maskCards s.boardMask) (maskCards s.deadMask) ((List.range s.nPlayers).map x.2),
   (boardEvents s.nPlayers x.2 (Sim.dealWeight s.nPlayers x.2) s.fixedBoard x.1).length)

/-- The contribution of a position. -/
def posFull (s : Sim) (ds : List DividerU64) (pos : Nat) : FT :=
  trunc s.nPlayers (match s.decode ds pos with
    | some (some x) => dealFull s x
    | _ => 0)

theorem simDealWeight_eq (n : Nat) (ph : Nat → Hole) : Sim.dealWeight n ph = Spec.dealWeight ((List.range n).map ph) := by
  unfold Sim.dealWeight Spec.dealWeight
  rw [List.map_map]
  induction n with
  | zero => rfl
  | succ n ih =>
    rw [List.range_succ, List.foldl_append, List.foldl_cons, List.foldl_nil, ih, List.map_append, List.prod_append]
    simp

theorem deals_wf {ranges : List (List Combo)} (hwf : ∀ r ∈ ranges, WfRange r) {blocked : List Nat} {dd : List WHand}
    (h : dd ∈ deals (specRanges ranges) blocked) : dd.length = ranges.length ∧ (∀ h ∈ dd, h.1 < 52 ∧ h.2.1 < 52 ∧ h.1 ≠ h.2.1) ∧
      IsCards (dealt dd) ∧ ∀ c ∈ dealt dd, c ∉ blocked := by
  unfold deals at h
  rw [List.mem_filter, decide_eq_true_iff] at h
  obtain ⟨hc, hl⟩ := h
  obtain ⟨h1, h2⟩ := (mem_choices _ _).1 hc
  have hlen : dd.length = ranges.length := by rw [h1]; simp [specRanges]
  have hw : ∀ h ∈ dd, h.1 < 52 ∧ h.2.1 < 52 ∧ h.1 ≠ h.2.1 := by
    intro h hh
    obtain ⟨i, hi, rfl⟩ := List.getElem_of_mem hh
    have := h2 i hi (by rw [← h1]; exact hi)
    unfold specRanges at this
    rw [List.getElem_map, List.mem_map] at this
    obtain ⟨k, hk, he⟩ := this
    rw [← he]
    exact hwf _ (List.getElem_mem _) k hk
  refine ⟨hlen, hw, ⟨hl.1, ?_⟩, hl.2⟩
  intro c hc
  obtain ⟨h, hh, hch⟩ := List.mem_flatMap.1 hc
  have := hw h hh
  rcases List.mem_cons.1 hch with rfl | hch
  · exact this.1
  · rw [List.mem_singleton] at hch; subst hch; exact this.2.1

/-- The setting of all theorems about the exact calculation: valid ranges and masks, and preparations that succeed. -/
structure Ready (ranges : List (List Combo)) (b d : Nat) (s : Sim) (ds : List DividerU64) (total size : Nat) : Prop where
  wf : ∀ r ∈ ranges, WfRange r
  boardMask : CardMask b
  deadMask : CardMask d
  ok : prepareExact ranges b d = .ok s
  dividers : s.fastDividers = some ds
  count : s.preflopComboCount = some total
  batch : s.reserveSize = some size

section
variable {ranges : List (List Combo)} {b d : Nat} {s : Sim} {ds : List DividerU64} {total size : Nat}

theorem Ready.fields (h : Ready ranges b d s ds total size) : s.nPlayers = ranges.length ∧ s.boardMask = b ∧ s.deadMask = d ∧
    s.fixedBoard = ofCards (maskCards b) ∧ s.calcExact = true ∧ 2 ≤ ranges.length ∧ ranges.length ≤ 9 ∧ (maskCards b).length ≤ 5 ∧
    s.handRanges = ranges.map (fun h => removeConflictingCombos h b d) ∧ countOnes b ≤ 5 := by
  have ha := prepareExact_ok h.ok
  refine ⟨?_, ?_, ?_, ?_, ?_, ha.players.1, ha.players.2, (maskCards_length_le b).trans ha.board, ?_, ha.board⟩
  · rw [ha.sim]; simp [Sim.new]
  · rw [ha.sim]; rfl
  · rw [ha.sim]; rfl
  · rw [ha.sim]; exact fixedBoard_eq b
  · rw [ha.sim]; rfl
  · rw [ha.sim]; rfl

theorem Ready.size_pos (h : Ready ranges b d s ds total size) : 0 < size := by
  have h1 := (C26_postflop h.ok).2.2
  rw [h.batch] at h1
  have := Option.some.inj h1
  omega

theorem Ready.total_pos (h : Ready ranges b d s ds total size) : 0 < total := ((C28_prepared h.ok).2 total h.count).2.1

theorem Ready.deals_eq (h : Ready ranges b d s ds total size) :
    dealsOf s.combinedRanges (b ||| d) (fun _ => (52, 52, 100)) =
      (((deals (specRanges ranges) (maskCards b ++ maskCards d)).map fun dd =>
        (maskOr (b ||| d) dd, assign 0 dd (fun _ => (52, 52, 100))) : List (Nat × (Nat → Hole))) : Multiset (Nat × (Nat → Hole))) := by
  have ha := prepareExact_ok h.ok
  have hcr : s.combinedRanges = fromRanges (ranges.map fun h => removeConflictingCombos h b d) := by rw [ha.sim]; rfl
  rw [hcr, fromRanges_deals _ (wf_filter h.wf b d) (b ||| d) _ (blocked_iff b d)]
  rw [← deals_filter h.wf b d]
  rfl

/-- A decoded position is a legal deal. -/
theorem Ready.decode_mem (h : Ready ranges b d s ds total size) {pos : Nat} (hpos : pos < total) {x : Nat × (Nat → Hole)}
    (hx : s.decode ds pos = some (some x)) : ∃ dd ∈ deals (specRanges ranges) (maskCards b ++ maskCards d),
      x = (maskOr (b ||| d) dd, assign 0 dd (fun _ => (52, 52, 100))) := by
  obtain ⟨ht, _, hdec⟩ := decode_pure h.ok h.dividers h.count
  obtain ⟨o, ho1, ho2⟩ := hdec pos hpos
  rw [hx] at ho1
  have := Option.some.inj ho1
  subst this
  have hm : x ∈ ((List.range total : List Nat) : Multiset Nat).bind
      (fun pos => decodePure s.combinedRanges pos (b ||| d) (fun _ => (52, 52, 100))) := by
    rw [Multiset.mem_bind]
    refine ⟨pos, by simpa using hpos, ?_⟩
    rw [← ho2]
    simp [optM]
  rw [ht, decodePure_all, h.deals_eq, Multiset.mem_coe, List.mem_map] at hm
  obtain ⟨dd, hdd, he⟩ := hm
  exact ⟨dd, hdd, he.symm⟩

theorem Ready.dealOk (h : Ready ranges b d s ds total size) {dd : List WHand}
    (hd : dd ∈ deals (specRanges ranges) (maskCards b ++ maskCards d)) : DealOk (maskCards b) (maskCards d) dd := by
  obtain ⟨_, _, h2, h3⟩ := deals_wf h.wf hd
  exact ⟨maskCards_isCards b, h.fields.2.2.2.2.2.2.2.1, h2, h3⟩

theorem used_testBit (b d : Nat) (dd : List WHand) {c : Nat} (hc : c < 52) :
    (maskOr (b ||| d) dd).testBit c = true ↔ c ∈ maskCards b ++ maskCards d ++ dealt dd := by
  rw [maskOr_testBit, Bool.or_eq_true, decide_eq_true_iff, List.mem_append, blocked_iff b d c hc]

theorem assign_get (dd : List WHand) (ph : Nat → Hole) {i : Nat} (hi : i < dd.length) :
    assign 0 dd ph i = dd.getD i (0, 0, 0) := by
  rw [assign_apply, if_pos (by omega), Nat.sub_zero]

/-- The contribution of a deal. -/
theorem Ready.dealFull_eq (h : Ready ranges b d s ds total size) {dd : List WHand} (hl : dd.length = ranges.length) (ph : Nat → Hole) (u : Nat) :
    (dealFull s (u, assign 0 dd ph)).1 = dealTally (maskCards b) (maskCards d) dd := by
  obtain ⟨h1, h2, h3, _⟩ := h.fields
  unfold dealFull
  simp only
  rw [h1, ← hl, assign_map, h2, h3]

/-- Processing a position adds its contribution. -/
theorem Ready.processes (h : Ready ranges b d s ds total size) : Processes s ds total (posFull s ds) := by
  intro pos hpos st hid
  obtain ⟨h1, h2, h3, h4, _⟩ := h.fields
  obtain ⟨_, _, hdec⟩ := decode_pure h.ok h.dividers h.count
  obtain ⟨o, ho1, _⟩ := hdec pos hpos
  unfold Sim.processPos posFull
  rw [ho1]
  cases o with
  | none => exact ⟨st, rfl, by simp, rfl⟩
  | some x =>
    obtain ⟨dd, hdd, hx⟩ := h.decode_mem hpos ho1
    have hl := (deals_wf h.wf hdd).1
    have hE := enumerateBoard_tally s (h.dealOk hdd) (by rw [h1, hl]) h4 (ph := x.2)
      (fun i hi => by rw [hx]; exact assign_get dd _ hi) (used := x.1)
      (fun c hc => by rw [hx]; exact used_testBit b d dd hc)
      (Sim.dealWeight s.nPlayers x.2) st (fun i hi => hid i (by rw [h1, ← hl]; exact hi))
    refine ⟨_, rfl, ?_, hE.2.1⟩
    rw [← map_add]
    congr 1
    refine Prod.ext ?_ ?_
    · show tallyOf _ = tallyOf st + (dealFull s x).1
      rw [hE.1]
      congr 1
      rw [hx, h.dealFull_eq hl, simDealWeight_eq, h1, ← hl, assign_map]
      rfl
    · show _ = st.1.evalCount + _
      refine hE.2.2.1.trans ?_
      rw [hl, ← h1]
      rfl

/-- All positions together are all legal deals. -/
theorem Ready.sum_all (h : Ready ranges b d s ds total size) : sumOf (posFull s ds) (Multiset.range total) =
    trunc s.nPlayers ((deals (specRanges ranges) (maskCards b ++ maskCards d)).map fun dd =>
      dealFull s (maskOr (b ||| d) dd, assign 0 dd (fun _ => (52, 52, 100)))).sum := by
  obtain ⟨ht, _, hdec⟩ := decode_pure h.ok h.dividers h.count
  have e1 : ∀ pos ∈ Multiset.range total, posFull s ds pos =
      trunc s.nPlayers (((decodePure s.combinedRanges pos (b ||| d) (fun _ => (52, 52, 100))).map (dealFull s)).sum) := by
    intro pos hpos
    obtain ⟨o, ho1, ho2⟩ := hdec pos (Multiset.mem_range.1 hpos)
    unfold posFull
    rw [ho1, ← ho2]
    cases o with
    | none => simp [optM]
    | some x => simp [optM]
  unfold sumOf
  rw [Multiset.map_congr rfl e1]
  have e2 : ((Multiset.range total).map fun pos =>
      trunc s.nPlayers (((decodePure s.combinedRanges pos (b ||| d) (fun _ => (52, 52, 100))).map (dealFull s)).sum)).sum =
      trunc s.nPlayers (((Multiset.range total).bind fun pos =>
        (decodePure s.combinedRanges pos (b ||| d) (fun _ => (52, 52, 100))).map (dealFull s)).sum) := by
    rw [Multiset.sum_bind, map_multiset_sum, Multiset.map_map]
    rfl
  rw [e2, ← Multiset.map_bind, ← Multiset.coe_range, ht, decodePure_all, h.deals_eq, Multiset.map_coe, List.map_map,
    Multiset.sum_coe]
  rfl

end

end Pokers

import Verif.Proofs.McRun
import Verif.Spec.Rounds
/-!
# The random walk with a single combined range

Each step leads to the previous combo, so a thread goes round the list of combos.
-/
namespace Pokers
open CombinedRange Sim Spec

section
variable {ranges : List (List Combo)} {b d : Nat} {s : Sim}

/-- No combo contains a card of the board or a dead card. -/
theorem McReady.fits (h : McReady ranges b d s) : ∀ cr ∈ s.combinedRanges, ∀ c ∈ cr.combos, (b ||| d) &&& c.mask = 0 := by
  obtain ⟨s0, h1, h2, h3⟩ := h.exact
  have ha := prepareExact_ok h1
  have hcr : s0.combinedRanges = fromRanges (ranges.map fun h => removeConflictingCombos h b d) := by rw [ha.sim]; rfl
  intro cr' hcr' c hc
  obtain ⟨cr, hm, hs⟩ := forall₂_mem h2 cr' hcr'
  rw [hcr] at hm
  have hok := fromRanges_ok _ (wf_filter h.wf b d) cr hm c (hs.2.2.2.mem_iff.1 hc)
  rw [and_eq_zero_iff]
  intro i hi
  rw [hok.mask, maskOr_testBit, Nat.zero_testBit, Bool.false_or, decide_eq_false_iff_not]
  intro hmem
  obtain ⟨x, hx, hix⟩ := List.mem_flatMap.1 hmem
  obtain ⟨j, hj, rfl⟩ := List.mem_map.1 hx
  obtain ⟨k, hk, e1, _⟩ := hok.mem j (List.mem_range.1 hj)
  have hk' : ∃ r ∈ ranges, k ∈ removeConflictingCombos r b d := by
    by_cases hlt : cr.players j < ranges.length
    · refine ⟨ranges[cr.players j], List.getElem_mem hlt, ?_⟩
      rw [List.getD_eq_getElem _ _ (by rw [List.length_map]; exact hlt), List.getElem_map] at hk
      exact hk
    · rw [List.getD_eq_default _ _ (by rw [List.length_map]; omega)] at hk
      cases hk
  obtain ⟨r, _, hk'⟩ := hk'
  rw [C23_filter, List.mem_filter] at hk'
  have hk2 := hk'.2
  rw [Nat.testBit_or] at hi
  rw [e1] at hix
  have hix : i = k.c1 ∨ i = k.c2 := by simpa [cardsOf, toHole] using hix
  rcases hix with rfl | rfl <;> simp only [Bool.not_eq_true', Bool.or_eq_false_iff] at hk2 <;> simp [hk2] at hi

/-- The deal written by a combo, with a single combined range. -/
def cycleDeal (s : Sim) (c : JointCombo) : List WHand :=
  (List.range s.nPlayers).map (writeAll s.combinedRanges [c] (fun _ => (52, 52, 100)))

/-- The deals in the order in which they are visited. -/
def visitOrder (s : Sim) (cr : CombinedRange) : List (List WHand) := (cr.combos.map (cycleDeal s)).reverse

theorem visitOrder_length (s : Sim) (cr : CombinedRange) : (visitOrder s cr).length = cr.combos.length := by
  unfold visitOrder; rw [List.length_reverse, List.length_map]

theorem visitOrder_get {cr : CombinedRange} {i j : Nat} (h : i + j + 1 = cr.combos.length) {c : JointCombo} (hc : cr.combos[i]? = some c) :
    (visitOrder s cr)[j]? = some (cycleDeal s c) := by
  unfold visitOrder
  rw [List.getElem?_reverse (by rw [List.length_map]; omega), List.length_map, show cr.combos.length - 1 - j = i by omega,
    List.getElem?_map, hc]
  rfl

/-- They are all legal deals, in some order. -/
theorem McReady.visitOrder (h : McReady ranges b d s) {cr : CombinedRange} (h1 : s.combinedRanges = [cr]) :
    (visitOrder s cr).Perm (deals (specRanges ranges) (maskCards b ++ maskCards d)) := by
  have hd := h.deals_eq
  have hfit := h.fits cr (by rw [h1]; exact List.mem_singleton_self _)
  have hn := h.fields.1
  have e1 : dealsOf s.combinedRanges (b ||| d) (fun _ => (52, 52, 100)) =
      ((cr.combos.map fun c => ((b ||| d) ||| c.mask, writeHands cr c (fun _ => (52, 52, 100)))) : List (Nat × (Nat → Hole))) := by
    rw [h1, dealsOf]
    have : ∀ c ∈ (cr.combos : Multiset JointCombo), (if (b ||| d) &&& c.mask ≠ 0 then (0 : Multiset (Nat × (Nat → Hole))) else
        dealsOf [] ((b ||| d) ||| c.mask) (writeHands cr c (fun _ => (52, 52, 100)))) =
        {((b ||| d) ||| c.mask, writeHands cr c (fun _ => (52, 52, 100)))} := by
      intro c hc
      rw [if_neg (not_not.2 (hfit c (Multiset.mem_coe.1 hc)))]
      rfl
    rw [Multiset.bind_congr this, Multiset.bind_singleton]
    rfl
  rw [e1, Multiset.coe_eq_coe] at hd
  have hd := hd.map fun x : Nat × (Nat → Hole) => (List.range s.nPlayers).map x.2
  rw [List.map_map, List.map_map] at hd
  have e2 : (deals (specRanges ranges) (maskCards b ++ maskCards d)).map
      ((fun x : Nat × (Nat → Hole) => (List.range s.nPlayers).map x.2) ∘ fun dd =>
        (maskOr (b ||| d) dd, assign 0 dd (fun _ => (52, 52, 100)))) = deals (specRanges ranges) (maskCards b ++ maskCards d) := by
    conv_rhs => rw [← List.map_id (deals (specRanges ranges) (maskCards b ++ maskCards d))]
    apply List.map_congr_left
    intro dd hdd
    show (List.range s.nPlayers).map (assign 0 dd _) = dd
    rw [hn, ← (deals_wf h.wf hdd).1]
    exact assign_map dd _
  rw [e2] at hd
  refine (List.reverse_perm _).trans ?_
  have e3 : cr.combos.map (cycleDeal s) = cr.combos.map ((fun x : Nat × (Nat → Hole) => (List.range s.nPlayers).map x.2) ∘ fun c =>
      ((b ||| d) ||| c.mask, writeHands cr c (fun _ => (52, 52, 100)))) := by
    apply List.map_congr_left
    intro c _
    unfold cycleDeal
    rw [h1]
    rfl
  rw [e3]
  exact hd

end

/-- A step with a single combined range: the previous combo, whose hands are dealt. -/
theorem redeal_single {cr : CombinedRange} (hsz : cr.size = cr.combos.length) {u : Nat} (hfit : ∀ c ∈ cr.combos, u &&& c.mask = 0)
    {w w' : Walk} {picks : List JointCombo} (h : WalkOk [cr] u w picks) (hr : redeal cr 0 w = some w') :
    w'.indexes 0 = backPos cr.combos.length (w.indexes 0) 1 := by
  have hi' : 0 < picks.length := by rw [h.len]; exact Nat.one_pos
  obtain ⟨r1, r2, r3⟩ := h.remove hi'
  have hidx := h.index 0 Nat.one_pos
  rw [List.getElem?_eq_getElem hi'] at hidx
  have hidx : cr.combos[w.indexes 0]? = some picks[0] := hidx
  have hlt : w.indexes 0 < cr.size := by
    rw [hsz]
    by_contra hcon
    rw [List.getElem?_eq_none (by omega)] at hidx
    cases hidx
  have hou : othersUsed u picks 0 = u := by
    obtain ⟨c, rfl⟩ := List.length_eq_one_iff.1 h.len
    rfl
  have hF : ∀ k < cr.size, Fits cr u k := fun k hk => ⟨cr.combos[k]'(by omega), List.getElem?_eq_getElem _, by
    rw [Nat.and_comm]; exact hfit _ (List.getElem_mem _)⟩
  obtain ⟨m, m1, m2, hloop, _, hmin⟩ := redealLoop_round hsz hlt (used := u) (hF _ hlt)
  have hm : m = 1 := by
    by_contra hne
    have hb1 : backPos cr.size (w.indexes 0) 1 < cr.size := by unfold backPos; split <;> omega
    exact hmin 1 Nat.one_pos (by omega) (hF _ hb1)
  subst hm
  unfold redeal at hr
  rw [hidx] at hr
  change ((subC w.used picks[0].mask).bind _) = _ at hr
  unfold subC at hr
  rw [if_pos r1, r2, hou] at hr
  change (redealLoop cr u cr.size (w.indexes 0)).bind _ = _ at hr
  rw [hloop] at hr
  change (cr.combos[backPos cr.size (w.indexes 0) 1]?).bind _ = _ at hr
  cases hc : cr.combos[backPos cr.size (w.indexes 0) 1]? with
  | none => rw [hc] at hr; cases hr
  | some c =>
    rw [hc] at hr
    injection hr with hr
    rw [← hr, ← hsz]
    dsimp only
    rw [Function.update_self]

/-- Where thread `t`, with the showdowns `D` in its counters, is in the list of deals. -/
def OnRound (s : Sim) (cr : CombinedRange) (l : McLocal) (D : List (List WHand × List Nat)) : Prop :=
  ∃ k, GoesRound (visitOrder s cr) k (D.map Prod.fst) ∧
    (l.pc = .eval → l.walk.indexes 0 + (k + D.length) % cr.combos.length + 1 = cr.combos.length) ∧
    (l.pc = .move → ∃ j, l.walk.indexes 0 + j + 1 = cr.combos.length ∧ (j + 1) % cr.combos.length = (k + D.length) % cr.combos.length)

/-- The results consist of batches, each of which goes round. -/
def InRounds (s : Sim) (cr : CombinedRange) (Dr : List (List WHand × List Nat)) : Prop :=
  ∃ batches : List (List (List WHand × List Nat)), Dr = batches.flatten ∧
    ∀ B ∈ batches, B.length = 4096 ∧ ∃ k, GoesRound (visitOrder s cr) k (B.map Prod.fst)

theorem GoesRound.nil {α : Type} {order : List α} (h : order ≠ []) (k : Nat) : GoesRound order k [] :=
  ⟨h, fun _ hi => absurd hi (Nat.not_lt_zero _)⟩

theorem GoesRound.snoc {α : Type} {order xs : List α} {k : Nat} (h : GoesRound order k xs) {x : α}
    (hx : order[(k + xs.length) % order.length]? = some x) : GoesRound order k (xs ++ [x]) := by
  refine ⟨h.1, fun i hi => ?_⟩
  rw [List.length_append, List.length_singleton] at hi
  by_cases hlt : i < xs.length
  · rw [List.getElem?_append_left hlt]; exact h.2 i hlt
  · rw [show i = xs.length by omega, List.getElem?_append_right le_rfl, Nat.sub_self, hx]; rfl

section
variable {sqrt : ℚ → ℚ} {target : ℚ} {ranges : List (List Combo)} {b d : Nat} {s : Sim} {r0 : Results} {nT : Nat}

/-- Thread by thread. -/
theorem on_update {cr : CombinedRange} {locals : Nat → McLocal} {Dl : Nat → List (List WHand × List Nat)}
    (h : ∀ u < nT, OnRound s cr (locals u) (Dl u)) {t : Nat} {l' : McLocal} {D' : List (List WHand × List Nat)} (h' : OnRound s cr l' D') :
    ∀ u < nT, OnRound s cr (Function.update locals t l' u) (Function.update Dl t D' u) := by
  intro u hu
  by_cases hut : u = t
  · subst hut; rw [Function.update_self, Function.update_self]; exact h'
  · rw [Function.update_of_ne hut, Function.update_of_ne hut]; exact h u hu

theorem on_quiet {cr : CombinedRange} {locals : Nat → McLocal} {Dl : Nat → List (List WHand × List Nat)}
    (h : ∀ u < nT, OnRound s cr (locals u) (Dl u)) {t : Nat} {l' : McLocal} (h' : OnRound s cr l' (Dl t)) :
    ∀ u < nT, OnRound s cr (Function.update locals t l' u) (Dl u) := by
  have := on_update h h' (t := t)
  rw [Function.update_eq_self] at this
  exact this

theorem McInv.rounds (hr : McReady ranges b d s) {cr : CombinedRange} (h1 : s.combinedRanges = [cr]) {w w' : McWorld}
    {hist : List (Batch × HandStats)} {Dr : List (List WHand × List Nat)} {Dl : Nat → List (List WHand × List Nat)}
    (h : McInv sqrt ranges b d s r0 nT w hist Dr Dl) (hR : InRounds s cr Dr) (hL : ∀ t < nT, OnRound s cr (w.locals t) (Dl t))
    (hstep : McStep sqrt target s nT w w') : ∃ hist' Dr' Dl', McInv sqrt ranges b d s r0 nT w' hist' Dr' Dl' ∧ InRounds s cr Dr' ∧
      ∀ t < nT, OnRound s cr (w'.locals t) (Dl' t) := by
  obtain ⟨hn, hbm, hdm, hfb, hce, _, _, _, _, _⟩ := hr.fields
  obtain ⟨hok, hpos⟩ := hr.crsOk
  have hmem : cr ∈ s.combinedRanges := by rw [h1]; exact List.mem_singleton_self _
  have hsz := hok.size cr hmem
  have hpos := hpos cr hmem
  have hfit := hr.fits cr hmem
  have hne : visitOrder s cr ≠ [] := by
    intro e
    have := visitOrder_length s cr
    rw [e, List.length_nil] at this
    omega
  -- the combo at which a walk is
  have hat : ∀ {wk : Walk} {picks : List JointCombo}, WalkOk s.combinedRanges (b ||| d) wk picks →
      ∃ c, picks = [c] ∧ cr.combos[wk.indexes 0]? = some c ∧ wk.indexes 0 < cr.combos.length := by
    intro wk picks hw
    rw [h1] at hw
    obtain ⟨c, rfl⟩ := List.length_eq_one_iff.1 hw.len
    have hi : cr.combos[wk.indexes 0]? = some c := hw.index 0 Nat.one_pos
    refine ⟨c, rfl, hi, ?_⟩
    by_contra hcon
    rw [List.getElem?_eq_none (by omega)] at hi
    cases hi
  cases hstep with
  | cancel => exact ⟨hist, Dr, Dl, ⟨h.res, h.sent, h.hids, h.hbatch, h.hsum, h.hcount, h.loc, h.fresh, h.len, h.ids, h.legalR, h.legalL, h.walk,
      h.outside, h.fine⟩, hR, hL⟩
  | thread t ht hpc ds l g hs =>
    obtain ⟨hist', Dr', Dl', hi', hmv⟩ := h.moves hr ht hpc hs
    refine ⟨hist', Dr', Dl', hi', ?_⟩
    have hwalk' := hi'.walk t ht
    rw [show (McWorld.locals _ t) = l from Function.update_self ..] at hwalk'
    have hlen := h.len t ht
    unfold Moves at hmv
    unfold mcStep at hs
    -- the beginning of a batch
    have hbegin : (Dl t).length = 0 → (l.pc = .eval ∨ l.pc = .move → ∃ picks, WalkOk s.combinedRanges (b ||| d) l.walk picks) →
        OnRound s cr l (Dl t) := by
      intro h0 hw
      have hD := List.length_eq_zero_iff.1 h0
      by_cases he : l.pc = .eval
      · obtain ⟨picks, hw⟩ := hw (Or.inl he)
        obtain ⟨c, _, _, hlt⟩ := hat hw
        refine ⟨cr.combos.length - 1 - l.walk.indexes 0, ?_, fun _ => ?_, fun hm => ?_⟩
        · rw [hD]; exact GoesRound.nil hne _
        · rw [h0, Nat.add_zero, Nat.mod_eq_of_lt (by omega)]; omega
        · rw [he] at hm; cases hm
      · by_cases hm : l.pc = .move
        · obtain ⟨picks, hw⟩ := hw (Or.inr hm)
          obtain ⟨c, _, _, hlt⟩ := hat hw
          refine ⟨cr.combos.length - 1 - l.walk.indexes 0 + 1, ?_, fun h' => absurd h' he, fun _ => ?_⟩
          · rw [hD]; exact GoesRound.nil hne _
          · exact ⟨cr.combos.length - 1 - l.walk.indexes 0, by omega, by rw [h0]⟩
        · refine ⟨0, ?_, fun h' => absurd h' he, fun h' => absurd h' hm⟩
          rw [hD]; exact GoesRound.nil hne _
    cases hc : (w.locals t).pc with
    | start =>
      rw [hc] at hlen hmv
      obtain ⟨rfl, rfl⟩ := hmv
      exact ⟨hR, on_quiet hL (hbegin hlen hwalk')⟩
    | check =>
      rw [hc] at hlen hmv
      obtain ⟨rfl, rfl⟩ := hmv
      exact ⟨hR, on_quiet hL (hbegin hlen hwalk')⟩
    | restart =>
      rw [hc] at hlen hmv
      obtain ⟨rfl, rfl⟩ := hmv
      exact ⟨hR, on_quiet hL (hbegin hlen hwalk')⟩
    | eval =>
      rw [hc] at hs hlen hmv
      simp only at hs
      obtain ⟨rfl, picks, B, hw, rfl⟩ := hmv
      obtain ⟨c, rfl, hcc, hlt⟩ := hat hw
      obtain ⟨k, k1, k2, _⟩ := hL t ht
      have k2 := k2 hc
      obtain ⟨dd, hdd, hatd⟩ := hr.atDeal hw (h.outside t ht)
      obtain ⟨_, hev⟩ := hr.evalDeal hdd hatd ds
      cases ho : evalDeal s (w.locals t) ds with
      | more => rw [ho] at hs; cases hs
      | panic => exact absurd ho (hr.evalDeal hdd hatd ds).1
      | ok l1 rest =>
        obtain ⟨_, _, _, _, g3, _⟩ := hev _ _ ho
        rw [ho] at hs
        injection hs with hs _
        injection hs with hl hg
        refine ⟨hR, on_update hL ⟨k, ?_, fun he => ?_, fun _ => ?_⟩⟩
        · rw [List.map_append]
          refine GoesRound.snoc k1 ?_
          rw [List.length_map, visitOrder_length]
          exact visitOrder_get k2 hcc
        · exfalso
          rw [← hl] at he
          simp only at he
          split at he <;> cases he
        · refine ⟨(k + (Dl t).length) % cr.combos.length, ?_, ?_⟩
          · rw [← hl]
            show l1.walk.indexes 0 + _ + 1 = _
            rw [g3]
            exact k2
          · rw [List.length_append, List.length_singleton, Nat.mod_add_mod, Nat.add_assoc]
    | flush =>
      rw [hc] at hs hlen hmv
      simp only at hs
      obtain ⟨rfl, rfl⟩ := hmv
      injection hs with hs _
      injection hs with hl hg
      obtain ⟨k, k1, _⟩ := hL t ht
      obtain ⟨batches, rfl, hB⟩ := hR
      refine ⟨⟨batches ++ [Dl t], by simp, ?_⟩, on_update hL ⟨0, GoesRound.nil hne _, fun he => ?_, fun he => ?_⟩⟩
      · intro B hm
        rcases List.mem_append.1 hm with hm | hm
        · exact hB B hm
        · rw [List.mem_singleton] at hm; subst hm; exact ⟨hlen, k, k1⟩
      · rw [← hl] at he; cases he
      · rw [← hl] at he; cases he
    | move =>
      rw [hc] at hs hlen hmv
      simp only at hs
      obtain ⟨rfl, rfl⟩ := hmv
      obtain ⟨picks, hw⟩ := h.walk t ht (Or.inr hc)
      obtain ⟨k, k1, _, k3⟩ := hL t ht
      obtain ⟨j, j1, j2⟩ := k3 hc
      refine ⟨hR, on_quiet hL ?_⟩
      cases ho : sample s.combinedRanges.length ds with
      | more => rw [ho] at hs; cases hs
      | panic => exact absurd ho (sample_no_panic _ _)
      | ok i rest =>
        rw [ho] at hs
        simp only at hs
        obtain ⟨hi, _⟩ := sample_ok ho
        rw [h1, List.length_singleton] at hi
        obtain rfl : i = 0 := by omega
        rw [h1, List.getElem?_cons_zero] at hs
        simp only at hs
        rw [h1] at hw
        cases hrd : redeal cr 0 (w.locals t).walk with
        | none =>
          rw [h1] at hok
          obtain ⟨w1, _, e1, _⟩ := redeal_spec hok hw (i := 0) Nat.one_pos
          have e1 : redeal cr 0 (w.locals t).walk = some w1 := e1
          rw [hrd] at e1; cases e1
        | some w1 =>
          rw [hrd] at hs
          injection hs with hs _
          injection hs with hl hg
          have hidx := redeal_single hsz hfit hw hrd
          refine ⟨k, k1, fun _ => ?_, fun he => ?_⟩
          · rw [← hl]
            show w1.indexes 0 + _ + 1 = _
            rw [hidx, ← j2]
            unfold backPos
            by_cases hz : 1 ≤ (w.locals t).walk.indexes 0
            · rw [if_pos hz, Nat.mod_eq_of_lt (by omega)]; omega
            · rw [if_neg hz, show j + 1 = cr.combos.length by omega, Nat.mod_self]; omega
          · rw [← hl] at he; cases he
    | final =>
      rw [hc] at hs hlen hmv
      simp only at hs
      obtain ⟨rfl, rfl⟩ := hmv
      injection hs with hs _
      injection hs with hl hg
      have h0 := List.length_eq_zero_iff.1 hlen
      refine ⟨by rw [h0, List.append_nil]; exact hR, on_update hL ⟨0, GoesRound.nil hne _, fun he => ?_, fun he => ?_⟩⟩
      · rw [← hl] at he; cases he
      · rw [← hl] at he; cases he
    | done => exact absurd hc hpc.1
    | panicked => exact absurd hc hpc.2

theorem McInv.steps_rounds (hr : McReady ranges b d s) {cr : CombinedRange} (h1 : s.combinedRanges = [cr]) {cancelled : Bool} {w : McWorld}
    (hs : McSteps sqrt target s nT (McWorld.init s r0 cancelled) w) :
    ∃ hist Dr Dl, McInv sqrt ranges b d s r0 nT w hist Dr Dl ∧ InRounds s cr Dr := by
  have hne : visitOrder s cr ≠ [] := by
    intro e
    have h2 := visitOrder_length s cr
    obtain ⟨hok, hpos⟩ := hr.crsOk
    have hmem : cr ∈ s.combinedRanges := by rw [h1]; exact List.mem_singleton_self _
    have h3 := hpos cr hmem
    rw [e, List.length_nil, ← hok.size cr hmem] at h2
    omega
  have : ∃ hist Dr Dl, McInv sqrt ranges b d s r0 nT w hist Dr Dl ∧ InRounds s cr Dr ∧ ∀ t < nT, OnRound s cr (w.locals t) (Dl t) := by
    induction hs with
    | refl =>
      refine ⟨_, _, _, McInv.init sqrt ranges b d s r0 nT cancelled, ⟨[], rfl, by simp⟩, fun t _ => ⟨0, GoesRound.nil hne _, ?_, ?_⟩⟩
      · intro he; cases he
      · intro he; cases he
    | step _ hstep ih =>
      obtain ⟨_, _, _, h, hR, hL⟩ := ih
      exact h.rounds hr h1 hR hL hstep
  obtain ⟨hist, Dr, Dl, h, hR, _⟩ := this
  exact ⟨hist, Dr, Dl, h, hR⟩

end

end Pokers

import Verif.Model.CheckedMc
import Verif.Proofs.CheckedSound
import Verif.Props.Overflow
import Verif.Proofs.McRun
import Verif.Proofs.Totals
/-!
# Runs of the random simulation with and without the checks
-/
namespace Pokers
open Spec CombinedRange
open Finset (range)

/-! ## Soundness: what does not panic is as without the checks -/

theorem weightC_sound {w : Walk} {x : Nat} (h : w.weightC = some x) : x = w.weight :=
  foldlM_sound (f := fun x i => x * w.weights i) (fun _ _ _ h => (fits_sound h).1) _ _ _ h

theorem evalDealC_sound {s : Sim} {l l' : McLocal} {ds rest : Draws} (h : evalDealC s l ds = .ok l' rest) :
    evalDeal s l ds = .ok l' rest := by
  unfold evalDealC at h
  unfold evalDeal
  cases h1 : subC 5 s.fixedBoard.count with
  | none => rw [h1] at h; cases h
  | some k =>
    rw [h1] at h
    simp only at h ⊢
    cases h2 : l.walk.weightC with
    | none => rw [h2] at h; cases h
    | some weight =>
      rw [h2] at h
      simp only at h
      cases h3 : randomizeBoard k (l.walk.used ||| s.deadMask) s.fixedBoard ds with
      | more => rw [h3] at h; cases h
      | panic => rw [h3] at h; cases h
      | ok board ds' =>
        rw [h3] at h
        simp only at h ⊢
        cases h4 : evaluateHandsC s.nPlayers (s.nPlayers * NUM_HANDS) l.walk.hands weight board l.walk.lookup true (l.stats, l.hands) with
        | none => rw [h4] at h; cases h
        | some st =>
          rw [h4] at h
          rw [← h, evaluateHandsC_sound h4, weightC_sound h2]

theorem updateC_sound {sqrt : ℚ → ℚ} {target : ℚ} {s : Sim} {fin : Bool} {l : McLocal} {g g' : McShared}
    (h : g.updateC sqrt target s fin l = some g') :
    g' = g.update sqrt target s fin l ∧ updateResultsC sqrt s.nPlayers s.calcExact l.stats l.hands g.results = some g'.results := by
  obtain ⟨r, hr, rfl⟩ := Option.map_eq_some_iff.1 h
  refine ⟨?_, hr⟩
  unfold McShared.update
  rw [(updateResultsC_sound hr).1]

/-- A step with the checks is a step without, or a panic in which nothing else changes. -/
theorem mcStepC_sound {sqrt : ℚ → ℚ} {target : ℚ} {s : Sim} {l l' : McLocal} {g g' : McShared} {ds rest : Draws}
    (h : mcStepC sqrt target s l g ds = .ok (l', g') rest) :
    (l'.pc = .panicked ∧ l'.stats = l.stats ∧ g' = g) ∨ mcStep sqrt target s l g ds = .ok (l', g') rest := by
  unfold mcStepC at h
  unfold mcStep
  cases hc : l.pc with
  | eval =>
    rw [hc] at h
    simp only at h ⊢
    cases h1 : evalDealC s l ds with
    | more => rw [h1] at h; cases h
    | panic =>
      rw [h1] at h
      injection h with h _
      injection h with h2 h3
      subst h2; subst h3
      exact Or.inl ⟨rfl, rfl, rfl⟩
    | ok l1 ds1 =>
      rw [h1] at h
      rw [evalDealC_sound h1]
      exact Or.inr h
  | flush =>
    rw [hc] at h
    simp only at h ⊢
    cases h1 : g.updateC sqrt target s false l with
    | none =>
      rw [h1] at h
      injection h with h _
      injection h with h2 h3
      subst h2; subst h3
      exact Or.inl ⟨rfl, rfl, rfl⟩
    | some g1 =>
      rw [h1] at h
      rw [← (updateC_sound h1).1]
      exact Or.inr h
  | final =>
    rw [hc] at h
    simp only at h ⊢
    cases h1 : g.updateC sqrt target s true l with
    | none =>
      rw [h1] at h
      injection h with h _
      injection h with h2 h3
      subst h2; subst h3
      exact Or.inl ⟨rfl, rfl, rfl⟩
    | some g1 =>
      rw [h1] at h
      rw [← (updateC_sound h1).1]
      exact Or.inr h
  | _ =>
    right
    rw [hc] at h
    simp only at h
    unfold mcStep at h
    rw [hc] at h
    exact h

/-! ## The number of evaluations -/

/-- The evaluations made so far: those in the results and those in the counters of the threads. -/
def McWorld.evals (w : McWorld) (nT : Nat) : Nat := w.shared.results.evalCount + ∑ t ∈ range nT, (w.locals t).stats.evalCount

theorem updateResults_evals (sqrt : ℚ → ℚ) (n : Nat) (ex : Bool) (b : Batch) (hb : HandStats) (r : Results) :
    (updateResults sqrt n ex b hb r).evalCount = r.evalCount + b.evalCount := by
  unfold updateResults
  cases ex <;> rfl

theorem mcStep_evals {sqrt : ℚ → ℚ} {target : ℚ} {s : Sim} {l l' : McLocal} {g g' : McShared} {ds rest : Draws}
    (h : mcStep sqrt target s l g ds = .ok (l', g') rest) :
    g.results.evalCount + l.stats.evalCount ≤ g'.results.evalCount + l'.stats.evalCount := by
  unfold mcStep at h
  cases hc : l.pc with
  | eval =>
    rw [hc] at h
    simp only at h
    cases h1 : evalDeal s l ds with
    | more => rw [h1] at h; cases h
    | panic =>
      rw [h1] at h
      injection h with h _
      injection h with h2 h3
      subst h2; subst h3
      exact le_rfl
    | ok l1 ds1 =>
      rw [h1] at h
      injection h with h _
      injection h with h2 h3
      subst h2; subst h3
      refine Nat.add_le_add_left ?_ _
      show l.stats.evalCount ≤ l1.stats.evalCount
      unfold evalDeal at h1
      cases h2 : subC 5 s.fixedBoard.count with
      | none => rw [h2] at h1; cases h1
      | some k =>
        rw [h2] at h1
        simp only at h1
        cases h3 : randomizeBoard k (l.walk.used ||| s.deadMask) s.fixedBoard ds with
        | more => rw [h3] at h1; cases h1
        | panic => rw [h3] at h1; cases h1
        | ok board ds' =>
          rw [h3] at h1
          injection h1 with h1 _
          rw [← h1]
          exact Nat.le_succ _
  | flush =>
    rw [hc] at h
    injection h with h _
    injection h with h2 h3
    subst h2; subst h3
    show _ ≤ (updateResults _ _ _ _ _ _).evalCount + _
    rw [updateResults_evals]
    exact Nat.le_add_right _ _
  | final =>
    rw [hc] at h
    injection h with h _
    injection h with h2 h3
    subst h2; subst h3
    show _ ≤ (updateResults _ _ _ _ _ _).evalCount + _
    rw [updateResults_evals]
    exact Nat.le_add_right _ _
  | start =>
    rw [hc] at h
    simp only at h
    split at h <;> first | (cases h; done) | (injection h with h _; injection h with h2 h3; subst h2; subst h3; exact le_rfl)
  | restart =>
    rw [hc] at h
    simp only at h
    split at h <;> first | (cases h; done) | (injection h with h _; injection h with h2 h3; subst h2; subst h3; exact le_rfl)
  | move =>
    rw [hc] at h
    simp only at h
    split at h
    · split at h
      · injection h with h _; injection h with h2 h3; subst h2; subst h3; exact le_rfl
      · split at h <;> (injection h with h _; injection h with h2 h3; subst h2; subst h3; exact le_rfl)
    · cases h
    · injection h with h _; injection h with h2 h3; subst h2; subst h3; exact le_rfl
  | check =>
    rw [hc] at h
    injection h with h _; injection h with h2 h3; subst h2; subst h3; exact le_rfl
  | done =>
    rw [hc] at h
    injection h with h _; injection h with h2 h3; subst h2; subst h3; exact le_rfl
  | panicked =>
    rw [hc] at h
    injection h with h _; injection h with h2 h3; subst h2; subst h3; exact le_rfl

theorem evals_update {w : McWorld} {nT t : Nat} (ht : t < nT) (l : McLocal) (g : McShared) :
    (McWorld.mk (Function.update w.locals t l) g).evals nT + (w.shared.results.evalCount + (w.locals t).stats.evalCount) =
      w.evals nT + (g.results.evalCount + l.stats.evalCount) := by
  unfold McWorld.evals
  simp only
  have h1 := Finset.add_sum_erase (range nT) (fun t' => (Function.update w.locals t l t').stats.evalCount) (Finset.mem_range.2 ht)
  have h2 := Finset.add_sum_erase (range nT) (fun t' => (w.locals t').stats.evalCount) (Finset.mem_range.2 ht)
  have h3 : ∑ t' ∈ (range nT).erase t, (Function.update w.locals t l t').stats.evalCount = ∑ t' ∈ (range nT).erase t, (w.locals t').stats.evalCount := by
    refine Finset.sum_congr rfl fun t' ht' => ?_
    rw [Function.update_of_ne (Finset.ne_of_mem_erase ht')]
  simp only [Function.update_self] at h1
  omega

section
variable {sqrt : ℚ → ℚ} {target : ℚ} {s : Sim} {nT : Nat}

theorem McStep.evals_le {u v : McWorld} (h : McStep sqrt target s nT u v) : u.evals nT ≤ v.evals nT := by
  cases h with
  | cancel => exact le_rfl
  | thread t ht hpc ds l g hs =>
    have h1 := mcStep_evals hs
    have h2 := evals_update (w := u) ht l g
    omega

theorem McStepC.evals_le {u v : McWorld} (h : McStepC sqrt target s nT u v) : u.evals nT ≤ v.evals nT := by
  cases h with
  | cancel => exact le_rfl
  | thread t ht hpc ds l g hs =>
    have h2 := evals_update (w := u) ht l g
    rcases mcStepC_sound hs with ⟨_, h3, h4⟩ | h3
    · rw [h3, h4] at h2
      rw [h4]
      omega
    · have h1 := mcStep_evals h3
      omega

end

/-! ## Completeness: while there is room nothing panics -/

theorem showsFull_fits {n M : Nat} {sd : List (List WHand × List Nat)} (hwf : ∀ x ∈ sd, WfDeal x.1)
    (hM : ∀ x ∈ sd, Spec.dealWeight x.1 ≤ M) (hw : sd.length * M < 2 ^ 64) (hpos : 1 ≤ M) : FFits n (showsFull sd) := by
  have ht : totalWeight sd ≤ sd.length * M := by
    clear hw hwf
    unfold totalWeight
    induction sd with
    | nil => exact Nat.zero_le _
    | cons x sd ih =>
      rw [List.map_cons, List.sum_cons, List.length_cons, Nat.succ_mul, Nat.add_comm]
      exact Nat.add_le_add (ih (fun y hy => hM y (by simp [hy]))) (hM x (by simp))
  have htw := lt_of_le_of_lt ht hw
  constructor
  · intro k hk
    obtain ⟨p, hp, x, hx, y, hy, hxy, rfl⟩ := card_index_surj hk
    show ((sdTally sd).2 _).1 < _ ∧ ((sdTally sd).2 _).2.1 < _ ∧ ((sdTally sd).2 _).2.2.1 < _
    rw [sdTally_cell sd hwf hx hy hxy]
    exact ⟨lt_of_le_of_lt (weightOf_le_total _ _) htw, lt_of_le_of_lt (weightOf_le_total _ _) htw,
      lt_of_le_of_lt (weightOf_le_total _ _) htw⟩
  · have e : ∀ i ∈ range (2 ^ n), (showsFull sd).1.1 i = weightOf sd fun x => u8Mask (winners x.2 x.1) = i :=
      fun i _ => sdTally_mask sd i
    rw [Finset.sum_congr rfl e]
    exact lt_of_le_of_lt (sum_masks_le _ _ sd) htw
  · show sd.length < _
    exact lt_of_le_of_lt (Nat.le_mul_of_pos_right _ hpos) hw

theorem weightC_eq {w : Walk} (h : ∀ p, w.weights p ≤ 100) : w.weightC = some w.weight := by
  have key : ∀ n, n ≤ 9 → (List.range n).foldlM (fun x i => fits 64 (x * w.weights i)) 1 =
      some ((List.range n).foldl (fun x i => x * w.weights i) 1) ∧ (List.range n).foldl (fun x i => x * w.weights i) 1 ≤ 100 ^ n := by
    intro n
    induction n with
    | zero => intro _; exact ⟨rfl, le_rfl⟩
    | succ n ih =>
      intro hn
      obtain ⟨h1, h2⟩ := ih (by omega)
      have hle : (List.range n).foldl (fun x i => x * w.weights i) 1 * w.weights n ≤ 100 ^ (n + 1) := by
        rw [pow_succ]; exact Nat.mul_le_mul h2 (h n)
      rw [List.range_succ, List.foldlM_append, h1, List.foldl_append]
      refine ⟨?_, hle⟩
      simp only [Option.bind_eq_bind, Option.bind_some, List.foldlM_cons, List.foldlM_nil, List.foldl_cons, List.foldl_nil]
      rw [fits_some (lt_of_le_of_lt hle (lt_of_le_of_lt (Nat.pow_le_pow_right (by decide) hn) (by decide)))]
      rfl
  exact (key 9 le_rfl).1

section
variable {sqrt : ℚ → ℚ} {target : ℚ} {ranges : List (List Combo)} {b d : Nat} {s : Sim} {r0 : Results} {flag nT : Nat}

theorem Legal.wf (hr : McReady ranges b d s) {x : List WHand × List Nat} (h : Legal ranges b d x) : WfDeal x.1 :=
  (deals_wf hr.wf h.1).2.1

theorem McInv.res_full {w : McWorld} {hist : List (Batch × HandStats)} {Dr : List (List WHand × List Nat)}
    {Dl : Nat → List (List WHand × List Nat)} (h : McInv sqrt ranges b d s r0 nT w hist Dr Dl)
    (hr0 : startResults s = some (r0, flag)) : trunc s.nPlayers (resFull w.shared.results) = trunc s.nPlayers (showsFull Dr) := by
  rw [h.res, applyFlushes_full _ _ _ _ _ h.hids, (startResults_counts hr0).2.2.1, map_zero, zero_add, ← h.hsum, map_list_sum,
    List.map_map]
  rfl

theorem McInv.updateC (hr : McReady ranges b d s) (h100 : ∀ r ∈ ranges, ∀ c ∈ r, c.w ≤ 100) {w : McWorld}
    {hist : List (Batch × HandStats)} {Dr : List (List WHand × List Nat)} {Dl : Nat → List (List WHand × List Nat)}
    (h : McInv sqrt ranges b d s r0 nT w hist Dr Dl) (hr0 : startResults s = some (r0, flag)) {t : Nat} (ht : t < nT)
    (hroom : (w.shared.results.evalCount + (w.locals t).stats.evalCount) * 100 ^ ranges.length < 2 ^ 64) (fin : Bool) :
    w.shared.updateC sqrt target s fin (w.locals t) = some (w.shared.update sqrt target s fin (w.locals t)) := by
  have h9 := hr.fields.2.2.2.2.2.2.1
  have hn := hr.fields.1
  have hres := h.res_full hr0
  have hloc := h.loc t ht
  have e1 : w.shared.results.evalCount = Dr.length := congrArg (fun x : FT => x.2) hres
  have e2 : (w.locals t).stats.evalCount = (Dl t).length := congrArg (fun x : FT => x.2) hloc
  have hlegal : ∀ x ∈ Dr ++ Dl t, Legal ranges b d x := by
    intro x hx
    rcases List.mem_append.1 hx with hx | hx
    · exact h.legalR x hx
    · exact h.legalL t ht x hx
  have hF : FFits s.nPlayers (showsFull (Dr ++ Dl t)) := by
    refine showsFull_fits (M := 100 ^ ranges.length) (fun x hx => (hlegal x hx).wf hr) (fun x hx => deal_le h100 (hlegal x hx).1) ?_
      (Nat.one_le_pow _ _ (by decide))
    rw [List.length_append, ← e1, ← e2]
    exact hroom
  have hF : FFits s.nPlayers (resFull w.shared.results + full ((w.locals t).stats, (w.locals t).hands)) := by
    apply FFits.of_trunc
    rw [map_add, hres, hloc, ← map_add, ← showsFull_append]
    constructor
    · intro k hk
      have e : (trunc s.nPlayers (showsFull (Dr ++ Dl t))).1.2 k = (showsFull (Dr ++ Dl t)).1.2 k := cut_apply _ hk
      rw [e]
      exact hF.cells k hk
    · have e : ∀ i ∈ range (2 ^ s.nPlayers), (trunc s.nPlayers (showsFull (Dr ++ Dl t))).1.1 i = (showsFull (Dr ++ Dl t)).1.1 i :=
        fun i hi => cut_apply _ (Finset.mem_range.1 hi)
      rw [Finset.sum_congr rfl e]
      exact hF.masks
    · exact hF.evals
  have hwins : ∀ p < s.nPlayers, w.shared.results.wins p = w.shared.results.winsByMask (2 ^ p) := by
    rw [h.res]
    obtain ⟨g1, _, g3, _⟩ := startResults_counts hr0
    refine applyFlushes_wins (by omega) (fun p hp => ?_) h.hids
    rw [g1 p]
    exact (congrFun (congrArg (fun x : FT => x.1.1) g3) (2 ^ p)).symm
  have hU := updateResultsC_eq (sqrt := sqrt) (ex := s.calcExact) (h.ids t ht) (fun k hk => hF.cells k hk) (fun i hi => hF.mask hi)
    (fun p hp => by
      rw [sum_maskWins _ hp (by omega), hwins p hp]
      exact hF.mask (Nat.pow_lt_pow_right (by decide) hp))
    (lt_of_le_of_lt (Finset.sum_le_sum fun i _ => Nat.le_add_left _ _) hF.masks) hF.evals
  unfold McShared.updateC McShared.update
  rw [hU]
  rfl

/-- While the evaluations leave room, a step has the same outcome with and without the checks. -/
theorem McInv.stepC_eq (hr : McReady ranges b d s) (h100 : ∀ r ∈ ranges, ∀ c ∈ r, c.w ≤ 100) {w : McWorld}
    {hist : List (Batch × HandStats)} {Dr : List (List WHand × List Nat)} {Dl : Nat → List (List WHand × List Nat)}
    (h : McInv sqrt ranges b d s r0 nT w hist Dr Dl) (hr0 : startResults s = some (r0, flag)) {t : Nat} (ht : t < nT)
    (ds : Draws)
    (hroom : ((w.locals t).pc = .eval → ((w.locals t).stats.evalCount + 1) * 100 ^ ranges.length < 2 ^ 64) ∧
      (w.shared.results.evalCount + (w.locals t).stats.evalCount) * 100 ^ ranges.length < 2 ^ 64) :
    mcStepC sqrt target s (w.locals t) w.shared ds = mcStep sqrt target s (w.locals t) w.shared ds := by
  unfold mcStepC
  cases hc : (w.locals t).pc with
  | eval =>
    obtain ⟨picks, hw⟩ := h.walk t ht (Or.inl hc)
    have hout := h.outside t ht
    obtain ⟨dd, hdd, hat⟩ := hr.atDeal hw hout
    have hwd := deals_wf hr.wf hdd
    have hlen := hwd.1
    have hweights : ∀ p, (w.locals t).walk.weights p ≤ 100 := by
      intro p
      by_cases hp : p < dd.length
      · rw [(hat.shows p hp).2.2, List.getD_eq_getElem _ _ hp]
        unfold deals at hdd
        have := ((mem_choices _ _).1 (List.mem_filter.1 hdd).1).2 p hp (by simp [specRanges]; omega)
        unfold specRanges at this
        rw [List.getElem_map, List.mem_map] at this
        obtain ⟨k, hk, he⟩ := this
        rw [← he]
        exact h100 _ (List.getElem_mem _) k hk
      · rw [hout p fun hmem => by
          have := List.mem_range.1 (hr.players.mem_iff.1 hmem)
          omega]
        decide
    obtain ⟨_, h2⟩ := hr.evalDeal hdd hat ds
    have hE : evalDealC s (w.locals t) ds = evalDeal s (w.locals t) ds := by
      unfold evalDeal at h2 ⊢
      unfold evalDealC
      cases g1 : subC 5 s.fixedBoard.count with
      | none => rfl
      | some k =>
        simp only [weightC_eq hweights]
        rw [g1] at h2
        simp only at h2
        cases g3 : randomizeBoard k ((w.locals t).walk.used ||| s.deadMask) s.fixedBoard ds with
        | more => rfl
        | panic => rfl
        | ok board ds' =>
          rw [g3] at h2
          simp only at h2 ⊢
          obtain ⟨B, hB, hfull, _⟩ := h2 _ _ rfl
          have hlk : ∀ i < s.nPlayers, (w.locals t).walk.lookup i < NUM_HANDS * s.nPlayers := by
            intro i hi
            have hi' : i < dd.length := by rw [hlen, ← hr.fields.1]; exact hi
            rw [(hat.shows i hi').2.1]
            have := hwd.2.1 (dd.getD i (0, 0, 0)) (by rw [List.getD_eq_getElem _ _ hi']; exact List.getElem_mem hi')
            exact cell_lt hi this.1 this.2.1 this.2.2
          have hn0 : 0 < s.nPlayers := by
            have := hr.fields
            omega
          have hfits : SFits s.nPlayers (evaluateHands s.nPlayers (w.locals t).walk.hands (w.locals t).walk.weight board
              (w.locals t).walk.lookup true ((w.locals t).stats, (w.locals t).hands)) := by
            apply FFits.state
            have hfull' := hfull.trans (by rw [h.loc t ht, ← showsFull_single, ← showsFull_append])
            refine (congrArg (FFits s.nPlayers) hfull').mpr ?_
            have hlegal : ∀ x ∈ Dl t ++ [(dd, B)], Legal ranges b d x := by
              intro x hx
              rcases List.mem_append.1 hx with hx | hx
              · exact h.legalL t ht x hx
              · rw [List.mem_singleton] at hx; subst hx; exact ⟨hdd, hB⟩
            refine showsFull_fits (M := 100 ^ ranges.length) (fun x hx => (hlegal x hx).wf hr)
              (fun x hx => deal_le h100 (hlegal x hx).1) ?_ (Nat.one_le_pow _ _ (by decide))
            have e2 : (w.locals t).stats.evalCount = (Dl t).length := congrArg (fun x : FT => x.2) (h.loc t ht)
            rw [List.length_append, List.length_singleton, ← e2]
            exact hroom.1 hc
          rw [(evaluateHandsC_eq hn0 _ _ _ hlk _ _).2 hfits]
    unfold mcStep
    rw [hc]
    simp only [hE]
    cases evalDeal s (w.locals t) ds <;> rfl
  | flush =>
    unfold mcStep
    rw [hc]
    simp only [h.updateC hr h100 hr0 ht hroom.2 false]
  | final =>
    unfold mcStep
    rw [hc]
    simp only [h.updateC hr h100 hr0 ht hroom.2 true]
  | _ => rfl

theorem evals_ge {w : McWorld} {t : Nat} (ht : t < nT) : w.shared.results.evalCount + (w.locals t).stats.evalCount ≤ w.evals nT :=
  Nat.add_le_add_left (Finset.single_le_sum (f := fun t => (w.locals t).stats.evalCount) (fun _ _ => Nat.zero_le _)
    (Finset.mem_range.2 ht)) _

/-- A run without the checks that leaves room is a run with the checks. -/
theorem McSteps.checked (hr : McReady ranges b d s) (h100 : ∀ r ∈ ranges, ∀ c ∈ r, c.w ≤ 100)
    (hr0 : startResults s = some (r0, flag)) {cancelled : Bool} {w : McWorld}
    (hs : McSteps sqrt target s nT (McWorld.init s r0 cancelled) w) (hroom : w.evals nT * 100 ^ ranges.length < 2 ^ 64) :
    McStepsC sqrt target s nT (McWorld.init s r0 cancelled) w := by
  induction hs with
  | refl => exact .refl
  | @step u v hs' hstep ih =>
    have hle := Nat.mul_le_mul_right (100 ^ ranges.length) hstep.evals_le
    refine .step (ih (by omega)) ?_
    obtain ⟨_, _, _, hI⟩ := McInv.steps hr hs'
    cases hstep with
    | cancel => exact .cancel _
    | thread t ht hpc ds l g hst =>
      refine .thread _ t ht hpc ds l g ?_
      have hroom' : ((u.locals t).pc = .eval → ((u.locals t).stats.evalCount + 1) * 100 ^ ranges.length < 2 ^ 64) ∧
          (u.shared.results.evalCount + (u.locals t).stats.evalCount) * 100 ^ ranges.length < 2 ^ 64 := by
        refine ⟨fun hev => ?_, lt_of_le_of_lt (Nat.mul_le_mul_right _ (evals_ge ht)) (by omega)⟩
        refine lt_of_le_of_lt (Nat.mul_le_mul_right _ ?_) hroom
        have h1 := evals_update (w := u) ht l g
        have h2 := evals_ge (w := u) ht
        have h3 : g.results.evalCount = u.shared.results.evalCount ∧ l.stats.evalCount = (u.locals t).stats.evalCount + 1 := by
          obtain ⟨picks, hw⟩ := hI.walk t ht (Or.inl hev)
          obtain ⟨dd, hdd, hat⟩ := hr.atDeal hw (hI.outside t ht)
          obtain ⟨n1, n2⟩ := hr.evalDeal hdd hat ds
          unfold mcStep at hst
          rw [hev] at hst
          simp only at hst
          cases ho : evalDeal s (u.locals t) ds with
          | more => rw [ho] at hst; cases hst
          | panic => exact absurd ho n1
          | ok l1 rest =>
            obtain ⟨_, _, hf, _⟩ := n2 _ _ ho
            rw [ho] at hst
            injection hst with hst _
            injection hst with hl hg
            subst hl; subst hg
            exact ⟨rfl, congrArg (fun x : FT => x.2) hf⟩
        omega
      rw [hI.stepC_eq hr h100 hr0 ht ds hroom']
      exact hst

/-- A run with the checks that leaves room is a run without. -/
theorem McStepsC.unchecked (hr : McReady ranges b d s) (h100 : ∀ r ∈ ranges, ∀ c ∈ r, c.w ≤ 100)
    (hr0 : startResults s = some (r0, flag)) {cancelled : Bool} {w : McWorld}
    (hs : McStepsC sqrt target s nT (McWorld.init s r0 cancelled) w) (hroom : (w.evals nT + 1) * 100 ^ ranges.length < 2 ^ 64) :
    McSteps sqrt target s nT (McWorld.init s r0 cancelled) w := by
  induction hs with
  | refl => exact .refl
  | @step u v hs' hstep ih =>
    have hle := Nat.mul_le_mul_right (100 ^ ranges.length) (Nat.succ_le_succ hstep.evals_le)
    have hu : (u.evals nT + 1) * 100 ^ ranges.length < 2 ^ 64 := lt_of_le_of_lt hle hroom
    have ih := ih hu
    obtain ⟨_, _, _, hI⟩ := McInv.steps hr ih
    refine .step ih ?_
    cases hstep with
    | cancel => exact .cancel _
    | thread t ht hpc ds l g hst =>
      refine .thread _ t ht hpc ds l g ?_
      have h2 := evals_ge (w := u) ht
      rw [hI.stepC_eq hr h100 hr0 ht ds ⟨fun _ => lt_of_le_of_lt (Nat.mul_le_mul_right _ (by omega)) hu,
        lt_of_le_of_lt (Nat.mul_le_mul_right _ (by omega)) hu⟩] at hst
      exact hst

/-! ## What the updates that did not panic tell -/

theorem mergeMasksC_hands {n : Nat} {b : Batch} {m m' : Merge} (hid : IdPlayers n b) (h : mergeMasksC n b m = some m') :
    m.batchHands + ∑ i ∈ range (2 ^ n), b.winsByMask i < 2 ^ 64 := by
  have e := (mergeMasks_eq n b hid m).2.2.2.2.2.1
  rw [← mergeMasksC_sound h] at e
  rw [← e]
  unfold mergeMasksC at h
  rw [Nat.one_shiftLeft, show 2 ^ n = (2 ^ n - 1) + 1 by have := Nat.two_pow_pos n; omega, List.range_succ, List.foldlM_append] at h
  simp only [Option.bind_eq_bind] at h
  obtain ⟨u, _, h⟩ := Option.bind_eq_some_iff.1 h
  rw [List.foldlM_cons] at h
  simp only [Option.bind_eq_bind] at h
  obtain ⟨v, hv, h⟩ := Option.bind_eq_some_iff.1 h
  have hvt : v = m' := Option.some.inj h
  subst hvt
  obtain ⟨x, hx, hv⟩ := Option.bind_eq_some_iff.1 hv
  obtain ⟨y, hy, hv⟩ := Option.bind_eq_some_iff.1 hv
  obtain ⟨z, hz, hv⟩ := Option.bind_eq_some_iff.1 hv
  have hv := Option.some.inj hv
  rw [← hv]
  have h1 := (mergePlayers_eq n b hid (2 ^ n - 1) { u with batchHands := x } n le_rfl).2.2.2.2.1
  rw [← mergePlayersC_sound hy] at h1
  show y.1.batchHands < _
  rw [h1]
  show x < _
  rw [(fits_sound hx).1]
  exact (fits_sound hx).2

theorem updateResultsC_hands {n : Nat} {ex : Bool} {b : Batch} {hb : HandStats} {r r' : Results} (hid : IdPlayers n b)
    (h : updateResultsC sqrt n ex b hb r = some r') : ∑ i ∈ range (2 ^ n), b.winsByMask i < 2 ^ 64 := by
  unfold updateResultsC at h
  simp only [Option.bind_eq_bind] at h
  obtain ⟨hand, h1, h⟩ := Option.bind_eq_some_iff.1 h
  obtain ⟨m, h2, h⟩ := Option.bind_eq_some_iff.1 h
  have := mergeMasksC_hands hid h2
  rwa [Nat.zero_add] at this

/-- A run with the checks in which no thread has panicked is a run without; the counters in the results fit, and every batch that
was added weighs less than `2^64`. -/
theorem McStepsC.sound (hr : McReady ranges b d s) (hr0 : startResults s = some (r0, flag)) {cancelled : Bool} {w : McWorld}
    (hs : McStepsC sqrt target s nT (McWorld.init s r0 cancelled) w) (hp : ∀ t < nT, (w.locals t).pc ≠ .panicked) :
    McSteps sqrt target s nT (McWorld.init s r0 cancelled) w ∧ HFits (NUM_HANDS * s.nPlayers) w.shared.results.handResults ∧
    ((∃ M, 2 ^ 64 ≤ 4096 * M ∧ ∀ x, Legal ranges b d x → M ≤ Spec.dealWeight x.1) → w.shared.results.evalCount = 0) := by
  induction hs with
  | refl =>
    have h0 := (startResults_counts hr0).2.2.1
    refine ⟨.refl, fun k _ => ?_, fun _ => congrArg (fun x : FT => x.2) h0⟩
    have hz := congrFun (congrArg (fun x : FT => x.1.2) h0) k
    have e1 : (r0.handResults k).wins = 0 := congrArg (fun c : Cell => c.1) hz
    have e2 : (r0.handResults k).ties = 0 := congrArg (fun c : Cell => c.2.1) hz
    have e3 : (r0.handResults k).total = 0 := congrArg (fun c : Cell => c.2.2.1) hz
    refine ⟨?_, ?_, ?_⟩
    · show (r0.handResults k).wins < 2 ^ 64; rw [e1]; decide
    · show (r0.handResults k).ties < 2 ^ 64; rw [e2]; decide
    · show (r0.handResults k).total < 2 ^ 64; rw [e3]; decide
  | @step u v hs' hstep ih =>
    cases hstep with
    | cancel =>
      obtain ⟨i1, i2, i3⟩ := ih hp
      exact ⟨.step i1 (.cancel _), i2, i3⟩
    | thread t ht hpc ds l g hst =>
      have hpu : ∀ t' < nT, (u.locals t').pc ≠ .panicked := by
        intro t' ht'
        by_cases hx : t' = t
        · subst hx; exact hpc.2
        · have := hp t' ht'
          simpa only [Function.update_of_ne hx] using this
      obtain ⟨i1, i2, i3⟩ := ih hpu
      rcases mcStepC_sound hst with ⟨h1, _⟩ | h1
      · have := hp t ht
        simp only [Function.update_self] at this
        exact absurd h1 this
      · refine ⟨.step i1 (.thread _ t ht hpc ds l g h1), ?_⟩
        obtain ⟨hist, Dr, Dl, hI⟩ := McInv.steps hr i1
        have keep : g.results = u.shared.results → HFits (NUM_HANDS * s.nPlayers) g.results.handResults ∧
            ((∃ M, 2 ^ 64 ≤ 4096 * M ∧ ∀ x, Legal ranges b d x → M ≤ Spec.dealWeight x.1) → g.results.evalCount = 0) := by
          intro h; rw [h]; exact ⟨i2, i3⟩
        show HFits (NUM_HANDS * s.nPlayers) g.results.handResults ∧ (_ → g.results.evalCount = 0)
        have upd : ∀ fin, u.shared.updateC sqrt target s fin (u.locals t) = some g → ((u.locals t).pc = .flush ∨ (u.locals t).pc = .final) →
            HFits (NUM_HANDS * s.nPlayers) g.results.handResults ∧
            ((∃ M, 2 ^ 64 ≤ 4096 * M ∧ ∀ x, Legal ranges b d x → M ≤ Spec.dealWeight x.1) → g.results.evalCount = 0) := by
          intro fin hu hpc'
          obtain ⟨_, h2⟩ := updateC_sound hu
          refine ⟨(updateResultsC_sound h2).2, ?_⟩
          rintro ⟨M, hM1, hM2⟩
          rw [(updateResultsC_sound h2).1, updateResults_evals, i3 ⟨M, hM1, hM2⟩, Nat.zero_add]
          have hsum := updateResultsC_hands (hI.ids t ht) h2
          have hloc := hI.loc t ht
          have e2 : (u.locals t).stats.evalCount = (Dl t).length := congrArg (fun x : FT => x.2) hloc
          rcases hpc' with hpc' | hpc'
          · exfalso
            have hl := hI.len t ht
            rw [hpc'] at hl
            have hl : (Dl t).length = 4096 := hl
            have e : ∀ i ∈ range (2 ^ s.nPlayers), (u.locals t).stats.winsByMask i =
                weightOf (Dl t) fun x => u8Mask (winners x.2 x.1) = i := by
              intro i _
              rw [← sdTally_mask]
              exact congrFun (congrArg (fun x : FT => x.1.1) hloc) i
            rw [Finset.sum_congr rfl e] at hsum
            have hge : ∀ D : List (List WHand × List Nat), (∀ x ∈ D, Legal ranges b d x) →
                D.length * M ≤ ∑ i ∈ range (2 ^ s.nPlayers), weightOf D fun x => u8Mask (winners x.2 x.1) = i := by
              intro D
              induction D with
              | nil => intro _; rw [List.length_nil, Nat.zero_mul]; exact Nat.zero_le _
              | cons x D ihD =>
                intro hD
                simp only [weightOf_cons]
                rw [Finset.sum_add_distrib, List.length_cons, Nat.succ_mul, Nat.add_comm]
                refine Nat.add_le_add ?_ (ihD fun y hy => hD y (by simp [hy]))
                rw [Finset.sum_ite_eq, if_pos]
                · exact hM2 x (hD x (by simp))
                · rw [Finset.mem_range, hr.fields.1]
                  have hx := hD x (by simp)
                  have hlen := (deals_wf hr.wf hx.1).1
                  rw [← hlen]
                  exact winMask_lt (by rw [hlen]; exact hr.fields.2.2.2.2.2.2.1)
            have := hge (Dl t) (hI.legalL t ht)
            rw [hl] at this
            omega
          · rw [e2]
            have hl := hI.len t ht
            rw [hpc'] at hl
            exact hl
        unfold mcStepC at hst
        unfold mcStep at h1
        cases hc : (u.locals t).pc with
        | flush =>
          rw [hc] at hst
          simp only at hst
          cases hu : u.shared.updateC sqrt target s false (u.locals t) with
          | none =>
            rw [hu] at hst
            injection hst with hst _
            injection hst with h3 h4
            have := hp t ht
            simp only [Function.update_self] at this
            rw [← h3] at this
            exact absurd rfl this
          | some g1 =>
            rw [hu] at hst
            injection hst with hst _
            injection hst with h3 h4
            subst h4
            exact upd false hu (Or.inl hc)
        | final =>
          rw [hc] at hst
          simp only at hst
          cases hu : u.shared.updateC sqrt target s true (u.locals t) with
          | none =>
            rw [hu] at hst
            injection hst with hst _
            injection hst with h3 h4
            have := hp t ht
            simp only [Function.update_self] at this
            rw [← h3] at this
            exact absurd rfl this
          | some g1 =>
            rw [hu] at hst
            injection hst with hst _
            injection hst with h3 h4
            subst h4
            exact upd true hu (Or.inr hc)
        | eval =>
          rw [hc] at h1
          simp only at h1
          split at h1 <;> first | (cases h1; done) | (injection h1 with h1 _; injection h1 with h2 h3; exact keep (by rw [← h3]))
        | start =>
          rw [hc] at h1
          simp only at h1
          split at h1 <;> first | (cases h1; done) | (injection h1 with h1 _; injection h1 with h2 h3; exact keep (by rw [← h3]))
        | restart =>
          rw [hc] at h1
          simp only at h1
          split at h1 <;> first | (cases h1; done) | (injection h1 with h1 _; injection h1 with h2 h3; exact keep (by rw [← h3]))
        | move =>
          rw [hc] at h1
          simp only at h1
          split at h1
          · split at h1
            · injection h1 with h1 _; injection h1 with h2 h3; exact keep (by rw [← h3])
            · split at h1 <;> (injection h1 with h1 _; injection h1 with h2 h3; exact keep (by rw [← h3]))
          · cases h1
          · injection h1 with h1 _; injection h1 with h2 h3; exact keep (by rw [← h3])
        | check =>
          rw [hc] at h1
          injection h1 with h1 _; injection h1 with h2 h3; exact keep (by rw [← h3])
        | done => exact absurd hc hpc.1
        | panicked => exact absurd hc hpc.2

end

end Pokers

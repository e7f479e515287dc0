import Verif.Proofs.ReleaseRun
/-!
# Without overflow the release build computes what the floating-point model computes
-/
namespace Pokers
open Spec CombinedRange

/-- The counters of two records are the same. -/
structure UInt (u v : UnitResults) : Prop where
  wins : v.wins = u.wins
  ties : v.ties = u.ties
  total : v.total = u.total

theorem UClose.int {n : Nat} {u v : UnitResults} (h : UClose n u v) : UInt u v := ⟨h.wins, h.ties, h.total⟩

/-- A loop with checks that succeeds, and the two loops that follow it. -/
theorem foldC_same {σ τ α : Type} {P : σ → τ → Prop} {fC : σ → α → Option σ} {fR fF : τ → α → τ} (l : List α)
    (h : ∀ x ∈ l, ∀ a b a', P a b → fC a x = some a' → fR b x = fF b x ∧ P a' (fF b x)) {a : σ} {b : τ} {a' : σ} (h0 : P a b)
    (hC : l.foldlM fC a = some a') : l.foldl fR b = l.foldl fF b ∧ P a' (l.foldl fF b) := by
  induction l generalizing a b with
  | nil => rw [← Option.some.inj hC]; exact ⟨rfl, h0⟩
  | cons x l ih =>
    rw [List.foldlM_cons] at hC
    obtain ⟨a1, h1, hC⟩ := Option.bind_eq_some_iff.1 hC
    obtain ⟨e, hP⟩ := h x (by simp) a b a1 h0 h1
    rw [List.foldl_cons, List.foldl_cons, e]
    exact ih (fun y hy => h y (by simp [hy])) hP hC

theorem modifyC_same {len : Nat} {hs hs1 hs' : HandStats} {k : Nat} {fC : UnitResults → Option UnitResults} {fR fF : UnitResults → UnitResults}
    (h : ∀ j, UInt (hs j) (hs' j)) (hf : ∀ u u1 v, UInt u v → fC u = some u1 → fR v = fF v ∧ UInt u1 (fF v))
    (hC : modifyC len hs k fC = some hs1) : modify hs' k fR = modify hs' k fF ∧ ∀ j, UInt (hs1 j) (modify hs' k fF j) := by
  unfold modifyC at hC
  split at hC
  · obtain ⟨u1, hu, rfl⟩ := Option.map_eq_some_iff.1 hC
    obtain ⟨e, hU⟩ := hf _ _ _ (h k) hu
    refine ⟨by unfold modify; rw [e], fun j => ?_⟩
    unfold modify
    by_cases hj : j = k
    · subst hj; rw [Function.update_self, Function.update_self]; exact hU
    · rw [Function.update_of_ne hj, Function.update_of_ne hj]; exact h j
  · cases hC

theorem updateTotal_same {w : Nat} {u u1 v : UnitResults} (h : UInt u v) (hC : u.updateTotalC w = some u1) :
    v.updateTotalR w = v.updateTotal w ∧ UInt u1 (v.updateTotal w) := by
  obtain ⟨x, hx, rfl⟩ := Option.map_eq_some_iff.1 hC
  obtain ⟨rfl, hlt⟩ := fits_sound hx
  rw [← h.total] at hlt
  refine ⟨?_, h.wins, h.ties, congrArg (· + w) h.total⟩
  unfold UnitResults.updateTotalR UnitResults.updateTotal
  rw [wrap_of_lt hlt]

theorem updateWins_same {w : Nat} {u u1 v : UnitResults} (h : UInt u v) (hC : u.updateWinsC w = some u1) :
    v.updateWinsR w = v.updateWins w ∧ UInt u1 (v.updateWins w) := by
  obtain ⟨x, hx, rfl⟩ := Option.map_eq_some_iff.1 hC
  obtain ⟨rfl, hlt⟩ := fits_sound hx
  rw [← h.wins] at hlt
  refine ⟨?_, congrArg (· + w) h.wins, h.ties, h.total⟩
  unfold UnitResults.updateWinsR UnitResults.updateWins
  rw [wrap_of_lt hlt]

theorem updateTies_same {w c : Nat} {u u1 v : UnitResults} (h : UInt u v) (hC : u.updateTiesC w c = some u1) :
    v.updateTiesR w c = v.updateTiesF w c ∧ UInt u1 (v.updateTiesF w c) := by
  obtain ⟨x, hx, rfl⟩ := Option.map_eq_some_iff.1 hC
  obtain ⟨rfl, hlt⟩ := fits_sound hx
  rw [← h.ties] at hlt
  refine ⟨?_, h.wins, congrArg (· + w) h.ties, h.total⟩
  unfold UnitResults.updateTiesR UnitResults.updateTiesF
  rw [wrap_of_lt hlt]

theorem addAssign_same {u o u1 v o' : UnitResults} (h : UInt u v) (h' : UInt o o') (hC : u.addAssignC o = some u1) :
    v.addAssignR o' = v.addAssignF o' := by
  unfold UnitResults.addAssignC at hC
  simp only [Option.bind_eq_bind] at hC
  obtain ⟨x, hx, hC⟩ := Option.bind_eq_some_iff.1 hC
  obtain ⟨y, hy, hC⟩ := Option.bind_eq_some_iff.1 hC
  obtain ⟨z, hz, hC⟩ := Option.bind_eq_some_iff.1 hC
  have h1 := (fits_sound hx).2
  have h2 := (fits_sound hy).2
  have h3 := (fits_sound hz).2
  rw [← h.wins, ← h'.wins] at h1
  rw [← h.ties, ← h'.ties] at h2
  rw [← h.total, ← h'.total] at h3
  unfold UnitResults.addAssignR UnitResults.addAssignF
  rw [wrap_of_lt h1, wrap_of_lt h2, wrap_of_lt h3]

/-- The counters of two threads are the same. -/
def StInt (st st' : Batch × HandStats) : Prop := st'.1 = st.1 ∧ ∀ k, UInt (st.2 k) (st'.2 k)

theorem StClose.int {n : Nat} {st st' : Batch × HandStats} (h : StClose n st st') : StInt st st' := ⟨h.1, fun k => (h.2 k).int⟩

theorem evaluateHands_same {n len : Nat} {hands : Nat → Hand} {w : Nat} {board : Hand} {lookup : Nat → Nat} {flush : Bool}
    {st st1 st' : Batch × HandStats} (h : StInt st st') (hC : evaluateHandsC n len hands w board lookup flush st = some st1) :
    w < 2 ^ 64 ∧ evaluateHandsR n hands w board lookup flush st' = evaluateHandsF n hands w board lookup flush st' ∧
    StInt st1 (evaluateHandsF n hands w board lookup flush st') := by
  obtain ⟨hb, hh⟩ := h
  unfold evaluateHandsC at hC
  simp only [Option.bind_eq_bind] at hC
  obtain ⟨hs1, h1, hC⟩ := Option.bind_eq_some_iff.1 hC
  obtain ⟨hs2, h2, hC⟩ := Option.bind_eq_some_iff.1 hC
  obtain ⟨x, hx, hC⟩ := Option.bind_eq_some_iff.1 hC
  obtain ⟨y, hy, hC⟩ := Option.bind_eq_some_iff.1 hC
  have hC := Option.some.inj hC
  subst hC
  obtain ⟨rfl, hx'⟩ := fits_sound hx
  obtain ⟨rfl, hy'⟩ := fits_sound hy
  clear hx hy
  obtain ⟨e1, hU1⟩ := foldC_same (P := fun a b : HandStats => ∀ k, UInt (a k) (b k))
    (fR := fun hs i => modify hs (lookup i) (·.updateTotalR w)) (fF := fun hs i => modify hs (lookup i) (·.updateTotal w)) (List.range n)
    (fun i _ a b a' hab hi => modifyC_same hab (fun u u1 v => updateTotal_same) hi) hh h1
  refine ⟨by omega, ?_⟩
  unfold evaluateHandsR evaluateHandsF
  simp only
  rw [e1]
  generalize List.foldl (fun hs i => modify hs (lookup i) (·.updateTotal w)) st'.2 (List.range n) = hs1' at hU1
  generalize scan n hands board flush = s at *
  have key : (if s.counter = 1 then modify hs1' (lookup (s.indexes 0)) (·.updateWinsR w)
      else (List.range s.counter).foldl (fun hs j => modify hs (lookup (s.indexes j)) (·.updateTiesR w s.counter)) hs1') =
      (if s.counter = 1 then modify hs1' (lookup (s.indexes 0)) (·.updateWins w)
      else (List.range s.counter).foldl (fun hs j => modify hs (lookup (s.indexes j)) (·.updateTiesF w s.counter)) hs1') ∧
      ∀ k, UInt (hs2 k) ((if s.counter = 1 then modify hs1' (lookup (s.indexes 0)) (·.updateWins w)
      else (List.range s.counter).foldl (fun hs j => modify hs (lookup (s.indexes j)) (·.updateTiesF w s.counter)) hs1') k) := by
    by_cases hc : s.counter = 1
    · simp only [if_pos hc] at h2 ⊢
      exact modifyC_same hU1 (fun u u1 v => updateWins_same) h2
    · simp only [if_neg hc] at h2 ⊢
      exact foldC_same (P := fun a b : HandStats => ∀ k, UInt (a k) (b k))
        (fR := fun hs j => modify hs (lookup (s.indexes j)) (·.updateTiesR w s.counter))
        (fF := fun hs j => modify hs (lookup (s.indexes j)) (·.updateTiesF w s.counter)) (List.range s.counter)
        (fun i _ a b a' hab hi => modifyC_same hab (fun u u1 v => updateTies_same) hi) hU1 h2
  rw [key.1, hb, wrap_of_lt hx', wrap_of_lt hy']
  exact ⟨rfl, rfl, key.2⟩

/-- All evaluations of a deal: the weights fit. -/
theorem evalAll_same {n len : Nat} {hands : Nat → Hand} {lookup : Nat → Nat} : ∀ (es : List Ev) {st st1 st' : Batch × HandStats}, StInt st st' →
    es.foldlM (fun st e => evaluateHandsC n len hands e.weight e.board lookup e.flush st) st = some st1 →
    (es.map Ev.wrap).foldl (fun st e => evaluateHandsR n hands e.weight e.board lookup e.flush st) st' =
      es.foldl (fun st e => evaluateHandsF n hands e.weight e.board lookup e.flush st) st' := by
  intro es
  induction es with
  | nil => intro st st1 st' _ _; rfl
  | cons e es ih =>
    intro st st1 st' h hC
    rw [List.foldlM_cons] at hC
    obtain ⟨st2, h1, hC⟩ := Option.bind_eq_some_iff.1 hC
    obtain ⟨hlt, h2, h3⟩ := evaluateHands_same h h1
    rw [List.map_cons, List.foldl_cons, List.foldl_cons]
    have ee : Ev.wrap e = e := by unfold Ev.wrap; rw [wrap_of_lt hlt]
    rw [ee, h2]
    exact ih h3 hC

/-! ## One update of the results -/

/-- The sums of two updates are the same. -/
structure MergeInt (m m' : Merge) : Prop where
  wins : m'.wins = m.wins
  masks : m'.winsByMask = m.winsByMask
  hands : m'.batchHands = m.batchHands

theorem mergePlayers_same {n : Nat} {b : Batch} {i : Nat} {m m' : Merge} {x : Merge × Nat} (h : MergeInt m m')
    (hC : mergePlayersC n b i m = some x) :
    mergePlayersR n b i m' = mergePlayersF n b i m' ∧ MergeInt x.1 (mergePlayersF n b i m').1 ∧ (mergePlayersF n b i m').2 = x.2 := by
  unfold mergePlayersC at hC
  unfold mergePlayersR mergePlayersF
  simp only at hC ⊢
  refine foldC_same (P := fun x x' : Merge × Nat => MergeInt x.1 x'.1 ∧ x'.2 = x.2) (a := (m, 0)) (b := (m', 0)) (List.range n) ?_ ⟨h, rfl⟩ hC
  rintro j _ ⟨m, a⟩ ⟨m', a'⟩ y ⟨hm, ha⟩ hj
  simp only at hm ha hj ⊢
  subst ha
  by_cases h1 : i &&& (1 <<< j) ≠ 0
  · rw [if_pos h1] at hj ⊢
    rw [if_pos h1]
    by_cases h2 : countOnes i = 1
    · rw [if_pos h2] at hj ⊢
      rw [if_pos h2]
      simp only [Option.bind_eq_bind] at hj
      obtain ⟨m1, hm1, hj⟩ := Option.bind_eq_some_iff.1 hj
      obtain ⟨x, hx, rfl⟩ := Option.map_eq_some_iff.1 hm1
      obtain ⟨rfl, hlt⟩ := fits_sound hx
      rw [← Option.some.inj hj]
      rw [← hm.wins] at hlt
      rw [wrap_of_lt hlt]
      exact ⟨rfl, ⟨by simp only [hm.wins], hm.masks, hm.hands⟩, rfl⟩
    · rw [if_neg h2] at hj ⊢
      rw [if_neg h2]
      rw [← Option.some.inj hj]
      exact ⟨rfl, ⟨hm.wins, hm.masks, hm.hands⟩, rfl⟩
  · rw [if_neg h1] at hj ⊢
    rw [if_neg h1]
    rw [← Option.some.inj hj]
    exact ⟨rfl, hm, rfl⟩

theorem mergeMasks_same {n : Nat} {b : Batch} {m m1 m' : Merge} (h : MergeInt m m') (hC : mergeMasksC n b m = some m1) :
    mergeMasksR n b m' = mergeMasksF n b m' := by
  unfold mergeMasksC at hC
  unfold mergeMasksR mergeMasksF
  refine (foldC_same (P := MergeInt) (List.range (1 <<< n)) ?_ h hC).1
  intro i _ m m' y hm hi
  simp only [Option.bind_eq_bind] at hi ⊢
  obtain ⟨x, hx, hi⟩ := Option.bind_eq_some_iff.1 hi
  obtain ⟨y1, hy, hi⟩ := Option.bind_eq_some_iff.1 hi
  obtain ⟨z, hz, hi⟩ := Option.bind_eq_some_iff.1 hi
  obtain ⟨rfl, hx'⟩ := fits_sound hx
  obtain ⟨rfl, hz'⟩ := fits_sound hz
  rw [← hm.hands] at hx'
  obtain ⟨h1, h2, h3⟩ := mergePlayers_same (m := { m with batchHands := m.batchHands + b.winsByMask i })
    (m' := { m' with batchHands := m'.batchHands + b.winsByMask i })
    ⟨hm.wins, hm.masks, congrArg (· + b.winsByMask i) hm.hands⟩ hy
  rw [wrap_of_lt hx', h1]
  rw [← h3, ← h2.masks] at hz'
  rw [wrap_of_lt hz', ← Option.some.inj hi]
  exact ⟨rfl, h2.wins, by simp only [h2.masks, h3], h2.hands⟩

theorem addAll_some (hb : HandStats) : ∀ (N : Nat) (hr t : Nat → UnitResults),
    (List.range N).foldlM (fun (hr : Nat → UnitResults) k => ((hr k).addAssignC (hb k)).map (Function.update hr k)) hr = some t →
    (∀ k < N, ∃ v, (hr k).addAssignC (hb k) = some v) ∧ ∀ k, N ≤ k → t k = hr k := by
  intro N
  induction N with
  | zero => intro hr t h; rw [← Option.some.inj h]; exact ⟨fun k hk => by omega, fun _ _ => rfl⟩
  | succ N ih =>
    intro hr t h
    rw [List.range_succ, List.foldlM_append] at h
    simp only [Option.bind_eq_bind] at h
    obtain ⟨u, hu, h⟩ := Option.bind_eq_some_iff.1 h
    rw [List.foldlM_cons] at h
    simp only [Option.bind_eq_bind] at h
    obtain ⟨v, hv, h⟩ := Option.bind_eq_some_iff.1 h
    have hvt : v = t := Option.some.inj h
    subst hvt
    obtain ⟨y, hy, rfl⟩ := Option.map_eq_some_iff.1 hv
    obtain ⟨h1, h2⟩ := ih hr u hu
    rw [h2 N le_rfl] at hy
    refine ⟨fun k hk => ?_, fun k hk => ?_⟩
    · by_cases hkN : k = N
      · subst hkN; exact ⟨y, hy⟩
      · exact h1 k (by omega)
    · rw [Function.update_of_ne (by omega)]; exact h2 k (by omega)

theorem updateResults_same {n : Nat} {b : Batch} {hb hb' : HandStats} {r r1 r' : Results} (hh : ∀ k, UInt (hb k) (hb' k))
    (hr : ResClose n r r') (dev : ℚ → ℚ → Option ℚ) (hC : updateResultsC id n true b hb r = some r1) :
    updateResultsR n b hb' r' = updateResultsF dev n true b hb' r' := by
  unfold updateResultsC at hC
  simp only [Option.bind_eq_bind] at hC
  obtain ⟨hand, h1, hC⟩ := Option.bind_eq_some_iff.1 hC
  obtain ⟨m, h2, hC⟩ := Option.bind_eq_some_iff.1 hC
  obtain ⟨e, h3, _⟩ := Option.bind_eq_some_iff.1 hC
  have h3 := (fits_sound h3).2
  rw [← hr.evals] at h3
  have h1 := (addAll_some hb _ _ _ h1).1
  have h2 := mergeMasks_same (m := ⟨r.wins, r.ties, r.winsByMask, 0, 0⟩) (m' := ⟨r'.wins, r'.ties, r'.winsByMask, 0, 0⟩) ⟨hr.wins, hr.masks, rfl⟩ h2
  have e1 : (fun k => if k < NUM_HANDS * n then (r'.handResults k).addAssignR (hb' k) else r'.handResults k) =
      (fun k => if k < NUM_HANDS * n then (r'.handResults k).addAssignF (hb' k) else r'.handResults k) := by
    funext k
    split
    · rename_i hk
      obtain ⟨v, hv⟩ := h1 k hk
      exact addAssign_same (hr.hands k).int (hh k) hv
    · rfl
  unfold updateResultsR updateResultsF
  simp only
  rw [e1, h2, wrap_of_lt h3]
  rfl

/-! ## Steps -/

section
variable {ranges : List (List Combo)} {b d : Nat} {s : Sim} {ds : List DividerU64} {total size : Nat}

/-- A position with a deal: the weight and the boards are found without overflow. -/
theorem Ready.processPosC_deal (h : Ready ranges b d s ds total size) (hS : SmallDeals ranges b d) {pos : Nat} (hpos : pos < total)
    {x : Nat × (Nat → Hole)} (hdec : s.decode ds pos = some (some x)) (st : Batch × HandStats) :
    Sim.dealWeight s.nPlayers x.2 < 2 ^ 64 ∧
    s.processPosC ds pos st = (boardEvents s.nPlayers x.2 (Sim.dealWeight s.nPlayers x.2) s.fixedBoard x.1).foldlM
      (fun st' e => evaluateHandsC s.nPlayers (s.nPlayers * NUM_HANDS) (fun i => Hand.fromHoleCards (x.2 i).1 (x.2 i).2.1) e.weight e.board
        (fun i => NUM_HANDS * st.1.playerIds i + getCardIndex (x.2 i).1 (x.2 i).2.1) e.flush st') st := by
  obtain ⟨h1, h2, h3, h4, _, h6, h7, _⟩ := h.fields
  unfold Sim.processPosC
  rw [hdec]
  obtain ⟨dd, hdd, hx⟩ := h.decode_mem hpos hdec
  have hl := (deals_wf h.wf hdd).1
  have hph : ∀ i < dd.length, x.2 i = dd.getD i (0, 0, 0) := fun i hi => by rw [hx]; exact assign_get dd _ hi
  have hw100 : ∀ i < s.nPlayers, (x.2 i).2.2 ≤ 100 := by
    intro i hi
    have hi' : i < dd.length := by rw [hl, ← h1]; exact hi
    rw [hph i hi', List.getD_eq_getElem _ _ hi']
    unfold deals at hdd
    have hc := (List.mem_filter.1 hdd).1
    have := ((mem_choices _ _).1 hc).2 i hi' (by simp [specRanges]; omega)
    unfold specRanges at this
    rw [List.getElem_map, List.mem_map] at this
    obtain ⟨k, hk, he⟩ := this
    rw [← he]
    exact hS.percent _ (List.getElem_mem _) k hk
  have em : (List.range s.nPlayers).map x.2 = dd := by rw [hx, h1, ← hl, assign_map]
  obtain ⟨hW, hW'⟩ := dealWeightC_eq x.2 s.nPlayers (by omega) hw100
  have hev := boardEventsC_eq (h.dealOk hdd) x.2 (used := x.1)
    (fun c hc => by rw [hx]; exact used_testBit b d dd hc) (w := Sim.dealWeight s.nPlayers x.2)
    (by rw [simDealWeight_eq, em]; exact hS.deal dd hdd)
  rw [hl, ← h1, ← h4] at hev
  refine ⟨?_, ?_⟩
  · have := hS.deal dd hdd
    rw [simDealWeight_eq, em]
    omega
  · simp only
    rw [hW]
    simp only [Option.bind_eq_bind, Option.bind_some]
    unfold Sim.enumerateBoardC
    rw [hev.1]
    rfl

theorem Ready.processPos_same (h : Ready ranges b d s ds total size) (hS : SmallDeals ranges b d) {pos : Nat} (hpos : pos < total)
    {st st1 st' : Batch × HandStats} (hst : StInt st st') (hC : s.processPosC ds pos st = some st1) :
    s.processPosR ds pos st' = s.processPosF ds pos st' := by
  cases hdec : s.decode ds pos with
  | none => unfold Sim.processPosR Sim.processPosF; rw [hdec]
  | some o =>
    cases o with
    | none => unfold Sim.processPosR Sim.processPosF; rw [hdec]
    | some x =>
      obtain ⟨hW, e⟩ := h.processPosC_deal hS hpos hdec st
      rw [e] at hC
      have key := evalAll_same _ hst hC
      unfold Sim.processPosR Sim.processPosF
      rw [hdec]
      obtain ⟨used, ph⟩ := x
      simp only at hW key ⊢
      unfold Sim.enumerateBoardR Sim.enumerateBoardF
      rw [dealWeightR_eq, boardEventsR_eq, hst.1]
      simp only
      rw [key]

theorem threadStep_same (h : Ready ranges b d s ds total size) (hS : Small ranges b d) (hroom : total + size < 2 ^ 64) {r0 : Results} {flag : Nat}
    (hr0 : startResults s = some (r0, flag)) {nT : Nat} {w w' : World} {hist : List (Batch × HandStats)} {Dr A : Multiset Nat}
    {Dl : Nat → Multiset Nat} (hI : Inv s total (posFull s ds) r0 nT w hist Dr A Dl) (hw : WorldClose s.nPlayers total w w')
    {t : Nat} (ht : t < nT) :
    threadStepR s ds total size (w'.locals t) w'.shared = threadStepF s ds total size (w'.locals t) w'.shared := by
  have hC := h.threadStepC_eq hS hr0 hI ht
  have hin := hI.inside t ht
  have hl := hw.locals t
  have hg := hw.shared
  have hid := hI.ids t ht
  have hex := h.fields.2.2.2.2.1
  have hpan : (w.locals t).pc ≠ .panicked → (threadStep s ds total size (w.locals t) w.shared).1.pc ≠ .panicked := by
    intro hp
    unfold threadStep
    cases hc : (w.locals t).pc with
    | reserve =>
      simp only
      rw [fits_some (by have := hg.le; omega : w.shared.enumPos + size < 2 ^ 64)]
      simp only
      split <;> decide
    | work =>
      obtain ⟨hlt, hst⟩ := hin (Or.inl hc)
      obtain ⟨x, e1, _⟩ := h.processes _ (by omega : (w.locals t).pos < total) ((w.locals t).stats, (w.locals t).hands) hid
      simp only [e1]
      split
      · exact fun e => by cases e
      · unfold Local.advance; simp only; split <;> decide
    | flush => simp only; decide
    | check =>
      simp only
      split
      · exact fun e => by cases e
      · unfold Local.advance; simp only; split <;> decide
    | final => simp only; decide
    | done => simp only; rw [hc]; decide
    | panicked => exact absurd hc hp
  generalize w.locals t = l at *
  generalize w'.locals t = l' at *
  generalize w.shared = g at *
  generalize w'.shared = g' at *
  unfold threadStepR threadStepF
  cases hc : l'.pc with
  | reserve =>
    unfold threadStep
    rw [hc]
    simp only
    have hlt : g'.enumPos + size < 2 ^ 64 := by rw [hg.pos]; have := hg.le; omega
    rw [fits_some hlt, wrap_of_lt hlt]
  | work =>
    have hc' : l.pc = .work := by rw [← hl.pc]; exact hc
    obtain ⟨hlt, hst⟩ := hin (Or.inl hc')
    obtain ⟨x, e1, _⟩ := h.processes _ (by omega : l.pos < total) (l.stats, l.hands) hid
    have hs : ∃ y, s.processPosC ds l.pos (l.stats, l.hands) = some y := by
      cases hy : s.processPosC ds l.pos (l.stats, l.hands) with
      | some y => exact ⟨y, rfl⟩
      | none =>
        exfalso
        refine hpan (by rw [hc']; decide) ?_
        rw [← hC]
        unfold threadStepC
        rw [hc']
        simp only [hy]
    obtain ⟨y, hy⟩ := hs
    have e := h.processPos_same hS.toSmallDeals (by omega : l.pos < total) hl.stats.int hy
    simp only
    rw [hl.pos, e]
    cases s.processPosF ds l.pos (l'.stats, l'.hands) <;> rfl
  | flush =>
    have hc' : l.pc = .flush := by rw [← hl.pc]; exact hc
    have hs : ∃ y, updateResultsC id s.nPlayers s.calcExact l.stats l.hands g.results = some y := by
      cases hy : updateResultsC id s.nPlayers s.calcExact l.stats l.hands g.results with
      | some y => exact ⟨y, rfl⟩
      | none =>
        exfalso
        refine hpan (by rw [hc']; decide) ?_
        rw [← hC]
        unfold threadStepC
        rw [hc']
        simp only [hy]
    obtain ⟨y, hy⟩ := hs
    rw [hex] at hy
    have hb : l'.stats = l.stats := hl.stats.1
    have e := updateResults_same (hb' := l'.hands) hl.stats.int.2 hg.results (fun _ _ => none) hy
    simp only
    unfold Shared.updateR Shared.updateF
    rw [hex, hb, e]
  | final =>
    have hc' : l.pc = .final := by rw [← hl.pc]; exact hc
    have hs : ∃ y, updateResultsC id s.nPlayers s.calcExact l.stats l.hands g.results = some y := by
      cases hy : updateResultsC id s.nPlayers s.calcExact l.stats l.hands g.results with
      | some y => exact ⟨y, rfl⟩
      | none =>
        exfalso
        refine hpan (by rw [hc']; decide) ?_
        rw [← hC]
        unfold threadStepC
        rw [hc']
        simp only [hy]
    obtain ⟨y, hy⟩ := hs
    rw [hex] at hy
    have hb : l'.stats = l.stats := hl.stats.1
    have e := updateResults_same (hb' := l'.hands) hl.stats.int.2 hg.results (fun _ _ => none) hy
    simp only
    unfold Shared.updateR Shared.updateF
    rw [hex, hb, e]
  | check => unfold threadStep; rw [hc]
  | done => unfold threadStep; rw [hc]
  | panicked => unfold threadStep; rw [hc]

/-- The runs of the release build are the runs of the floating-point model. -/
theorem Ready.stepsR_iff (h : Ready ranges b d s ds total size) (hS : Small ranges b d) (hroom : total + size < 2 ^ 64) {r0 : Results} {flag : Nat}
    (hr0 : startResults s = some (r0, flag)) {nT : Nat} {cancelled : Bool} {w : World} :
    StepsR s ds total size nT (World.init s r0 cancelled) w ↔ StepsF s ds total size nT (World.init s r0 cancelled) w := by
  have h9 : s.nPlayers ≤ 9 := by obtain ⟨hf1, _, _, _, _, _, hf7, _⟩ := h.fields; omega
  constructor
  · intro hs
    induction hs with
    | refl => exact .refl
    | step _ hstep ih =>
      obtain ⟨v, h1, h2⟩ := StepsF.follow h9 (init_worldClose total hr0 cancelled) ih
      obtain ⟨_, _, _, _, hI⟩ := Inv.steps h.processes h.size_pos h1
      refine .step ih ?_
      cases hstep with
      | thread t ht hpc => rw [threadStep_same h hS hroom hr0 hI h2 ht]; exact .thread _ t ht hpc
      | cancel => exact .cancel _
  · intro hs
    induction hs with
    | refl => exact .refl
    | step hs' hstep ih =>
      obtain ⟨v, h1, h2⟩ := StepsF.follow h9 (init_worldClose total hr0 cancelled) hs'
      obtain ⟨_, _, _, _, hI⟩ := Inv.steps h.processes h.size_pos h1
      refine .step ih ?_
      cases hstep with
      | thread t ht hpc => rw [← threadStep_same h hS hroom hr0 hI h2 ht]; exact .thread _ t ht hpc
      | cancel => exact .cancel _

end

end Pokers

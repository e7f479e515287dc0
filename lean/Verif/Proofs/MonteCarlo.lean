import Verif.Proofs.Walk
import Verif.Proofs.Run
/-!
# Every evaluation of the random simulation is a legal showdown
-/
namespace Pokers
open CombinedRange Sim Spec

/-! ## The random board -/

theorem drawCard_ok {used : Nat} : ∀ {ds : Draws} {c : Nat} {rest : Draws}, drawCard used ds = .ok c rest →
    c < 52 ∧ used.testBit c = false ∧ ∃ rejected, ds = rejected ++ c :: rest ∧ ∀ x ∈ rejected, x < 52 ∧ used.testBit x = true := by
  intro ds
  induction ds with
  | nil => intro c rest h; cases h
  | cons x xs ih =>
    intro c rest h
    change (if x < 52 then if used &&& (1 <<< x) = 0 then Out.ok x xs else drawCard used xs else .more) = _ at h
    by_cases hx : x < 52
    · rw [if_pos hx] at h
      by_cases hu : used &&& (1 <<< x) = 0
      · rw [if_pos hu] at h
        injection h with h1 h2
        subst h1; subst h2
        exact ⟨hx, (and_shl_eq_zero _ _).1 hu, [], rfl, by simp⟩
      · rw [if_neg hu] at h
        obtain ⟨h1, h2, rej, h3, h4⟩ := ih h
        refine ⟨h1, h2, x :: rej, by rw [h3]; rfl, fun y hy => ?_⟩
        rcases List.mem_cons.1 hy with rfl | hy
        · exact ⟨hx, by rw [and_shl_eq_zero, Bool.not_eq_false] at hu; exact hu⟩
        · exact h4 y hy
    · rw [if_neg hx] at h; cases h

theorem drawCard_no_panic (used : Nat) (ds : Draws) : drawCard used ds ≠ .panic := by
  induction ds with
  | nil => intro h; cases h
  | cons x xs ih =>
    show (if x < 52 then if used &&& (1 <<< x) = 0 then Out.ok x xs else drawCard used xs else .more) ≠ _
    split
    · split
      · intro h; cases h
      · exact ih
    · intro h; cases h

theorem randomizeBoard_no_panic : ∀ (k used : Nat) (board : Hand) (ds : Draws), randomizeBoard k used board ds ≠ .panic := by
  intro k
  induction k with
  | zero => intro used board ds h; cases h
  | succ k ih =>
    intro used board ds
    unfold randomizeBoard
    cases hd : drawCard used ds with
    | more => intro h; cases h
    | panic => exact absurd hd (drawCard_no_panic _ _)
    | ok c rest => exact ih _ _ _

/-- The random board adds `k` different unused cards. -/
theorem randomizeBoard_ok : ∀ (k used : Nat) (board : Hand) (ds : Draws) {b : Hand} {rest : Draws},
    randomizeBoard k used board ds = .ok b rest → ∃ cs : List Nat, cs.length = k ∧ cs.Nodup ∧
      (∀ c ∈ cs, c < 52 ∧ used.testBit c = false) ∧ b = cs.foldl (fun h c => h + CARDS c) board := by
  intro k
  induction k with
  | zero =>
    intro used board ds b rest h
    injection h with h1 h2
    exact ⟨[], rfl, List.nodup_nil, by simp, h1.symm⟩
  | succ k ih =>
    intro used board ds b rest h
    unfold randomizeBoard at h
    cases hd : drawCard used ds with
    | more => rw [hd] at h; cases h
    | panic => rw [hd] at h; cases h
    | ok c rest' =>
      rw [hd] at h
      obtain ⟨h1, h2, _⟩ := drawCard_ok hd
      obtain ⟨cs, g1, g2, g3, g4⟩ := ih _ _ _ h
      refine ⟨c :: cs, by simp [g1], ?_, ?_, g4⟩
      · rw [List.nodup_cons]
        refine ⟨fun hmem => ?_, g2⟩
        have := (g3 c hmem).2
        rw [Nat.testBit_or, testBit_one_shl] at this
        simp at this
      · intro x hx
        rcases List.mem_cons.1 hx with rfl | hx
        · exact ⟨h1, h2⟩
        · have := (g3 x hx).2
          rw [Nat.testBit_or, Bool.or_eq_false_iff] at this
          exact ⟨(g3 x hx).1, this.1⟩

/-- The random board is one of the boards of the deal. -/
theorem randomizeBoard_boards {board dead : List Nat} {d : List WHand} {used : Nat}
    (hu : ∀ c < 52, used.testBit c = true ↔ c ∈ board ++ dead ++ dealt d) {ds rest : Draws} {b : Hand}
    (h : randomizeBoard (5 - board.length) used (ofCards board) ds = .ok b rest) :
    ∃ B ∈ boards board dead d, b = ofCards B := by
  obtain ⟨cs, h1, h2, h3, h4⟩ := randomizeBoard_ok _ _ _ _ h
  have hsub : ∀ c ∈ cs, c < 52 ∧ c ∉ board ++ dead ++ dealt d := by
    intro c hc
    refine ⟨(h3 c hc).1, fun hmem => ?_⟩
    have := (hu c (h3 c hc).1).2 hmem
    rw [(h3 c hc).2] at this
    cases this
  let T := (List.range 52).filter fun c => decide (c ∈ cs)
  have hT : T.Perm cs := by
    rw [List.perm_ext_iff_of_nodup (List.nodup_range.filter _) h2]
    intro c
    show c ∈ (List.range 52).filter _ ↔ _
    rw [List.mem_filter, List.mem_range, decide_eq_true_iff]
    exact ⟨fun h => h.2, fun h => ⟨(hsub c h).1, h⟩⟩
  refine ⟨board ++ T, ?_, ?_⟩
  · unfold boards completions
    refine List.mem_map.2 ⟨T, ?_, rfl⟩
    rw [List.mem_sublistsLen]
    refine ⟨?_, hT.length_eq.trans h1⟩
    apply List.monotone_filter_right
    intro c hc
    rw [decide_eq_true_iff] at hc ⊢
    exact (hsub c hc).2
  · rw [h4, ← ofCards_append]
    exact ofCards_perm ((List.Perm.refl board).append hT.symm)

/-! ## The prepared simulator -/

theorem prepareApprox_iff {ranges : List (List Combo)} {b d : Nat} {res : Except SimulatorError Sim} :
    PrepareApprox ranges b d res ↔
      (∃ e, prepareExact ranges b d = .error e ∧ res = .error e) ∨
      (∃ s, prepareExact ranges b d = .ok s ∧ ∃ crs, List.Forall₂ Shuffled s.combinedRanges crs ∧
        res = .ok { s with combinedRanges := crs, calcExact := false }) := by
  unfold PrepareApprox prepareExact
  cases validate ranges.length b d with
  | some e => simp
  | none =>
    simp only
    by_cases h : ((fromRanges (ranges.map fun h => removeConflictingCombos h b d)).any fun cr => cr.size == 0) = true
    · rw [if_pos h, if_pos h]; simp
    · rw [if_neg h, if_neg h]
      simp only [reduceCtorEq, false_and, exists_false, false_or, Except.ok.injEq, exists_eq_left']
      rfl

theorem dealsOf_shuffled {crs crs' : List CombinedRange} (h : List.Forall₂ Shuffled crs crs') :
    ∀ u ph, dealsOf crs' u ph = dealsOf crs u ph := by
  induction h with
  | nil => intros; rfl
  | cons hs _ ih =>
    intro u ph
    obtain ⟨h1, h2, h3, h4⟩ := hs
    rw [dealsOf, dealsOf, Multiset.coe_eq_coe.2 h4]
    apply Multiset.bind_congr
    intro c _
    rw [ih]
    unfold writeHands
    rw [h1, h2]

theorem players_shuffled {crs crs' : List CombinedRange} (h : List.Forall₂ Shuffled crs crs') :
    crs'.flatMap playersOf = crs.flatMap playersOf := by
  induction h with
  | nil => rfl
  | cons hs _ ih =>
    rw [List.flatMap_cons, List.flatMap_cons, ih]
    unfold playersOf
    rw [hs.1, hs.2.1]

theorem forall₂_mem {crs crs' : List CombinedRange} (h : List.Forall₂ Shuffled crs crs') :
    ∀ cr' ∈ crs', ∃ cr ∈ crs, Shuffled cr cr' := by
  induction h with
  | nil => simp
  | cons hs _ ih =>
    intro cr' hcr'
    rcases List.mem_cons.1 hcr' with rfl | hcr'
    · exact ⟨_, List.mem_cons_self .., hs⟩
    · obtain ⟨cr, h1, h2⟩ := ih cr' hcr'
      exact ⟨cr, List.mem_cons_of_mem _ h1, h2⟩

/-- The setting of the theorems about the random simulation. -/
structure McReady (ranges : List (List Combo)) (b d : Nat) (s : Sim) : Prop where
  wf : ∀ r ∈ ranges, WfRange r
  boardMask : CardMask b
  deadMask : CardMask d
  ok : PrepareApprox ranges b d (.ok s)

section
variable {ranges : List (List Combo)} {b d : Nat} {s : Sim}

theorem McReady.exact (h : McReady ranges b d s) : ∃ s0, prepareExact ranges b d = .ok s0 ∧
    List.Forall₂ Shuffled s0.combinedRanges s.combinedRanges ∧
    s = { s0 with combinedRanges := s.combinedRanges, calcExact := false } := by
  rcases prepareApprox_iff.1 h.ok with ⟨e, _, he⟩ | ⟨s0, h1, crs, h2, h3⟩
  · cases he
  · injection h3 with h3
    subst h3
    exact ⟨s0, h1, h2, rfl⟩

theorem McReady.fields (h : McReady ranges b d s) : s.nPlayers = ranges.length ∧ s.boardMask = b ∧ s.deadMask = d ∧
    s.fixedBoard = ofCards (maskCards b) ∧ s.calcExact = false ∧ 2 ≤ ranges.length ∧ ranges.length ≤ 9 ∧ countOnes b ≤ 5 ∧
    2 * ranges.length + countOnes d + 5 ≤ 52 ∧ (maskCards b).length ≤ 5 := by
  obtain ⟨s0, h1, h2, h3⟩ := h.exact
  have ha := prepareExact_ok h1
  refine ⟨?_, ?_, ?_, ?_, ?_, ha.players.1, ha.players.2, ha.board, ha.dead, (maskCards_length_le b).trans ha.board⟩
  · rw [h3, ha.sim]; simp [Sim.new]
  · rw [h3, ha.sim]; rfl
  · rw [h3, ha.sim]; rfl
  · rw [h3, ha.sim]; exact fixedBoard_eq b
  · rw [h3]

theorem McReady.players (h : McReady ranges b d s) : (s.combinedRanges.flatMap playersOf).Perm (List.range ranges.length) := by
  obtain ⟨s0, h1, h2, h3⟩ := h.exact
  have ha := prepareExact_ok h1
  rw [players_shuffled h2, ha.sim]
  have := fromRanges_players (ranges.map fun h => removeConflictingCombos h b d)
  rw [List.length_map] at this
  exact this

theorem McReady.crsOk (h : McReady ranges b d s) : CrsOk s.combinedRanges ∧ ∀ cr ∈ s.combinedRanges, 0 < cr.size := by
  obtain ⟨s0, h1, h2, h3⟩ := h.exact
  have ha := prepareExact_ok h1
  have hcr : s0.combinedRanges = fromRanges (ranges.map fun h => removeConflictingCombos h b d) := by rw [ha.sim]; rfl
  refine ⟨⟨h.players.nodup_iff.2 List.nodup_range, ?_, ?_⟩, ?_⟩
  · intro cr' hcr'
    obtain ⟨cr, hm, hs⟩ := forall₂_mem h2 cr' hcr'
    rw [hs.2.2.1, hs.2.2.2.length_eq]
    rw [hcr] at hm
    exact fromRanges_size _ cr hm
  · intro cr' hcr' c hc j hj
    obtain ⟨cr, hm, hs⟩ := forall₂_mem h2 cr' hcr'
    rw [hcr] at hm
    rw [hs.1] at hj
    obtain ⟨k, _, e1, e2⟩ := (fromRanges_ok _ (wf_filter h.wf b d) cr hm c (hs.2.2.2.mem_iff.1 hc)).mem j hj
    rw [e1, e2]; rfl
  · intro cr' hcr'
    obtain ⟨cr, hm, hs⟩ := forall₂_mem h2 cr' hcr'
    rw [hs.2.2.1]
    exact ha.sizes cr hm

theorem McReady.deals_eq (h : McReady ranges b d s) :
    dealsOf s.combinedRanges (b ||| d) (fun _ => (52, 52, 100)) =
      (((deals (specRanges ranges) (maskCards b ++ maskCards d)).map fun dd =>
        (maskOr (b ||| d) dd, assign 0 dd (fun _ => (52, 52, 100))) : List (Nat × (Nat → Hole))) : Multiset (Nat × (Nat → Hole))) := by
  obtain ⟨s0, h1, h2, h3⟩ := h.exact
  have ha := prepareExact_ok h1
  have hcr : s0.combinedRanges = fromRanges (ranges.map fun h => removeConflictingCombos h b d) := by rw [ha.sim]; rfl
  rw [dealsOf_shuffled h2, hcr, fromRanges_deals _ (wf_filter h.wf b d) (b ||| d) _ (blocked_iff b d)]
  rw [← deals_filter h.wf b d]
  rfl

end

/-! ## The deal the walk is at -/

/-- The hole cards of all players when the combined ranges have the given combos. -/
def writeAll : List CombinedRange → List JointCombo → (Nat → Hole) → (Nat → Hole)
  | cr :: crs, c :: cs, ph => writeAll crs cs (writeHands cr c ph)
  | _, _, ph => ph

theorem mem_dealsOf : ∀ (crs : List CombinedRange) (picks : List JointCombo) (u : Nat) (ph : Nat → Hole),
    List.Forall₂ (fun cr c => c ∈ cr.combos) crs picks →
    ((u :: picks.map (·.mask)).Pairwise fun a b => a &&& b = 0) →
    (orMasks u picks, writeAll crs picks ph) ∈ dealsOf crs u ph := by
  intro crs
  induction crs with
  | nil =>
    intro picks u ph h _
    cases h
    simp [dealsOf, orMasks, writeAll]
  | cons cr crs ih =>
    intro picks u ph h hd
    cases h with
    | @cons _ c _ cs hc hcs =>
      rw [dealsOf, Multiset.mem_bind]
      refine ⟨c, Multiset.mem_coe.2 hc, ?_⟩
      rw [List.map_cons, List.pairwise_cons, List.pairwise_cons] at hd
      have h1 : u &&& c.mask = 0 := hd.1 _ (List.mem_cons_self ..)
      rw [if_neg (not_not.2 h1)]
      refine ih cs (u ||| c.mask) _ hcs ?_
      rw [List.pairwise_cons]
      refine ⟨fun x hx => ?_, hd.2.2⟩
      rw [or_and_eq_zero]
      exact ⟨hd.1 x (List.mem_cons_of_mem _ hx), hd.2.1 x hx⟩

theorem writeHands_other (cr : CombinedRange) (c : JointCombo) (ph : Nat → Hole) {p : Nat} (hp : p ∉ playersOf cr) :
    writeHands cr c ph p = ph p := by
  have : ∀ n, (∀ j < n, cr.players j ≠ p) →
      (List.range n).foldl (fun ph j => Function.update ph (cr.players j) (c.holeCards j)) ph p = ph p := by
    intro n
    induction n with
    | zero => intro _; rfl
    | succ n ih =>
      intro hn
      rw [List.range_succ, List.foldl_append, List.foldl_cons, List.foldl_nil, Function.update_of_ne (hn n (by omega)).symm]
      exact ih (fun j hj => hn j (by omega))
  exact this cr.playerCount (fun j hj h => hp (List.mem_map.2 ⟨j, List.mem_range.2 hj, h⟩))

theorem writeHands_self {cr : CombinedRange} (hn : (playersOf cr).Nodup) (c : JointCombo) (ph : Nat → Hole) {j : Nat}
    (hj : j < cr.playerCount) : writeHands cr c ph (cr.players j) = c.holeCards j := by
  have hinj := players_inj hn
  have : ∀ n, n ≤ cr.playerCount → ∀ j < n,
      (List.range n).foldl (fun ph j => Function.update ph (cr.players j) (c.holeCards j)) ph (cr.players j) = c.holeCards j := by
    intro n
    induction n with
    | zero => intro _ j hj; omega
    | succ n ih =>
      intro hn j hj
      rw [List.range_succ, List.foldl_append, List.foldl_cons, List.foldl_nil]
      by_cases hjn : j = n
      · subst hjn; rw [Function.update_self]
      · rw [Function.update_of_ne (fun h => hjn (hinj j (by omega) n (by omega) h))]
        exact ih (by omega) j (by omega)
  exact this cr.playerCount le_rfl j hj

theorem writeAll_other : ∀ (crs : List CombinedRange) (picks : List JointCombo) (ph : Nat → Hole) {p : Nat},
    p ∉ crs.flatMap playersOf → writeAll crs picks ph p = ph p := by
  intro crs
  induction crs with
  | nil => intro picks ph p _; rfl
  | cons cr crs ih =>
    intro picks ph p hp
    rw [List.flatMap_cons, List.mem_append, not_or] at hp
    cases picks with
    | nil => rfl
    | cons c cs =>
      show writeAll crs cs (writeHands cr c ph) p = _
      rw [ih _ _ hp.2, writeHands_other cr c ph hp.1]

theorem writeAll_at : ∀ (crs : List CombinedRange) (picks : List JointCombo) (ph : Nat → Hole), (crs.flatMap playersOf).Nodup →
    ∀ i (hi : i < crs.length) (hi' : i < picks.length), ∀ j < crs[i].playerCount,
      writeAll crs picks ph (crs[i].players j) = picks[i].holeCards j := by
  intro crs
  induction crs with
  | nil => intro picks ph _ i hi; simp at hi
  | cons cr crs ih =>
    intro picks ph hn i hi hi' j hj
    rw [List.flatMap_cons, List.nodup_append] at hn
    cases picks with
    | nil => simp at hi'
    | cons c cs =>
      cases i with
      | zero =>
        show writeAll crs cs (writeHands cr c ph) (cr.players j) = c.holeCards j
        have hmem : cr.players j ∈ playersOf cr := List.mem_map.2 ⟨j, List.mem_range.2 hj, rfl⟩
        rw [writeAll_other crs cs _ (fun h => hn.2.2 _ hmem _ h rfl), writeHands_self hn.1 c ph hj]
      | succ i =>
        exact ih cs _ hn.2.1 i (by simpa using hi) (by simpa using hi') j hj

/-- The walk is at the legal deal `dd`. -/
structure AtDeal (board dead : List Nat) (w : Walk) (dd : List WHand) : Prop where
  shows : ∀ p < dd.length, ShowsHand w p (dd.getD p (0, 0, 0))
  used : ∀ c < 52, w.used.testBit c = true ↔ c ∈ board ++ dead ++ dealt dd
  weight : w.weight = Spec.dealWeight dd

theorem weight_eq {w : Walk} {dd : List WHand} (h9 : dd.length ≤ 9) (hs : ∀ p < dd.length, w.weights p = (dd.getD p (0, 0, 0)).2.2)
    (ho : ∀ p, dd.length ≤ p → w.weights p = 1) : w.weight = Spec.dealWeight dd := by
  have h1 : ∀ n, (List.range n).foldl (fun x i => x * w.weights i) 1 = ((List.range n).map w.weights).prod := by
    intro n
    induction n with
    | zero => rfl
    | succ n ih => rw [List.range_succ, List.foldl_append, ih, List.map_append, List.prod_append]; simp
  have h2 : ∀ k, ((List.range (dd.length + k)).map w.weights).prod = ((List.range dd.length).map w.weights).prod := by
    intro k
    induction k with
    | zero => rfl
    | succ k ih => rw [← Nat.add_assoc, List.range_succ, List.map_append, List.prod_append, ih]; simp [ho]
  unfold Walk.weight MAX_PLAYERS
  rw [h1, show 9 = dd.length + (9 - dd.length) by omega, h2]
  unfold Spec.dealWeight
  congr 1
  apply List.ext_getElem
  · simp
  · intro i hi1 hi2
    simp only [List.getElem_map, List.getElem_range]
    rw [hs i (by simpa using hi2), List.getD_eq_getElem _ _ (by simpa using hi2)]

section
variable {ranges : List (List Combo)} {b d : Nat} {s : Sim}

/-- A walk that satisfies the invariant is at a legal deal, the one written by the combos. -/
theorem McReady.atDeal_written (h : McReady ranges b d s) {w : Walk} {picks : List JointCombo}
    (hw : WalkOk s.combinedRanges (b ||| d) w picks) (ho : Outside s.combinedRanges w) :
    ∃ dd ∈ deals (specRanges ranges) (maskCards b ++ maskCards d), AtDeal (maskCards b) (maskCards d) w dd ∧
      dd = (List.range s.nPlayers).map (writeAll s.combinedRanges picks (fun _ => (52, 52, 100))) := by
  obtain ⟨hok, _⟩ := h.crsOk
  have hmem := mem_dealsOf s.combinedRanges picks (b ||| d) (fun _ => (52, 52, 100)) (by
    rw [List.forall₂_iff_get]
    refine ⟨hw.len.symm, fun i hi hi' => ?_⟩
    have := hw.index i hi
    rw [List.getElem?_eq_getElem hi'] at this
    exact List.mem_of_getElem? this) hw.disj
  rw [h.deals_eq, Multiset.mem_coe, List.mem_map] at hmem
  obtain ⟨dd, hdd, he⟩ := hmem
  obtain ⟨hl, hwf, _, _⟩ := deals_wf h.wf hdd
  have he1 := congrArg Prod.fst he
  have he2 := congrArg Prod.snd he
  simp only at he1 he2
  have hshows : ∀ p < dd.length, ShowsHand w p (dd.getD p (0, 0, 0)) := by
    intro p hp
    have hp2 : p ∈ s.combinedRanges.flatMap playersOf := h.players.mem_iff.2 (List.mem_range.2 (by omega))
    obtain ⟨cr, hcr, hpc⟩ := List.mem_flatMap.1 hp2
    obtain ⟨i, hi, rfl⟩ := List.getElem_of_mem hcr
    obtain ⟨j, hj, hpj⟩ := List.mem_map.1 hpc
    have hj := List.mem_range.1 hj
    have hi' : i < picks.length := by rw [hw.len]; exact hi
    have h1 := hw.shows i hi hi' j hj
    have h2 := writeAll_at s.combinedRanges picks (fun _ => (52, 52, 100)) hok.players i hi hi' j hj
    rw [← he2, hpj, assign_get dd _ hp] at h2
    rw [hpj, ← h2] at h1
    exact h1
  have h9 : dd.length ≤ 9 := by rw [hl]; exact h.fields.2.2.2.2.2.2.1
  refine ⟨dd, hdd, ⟨hshows, ?_, weight_eq h9 (fun p hp => (hshows p hp).2.2) (fun p hp => ho p fun hmem => ?_)⟩, ?_⟩
  · intro c hc
    rw [hw.used, ← he1]
    exact used_testBit b d dd hc
  · have := List.mem_range.1 (h.players.mem_iff.1 hmem)
    omega
  · rw [← he2, h.fields.1, ← hl]
    exact (assign_map dd _).symm

/-- A walk that satisfies the invariant is at a legal deal. -/
theorem McReady.atDeal (h : McReady ranges b d s) {w : Walk} {picks : List JointCombo}
    (hw : WalkOk s.combinedRanges (b ||| d) w picks) (ho : Outside s.combinedRanges w) :
    ∃ dd ∈ deals (specRanges ranges) (maskCards b ++ maskCards d), AtDeal (maskCards b) (maskCards d) w dd := by
  obtain ⟨dd, hdd, hat, _⟩ := h.atDeal_written hw ho
  exact ⟨dd, hdd, hat⟩

/-- What one evaluation adds. -/
def showFull (x : List WHand × List Nat) : FT := (sdTally [x], 1)

/-- An evaluation at a legal deal for which `randomize_board` produces the board `B`. -/
theorem McReady.evalDeal_board (h : McReady ranges b d s) {l : McLocal} {dd : List WHand}
    (hdd : dd ∈ deals (specRanges ranges) (maskCards b ++ maskCards d)) (hat : AtDeal (maskCards b) (maskCards d) l.walk dd)
    {ds rest : Draws} {B : List Nat} (hB : B ∈ boards (maskCards b) (maskCards d) dd)
    (hr : randomizeBoard (5 - s.fixedBoard.count) (l.walk.used ||| s.deadMask) s.fixedBoard ds = .ok (ofCards B) rest) :
    ∃ l', evalDeal s l ds = .ok l' rest ∧ full (l'.stats, l'.hands) = full (l.stats, l.hands) + showFull (dd, B) ∧
        l'.stats.playerIds = l.stats.playerIds ∧ l'.walk = l.walk ∧ l'.pc = l.pc := by
  obtain ⟨h1, h2, h3, h4, _, _, _, h5, _, h6⟩ := h.fields
  obtain ⟨hl, hwf, hcards, hlegal⟩ := deals_wf h.wf hdd
  have hcount : s.fixedBoard.count = (maskCards b).length := by rw [h4, ← fixedBoard_eq, fixedBoard_count h5]
  have hsub : subC 5 s.fixedBoard.count = some (5 - s.fixedBoard.count) := by
    unfold subC; rw [hcount, if_pos h6]
  unfold Pokers.evalDeal
  rw [hsub]
  simp only [hr]
  obtain ⟨b1, b2, b3⟩ := boards_ok ⟨maskCards_isCards b, h6, hcards, hlegal⟩ hB
  refine ⟨_, rfl, ?_, ?_, ?_, ?_⟩
  · show full (evaluateHands _ _ _ _ _ _ _) = _
    refine Prod.ext ?_ ?_
    · show tallyOf (evaluateHands _ _ _ _ _ _ _) = tallyOf (l.stats, l.hands) + sdTally [(dd, B)]
      rw [evaluateHands_tally]
      congr 1
      rw [sdTally_cons, sdTally_nil, add_zero, hat.weight, h1, ← hl]
      congr 1
      have e : topPlayers (scoresOf l.walk.hands (ofCards B) true) dd.length = winners B dd := by
        rw [← winners_eq hcards b1 b2 b3]
        apply topPlayers_congr
        intro i hi
        show handScore (ofCards B) (l.walk.hands i) true = _
        rw [(hat.shows i hi).1, handScore_true]
      rw [e]
      apply contrib_congr
      · intro i hi
        exact (hat.shows i hi).2.1
      · intro i hi; exact winners_lt hi
    · exact (evaluateHands_rest s.nPlayers l.walk.hands l.walk.weight (ofCards B) l.walk.lookup true (l.stats, l.hands)).2.1
  · exact (evaluateHands_rest s.nPlayers l.walk.hands l.walk.weight (ofCards B) l.walk.lookup true (l.stats, l.hands)).1
  · rfl
  · rfl

/-- An evaluation at a legal deal is a showdown of that deal. -/
theorem McReady.evalDeal (h : McReady ranges b d s) {l : McLocal} {dd : List WHand}
    (hdd : dd ∈ deals (specRanges ranges) (maskCards b ++ maskCards d)) (hat : AtDeal (maskCards b) (maskCards d) l.walk dd)
    (ds : Draws) : evalDeal s l ds ≠ .panic ∧ ∀ l' ds', Pokers.evalDeal s l ds = .ok l' ds' →
      ∃ B ∈ boards (maskCards b) (maskCards d) dd,
        full (l'.stats, l'.hands) = full (l.stats, l.hands) + showFull (dd, B) ∧
        l'.stats.playerIds = l.stats.playerIds ∧ l'.walk = l.walk ∧ l'.pc = l.pc := by
  obtain ⟨h1, h2, h3, h4, _, _, _, h5, _, h6⟩ := h.fields
  have hcount : s.fixedBoard.count = (maskCards b).length := by rw [h4, ← fixedBoard_eq, fixedBoard_count h5]
  have hsub : subC 5 s.fixedBoard.count = some (5 - s.fixedBoard.count) := by
    unfold subC; rw [hcount, if_pos h6]
  cases hb : randomizeBoard (5 - s.fixedBoard.count) (l.walk.used ||| s.deadMask) s.fixedBoard ds with
  | more =>
    unfold Pokers.evalDeal
    rw [hsub]
    simp only [hb]
    exact ⟨(by intro h; cases h), (by intro _ _ h; cases h)⟩
  | panic => exact absurd hb (randomizeBoard_no_panic _ _ _ _)
  | ok board rest =>
    have hb' := hb
    rw [h4] at hb'
    rw [← h4, hcount] at hb'
    rw [h4] at hb'
    obtain ⟨B, hB, hbB⟩ := randomizeBoard_boards (board := maskCards b) (dead := maskCards d) (d := dd) (by
      intro c hc
      rw [h3, Nat.testBit_or, Bool.or_eq_true, hat.used c hc, ← mem_maskCards hc]
      simp only [List.mem_append]
      tauto) hb'
    rw [hbB] at hb
    obtain ⟨l1, g1, g2⟩ := h.evalDeal_board hdd hat hB hb
    rw [g1]
    refine ⟨(by intro h; cases h), fun l' ds' he => ?_⟩
    injection he with he1 he2
    rw [← he1]
    exact ⟨B, hB, g2⟩

end

end Pokers

import Mathlib.Data.Nat.Choose.Basic
import Mathlib.Algebra.BigOperators.Ring.List
import Verif.Proofs.Prepare
/-!
# Input validation, combined ranges and the enumeration of deals (C26, C27, C28, C39, C40)
-/
namespace Pokers
open CombinedRange Sim Spec

/-! ## C27 -/

/-- C27: choosing one combo of every combined range such that no card is used twice (and none of the mask `u`) gives every
legal deal of the input ranges exactly once, each player with one of the hands of the player's range and its weight.
`dealsOf` lists these choices; its second components are the hands by player. -/
theorem C27_deals (ranges : List (List Combo)) (hwf : ∀ r ∈ ranges, WfRange r) (u : Nat) (blocked : List Nat)
    (hu : ∀ c < 52, u.testBit c = true ↔ c ∈ blocked) (ph : Nat → Hole) :
    (dealsOf (fromRanges ranges) u ph).map (fun x => (List.range ranges.length).map x.2) =
      (deals (specRanges ranges) blocked : Multiset (List WHand)) := by
  rw [fromRanges_deals ranges hwf u blocked hu ph, Multiset.map_coe, List.map_map]
  congr 1
  apply (List.map_congr_left ?_).trans (List.map_id _)
  intro d hd
  have hl : d.length = ranges.length := by
    have := length_of_mem_choices (List.mem_filter.1 hd).1
    simpa [specRanges] using this
  show (List.range ranges.length).map (assign 0 d ph) = d
  rw [← hl]; exact assign_map d ph

/-- C27: every player occurs in exactly one combined range, exactly once; so the indices used in the fixed-size arrays
`players`, `hole_cards` and `hands` are below the number of players. -/
theorem C27_players (ranges : List (List Combo)) :
    ((fromRanges ranges).flatMap playersOf).Perm (List.range ranges.length) ∧
    ∀ cr ∈ fromRanges ranges, cr.playerCount ≤ ranges.length ∧ ∀ j < cr.playerCount, cr.players j < ranges.length := by
  refine ⟨fromRanges_players ranges, fun cr hcr => ⟨?_, fun j hj => ?_⟩⟩
  · have h1 : (playersOf cr).Subperm (List.range ranges.length) :=
      (List.Sublist.subperm (List.sublist_flatten_of_mem (List.mem_map.2 ⟨cr, hcr, rfl⟩))).trans
        (List.Perm.subperm (by rw [← List.flatMap_def]; exact fromRanges_players ranges))
    simpa [playersOf] using h1.length_le
  · exact List.mem_range.1 ((fromRanges_players ranges).mem_iff.1
      (List.mem_flatMap.2 ⟨cr, hcr, List.mem_map.2 ⟨j, List.mem_range.2 hj, rfl⟩⟩))

/-- C27: what a combo of a combined range contains: for each of its players a hand of that player's range, no card twice, the
mask of exactly these cards, and the packed hands used by the evaluator. -/
theorem C27_combos (ranges : List (List Combo)) (hwf : ∀ r ∈ ranges, WfRange r) {cr : CombinedRange}
    (hcr : cr ∈ fromRanges ranges) {c : JointCombo} (hc : c ∈ cr.combos) :
    (∀ j < cr.playerCount, ∃ k ∈ ranges.getD (cr.players j) [],
      c.holeCards j = (k.c1, k.c2, k.w) ∧ c.hands j = Hand.fromHoleCards k.c1 k.c2) ∧
    (dealt ((List.range cr.playerCount).map c.holeCards)).Nodup ∧
    (∀ x, c.mask.testBit x = true ↔ x ∈ dealt ((List.range cr.playerCount).map c.holeCards)) ∧
    cr.size = cr.combos.length := by
  have h := fromRanges_ok ranges hwf cr hcr c hc
  refine ⟨h.mem, h.legal, fun x => ?_, fromRanges_size ranges cr hcr⟩
  rw [h.mask, maskOr_testBit, Nat.zero_testBit, Bool.false_or, decide_eq_true_iff]
  rfl

/-- C27: the bound on the iterations in the model of the combining loop is no restriction. -/
theorem C27_fuel (ranges : List (List Combo)) (k : Nat) :
    combineLoop (ranges.length + k) (ranges.mapIdx fun i r => fromRange r i) = fromRanges ranges :=
  combineLoop_fuel _ _ (by simp) k

theorem combineLoop_stop : ∀ fuel crs, crs.length ≤ fuel → MAX_SIZE ≤ (bestPair (combineLoop fuel crs)).1 := by
  intro fuel
  induction fuel with
  | zero =>
    intro crs h
    rw [List.length_eq_zero_iff.1 (Nat.le_zero.1 h)]; decide
  | succ fuel ih =>
    intro crs h
    rw [combineLoop]
    show MAX_SIZE ≤ (bestPair (if (bestPair crs).1 < MAX_SIZE then _ else _)).1
    split
    · rename_i hb
      apply ih
      have hs := bestPair_spec crs (Nat.lt_trans hb (by decide))
      obtain ⟨a, b, rest, h1, h2, _, _⟩ := joinAt_perm crs _ _ hs.1 hs.2.1
      have := h1.length_eq
      rw [h2.length_eq]
      simp at this ⊢
      omega
    · rename_i hb
      exact Nat.le_of_not_lt hb

/-- C27: the combining loop ends by its own exit condition: no two of the remaining combined ranges have fewer than 10000
compatible pairs of combos. -/
theorem C27_exit (ranges : List (List Combo)) : MAX_SIZE ≤ (bestPair (fromRanges ranges)).1 :=
  combineLoop_stop _ _ (by simp)

/-- Two players with the ranges `AsAh, AsAd` (weight 100) and `AsAh, AcAd` (weight 50): of the four pairs of hands only
two are compatible. -/
example : (deals (specRanges [[⟨49, 48, 100⟩, ⟨51, 48, 100⟩], [⟨49, 48, 50⟩, ⟨51, 50, 50⟩]]) []) =
    [[(49, 48, 100), (51, 50, 50)], [(51, 48, 100), (49, 48, 50)]].filter (fun d => (dealt d).Nodup) := by decide
example : (fromRanges [[⟨49, 48, 100⟩, ⟨51, 48, 100⟩], [⟨49, 48, 50⟩, ⟨51, 50, 50⟩]]).map
    (fun cr => (playersOf cr, cr.combos.map (holesOf cr))) = [([0, 1], [[(49, 48, 100), (51, 50, 50)]])] := by decide +kernel

/-! ## C39 -/

/-- C39: the checks of the arguments, with their precedence. -/
theorem C39_validate (ranges : List (List Combo)) (b d : Nat) :
    (prepareExact ranges b d = .error .TooFewPlayers ↔ ranges.length < 2) ∧
    (prepareExact ranges b d = .error .TooManyPlayers ↔ 9 < ranges.length) ∧
    (prepareExact ranges b d = .error .TooManyBoardCards ↔ 2 ≤ ranges.length ∧ ranges.length ≤ 9 ∧ 5 < countOnes b) ∧
    (prepareExact ranges b d = .error .TooManyDeadCards ↔ 2 ≤ ranges.length ∧ ranges.length ≤ 9 ∧ countOnes b ≤ 5 ∧
      52 < 2 * ranges.length + countOnes d + 5) := by
  unfold prepareExact validate
  simp only [MIN_PLAYERS, MAX_PLAYERS, BOARD_CARDS, CARD_COUNT]
  by_cases h1 : ranges.length < 2
  · simp only [h1, if_true]; simp; omega
  · by_cases h2 : ranges.length > 9
    · simp only [h1, h2, if_true, if_false]; simp; omega
    · by_cases h3 : countOnes b > 5
      · simp only [h1, h2, h3, if_true, if_false]; simp; omega
      · by_cases h4 : 2 * ranges.length + countOnes d + 5 > 52
        · simp only [h1, h2, h3, h4, if_true, if_false]; simp; omega
        · simp only [h1, h2, h3, h4, if_false]
          by_cases h5 : ((fromRanges (ranges.map fun h => removeConflictingCombos h b d)).any fun cr => cr.size == 0) = true
          · rw [if_pos h5]; simp
          · rw [if_neg h5]; simp

/-- What is known about an accepted input. -/
structure Accepted (ranges : List (List Combo)) (b d : Nat) (s : Sim) : Prop where
  players : 2 ≤ ranges.length ∧ ranges.length ≤ 9
  board : countOnes b ≤ 5
  dead : 2 * ranges.length + countOnes d + 5 ≤ 52
  sim : s = Sim.new (ranges.map fun h => removeConflictingCombos h b d)
    (fromRanges (ranges.map fun h => removeConflictingCombos h b d)) b d true
  sizes : ∀ cr ∈ s.combinedRanges, 0 < cr.size

theorem prepareExact_ok {ranges : List (List Combo)} {b d : Nat} {s : Sim} (h : prepareExact ranges b d = .ok s) :
    Accepted ranges b d s := by
  unfold prepareExact validate at h
  simp only [MIN_PLAYERS, MAX_PLAYERS, BOARD_CARDS, CARD_COUNT] at h
  by_cases h1 : ranges.length < 2
  · simp only [h1, if_true] at h; cases h
  · by_cases h2 : ranges.length > 9
    · simp only [h1, h2, if_true, if_false] at h; cases h
    · by_cases h3 : countOnes b > 5
      · simp only [h1, h2, h3, if_true, if_false] at h; cases h
      · by_cases h4 : 2 * ranges.length + countOnes d + 5 > 52
        · simp only [h1, h2, h3, h4, if_true, if_false] at h; cases h
        · simp only [h1, h2, h3, h4, if_false] at h
          by_cases h5 : ((fromRanges (ranges.map fun h => removeConflictingCombos h b d)).any fun cr => cr.size == 0) = true
          · rw [if_pos h5] at h; cases h
          · rw [if_neg h5] at h
            injection h with h
            subst h
            refine ⟨⟨by omega, by omega⟩, by omega, by omega, rfl, fun cr hcr => ?_⟩
            rw [Bool.not_eq_true, List.any_eq_false] at h5
            have := h5 cr hcr
            simp only [beq_iff_eq] at this
            omega

/-- C39: an accepted input has 2 to 9 players, at most five board cards, and leaves enough cards to deal the hands and to
complete the board. -/
theorem C39_accepted {ranges : List (List Combo)} {b d : Nat} {s : Sim} (h : prepareExact ranges b d = .ok s) :
    2 ≤ s.nPlayers ∧ s.nPlayers ≤ 9 ∧ countOnes b ≤ 5 ∧ 2 * s.nPlayers + countOnes d + 5 ≤ 52 := by
  have ha := prepareExact_ok h
  have : s.nPlayers = ranges.length := by rw [ha.sim]; simp [Sim.new]
  rw [this]
  exact ⟨ha.players.1, ha.players.2, ha.board, ha.dead⟩

example : prepareExact [] 0 0 = .error .TooFewPlayers := (C39_validate _ _ _).1.2 (by decide)
example : prepareExact (List.replicate 10 []) (2 ^ 6 - 1) 0 = .error .TooManyPlayers := (C39_validate _ _ _).2.1.2 (by decide)
example : prepareExact [[], []] (2 ^ 6 - 1) (2 ^ 52 - 1) = .error .TooManyBoardCards :=
  (C39_validate _ _ _).2.2.1.2 (by decide +kernel)
example : prepareExact [[], []] 0 (2 ^ 44 - 1) = .error .TooManyDeadCards := (C39_validate _ _ _).2.2.2.2 (by decide +kernel)
/-- 43 dead cards leave exactly nine cards for two players. -/
example : validate 2 0 (2 ^ 43 - 1) = none := by decide +kernel

/-! ## C40 -/

/-- C40: when `ConflictingRanges` is reported there is no legal deal. -/
theorem C40_sound {ranges : List (List Combo)} (hwf : ∀ r ∈ ranges, WfRange r) {b d : Nat} (_hb : CardMask b) (_hd : CardMask d)
    (h : prepareExact ranges b d = .error .ConflictingRanges) :
    deals (specRanges ranges) (maskCards b ++ maskCards d) = [] := by
  have hx : ∃ cr ∈ fromRanges (ranges.map fun h => removeConflictingCombos h b d), cr.size = 0 := by
    unfold prepareExact at h
    split at h
    · rename_i e he
      injection h with h
      subst h
      unfold validate at he
      repeat' split at he
      all_goals simp at he
    · change (if _ then _ else _) = _ at h
      split at h
      · rename_i hany
        rw [List.any_eq_true] at hany
        obtain ⟨cr, h1, h2⟩ := hany
        exact ⟨cr, h1, by simpa using h2⟩
      · cases h
  obtain ⟨cr, hcr, hs⟩ := hx
  rw [← deals_filter hwf b d]
  have hC := C27_deals _ (wf_filter hwf b d) (b ||| d) _ (blocked_iff b d) (fun _ => (0, 0, 0))
  have h0 : sizeProd (fromRanges (ranges.map fun h => removeConflictingCombos h b d)) = 0 := by
    rw [sizeProd, List.prod_eq_zero_iff]
    exact List.mem_map.2 ⟨cr, hcr, by rw [← fromRanges_size _ cr hcr]; exact hs⟩
  rw [← decodePure_all, h0] at hC
  simpa using hC.symm

/-- C40: if a player has no hand left after card removal, `ConflictingRanges` is reported. -/
theorem C40_empty {ranges : List (List Combo)} (hwf : ∀ r ∈ ranges, WfRange r) {b d : Nat}
    (hv : validate ranges.length b d = none) {r : List Combo} (hr : r ∈ ranges) (he : removeConflictingCombos r b d = []) :
    prepareExact ranges b d = .error .ConflictingRanges := by
  obtain ⟨p, hp, rfl⟩ := List.getElem_of_mem hr
  obtain ⟨cr, h1, h2⟩ := fromRanges_empty _ (wf_filter hwf b d) (p := p) (by simpa using hp) (by simpa using he)
  unfold prepareExact
  rw [hv]
  show (if _ then _ else _) = _
  rw [if_pos]
  rw [List.any_eq_true]
  exact ⟨cr, h1, by simpa using h2⟩

/-- Both players hold exactly the two black aces. -/
example : prepareExact [[⟨50, 48, 100⟩], [⟨50, 48, 100⟩]] 0 0 = .error .ConflictingRanges := by
  unfold prepareExact
  rw [show validate (List.length _) 0 0 = none by decide +kernel]
  show (if _ then _ else _) = _
  rw [if_pos (by decide +kernel)]

/-! ## C28 -/

theorem decode_pure {ranges : List (List Combo)} {b d : Nat} {s : Sim} (hs : prepareExact ranges b d = .ok s)
    {ds : List DividerU64} (hds : s.fastDividers = some ds) {total : Nat} (ht : s.preflopComboCount = some total) :
    total = sizeProd s.combinedRanges ∧ total < 2 ^ 64 ∧
    ∀ pos < total, ∃ o, s.decode ds pos = some o ∧
      optM o = decodePure s.combinedRanges pos (b ||| d) (fun _ => (52, 52, 100)) := by
  have ha := prepareExact_ok hs
  have hcr : s.combinedRanges = fromRanges (ranges.map fun h => removeConflictingCombos h b d) := by rw [ha.sim]; rfl
  have hok : ∀ c ∈ s.combinedRanges, SizeOk c := by rw [hcr]; exact fromRanges_size _
  obtain ⟨ht1, ht2⟩ := preflop_foldlM _ _ _ ht
  rw [Nat.one_mul, sizeProd_eq _ hok] at ht1
  have ht64 := ht2 (by decide)
  have hle : ∀ c ∈ s.combinedRanges, c.size < 2 ^ 64 := by
    intro c hc
    refine Nat.lt_of_le_of_lt (Nat.le_of_dvd ?_ ?_) ht64
    · rw [ht1, sizeProd]
      apply Nat.pos_of_ne_zero
      intro h0
      rw [List.prod_eq_zero_iff, List.mem_map] at h0
      obtain ⟨x, hx, h0⟩ := h0
      have := ha.sizes x hx
      rw [hok x hx] at this
      omega
    · rw [ht1, sizeProd, hok c hc]
      exact List.dvd_prod (List.mem_map.2 ⟨c, hc, rfl⟩)
  refine ⟨ht1, ht64, fun pos hpos => ?_⟩
  have hm : s.boardMask ||| s.deadMask = b ||| d := by rw [ha.sim]; rfl
  rw [Sim.decode, hm]
  exact decodeLoop_eq (mapM_dividers _ _ hds) (fun c hc => ⟨hok c hc, ha.sizes c hc, hle c hc⟩) pos _ _
      (Nat.lt_trans hpos ht64)

/-- C28: the positions `0 … total - 1` are decoded without panic and give every legal deal exactly once. -/
theorem C28_decode {ranges : List (List Combo)} (hwf : ∀ r ∈ ranges, WfRange r) {b d : Nat} (_hb : CardMask b) (_hd : CardMask d)
    {s : Sim} (hs : prepareExact ranges b d = .ok s) {ds : List DividerU64} (hds : s.fastDividers = some ds)
    {total : Nat} (ht : s.preflopComboCount = some total) :
    (∀ pos < total, ∃ o, s.decode ds pos = some o) ∧
    (((List.range total).filterMap fun pos => (s.decode ds pos).join.map fun x => (List.range s.nPlayers).map x.2).Perm
      (deals (specRanges ranges) (maskCards b ++ maskCards d))) := by
  have ha := prepareExact_ok hs
  have hcr : s.combinedRanges = fromRanges (ranges.map fun h => removeConflictingCombos h b d) := by rw [ha.sim]; rfl
  obtain ⟨ht1, _, hdec⟩ := decode_pure hs hds ht
  refine ⟨fun pos hpos => (hdec pos hpos).imp fun o h => h.1, ?_⟩
  rw [← deals_filter hwf b d]
  have hC := C27_deals _ (wf_filter hwf b d) (b ||| d) _ (blocked_iff b d) (fun _ => (52, 52, 100))
  rw [← Multiset.coe_eq_coe, ← hC, ← hcr, ← decodePure_all, ← ht1, Multiset.map_bind]
  have hn : s.nPlayers = ranges.length := by rw [ha.sim]; simp [Sim.new]
  rw [hn, List.length_map]
  generalize hl : List.range total = l
  have hmem : ∀ pos ∈ l, pos < total := by intro pos hp; rw [← hl] at hp; exact List.mem_range.1 hp
  clear hl
  induction l with
  | nil => simp
  | cons pos l ih =>
    rw [← Multiset.cons_coe, Multiset.cons_bind, ← ih (fun p hp => hmem p (by simp [hp])), List.filterMap_cons]
    obtain ⟨o, ho1, ho2⟩ := hdec pos (hmem pos (by simp))
    rw [ho1, ← ho2]
    cases o with
    | none => simp [optM]
    | some x => simp [optM]

/-- C28: the preparations succeed exactly when the number of combinations fits 64 bits. -/
theorem C28_prepared {ranges : List (List Combo)} {b d : Nat} {s : Sim} (hs : prepareExact ranges b d = .ok s) :
    ((∃ total, s.preflopComboCount = some total) ↔ (s.combinedRanges.map (·.size)).prod < 2 ^ 64) ∧
    (∀ total, s.preflopComboCount = some total → total = (s.combinedRanges.map (·.size)).prod ∧ 0 < total ∧
      ∃ ds, s.fastDividers = some ds) := by
  have ha := prepareExact_ok hs
  have hpos : 0 < (s.combinedRanges.map (·.size)).prod := by
    apply Nat.pos_of_ne_zero
    intro h0
    rw [List.prod_eq_zero_iff, List.mem_map] at h0
    obtain ⟨x, hx, h0⟩ := h0
    have := ha.sizes x hx
    omega
  have key : ∀ total, s.preflopComboCount = some total → total = (s.combinedRanges.map (·.size)).prod ∧ total < 2 ^ 64 := by
    intro total ht
    have := preflop_foldlM _ _ _ ht
    exact ⟨by rw [this.1, Nat.one_mul], this.2 (by decide)⟩
  refine ⟨⟨?_, ?_⟩, ?_⟩
  · rintro ⟨total, ht⟩
    rw [← (key total ht).1]; exact (key total ht).2
  · intro hlt
    exact ⟨_, preflop_some _ ha.sizes 1 (by rw [Nat.one_mul]; exact hlt)⟩
  · intro total ht
    obtain ⟨h1, h2⟩ := key total ht
    refine ⟨h1, by rw [h1]; exact hpos, dividers_exist _ fun c hc => ⟨ha.sizes c hc, ?_⟩⟩
    refine Nat.lt_of_le_of_lt (Nat.le_of_dvd (by rw [h1]; exact hpos) ?_) h2
    rw [h1]
    exact List.dvd_prod (List.mem_map.2 ⟨c, hc, rfl⟩)

/-- 147 hands spread evenly over the deck. -/
def spreadRange : List Combo :=
  (List.range 147).map fun i => ⟨(i * 5 + i / 52) % 52, (i * 5 + i / 52 + 1 + i % 25) % 52, 100⟩

theorem spreadRange_wf : WfRange spreadRange := by unfold WfRange spreadRange; decide +kernel

theorem spread_fromRanges : fromRanges (List.replicate 9 spreadRange) =
    (List.replicate 9 spreadRange).mapIdx fun i r => fromRange r i := by
  show combineLoop (8 + 1) _ = _
  rw [combineLoop]
  have h : ¬ (bestPair ((List.replicate 9 spreadRange).mapIdx fun i r => fromRange r i)).1 < MAX_SIZE := by decide +kernel
  show (if _ then _ else _) = _
  rw [if_neg h]

/-- Finding: nine players with ranges of only 147 hands are accepted although the number of combinations does not fit 64 bits;
the multiplication in `get_preflop_combo_count` then overflows (a panic in a debug build; in a release build the number wraps
and only part of the deals is enumerated). -/
theorem C28_overflow : ∃ ranges : List (List Combo), (∀ r ∈ ranges, WfRange r) ∧
    ∃ s, prepareExact ranges 0 0 = .ok s ∧ s.preflopComboCount = none := by
  refine ⟨List.replicate 9 spreadRange, fun r hr => by rw [List.eq_of_mem_replicate hr]; exact spreadRange_wf,
    Sim.new (List.replicate 9 spreadRange) (fromRanges (List.replicate 9 spreadRange)) 0 0 true, ?_, ?_⟩
  · have hf : (List.replicate 9 spreadRange).map (fun h => removeConflictingCombos h 0 0) = List.replicate 9 spreadRange := by
      have hR : removeConflictingCombos spreadRange 0 0 = spreadRange := List.filter_eq_self.2 (fun a _ => by simp)
      rw [List.map_replicate, hR]
    have hv : validate (List.replicate 9 spreadRange).length 0 0 = none := by decide +kernel
    unfold prepareExact
    rw [hv]
    show (if _ then _ else _) = _
    rw [hf, if_neg]
    rw [spread_fromRanges]; decide +kernel
  · unfold Sim.preflopComboCount
    have hc : ∀ hs crs, (Sim.new hs crs 0 0 true).combinedRanges = crs := fun _ _ => rfl
    rw [hc, spread_fromRanges]; decide +kernel

/-! ## C26 -/

theorem product_loop (d : Nat) : ∀ r, d ≤ 52 → r ≤ 5 → r ≤ d →
    (List.range r).foldlM (fun p i => do
      let x ← subC d i
      fits 64 (p * x)) 1 = some (d.descFactorial r) := by
  intro r hd
  induction r with
  | zero => intro _ _; rfl
  | succ r ih =>
    intro h5 hr
    rw [List.range_succ, List.foldlM_append, ih (by omega) (by omega)]
    have hlt : d.descFactorial r * (d - r) < 2 ^ 64 := by
      have h1 : d.descFactorial r ≤ d ^ r := Nat.descFactorial_le_pow d r
      have h2 : d ^ r ≤ 52 ^ r := Nat.pow_le_pow_left hd r
      have h3 : (52 : Nat) ^ r ≤ 52 ^ 4 := Nat.pow_le_pow_right (by decide) (by omega)
      calc d.descFactorial r * (d - r) ≤ 52 ^ 4 * 52 := Nat.mul_le_mul (by omega) (by omega)
        _ < 2 ^ 64 := by norm_num
    have h1 : subC d r = some (d - r) := by unfold subC; rw [if_pos (by omega)]
    simp only [Option.bind_eq_bind, Option.bind_some, List.foldlM_cons, h1, fits, hlt, if_true, List.foldlM_nil]
    rw [Nat.descFactorial_succ, Nat.mul_comm]
    rfl

theorem division_loop (p : Nat) : ∀ r, (List.range r).foldlM (fun p i => divC p (i + 1)) p = some (p / r.factorial) := by
  intro r
  induction r with
  | zero => simp
  | succ r ih =>
    rw [List.range_succ, List.foldlM_append, ih]
    simp only [Option.bind_eq_bind, Option.bind_some, List.foldlM_cons, divC, Nat.add_one_ne_zero, if_false, List.foldlM_nil]
    rw [Nat.div_div_eq_div_mul, Nat.factorial_succ, Nat.mul_comm]
    rfl

/-- C26: the number of run-outs used for batch sizing is the binomial coefficient and positive; no step of its computation
panics, nor does the division by it. -/
theorem C26_postflop {ranges : List (List Combo)} {b d : Nat} {s : Sim} (hs : prepareExact ranges b d = .ok s) :
    s.postflopComboCount =
      some ((52 - (maskCards b).length - countOnes d - 2 * ranges.length).choose (5 - (maskCards b).length)) ∧
    0 < (52 - (maskCards b).length - countOnes d - 2 * ranges.length).choose (5 - (maskCards b).length) ∧
    s.reserveSize = some (max (2000000 /
      (52 - (maskCards b).length - countOnes d - 2 * ranges.length).choose (5 - (maskCards b).length)) 1) := by
  have ha := prepareExact_ok hs
  have h1 := ha.board
  have h2 := ha.dead
  have hl := maskCards_length_le b
  have hc : s.fixedBoard.count = (maskCards b).length := by
    rw [ha.sim]; exact fixedBoard_count h1
  have hn : s.nPlayers = ranges.length := by rw [ha.sim]; simp [Sim.new]
  have hd : s.deadMask = d := by rw [ha.sim]; rfl
  have key : s.postflopComboCount =
      some ((52 - (maskCards b).length - countOnes d - 2 * ranges.length).choose (5 - (maskCards b).length)) := by
    unfold Sim.postflopComboCount
    rw [hc, hn, hd]
    generalize (maskCards b).length = k at *
    simp only [CARD_COUNT, subC, Option.bind_eq_bind]
    have e1 : k ≤ 52 := by omega
    have e2 : countOnes d ≤ 52 - k := by omega
    have e3 : 2 * ranges.length ≤ 52 - k - countOnes d := by omega
    have e4 : k ≤ 5 := by omega
    simp only [e1, e2, e3, e4, if_true, Option.bind_some]
    have := product_loop (52 - k - countOnes d - 2 * ranges.length) (5 - k) (by omega) (by omega) (by omega)
    simp only [subC, Option.bind_eq_bind] at this
    rw [this, Option.bind_some, division_loop, Nat.choose_eq_descFactorial_div_factorial]
  have hpos : 0 < (52 - (maskCards b).length - countOnes d - 2 * ranges.length).choose (5 - (maskCards b).length) :=
    Nat.choose_pos (by omega)
  refine ⟨key, hpos, ?_⟩
  unfold Sim.reserveSize
  rw [key]
  simp only [Option.bind_eq_bind, Option.bind_some, divC]
  rw [if_neg (by omega)]
  rfl

/-- Heads-up before the flop there are 1712304 boards. -/
example : (52 - 0 - 0 - 2 * 2 : Nat).choose 5 = 1712304 := by decide +kernel

end Pokers

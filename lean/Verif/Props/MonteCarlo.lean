import Verif.Proofs.McLive
import Verif.Props.Exact
/-!
# The random simulation (C41, C42, C43)
-/
namespace Pokers
open Spec CombinedRange

variable {sqrt : ℚ → ℚ} {target : ℚ} {ranges : List (List Combo)} {b d nT : Nat} {cancelled : Bool}

/-! ## C39 and C40 for `approx_equity` -/

/-- C39, C40: `approx_equity` fails on exactly the inputs on which `exact_equity` fails, with the same error. -/
theorem C39_approx {e : SimulatorError} : PrepareApprox ranges b d (.error e) ↔ prepareExact ranges b d = .error e := by
  rw [prepareApprox_iff]
  constructor
  · rintro (⟨e', h1, h2⟩ | ⟨_, _, _, _, h⟩)
    · injection h2 with h2; subst h2; exact h1
    · cases h
  · intro h; exact Or.inl ⟨e, h, rfl⟩

/-- C39: an input accepted by `exact_equity` is accepted by `approx_equity`. -/
theorem C39_approx_ok {s0 : Sim} (h : prepareExact ranges b d = .ok s0) : ∃ s, PrepareApprox ranges b d (.ok s) := by
  refine ⟨_, prepareApprox_iff.2 (Or.inr ⟨s0, h, s0.combinedRanges, ?_, rfl⟩)⟩
  rw [List.forall₂_same]
  intro cr _
  exact ⟨rfl, rfl, rfl, List.Perm.refl _⟩

example : PrepareApprox [] 0 0 (.error .TooFewPlayers) := C39_approx.2 ((C39_validate _ _ _).1.2 (by decide))

theorem two_prepared : ∃ s, PrepareApprox twoHands flopMask 0 (.ok s) := by
  refine C39_approx_ok (s0 := Sim.new (twoHands.map fun h => removeConflictingCombos h flopMask 0)
    (fromRanges (twoHands.map fun h => removeConflictingCombos h flopMask 0)) flopMask 0 true) ?_
  unfold prepareExact
  rw [show validate (List.length _) _ 0 = none by decide +kernel]
  show (if _ then _ else _) = _
  rw [if_neg (by decide +kernel)]

/-- Aces against kings on a flop, for the examples. -/
theorem two_ready : ∃ s, McReady twoHands flopMask 0 s := by
  obtain ⟨s, hs⟩ := two_prepared
  exact ⟨s, by unfold WfRange twoHands; decide, by unfold CardMask; decide, by unfold CardMask; decide, hs⟩

theorem two_approx (sqrt : ℚ → ℚ) (target : ℚ) (nT : Nat) (cancelled : Bool) :
    ∃ r sent, ApproxEquity sqrt twoHands flopMask 0 nT target cancelled (.ok r) sent ∧ r.evalCount = 4096 * nT := by
  obtain ⟨s, hs⟩ := two_ready
  exact exists_run sqrt target hs.wf hs.boardMask hs.deadMask hs.ok (by decide +kernel) nT cancelled

/-! ## C41 -/

theorem legal_iff {x : List WHand × List Nat} :
    Pokers.Legal ranges b d x ↔ x ∈ showdowns (specRanges ranges) (maskCards b) (maskCards d) := by
  unfold Pokers.Legal showdowns
  rw [List.mem_flatMap]
  constructor
  · rintro ⟨h1, h2⟩; exact ⟨x.1, h1, List.mem_map.2 ⟨x.2, h2, rfl⟩⟩
  · rintro ⟨dd, h1, h2⟩
    obtain ⟨B, hB, rfl⟩ := List.mem_map.1 h2
    exact ⟨h1, hB⟩

/-- C41: the results of `approx_equity` are the counts over a list of legal showdowns, as many as `eval_count` says: of every
hand the wins, ties, total and shares, and for up to eight players the wins per winner mask and player.  For all random values,
schedules, numbers of threads and times of cancellation. -/
theorem C41_counts {r : Results} {sent : List Nat} (hwf : ∀ r ∈ ranges, WfRange r) (hb : CardMask b) (hd : CardMask d)
    (h : ApproxEquity sqrt ranges b d nT target cancelled (.ok r) sent) :
    ∃ sd : List (List WHand × List Nat), (∀ x ∈ sd, x ∈ showdowns (specRanges ranges) (maskCards b) (maskCards d)) ∧
      r.evalCount = sd.length ∧
      (∀ p < ranges.length, ∀ x < 52, ∀ y < 52, x ≠ y →
        let u := r.handResults (NUM_HANDS * p + getCardIndex x y)
        u.wins = handWins sd p x y ∧ u.ties = handTies sd p x y ∧ u.total = handTotal sd p x y ∧
        u.correctedTies = handShares sd p x y) ∧
      (ranges.length ≤ 8 → (∀ i < 2 ^ ranges.length, r.winsByMask i = winsOf sd (maskPlayers ranges.length i)) ∧
        ∀ p < ranges.length, r.wins p = winsOf sd [p]) := by
  obtain ⟨s, flag, r0, hist, sd, hrun, _⟩ := approx_run hwf hb hd h
  obtain ⟨hc, he⟩ := hrun.counts
  have hleg : ∀ x ∈ sd, x ∈ showdowns (specRanges ranges) (maskCards b) (maskCards d) := fun x hx => legal_iff.1 (hrun.legal x hx)
  have hlen : ∀ x ∈ sd, x.1.length = ranges.length := fun x hx => (showdowns_wf hwf (hleg x hx)).2
  refine ⟨sd, hleg, he, fun p hp x hx y hy hxy => ?_, fun h8 => ⟨hc.masks hlen h8, hc.playerWins hlen h8⟩⟩
  have hc := hc.hand p hp x hx y hy hxy
  exact ⟨congrArg (fun c : Cell => c.1) hc, congrArg (fun c : Cell => c.2.1) hc, congrArg (fun c : Cell => c.2.2.1) hc,
    congrArg (fun c : Cell => c.2.2.2) hc⟩

/-- There is a run to which `C41_counts` applies; it evaluates three batches. -/
example (sqrt : ℚ → ℚ) : ∃ r sent, ApproxEquity sqrt twoHands flopMask 0 3 (1 / 100) false (.ok r) sent ∧ r.evalCount = 12288 :=
  two_approx sqrt _ 3 false

/-- C41: what a legal showdown is: each player has a hand of the player's range, the board has five cards and begins with the
given ones, and no card occurs twice, is outside of the deck, or, apart from the given board, dead. -/
theorem C41_legal (hwf : ∀ r ∈ ranges, WfRange r) (h5 : (maskCards b).length ≤ 5) {x : List WHand × List Nat}
    (hx : x ∈ showdowns (specRanges ranges) (maskCards b) (maskCards d)) :
    List.Forall₂ (fun h r => h ∈ r) x.1 (specRanges ranges) ∧ x.2.length = 5 ∧ (dealt x.1 ++ x.2).Nodup ∧
    (∀ c ∈ dealt x.1 ++ x.2, c < 52) ∧ (∀ c ∈ dealt x.1, c ∉ maskCards d) ∧
    ∃ T, x.2 = maskCards b ++ T ∧ ∀ c ∈ T, c ∉ maskCards d := by
  obtain ⟨hdd, hB⟩ := legal_iff.2 hx
  obtain ⟨h1, h2, h3, h4⟩ := deals_wf hwf hdd
  obtain ⟨b1, b2, b3⟩ := boards_ok ⟨maskCards_isCards b, h5, h3, h4⟩ hB
  refine ⟨?_, b2, ?_, ?_, ?_, ?_⟩
  · unfold deals at hdd
    rw [List.mem_filter] at hdd
    obtain ⟨c1, c2⟩ := (mem_choices _ _).1 hdd.1
    rw [List.forall₂_iff_get]
    exact ⟨c1, fun i hi hi' => c2 i hi hi'⟩
  · rw [List.nodup_append]
    exact ⟨h3.1, b1.1, fun a ha c hc he => b3 c hc (he ▸ ha)⟩
  · intro c hc
    rcases List.mem_append.1 hc with hc | hc
    · exact h3.2 c hc
    · exact b1.2 c hc
  · intro c hc hcd
    exact h4 c hc (List.mem_append_right _ hcd)
  · unfold boards completions at hB
    obtain ⟨T, hT, he⟩ := List.mem_map.1 hB
    refine ⟨T, he.symm, fun c hc hcd => ?_⟩
    rw [List.mem_sublistsLen] at hT
    have := hT.1.subset hc
    rw [List.mem_filter, decide_eq_true_iff] at this
    exact this.2 (by simp [hcd])

/-- C41: whenever a thread is about to evaluate or to move on, its hands, hand indexes and weights are those of a legal deal, and its
used cards are the cards of the board, the dead cards and the cards dealt. -/
theorem C41_walk {s : Sim} (h : McReady ranges b d s) {r0 : Results} {w : McWorld}
    (hw : McSteps sqrt target s nT (McWorld.init s r0 cancelled) w) {t : Nat} (ht : t < nT)
    (hpc : (w.locals t).pc = .eval ∨ (w.locals t).pc = .move) :
    ∃ dd ∈ deals (specRanges ranges) (maskCards b ++ maskCards d),
      (∀ p < ranges.length, let c := dd.getD p (0, 0, 0)
        (w.locals t).walk.hands p = Hand.fromHoleCards c.1 c.2.1 ∧
        (w.locals t).walk.lookup p = NUM_HANDS * p + getCardIndex c.1 c.2.1 ∧ (w.locals t).walk.weights p = c.2.2) ∧
      (w.locals t).walk.weight = dealWeight dd ∧
      ∀ c < 52, (w.locals t).walk.used.testBit c = true ↔ c ∈ maskCards b ++ maskCards d ++ dealt dd := by
  obtain ⟨hist, Dr, Dl, hi⟩ := McInv.steps h hw
  obtain ⟨picks, hp⟩ := hi.walk t ht hpc
  obtain ⟨dd, hdd, hat⟩ := h.atDeal hp (hi.outside t ht)
  exact ⟨dd, hdd, fun p hp => hat.shows p (by rw [(deals_wf h.wf hdd).1]; exact hp), hat.weight, hat.used⟩

/-! ## C42 -/

/-- C42: no thread is ever in a panicked state: no combo index is out of bounds, the subtraction of the card mask never
underflows and the search for a compatible combo always ends. -/
theorem C42_no_panic {s : Sim} (h : McReady ranges b d s) {r0 : Results} {w : McWorld}
    (hw : McSteps sqrt target s nT (McWorld.init s r0 cancelled) w) {t : Nat} (ht : t < nT) : (w.locals t).pc ≠ .panicked := by
  obtain ⟨hist, Dr, Dl, hi⟩ := McInv.steps h hw
  exact hi.fine t ht

/-- C42: whenever a thread moves on and whichever combined range it chooses, the old combo exists and its mask can be subtracted from
the used cards; the search ends within as many iterations as the range has combos, at a combo disjoint from the other cards, and
allowing more iterations changes nothing. -/
theorem C42_redeal {s : Sim} (h : McReady ranges b d s) {r0 : Results} {w : McWorld}
    (hw : McSteps sqrt target s nT (McWorld.init s r0 cancelled) w) {t : Nat} (ht : t < nT) (hpc : (w.locals t).pc = .move)
    {i : Nat} {cr : CombinedRange} (hi : s.combinedRanges[i]? = some cr) :
    let wk := (w.locals t).walk
    ∃ old, cr.combos[wk.indexes i]? = some old ∧ old.mask ≤ wk.used ∧ (wk.used - old.mask) &&& old.mask = 0 ∧
      ∃ idx c, idx < cr.size ∧ (∀ more, redealLoop cr (wk.used - old.mask) (cr.size + more) (wk.indexes i) = some idx) ∧
        cr.combos[idx]? = some c ∧ c.mask &&& (wk.used - old.mask) = 0 := by
  intro wk
  obtain ⟨hist, Dr, Dl, hinv⟩ := McInv.steps h hw
  obtain ⟨picks, hp⟩ := hinv.walk t ht (Or.inr hpc)
  obtain ⟨hlt, rfl⟩ := List.getElem?_eq_some_iff.1 hi
  have hok := h.crsOk.1
  have hi' : i < picks.length := by rw [hp.len]; exact hlt
  have hsz := hok.size _ (List.getElem_mem hlt)
  obtain ⟨r1, r2, r3⟩ := hp.remove hi'
  refine ⟨picks[i], (hp.index i hlt).trans (List.getElem?_eq_getElem hi'), r1, by rw [r2]; exact r3, ?_⟩
  have hF : Fits s.combinedRanges[i] (othersUsed (b ||| d) picks i) (wk.indexes i) := (redeal_index hok hp hlt).1
  obtain ⟨idx, k1, k2⟩ := redealLoop_maps hsz hF
  have hlt' := fits_lt hsz k2
  obtain ⟨c, c1, c2⟩ := k2
  rw [r2]
  exact ⟨idx, c, hlt', fun more => redealLoop_mono _ _ k1 more, c1, c2⟩

/-- C42: the distributions are not empty: there is a combined range and each has a combo. -/
theorem C42_distributions {s : Sim} (h : McReady ranges b d s) :
    0 < s.combinedRanges.length ∧ ∀ cr ∈ s.combinedRanges, 0 < cr.size ∧ cr.size = cr.combos.length :=
  ⟨h.nonempty, fun cr hcr => ⟨h.crsOk.2 cr hcr, h.crsOk.1.size cr hcr⟩⟩

/-- C42: in every reachable state a thread that has not finished can make a step, for suitable random values. -/
theorem C42_progress {s : Sim} (h : McReady ranges b d s) {r0 : Results} {w : McWorld}
    (hw : McSteps sqrt target s nT (McWorld.init s r0 cancelled) w) {t : Nat} (ht : t < nT) (hpc : (w.locals t).pc ≠ .done) :
    ∃ l g, McStep sqrt target s nT w { locals := Function.update w.locals t l, shared := g } := by
  obtain ⟨hist, Dr, Dl, hi⟩ := McInv.steps h hw
  obtain ⟨ds, l, g, hst⟩ := mc_progress (target := target) h hi ht
  exact ⟨l, g, .thread w t ht ⟨hpc, hi.fine t ht⟩ ds l g hst⟩

/-- The hypotheses of the theorems on C42 can be met. -/
example : ∃ s, McReady twoHands flopMask 0 s := two_ready

/-! ## C43 -/

theorem completions_mem {used : List Nat} {k : Nat} {T : List Nat} (h : T ∈ completions used k) :
    T.length = k ∧ T.Nodup ∧ ∀ c ∈ T, c < 52 ∧ c ∉ used := by
  unfold completions at h
  rw [List.mem_sublistsLen] at h
  refine ⟨h.2, h.1.nodup (List.nodup_range.filter _), fun c hc => ?_⟩
  have := h.1.subset hc
  rw [List.mem_filter, List.mem_range, decide_eq_true_iff] at this
  exact this

open Classical in
/-- The number of sequences of `L` draws for which `randomize_board`, called at the deal of the walk `w`, uses all draws and
produces the board `B`. -/
noncomputable def boardSequences (s : Sim) (w : Walk) (B : List Nat) (L : Nat) : Nat :=
  (drawLists L).countP fun ds =>
    decide (randomizeBoard (5 - s.fixedBoard.count) (w.used ||| s.deadMask) s.fixedBoard ds = .ok (ofCards B) [])

section
variable {s : Sim} {w : Walk} {dd : List WHand}

theorem boardSequences_eq (h : McReady ranges b d s) (hat : AtDeal (maskCards b) (maskCards d) w dd) {B : List Nat}
    (hB : B ∈ boards (maskCards b) (maskCards d) dd) (L : Nat) :
    boardSequences s w B L = (5 - (maskCards b).length).factorial *
      orderCount (usedCount (w.used ||| s.deadMask)) (5 - (maskCards b).length) L := by
  obtain ⟨h1, h2, h3, h4, _, _, _, h5, _, h6⟩ := h.fields
  have hcount : s.fixedBoard.count = (maskCards b).length := by rw [h4, ← fixedBoard_eq, fixedBoard_count h5]
  unfold boards at hB
  obtain ⟨T, hT, rfl⟩ := List.mem_map.1 hB
  obtain ⟨t1, t2, t3⟩ := completions_mem hT
  rw [← produceCount_eq (board := maskCards b) (fun c hc => ⟨(maskCards_isCards b).2 c hc, (used_iff h hat ((maskCards_isCards b).2 c hc)).2 (by simp [hc])⟩) t1 t2
    (fun c hc => ⟨(t3 c hc).1, by
      rw [← Bool.not_eq_true, used_iff h hat (t3 c hc).1]; exact (t3 c hc).2⟩) L]
  unfold boardSequences produceCount Produces
  rw [hcount, h4]

/-- C43: if all draws of cards are equally likely, all boards are: for every length the same number of draw sequences produces each
of the boards that complete the given one, and each board is produced by some sequence. -/
theorem C43_boards (h : McReady ranges b d s) (hat : AtDeal (maskCards b) (maskCards d) w dd) {B B' : List Nat}
    (hB : B ∈ boards (maskCards b) (maskCards d) dd) (hB' : B' ∈ boards (maskCards b) (maskCards d) dd) :
    (∀ L, boardSequences s w B L = boardSequences s w B' L) ∧ 0 < boardSequences s w B (5 - (maskCards b).length) := by
  refine ⟨fun L => by rw [boardSequences_eq h hat hB, boardSequences_eq h hat hB'], ?_⟩
  rw [boardSequences_eq h hat hB, orderCount_min, Nat.mul_one]
  exact Nat.factorial_pos _

/-- C43: with independent uniform draws `randomize_board` produces each board with probability one divided by the number of boards;
in particular the probability that it never ends is zero. -/
theorem C43_probability (h : McReady ranges b d s) (hat : AtDeal (maskCards b) (maskCards d) w dd) {B : List Nat}
    (hB : B ∈ boards (maskCards b) (maskCards d) dd) :
    HasSum (fun L => (boardSequences s w B L : ℝ) / 52 ^ L) (1 / ((boards (maskCards b) (maskCards d) dd).length : ℝ)) := by
  set k := 5 - (maskCards b).length with hk
  set m := usedCount (w.used ||| s.deadMask) with hm
  have hfree : ((List.range 52).filter fun c => c ∉ maskCards b ++ maskCards d ++ dealt dd).length = 52 - m := by
    have h1 := List.length_eq_length_filter_add (l := List.range 52) (fun c => (w.used ||| s.deadMask).testBit c)
    rw [List.length_range] at h1
    have h2 : ((List.range 52).filter fun c => c ∉ maskCards b ++ maskCards d ++ dealt dd) =
        (List.range 52).filter fun c => !(w.used ||| s.deadMask).testBit c := by
      apply List.filter_congr
      intro c hc
      rw [Bool.eq_iff_iff, decide_eq_true_iff, Bool.not_eq_true', ← Bool.not_eq_true, used_iff h hat (List.mem_range.1 hc)]
    rw [h2, hm]
    unfold usedCount
    omega
  have hlen : (boards (maskCards b) (maskCards d) dd).length = (52 - m).choose k := by
    unfold boards completions
    rw [List.length_map, List.length_sublistsLen, hfree]
  have hm52 : m ≤ 52 := by
    rw [hm]
    unfold usedCount
    exact (List.length_filter_le _ _).trans (by rw [List.length_range])
  have hmk : m + k ≤ 52 := by
    by_contra hcon
    have : (52 - m).choose k = 0 := Nat.choose_eq_zero_of_lt (by omega)
    rw [this] at hlen
    rw [List.length_eq_zero_iff.1 hlen] at hB
    cases hB
  have hs := (orderCount_hasSum k m hmk).mul_left (k.factorial : ℝ)
  have e : (k.factorial : ℝ) * (1 / ((52 - m).descFactorial k : ℝ)) = 1 / ((boards (maskCards b) (maskCards d) dd).length : ℝ) := by
    rw [hlen, Nat.descFactorial_eq_factorial_mul_choose]
    have : (k.factorial : ℝ) ≠ 0 := by exact_mod_cast Nat.factorial_ne_zero k
    have h2 : ((52 - m).choose k : ℝ) ≠ 0 := by
      exact_mod_cast (Nat.choose_pos (by omega)).ne'
    push_cast
    field_simp
  rw [← e]
  have e2 : (fun L => (boardSequences s w B L : ℝ) / 52 ^ L) = fun L => (k.factorial : ℝ) * ((orderCount m k L : ℝ) / 52 ^ L) := by
    funext L
    rw [boardSequences_eq h hat hB]
    push_cast
    ring
  rw [e2]
  exact hs

end

/-- A walk at a legal deal, with 990 boards, as required by `C43_boards` and `C43_probability`. -/
example : ∃ s w, ∃ dd ∈ deals (specRanges twoHands) (maskCards flopMask ++ maskCards 0),
    McReady twoHands flopMask 0 s ∧ AtDeal (maskCards flopMask) (maskCards 0) w dd ∧
    (boards (maskCards flopMask) (maskCards 0) dd).length = 990 := by
  obtain ⟨s, hs⟩ := two_ready
  obtain ⟨x, hx⟩ := hs.legal (by decide +kernel)
  obtain ⟨w, hw, _⟩ := attempts_legal s 999 Walk.init hx
  obtain ⟨ho, hp⟩ := (randomizeHoleCards_spec s hs.crsOk.1 (w := Walk.init) (fun _ _ => rfl) x).2 true w [] hw
  obtain ⟨picks, hp⟩ := hp rfl
  rw [hs.fields.2.1, hs.fields.2.2.1] at hp
  obtain ⟨dd, hdd, hat⟩ := hs.atDeal hp ho
  have hall : ∀ dd ∈ deals (specRanges twoHands) (maskCards flopMask ++ maskCards 0),
      (boards (maskCards flopMask) (maskCards 0) dd).length = 990 := by decide +kernel
  exact ⟨s, w, dd, hdd, hs, hat, hall dd hdd⟩

/-- C43: the draw sequences for which `randomize_hole_cards` succeeds with the combos at the indexes `x` are the sequences of a
set `P` of failed attempts, which does not depend on `x`, each followed by `x`.  As the values of `x` are drawn from the same
distributions in the same order for every `x`, all legal deals are equally likely. -/
theorem C43_deal (s : Sim) (w : Walk) : ∃ P : Set Draws, [] ∈ P ∧
    ∀ x, LegalIdx s.combinedRanges (s.boardMask ||| s.deadMask) x →
      {ds | ∃ w', randomizeHoleCards s w ds = .ok (true, w') [] ∧ Points w' x} = (fun p => p ++ x) '' P := by
  refine ⟨{p | ∀ y, LegalIdx s.combinedRanges (s.boardMask ||| s.deadMask) y → ∃ w', randomizeHoleCards s w (p ++ y) = .ok (true, w') [] ∧ Points w' y},
    fun y hy => attempts_legal s 999 w hy, fun x hx => ?_⟩
  ext ds
  constructor
  · rintro ⟨w', h1, h2⟩
    obtain ⟨p, x', e, hx', hp, hall⟩ := attempts_draws s 1000 w ds [] w' h1
    have : x' = x := Points.unique hp h2 (hx'.length.trans hx.length.symm)
    subst this
    refine ⟨p, fun y hy => ?_, by rw [e, List.append_nil]⟩
    have := hall w y hy []
    rwa [List.append_nil] at this
  · rintro ⟨p, hp, rfl⟩
    exact hp x hx

/-- C43: moving one combined range permutes the legal deals: from every deal a step with the range `i` leads to a legal deal, every legal
deal is reached from some deal, and different deals lead to different deals.  So the uniform distribution on the legal deals stays
uniform. -/
theorem C43_walk {crs : List CombinedRange} (hok : CrsOk crs) {u : Nat} {i : Nat} (hi : i < crs.length) :
    (∀ w picks, WalkOk crs u w picks → ∃ w' picks', redeal crs[i] i w = some w' ∧ WalkOk crs u w' picks') ∧
    (∀ w' picks', WalkOk crs u w' picks' → ∃ w picks w'', WalkOk crs u w picks ∧ redeal crs[i] i w = some w'' ∧
      w''.indexes = w'.indexes) ∧
    (∀ w₁ w₂ picks₁ picks₂ w₁' w₂', WalkOk crs u w₁ picks₁ → WalkOk crs u w₂ picks₂ → redeal crs[i] i w₁ = some w₁' →
      redeal crs[i] i w₂ = some w₂' → (∀ j < crs.length, w₁'.indexes j = w₂'.indexes j) →
      ∀ j < crs.length, w₁.indexes j = w₂.indexes j) := redeal_bijective hok hi

end Pokers

import Verif.Spec.Game
import Verif.Props.SuitSymmetry
import Verif.Props.Rounding
import Verif.Props.Checks
import Verif.Props.McMean
/-!
# From the texts to the equities (C71)
-/
namespace Pokers
open Spec

/-! ## The order of the cards on the board does not matter either -/

theorem relabel_id (c : Nat) : relabel id c = c := by
  unfold relabel Spec.rank Spec.suit
  simp only [id]
  omega

theorem suitPerm_id : SuitPerm id := ⟨fun _ h => h, fun _ _ _ _ h => h⟩

theorem relabelDeal_id (d : List WHand) : relabelDeal id d = d := by
  unfold relabelDeal
  conv_rhs => rw [← List.map_id d]
  apply List.map_congr_left
  intro x _
  unfold relabelHand
  rw [relabel_id, relabel_id]
  rfl

/-- Sums over all showdowns do not depend on the order of the hands in the ranges, of the board cards and of the dead cards. -/
theorem sum_showdowns {M : Type} [AddCommMonoid M] {rs rs' : List (List WHand)} {B B' D D' : List Nat} (h : List.Forall₂ List.Perm rs rs')
    (hb : B.Perm B') (hd : D.Perm D') (F : List WHand × List Nat → M) (hF : ∀ d X Y, X.Perm Y → F (d, X) = F (d, Y)) :
    ((showdowns rs B D).map F).sum = ((showdowns rs' B' D').map F).sum := by
  rw [((showdowns_perm h B D).map F).sum_eq]
  have e : ∀ l : List Nat, l.map (relabel id) = l := fun l => by
    conv_rhs => rw [← List.map_id l]
    exact List.map_congr_left fun c _ => relabel_id c
  have key := sum_relabel suitPerm_id (rs := rs') (board := B') (board' := B) (dead := D') (dead' := D) (by rw [e]; exact hb)
    (by rw [e]; exact hd) F F hF (fun d X => by rw [relabelDeal_id, e])
  rwa [show rs'.map (relabelDeal id) = rs' from by
    conv_rhs => rw [← List.map_id rs']
    exact List.map_congr_left fun d _ => relabelDeal_id d] at key

theorem winning_sum (p : Nat) (sd : List (List WHand × List Nat)) : (sd.map (winning p)).sum = (winsOf sd [p] : ℚ) + sharesOf sd p := by
  unfold winsOf
  rw [weightOf_eq_sum, sharesOf_eq_sum]
  induction sd with
  | nil => simp
  | cons x sd ih =>
    simp only [List.map_cons, List.sum_cons, ih]
    push_cast
    have : winning p x = (if winners x.2 x.1 = [p] then (dealWeight x.1 : ℚ) else 0) +
        if p ∈ winners x.2 x.1 ∧ winners x.2 x.1 ≠ [p] then (dealWeight x.1 : ℚ) / ((winners x.2 x.1).length : ℚ) else 0 := by
      unfold winning
      by_cases h : winners x.2 x.1 = [p]
      · simp [h]
      · simp [h]
    rw [this]
    ring

/-- `equityOf` by the counts of the other theorems. -/
theorem equityOf_eq (Rs : List (List WHand)) (board dead : List Nat) (p : Nat) :
    equityOf Rs board dead p = fdiv ((winsOf (showdowns Rs board dead) [p] : ℚ) + sharesOf (showdowns Rs board dead) p)
      (totalWeight (showdowns Rs board dead) : ℚ) := by
  unfold equityOf fdiv
  simp only [winning_sum, Nat.cast_eq_zero]

/-! ## The texts -/

/-- An equity problem and the texts that describe it. -/
structure Problem (lower : List Char → List Char) (texts : List (List Char)) (boardText deadText : List Char) (Rs : List (List WHand))
    (board dead : List Nat) : Prop where
  /-- each text is written for a range that is listed in `Rs` -/
  ranges : List.Forall₂ (fun text R => ∃ r : Described, r.Written lower text ∧ r.Lists R) texts Rs
  board : NamesCards lower boardText board
  dead : NamesCards lower deadText dead

variable {lower : List Char → List Char} {texts : List (List Char)} {boardText deadText : List Char} {Rs : List (List WHand)}
  {board dead : List Nat}

theorem namesCards_mask {text : List Char} {cs : List Nat} (h : NamesCards lower text cs) :
    DeckMask (getCardMask lower text) ∧ (maskCards (getCardMask lower text)).Perm cs := by
  have hb := C14_names (lower := lower) (text := text) h.2.1 h.2.2
  have hD : DeckMask (getCardMask lower text) := by
    unfold DeckMask
    apply Nat.lt_pow_two_of_testBit
    intro i hi
    rw [hb, decide_eq_false_iff_not]
    intro hm
    have := h.2.1 i hm
    omega
  refine ⟨hD, ?_⟩
  refine (List.perm_ext_iff_of_nodup (List.nodup_range.filter _) h.1).2 ?_
  intro c
  constructor
  · intro hc
    have := (mem_maskCards ((maskCards_isCards _).2 c hc)).1 hc
    rwa [hb, decide_eq_true_eq] at this
  · intro hc
    refine (mem_maskCards (h.2.1 c hc)).2 ?_
    rw [hb, decide_eq_true_eq]
    exact hc

/-- The parsed range lists the hands of the description. -/
theorem described_perm {text : List Char} {r : Described} (hw : r.Written lower text) {R : List WHand} (hl : r.Lists R) :
    ∃ hands, fromString lower text = .ok hands ∧ (hands.map toHole).Perm R := by
  have key : ∀ hands, fromString lower text = .ok hands → (∀ a b w, (⟨a, b, w⟩ : Combo) ∈ hands ↔ b < a ∧ a < 52 ∧ r.Gives a b w) →
      (hands.map toHole).Perm R := by
    intro hands h hm
    have n1 : (hands.map toHole).Nodup := by
      have := C19_nodup h
      refine List.Nodup.of_map (fun x : WHand => (x.1, x.2.1)) ?_
      rw [List.map_map]
      exact this
    have n2 : R.Nodup := List.Nodup.of_map _ hl.1
    rw [List.perm_ext_iff_of_nodup n1 n2]
    rintro ⟨a, b, w⟩
    rw [hl.2, ← hm, List.mem_map]
    constructor
    · rintro ⟨⟨a', b', w'⟩, hc, he⟩
      unfold toHole at he
      injection he with e1 e2
      injection e2 with e2 e3
      subst e1 e2 e3
      exact hc
    · intro hc
      exact ⟨_, hc, rfl⟩
  cases r with
  | random =>
    have hw : text = "random".toList := hw
    subst hw
    obtain ⟨hands, h1, _, h3⟩ := C22_random lower
    exact ⟨hands, h1, key hands h1 fun a b w => h3 ⟨a, b, w⟩⟩
  | tokens ts =>
    obtain ⟨h1, h2, h3, h4⟩ := hw
    obtain ⟨hands, k1, k2⟩ := C21_union (lower := lower) (text := text) h1 h2 [] (fun _ _ h => by cases h) h4 (by rw [List.append_nil]; exact h3)
    exact ⟨hands, k1, key hands k1 k2⟩

/-- C71: the hands of every written range can be listed, and the list is unique up to its order. -/
theorem C71_lists {text : List Char} {r : Described} (hw : r.Written lower text) : (∃ R, r.Lists R) ∧ ∀ R R', r.Lists R → r.Lists R' → R.Perm R' := by
  constructor
  · have key : ∀ hands, fromString lower text = .ok hands → (∀ a b w, (⟨a, b, w⟩ : Combo) ∈ hands ↔ b < a ∧ a < 52 ∧ r.Gives a b w) →
        ∃ R, r.Lists R := by
      intro hands h hm
      refine ⟨hands.map toHole, ?_, fun a b w => ?_⟩
      · rw [List.map_map]
        exact C19_nodup h
      · rw [← hm, List.mem_map]
        constructor
        · rintro ⟨⟨a', b', w'⟩, hc, he⟩
          unfold toHole at he
          injection he with e1 e2
          injection e2 with e2 e3
          subst e1 e2 e3
          exact hc
        · intro hc
          exact ⟨_, hc, rfl⟩
    cases r with
    | random =>
      have hw : text = "random".toList := hw
      subst hw
      obtain ⟨hands, h1, _, h3⟩ := C22_random lower
      exact key hands h1 fun a b w => h3 ⟨a, b, w⟩
    | tokens ts =>
      obtain ⟨h1, h2, h3, h4⟩ := hw
      obtain ⟨hands, k1, k2⟩ := C21_union (lower := lower) (text := text) h1 h2 [] (fun _ _ h => by cases h) h4 (by rw [List.append_nil]; exact h3)
      exact key hands k1 k2
  · intro R R' h1 h2
    obtain ⟨hands, e1, p1⟩ := described_perm hw h1
    obtain ⟨hands', e2, p2⟩ := described_perm hw h2
    rw [e1] at e2
    obtain rfl := Except.ok.inj e2
    exact p1.symm.trans p2

theorem fromStrings_forall {P : List Combo → List WHand → Prop} (h : List.Forall₂ (fun text R => ∃ hands, fromString lower text = .ok hands ∧ P hands R) texts Rs) :
    ∃ ranges, fromStrings lower texts = .ok ranges ∧ List.Forall₂ P ranges Rs ∧ ∀ r ∈ ranges, ∃ t ∈ texts, fromString lower t = .ok r := by
  unfold fromStrings
  induction h with
  | nil => exact ⟨[], rfl, .nil, by simp⟩
  | @cons t R texts Rs h1 _ ih =>
    obtain ⟨hands, k1, k2⟩ := h1
    obtain ⟨ranges, i1, i2, i3⟩ := ih
    refine ⟨hands :: ranges, ?_, .cons k2 i2, ?_⟩
    · rw [List.mapM_cons, k1, i1]
      rfl
    · intro r hr
      rcases List.mem_cons.1 hr with rfl | hr
      · exact ⟨t, by simp, k1⟩
      · obtain ⟨t', a1, a2⟩ := i3 r hr
        exact ⟨t', List.mem_cons_of_mem _ a1, a2⟩

/-- What the parsers make of the texts. -/
structure Parsed (lower : List Char → List Char) (texts : List (List Char)) (boardText deadText : List Char) (Rs : List (List WHand))
    (board dead : List Nat) (ranges : List (List Combo)) : Prop where
  ok : fromStrings lower texts = .ok ranges
  perm : List.Forall₂ List.Perm (specRanges ranges) Rs
  wf : ∀ r ∈ ranges, WfRange r
  percent : ∀ r ∈ ranges, ∀ c ∈ r, c.w ≤ 100
  few : ∀ r ∈ ranges, r.length ≤ 1326
  deck : DeckMask (getCardMask lower boardText) ∧ DeckMask (getCardMask lower deadText)
  cards : (maskCards (getCardMask lower boardText)).Perm board ∧ (maskCards (getCardMask lower deadText)).Perm dead

theorem length_le_1326 {r : List Combo} (hnd : (r.map fun c => (c.c1, c.c2)).Nodup) (hw : ∀ c ∈ r, c.c2 < c.c1 ∧ c.c1 < 52) : r.length ≤ 1326 := by
  obtain ⟨all, _, h2, h3⟩ := C22_random id
  have hsub : (r.map fun c => (c.c1, c.c2)) ⊆ all.map fun c => (c.c1, c.c2) := by
    intro x hx
    obtain ⟨c, hc, rfl⟩ := List.mem_map.1 hx
    exact List.mem_map.2 ⟨⟨c.c1, c.c2, 100⟩, (h3 _).2 ⟨(hw c hc).1, (hw c hc).2, rfl⟩, rfl⟩
  have := (hnd.subperm hsub).length_le
  rw [List.length_map, List.length_map, h2] at this
  exact this

theorem Problem.parsed (h : Problem lower texts boardText deadText Rs board dead) :
    ∃ ranges, Parsed lower texts boardText deadText Rs board dead ranges := by
  obtain ⟨ranges, h1, h2, h3⟩ := fromStrings_forall (P := fun hands R => (hands.map toHole).Perm R)
    (h.ranges.imp fun text R ⟨r, hw, hl⟩ => described_perm hw hl)
  obtain ⟨b1, b2⟩ := namesCards_mask h.board
  obtain ⟨d1, d2⟩ := namesCards_mask h.dead
  refine ⟨ranges, h1, ?_, ?_, ?_, ?_, ⟨b1, d1⟩, ⟨b2, d2⟩⟩
  · unfold specRanges
    rw [List.forall₂_map_left_iff]
    exact h2
  · intro r hr c hc
    obtain ⟨t, _, ht⟩ := h3 r hr
    have := C18_wellformed ht hc
    omega
  · intro r hr c hc
    obtain ⟨t, _, ht⟩ := h3 r hr
    exact (C18_wellformed ht hc).2.2
  · intro r hr
    obtain ⟨t, _, ht⟩ := h3 r hr
    refine length_le_1326 (C19_nodup ht) fun c hc => ?_
    have := C18_wellformed ht hc
    omega

namespace Parsed

variable {ranges : List (List Combo)}

theorem length (h : Parsed lower texts boardText deadText Rs board dead ranges) : ranges.length = Rs.length := by
  have := h.perm.length_eq
  unfold specRanges at this
  rwa [List.length_map] at this

theorem sum {M : Type} [AddCommMonoid M] (h : Parsed lower texts boardText deadText Rs board dead ranges) (F : List WHand × List Nat → M)
    (hF : ∀ d X Y, X.Perm Y → F (d, X) = F (d, Y)) :
    ((showdowns (specRanges ranges) (maskCards (getCardMask lower boardText)) (maskCards (getCardMask lower deadText))).map F).sum =
      ((showdowns Rs board dead).map F).sum := sum_showdowns h.perm h.cards.1 h.cards.2 F hF

theorem weightOf (h : Parsed lower texts boardText deadText Rs board dead ranges) (P : List WHand × List Nat → Prop) [DecidablePred P]
    (hP : ∀ d X Y, X.Perm Y → (P (d, X) ↔ P (d, Y))) :
    Spec.weightOf (showdowns (specRanges ranges) (maskCards (getCardMask lower boardText)) (maskCards (getCardMask lower deadText))) P =
      Spec.weightOf (showdowns Rs board dead) P := by
  rw [weightOf_eq_sum, weightOf_eq_sum]
  refine h.sum _ fun d X Y e => ?_
  simp only [hP d X Y e]

theorem totalWeight (h : Parsed lower texts boardText deadText Rs board dead ranges) :
    Spec.totalWeight (showdowns (specRanges ranges) (maskCards (getCardMask lower boardText)) (maskCards (getCardMask lower deadText))) =
      Spec.totalWeight (showdowns Rs board dead) := h.sum _ fun _ _ _ _ => rfl

theorem winsOf (h : Parsed lower texts boardText deadText Rs board dead ranges) (ps : List Nat) :
    Spec.winsOf (showdowns (specRanges ranges) (maskCards (getCardMask lower boardText)) (maskCards (getCardMask lower deadText))) ps =
      Spec.winsOf (showdowns Rs board dead) ps :=
  h.weightOf _ fun d X Y e => by simp only [winners_board_perm e]

theorem sharesOf (h : Parsed lower texts boardText deadText Rs board dead ranges) (p : Nat) :
    Spec.sharesOf (showdowns (specRanges ranges) (maskCards (getCardMask lower boardText)) (maskCards (getCardMask lower deadText))) p =
      Spec.sharesOf (showdowns Rs board dead) p := by
  rw [sharesOf_eq_sum, sharesOf_eq_sum]
  refine h.sum _ fun d X Y e => ?_
  simp only [winners_board_perm e]

theorem whole (h : Parsed lower texts boardText deadText Rs board dead ranges)
    (hw : ∀ x ∈ showdowns Rs board dead, (winners x.2 x.1).length ∣ Spec.dealWeight x.1) :
    WholeShares ranges (getCardMask lower boardText) (getCardMask lower deadText) := by
  let F : List WHand × List Nat → Nat := fun x => if (winners x.2 x.1).length ∣ Spec.dealWeight x.1 then 0 else 1
  have e := h.sum F fun d X Y e => by simp only [F, winners_board_perm e]
  have e0 : ((showdowns Rs board dead).map F).sum = 0 := by
    rw [List.sum_eq_zero_iff]
    intro x hx
    obtain ⟨y, hy, rfl⟩ := List.mem_map.1 hx
    exact if_pos (hw y hy)
  rw [e0, List.sum_eq_zero_iff] at e
  intro x hx
  have := e (F x) (List.mem_map_of_mem hx)
  by_contra hn
  simp only [F, if_neg hn] at this
  omega

theorem validate (h : Parsed lower texts boardText deadText Rs board dead ranges) (h2 : 2 ≤ texts.length) (h9 : texts.length ≤ 9)
    (hlen : texts.length = Rs.length) (hb : board.length ≤ 5) (hd : 2 * texts.length + dead.length + 5 ≤ 52) :
    Pokers.validate ranges.length (getCardMask lower boardText) (getCardMask lower deadText) = none := by
  have e1 := maskCards_length h.deck.1
  have e2 := maskCards_length h.deck.2
  rw [h.cards.1.length_eq] at e1
  rw [h.cards.2.length_eq] at e2
  have := h.length
  unfold Pokers.validate
  rw [if_neg (by unfold MIN_PLAYERS; omega), if_neg (by unfold MAX_PLAYERS; omega), if_neg (by unfold BOARD_CARDS; omega),
    if_neg (by unfold BOARD_CARDS CARD_COUNT; omega)]

theorem deals (h : Parsed lower texts boardText deadText Rs board dead ranges) (hd : Spec.deals Rs (board ++ dead) ≠ []) :
    Spec.deals (specRanges ranges) (maskCards (getCardMask lower boardText) ++ maskCards (getCardMask lower deadText)) ≠ [] := by
  have hc := (choices_perm h.perm)
  have hp : (Spec.deals (specRanges ranges) (maskCards (getCardMask lower boardText) ++ maskCards (getCardMask lower deadText))).Perm
      (Spec.deals Rs (board ++ dead)) := by
    unfold Spec.deals
    refine (hc.filter _).trans (List.Perm.of_eq ?_)
    apply List.filter_congr
    intro x _
    rw [decide_eq_decide]
    unfold Spec.Legal
    simp only [List.mem_append, h.cards.1.mem_iff, h.cards.2.mem_iff]
  intro e
  rw [e] at hp
  exact hd hp.symm.eq_nil

end Parsed

/-! ## The results -/

/-- C71: for every hand of every player, `exact_equity` counts what the texts mean: for any lists of the hands that the range texts stand
for, in any order, the wins, ties, tie shares and totals are the sums over all deals of one hand each and all boards. -/
theorem C71_hands (h : Problem lower texts boardText deadText Rs board dead) :
    ∃ ranges, fromStrings lower texts = .ok ranges ∧ ∀ nT, 0 < nT → ∀ cancelled r sent,
      ExactEquity ranges (getCardMask lower boardText) (getCardMask lower deadText) nT cancelled false (.ok r) sent →
      ∀ p < Rs.length, ∀ x < 52, ∀ y < 52, x ≠ y →
        let u := r.handResults (NUM_HANDS * p + getCardIndex x y)
        let sd := showdowns Rs board dead
        u.wins = handWins sd p x y ∧ u.ties = handTies sd p x y ∧ u.total = handTotal sd p x y ∧ u.correctedTies = handShares sd p x y := by
  obtain ⟨ranges, hp⟩ := h.parsed
  refine ⟨ranges, hp.ok, fun nT hT cancelled r sent hr p hpl x hx y hy hxy => ?_⟩
  obtain ⟨a1, a2, a3, a4⟩ := C31_hands hp.wf hp.deck.1.mask hp.deck.2.mask hT hr (p := p) (by rw [hp.length]; exact hpl) hx hy hxy
  refine ⟨a1.trans ?_, a2.trans ?_, a3.trans ?_, a4.trans ?_⟩
  · exact hp.weightOf _ fun d X Y e => by simp only [winners_board_perm e]
  · exact hp.weightOf _ fun d X Y e => by simp only [winners_board_perm e]
  · exact hp.weightOf _ fun d X Y e => Iff.rfl
  · rw [handShares_eq_sum, handShares_eq_sum]
    refine hp.sum _ fun d X Y e => ?_
    simp only [winners_board_perm e]

theorem equities_length {ranges : List (List Combo)} {b d nT : Nat} {cancelled stopped : Bool} {r : Results} {sent : List Nat}
    (hwf : ∀ r ∈ ranges, WfRange r) (hb : CardMask b) (hd : CardMask d) (h : ExactEquity ranges b d nT cancelled stopped (.ok r) sent) :
    r.equities.length = ranges.length := by
  obtain ⟨h1, h2⟩ := C33_equities hwf hb hd h
  by_cases hS : 0 < ∑ q ∈ Finset.range ranges.length, ((r.wins q : ℚ) + r.ties q)
  · obtain ⟨es, e1, e2, _⟩ := h1 hS
    rw [e1, List.length_map, e2]
  · rw [(h2 hS).1, List.length_replicate]

/-- C71: with up to eight players and weights that can be shared evenly, the equities are those of the problem. -/
theorem C71_equities (h : Problem lower texts boardText deadText Rs board dead) (h8 : Rs.length ≤ 8)
    (hw : ∀ x ∈ showdowns Rs board dead, (winners x.2 x.1).length ∣ Spec.dealWeight x.1) :
    ∃ ranges, fromStrings lower texts = .ok ranges ∧ ∀ nT, 0 < nT → ∀ cancelled r sent,
      ExactEquity ranges (getCardMask lower boardText) (getCardMask lower deadText) nT cancelled false (.ok r) sent →
      r.equities = (List.range Rs.length).map (equityOf Rs board dead) := by
  obtain ⟨ranges, hp⟩ := h.parsed
  refine ⟨ranges, hp.ok, fun nT hT cancelled r sent hr => ?_⟩
  have hl := hp.length
  obtain ⟨_, a2⟩ := C61_exact hp.wf hp.deck.1.mask hp.deck.2.mask hT (by omega) (hp.whole hw) hr
  have hlen := equities_length hp.wf hp.deck.1.mask hp.deck.2.mask hr
  apply List.ext_getElem?
  intro p
  by_cases hpl : p < Rs.length
  · rw [a2 p (by omega), List.getElem?_map, List.getElem?_range hpl, Option.map_some, equityOf_eq, hp.winsOf, hp.sharesOf, hp.totalWeight]
  · rw [List.getElem?_eq_none (by omega), List.getElem?_eq_none (by simpa using hpl)]

/-- C71: and if the weight of all showdowns is at most `2 ^ 53`, the reported `f64` numbers are the nearest to them. -/
theorem C71_rounded (h : Problem lower texts boardText deadText Rs board dead) (h8 : Rs.length ≤ 8)
    (hw : ∀ x ∈ showdowns Rs board dead, (winners x.2 x.1).length ∣ Spec.dealWeight x.1) (h53 : totalWeight (showdowns Rs board dead) ≤ 2 ^ 53) :
    ∃ ranges, fromStrings lower texts = .ok ranges ∧ ∀ nT, 0 < nT → ∀ cancelled r sent,
      ExactEquityF ranges (getCardMask lower boardText) (getCardMask lower deadText) nT cancelled false (.ok r) sent →
      ∀ p < Rs.length, r.equities[p]? = some ((equityOf Rs board dead p).map fl) := by
  obtain ⟨ranges, hp⟩ := h.parsed
  refine ⟨ranges, hp.ok, fun nT hT cancelled r sent hr p hpl => ?_⟩
  have hl := hp.length
  rw [(C63_correctly_rounded hp.wf hp.deck.1.mask hp.deck.2.mask hT (by omega) (hp.whole hw) (by rw [hp.totalWeight]; exact h53) hr).2 p (by omega),
    equityOf_eq, hp.winsOf, hp.sharesOf, hp.totalWeight]

/-- C71: if some deal is possible and the limits on players and cards are kept, there are runs for every number of threads, and none of
them returns an error. -/
theorem C71_runs (h : Problem lower texts boardText deadText Rs board dead) (h2 : 2 ≤ Rs.length) (h9 : Rs.length ≤ 9)
    (hb : board.length ≤ 5) (hd : 2 * Rs.length + dead.length + 5 ≤ 52) (hdeal : deals Rs (board ++ dead) ≠ [])
    (hprod : (Rs.map List.length).prod + 2000000 < 2 ^ 64) :
    ∃ ranges, fromStrings lower texts = .ok ranges ∧ ∀ nT,
      (∃ r sent, ExactEquity ranges (getCardMask lower boardText) (getCardMask lower deadText) nT false false (.ok r) sent) ∧
      ∀ cancelled stopped e sent, ¬ ExactEquity ranges (getCardMask lower boardText) (getCardMask lower deadText) nT cancelled stopped (.error e) sent := by
  obtain ⟨ranges, hp⟩ := h.parsed
  have hlt := h.ranges.length_eq
  have hv := hp.validate (by omega) (by omega) hlt hb (by omega)
  refine ⟨ranges, hp.ok, fun nT => ?_⟩
  have hprod' : (ranges.map List.length).prod + 2000000 < 2 ^ 64 := by
    have e : ranges.map List.length = Rs.map List.length := by
      have hpm := hp.perm
      unfold specRanges at hpm
      rw [List.forall₂_map_left_iff] at hpm
      clear hv hp hdeal hprod hlt h h2 h9 hb hd
      induction hpm with
      | nil => rfl
      | cons h1 _ ih => rw [List.map_cons, List.map_cons, ih, ← h1.length_eq, List.length_map]
    rw [e]
    exact hprod
  obtain ⟨r, sent, hrun⟩ := run_of_deal hp.wf hp.deck.1.mask hp.deck.2.mask hv (hp.deals hdeal) hprod' nT false
  refine ⟨⟨r, sent, hrun⟩, fun cancelled stopped e sent' herr => ?_⟩
  unfold ExactEquity at hrun herr
  cases hok : prepareExact ranges (getCardMask lower boardText) (getCardMask lower deadText) with
  | error e' =>
    rw [hok] at hrun
    exact absurd hrun.1 (by simp)
  | ok s =>
    rw [hok] at herr
    obtain ⟨_, _, _, _, _, _, _, _, _, _, _, _, h7, _⟩ := herr
    cases h7

/-- For two players even weights of one of them can be shared. -/
theorem even_shares {R0 R1 : List WHand} (heven : (∀ x ∈ R0, 2 ∣ x.2.2) ∨ ∀ x ∈ R1, 2 ∣ x.2.2) :
    ∀ x ∈ showdowns [R0, R1] board dead, (winners x.2 x.1).length ∣ Spec.dealWeight x.1 := by
  intro x hx
  have hxl := showdowns_len hx
  have hlw : (winners x.2 x.1).length ≤ 2 := by
    unfold winners
    exact (List.length_filter_le _ _).trans (by rw [List.length_range, hxl]; rfl)
  have hpos : (winners x.2 x.1).length ≠ 0 := by
    rw [Ne, List.length_eq_zero_iff]
    exact winners_ne_nil (by rw [hxl]; simp)
  have h2 : 2 ∣ Spec.dealWeight x.1 := by
    unfold showdowns at hx
    obtain ⟨dd, hdd, hxx⟩ := List.mem_flatMap.1 hx
    obtain ⟨B, _, rfl⟩ := List.mem_map.1 hxx
    unfold deals at hdd
    have hc := (List.mem_filter.1 hdd).1
    simp only [choices, List.mem_flatMap, List.mem_map, List.map_cons, List.map_nil, List.mem_singleton] at hc
    obtain ⟨a, ha, l, ⟨c, hc, rfl⟩, rfl⟩ := hc
    unfold Spec.dealWeight
    simp only [List.map_cons, List.map_nil, List.prod_cons, List.prod_nil, mul_one]
    rcases heven with he | he
    · exact Dvd.dvd.mul_right (he a ha) _
    · exact Dvd.dvd.mul_left (he c hc) _
  have : (winners x.2 x.1).length = 1 ∨ (winners x.2 x.1).length = 2 := by omega
  rcases this with e | e <;> rw [e]
  · exact one_dvd _
  · exact h2

/-- C71, for two players, where no condition on the sizes is needed: whatever the texts, the board and the dead cards, if some deal is
possible and one player's weights are even (as without weights), then for every number of threads `exact_equity` has runs, all of them
pass all overflow and bounds checks, and all that are not cancelled report the equities of the problem, the `f64` nearest to them if the
total weight is at most `2 ^ 53`. -/
theorem C71_two_players {R0 R1 : List WHand} (h : Problem lower texts boardText deadText [R0, R1] board dead) (hb : board.length ≤ 5)
    (hd : dead.length ≤ 43) (hdeal : deals [R0, R1] (board ++ dead) ≠ []) (heven : (∀ x ∈ R0, 2 ∣ x.2.2) ∨ ∀ x ∈ R1, 2 ∣ x.2.2) :
    ∃ ranges, fromStrings lower texts = .ok ranges ∧ ∀ nT, 0 < nT →
      (∃ r sent, ExactEquity ranges (getCardMask lower boardText) (getCardMask lower deadText) nT false false (.ok r) sent) ∧
      (∀ cancelled stopped res sent, ExactEquity ranges (getCardMask lower boardText) (getCardMask lower deadText) nT cancelled stopped res sent →
        ExactEquityD ranges (getCardMask lower boardText) (getCardMask lower deadText) nT cancelled stopped res sent ∧ ∃ r, res = .ok r) ∧
      (∀ cancelled r sent, ExactEquity ranges (getCardMask lower boardText) (getCardMask lower deadText) nT cancelled false (.ok r) sent →
        r.equities = [equityOf [R0, R1] board dead 0, equityOf [R0, R1] board dead 1]) ∧
      (totalWeight (showdowns [R0, R1] board dead) ≤ 2 ^ 53 → ∀ cancelled r sent,
        ExactEquityF ranges (getCardMask lower boardText) (getCardMask lower deadText) nT cancelled false (.ok r) sent →
        ∀ p < 2, r.equities[p]? = some ((equityOf [R0, R1] board dead p).map fl)) := by
  obtain ⟨ranges, hp⟩ := h.parsed
  have hl := hp.length
  have hw := even_shares (board := board) (dead := dead) heven
  have hr2 : ranges.length = 2 := hl
  have hprod : ([R0, R1].map List.length).prod + 2000000 < 2 ^ 64 := by
    have hpl : ∀ R ∈ [R0, R1], R.length ≤ 1326 := by
      intro R hR
      have hpm := hp.perm
      unfold specRanges at hpm
      rw [List.forall₂_map_left_iff] at hpm
      obtain ⟨i, hi, rfl⟩ := List.getElem_of_mem hR
      have h1 := (List.forall₂_iff_get.1 hpm).2 i (by rw [hr2]; exact hi) hi
      have h2 := hp.few _ (List.getElem_mem (by rw [hr2]; exact hi : i < ranges.length))
      have h3 := h1.length_eq
      rw [List.length_map] at h3
      simp only [List.get_eq_getElem] at h3
      omega
    have h0 := hpl R0 (by simp)
    have h1 := hpl R1 (by simp)
    have := Nat.mul_le_mul h0 h1
    simp only [List.map_cons, List.map_nil, List.prod_cons, List.prod_nil, mul_one]
    omega
  obtain ⟨ranges', hok', hruns⟩ := C71_runs h (by simp) (by simp) hb (by simp; omega) hdeal hprod
  rw [hp.ok] at hok'
  obtain rfl : ranges = ranges' := Except.ok.inj hok'
  obtain ⟨r1, o1, he⟩ := C71_equities h (by simp) hw
  rw [hp.ok] at o1
  obtain rfl : ranges = r1 := Except.ok.inj o1
  refine ⟨ranges, hp.ok, fun nT hT => ⟨(hruns nT).1, fun cancelled stopped res sent hx => ⟨?_, ?_⟩, fun cancelled r sent hx => ?_, fun h53 cancelled r sent hx p hp2 => ?_⟩⟩
  · exact (C68_two_players hp.wf hp.deck.1.mask hp.deck.2.mask hr2 hp.percent hp.few res sent).2 hx
  · cases res with
    | ok r => exact ⟨r, rfl⟩
    | error e => exact absurd hx ((hruns nT).2 _ _ _ _)
  · exact he nT hT cancelled r sent hx
  · obtain ⟨r2, o2, hf⟩ := C71_rounded h (by simp) hw h53
    rw [hp.ok] at o2
    obtain rfl : ranges = r2 := Except.ok.inj o2
    exact hf nT hT cancelled r sent hx p hp2

/-- C71 for `approx_equity`: the expected part of the pot of player `p` at an evaluation, divided by the expected weight, is the equity of the
problem that the texts describe (see C60 for the probabilities). -/
theorem C71_expected (h : Problem lower texts boardText deadText Rs board dead) :
    ∃ ranges, fromStrings lower texts = .ok ranges ∧
      let b := getCardMask lower boardText
      let d := getCardMask lower deadText
      ∀ s, PrepareApprox ranges b d (.ok s) → ∀ moves : List Nat, (∀ i ∈ moves, i < s.combinedRanges.length) → ∀ W : List Nat → Walk,
      (∀ x ∈ legalIdxs s.combinedRanges (b ||| d), WalkAfter s moves x (W x)) →
      let X := legalIdxs s.combinedRanges (b ||| d)
      ∃ D : List Nat → List WHand, (∀ x ∈ X, AtDeal (maskCards b) (maskCards d) (W x) (D x)) ∧
        let E := fun f : List WHand × List Nat → ℝ => ∑' L, (X.map fun x => ((boards (maskCards b) (maskCards d) (D x)).map fun B =>
          (1 / (X.length : ℝ)) * ((boardSequences s (W x) B L : ℝ) / 52 ^ L) * f (D x, B)).sum).sum
        ∀ p e, equityOf Rs board dead p = some e → E (potPart p) / E (fun x => (dealWeight x.1 : ℝ)) = (e : ℝ) := by
  obtain ⟨ranges, hp⟩ := h.parsed
  refine ⟨ranges, hp.ok, ?_⟩
  intro b d s hs moves hm W hW X
  obtain ⟨D, h1, _, h2⟩ := C60_equity ⟨hp.wf, hp.deck.1.mask, hp.deck.2.mask, hs⟩ hm W hW
  refine ⟨D, fun x hx => (h1 x hx).1, ?_⟩
  intro E p e he
  refine (h2 p).trans ?_
  rw [equityOf_eq, ← hp.winsOf, ← hp.sharesOf, ← hp.totalWeight] at he
  unfold fdiv at he
  split at he
  · cases he
  · rw [Option.some.inj he]

/-! ## Examples -/

/-- The texts of the crate's `test_accuracy`. -/
theorem accuracy_problem : Problem asciiLower ["AA".toList, "random".toList] "KdKsKh3s".toList "".toList [aces.map toHole, allHands] [47, 44, 45, 4] [] := by
  refine ⟨.cons ⟨.tokens [⟨.plain 12 12 .any, none⟩], ⟨by simp, ?_, by decide, by decide⟩, ?_, ?_⟩ (.cons ⟨.random, rfl, ?_, ?_⟩ .nil), ?_, ?_⟩
  · intro t ht
    rw [List.mem_singleton.1 ht]
    exact ⟨⟨by decide, by decide⟩, fun ds h => by cases h⟩
  · decide +kernel
  · intro a b w
    have : (Described.tokens [⟨.plain 12 12 .any, none⟩]).Gives a b w ↔ rank a = 12 ∧ rank b = 12 ∧ w = 100 := by
      unfold Described.Gives HasWeight
      constructor
      · rintro ⟨i, hi, h1, h2, _⟩
        have : i = 0 := by simpa using hi
        subst this
        obtain ⟨h, _⟩ := h1
        rcases h with h | h <;> exact ⟨h.1, h.2, h2.symm⟩
      · rintro ⟨h1, h2, h3⟩
        exact ⟨0, by simp, ⟨Or.inl ⟨h1, h2⟩, trivial⟩, h3.symm, fun j hj => absurd hj (by omega)⟩
    rw [this]
    unfold Spec.rank
    constructor
    · intro h
      have hall : ∀ x ∈ aces.map toHole, x.2.1 < x.1 ∧ x.1 < 52 ∧ x.1 / 4 = 12 ∧ x.2.1 / 4 = 12 ∧ x.2.2 = 100 := by decide +kernel
      exact hall _ h
    · rintro ⟨h1, h2, h3, h4, rfl⟩
      have ha : a = 49 ∨ a = 50 ∨ a = 51 := by omega
      have hb : b = 48 ∨ b = 49 ∨ b = 50 := by omega
      rcases ha with rfl | rfl | rfl <;> rcases hb with rfl | rfl | rfl <;> first | omega | decide +kernel
  · have h := C22_random asciiLower
    obtain ⟨hands, h1, _, _⟩ := h
    have h2 : hands = addAll := (Except.ok.inj h1).symm
    have := C19_nodup h1
    have e : allHands = addAll.map toHole := by
      have := accuracy_spec
      simp only [specRanges, List.map_cons, List.map_nil] at this
      exact ((List.cons.inj (List.cons.inj this).2).1).symm
    rw [e, ← h2, List.map_map]
    exact this
  · intro a b w
    have e : allHands = addAll.map toHole := by
      have := accuracy_spec
      simp only [specRanges, List.map_cons, List.map_nil] at this
      exact ((List.cons.inj (List.cons.inj this).2).1).symm
    rw [e]
    constructor
    · intro h
      obtain ⟨c, hc, he⟩ := List.mem_map.1 h
      have := (mem_addAll c).1 hc
      unfold toHole at he
      injection he with e1 e2
      injection e2 with e2 e3
      subst e1 e2 e3
      exact this
    · intro h
      exact List.mem_map.2 ⟨⟨a, b, w⟩, (mem_addAll _).2 h, rfl⟩
  · exact ⟨by decide, by decide, by decide⟩
  · exact ⟨by decide, by decide, by decide⟩

theorem accuracy_deals {Rs : List (List WHand)} (h : Rs = [aces.map toHole, allHands]) : deals Rs ([47, 44, 45, 4] ++ []) ≠ [] := by
  have : [((49, 48, 100) : WHand), (1, 0, 100)] ∈ deals Rs ([47, 44, 45, 4] ++ []) := by
    rw [h]
    unfold deals
    rw [List.mem_filter]
    refine ⟨?_, by decide⟩
    simp only [choices]
    rw [List.mem_flatMap]
    refine ⟨_, show ((49, 48, 100) : WHand) ∈ aces.map toHole by decide +kernel, List.mem_map.2 ⟨_, List.mem_flatMap.2
      ⟨_, show ((1, 0, 100) : WHand) ∈ allHands by decide +kernel, List.mem_map.2 ⟨_, List.mem_singleton.2 rfl, rfl⟩⟩, rfl⟩⟩
  intro e
  rw [e] at this
  cases this

/-- C71 on the crate's `test_accuracy`: the equity of `AA` against `random` on `KdKsKh3s`, defined from the rules of the game. -/
theorem C71_accuracy {R0 R1 : List WHand} (h0 : R0 = aces.map toHole) (h1 : R1 = allHands) :
    equityOf [R0, R1] [47, 44, 45, 4] [] 0 = some (10873 / 11385) := by
  have hp : Problem asciiLower ["AA".toList, "random".toList] "KdKsKh3s".toList "".toList [R0, R1] [47, 44, 45, 4] [] := by
    rw [h0, h1]
    exact accuracy_problem
  have heven : ∀ x ∈ R0, 2 ∣ x.2.2 := by rw [h0]; decide +kernel
  obtain ⟨ranges, hok, h⟩ := C71_two_players hp (by decide) (by decide) (accuracy_deals (by rw [h0, h1])) (Or.inl heven)
  rw [accuracy_ranges] at hok
  obtain ⟨⟨r, sent, hrun⟩, _, he, _⟩ := h 1 (by decide)
  have e1 := he _ _ _ hrun
  have e2 := accuracy_equity (Except.ok.inj hok).symm accuracy_board accuracy_dead (by decide) hrun
  rw [e1] at e2
  simpa using e2

end Pokers

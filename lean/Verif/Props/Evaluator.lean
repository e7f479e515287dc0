import Verif.Proofs.EvalCorrect
/-!
# Properties of the hand evaluator (C01 – C09)

`ofCards cs` is the hand obtained by adding the cards of `cs` one after the other to `Hand::default()`;
`Spec.best cs` is the strength of the best poker hand that can be played from `cs` (`Verif/Spec/Poker.lean`).
-/
namespace Pokers
open Spec Kernel

/-! ## C01 -/

/-- Scores of hands of 2 to 7 different cards are ordered exactly as the best poker hands contained in them. -/
theorem C01_evaluate_order {xs ys : List Nat} (hx : IsCards xs) (hy : IsCards ys)
    (hx2 : 2 ≤ xs.length) (hx7 : xs.length ≤ 7) (hy2 : 2 ≤ ys.length) (hy7 : ys.length ≤ 7) :
    ((ofCards xs).evaluate < (ofCards ys).evaluate ↔ best xs < best ys) ∧
    ((ofCards xs).evaluate = (ofCards ys).evaluate ↔ best xs = best ys) ∧
    ((ofCards ys).evaluate < (ofCards xs).evaluate ↔ best ys < best xs) := by
  have h1 := evaluate_lt_iff hx hy hx2 hx7 hy2 hy7
  have h2 := evaluate_lt_iff hy hx hy2 hy7 hx2 hx7
  refine ⟨h1, ?_, h2⟩
  constructor
  · intro h
    exact le_antisymm (not_lt.1 (fun hl => by have := h2.2 hl; omega)) (not_lt.1 (fun hl => by have := h1.2 hl; omega))
  · intro h
    have a : ¬ (ofCards xs).evaluate < (ofCards ys).evaluate := fun hl => by have := h1.1 hl; rw [h] at this; exact lt_irrefl _ this
    have b : ¬ (ofCards ys).evaluate < (ofCards xs).evaluate := fun hl => by have := h2.1 hl; rw [h] at this; exact lt_irrefl _ this
    omega

/-- A seven-card hand holding quads loses to one holding a straight flush (the steel wheel); both meet the hypotheses of C01. -/
example : (ofCards [0, 1, 2, 3, 48, 44, 41]).evaluate < (ofCards [48, 0, 4, 8, 12, 45, 50]).evaluate :=
  (C01_evaluate_order (by decide) (by decide) (by decide) (by decide) (by decide) (by decide)).1.2 (by decide +kernel)

/-! The specification orders some well-known hands as every poker player does
(cards: `4 * rank + suit`, rank 0 the deuce and 12 the ace). -/
example : best [48, 44, 40, 36, 32] = [9, 12] := by decide +kernel   -- royal flush
example : best [48, 0, 4, 8, 12] = [9, 3] := by decide +kernel       -- steel wheel
example : best [48, 49, 50, 51, 0] = [8, 12, 0] := by decide +kernel -- quad aces
example : best [48, 49, 50, 0, 1, 4, 5] = [7, 12, 1] := by decide +kernel -- aces full of treys
example : best [48, 0, 5, 10, 15, 16, 25] = [5, 4] := by decide +kernel -- six-high straight, next to an ace and an eight

/-! ## C02 -/

/-- `evaluate() >> 12` is the category of the best hand: there is a best playable hand, and every best playable hand has
that category. -/
theorem C02_category {cs : List Nat} (h : IsCards cs) (h2 : 2 ≤ cs.length) (h7 : cs.length ≤ 7) :
    (∃ x ∈ playable cs, ∀ y ∈ playable cs, value y ≤ value x) ∧
    ∀ x ∈ playable cs, (∀ y ∈ playable cs, value y ≤ value x) → (ofCards cs).evaluate >>> 12 = category x := by
  constructor
  · obtain ⟨x, hx, he⟩ := best_mem cs
    exact ⟨x, hx, fun y hy => he ▸ le_best hy⟩
  · intro x hx hmax
    obtain ⟨y, hy, he⟩ := best_mem cs
    have hb : value x = best cs := le_antisymm (le_best hx) (he ▸ hmax y hy)
    obtain ⟨t, ht⟩ := evaluate_category h h2 h7
    rw [← hb] at ht
    have : value x = category x :: _ := rfl
    rw [this] at ht
    exact (List.cons.inj ht).1.symm

/-- The category index is between 1 and 9. -/
theorem C02_category_range {cs : List Nat} (h : IsCards cs) (h2 : 2 ≤ cs.length) (h7 : cs.length ≤ 7) :
    1 ≤ (ofCards cs).evaluate >>> 12 ∧ (ofCards cs).evaluate >>> 12 ≤ 9 := by
  obtain ⟨⟨x, hx, hm⟩, hc⟩ := C02_category h h2 h7
  rw [hc x hx hm]
  unfold category categoryOf
  simp only
  split_ifs <;> omega

example : (ofCards [48, 49, 50, 0, 1, 4, 5]).evaluate >>> 12 = 7 :=
  ((C02_category (by decide) (by decide) (by decide)).2 [48, 49, 50, 4, 5] (by decide +kernel) (by decide +kernel)).trans
    (by decide)

/-- Why the size matters: the score of the empty hand reads as four of a kind. -/
theorem empty_hand_scores_quads : Hand.default.evaluate >>> 12 = 8 := by decide +kernel

/-- A single deuce outscores a single trey. -/
theorem single_card_not_ordered : ∃ a b, a < 52 ∧ b < 52 ∧ Spec.rank a < Spec.rank b ∧
    (ofCards [b]).evaluate < (ofCards [a]).evaluate := by
  exact ⟨0, 4, by decide, by decide, by decide, by decide +kernel⟩

/-! ## C03 -/

/-- The ways of building a hand: the default hand, a card, sums. -/
inductive Build
  | base
  | card (c : Nat)
  | sum (a b : Build)

namespace Build
/-- The hand computed by the crate's `+`. -/
def hand : Build → Hand
  | base => Hand.default
  | card c => CARDS c
  | sum a b => a.hand + b.hand
/-- The cards used, in order. -/
def cards : Build → List Nat
  | base => []
  | card c => [c]
  | sum a b => a.cards ++ b.cards
/-- How often the default hand is used. -/
def bases : Build → Nat
  | base => 1
  | card _ => 0
  | sum a b => a.bases + b.bases
end Build

theorem build_key (t : Build) : t.hand.key % 2 ^ 64 =
    (t.bases * Hand.default.key + (t.cards.map (fun c => (CARDS c).key)).sum) % 2 ^ 64 := by
  induction t with
  | base => simp [Build.hand, Build.bases, Build.cards]
  | card c => simp [Build.hand, Build.bases, Build.cards]
  | sum a b iha ihb =>
    simp only [Build.hand, Build.bases, Build.cards, List.map_append, List.sum_append, Hand.add_def, Nat.add_mul]
    omega

theorem build_mask (t : Build) (i : Nat) : t.hand.mask.testBit i = t.cards.any (fun c => (CARDS c).mask.testBit i) := by
  induction t with
  | base => simp [Build.hand, Build.cards, Hand.default]
  | card c => simp [Build.hand, Build.cards]
  | sum a b iha ihb => simp [Build.hand, Build.cards, Hand.add_def, Nat.testBit_or, iha, ihb]

theorem CARDS_key_lt {c : Nat} (h : c < 52) : (CARDS c).key < 2 ^ 64 := by
  have : ∀ c < 52, (CARDS c).key < 2 ^ 64 := by decide +kernel
  exact this c h

theorem build_key_lt (t : Build) (h : ∀ c ∈ t.cards, c < 52) : t.hand.key < 2 ^ 64 := by
  cases t with
  | base => rw [Build.hand]; decide +kernel
  | card c => rw [Build.hand]; exact CARDS_key_lt (h c (by simp [Build.cards]))
  | sum a b =>
    rw [Build.hand, Hand.add_def]
    exact Nat.mod_lt _ (Nat.two_pow_pos 64)

/-- However a hand is put together – any order, any grouping into partial hands – only the cards (and how often
the default hand was added) matter. -/
theorem C03_order_and_grouping {s t : Build} (hs : ∀ c ∈ s.cards, c < 52) (hb : s.bases = t.bases)
    (hp : s.cards.Perm t.cards) : s.hand = t.hand := by
  apply Hand.ext'
  · have h1 := build_key s
    have h2 := build_key t
    rw [Nat.mod_eq_of_lt (build_key_lt s hs)] at h1
    rw [Nat.mod_eq_of_lt (build_key_lt t (fun c hc => hs c (hp.mem_iff.2 hc)))] at h2
    rw [h1, h2, hb, (hp.map _).sum_eq]
  · apply Nat.eq_of_testBit_eq
    intro i
    rw [build_mask, build_mask, Bool.eq_iff_iff, List.any_eq_true, List.any_eq_true]
    simp only [hp.mem_iff]

/-- Scores do not depend on the order in which cards are added. -/
theorem C03_perm {xs ys : List Nat} (hp : xs.Perm ys) : ofCards xs = ofCards ys := ofCards_perm hp

/-- Board plus hole cards. -/
theorem C03_hole_cards (board : List Nat) (a b : Nat) :
    ofCards board + Hand.fromHoleCards a b = ofCards (board ++ [a, b]) ∧
    Hand.fromHoleCards a b + ofCards board = ofCards (b :: a :: board) ∧
    Hand.fromHoleCards a b = Hand.fromHoleCards b a := by
  refine ⟨?_, ?_, Hand.add_comm' _ _⟩
  · rw [ofCards_append, Hand.fromHoleCards, ← Hand.add_assoc']; rfl
  · rw [ofCards_cons, ofCards_cons, Hand.fromHoleCards, Hand.add_comm', Hand.add_assoc']

theorem foldl_if_add (l : List Nat) (m : Nat) (h : Hand) :
    l.foldl (fun board c => if m &&& (1 <<< c) ≠ 0 then board + CARDS c else board) h =
    (l.filter (fun c => m.testBit c)).foldl (fun h c => h + CARDS c) h := by
  induction l generalizing h with
  | nil => rw [List.filter_nil, List.foldl_nil, List.foldl_nil]
  | cons c l ih =>
    have key : (m &&& (1 <<< c) ≠ 0) ↔ m.testBit c = true := by
      rw [Nat.one_shiftLeft, Nat.and_two_pow]

      cases m.testBit c
      · simp
      · simp
    simp only [List.foldl_cons, List.filter_cons, ih]
    cases hb : m.testBit c
    · rw [hb] at key
      simp only [key, Bool.false_eq_true, if_false]
    · rw [hb] at key
      simp only [key, if_true, List.foldl_cons]

/-- `from_bit_mask` builds the hand of the cards whose bits are set. -/
theorem C03_from_bit_mask {cs : List Nat} (h : IsCards cs) {m : Nat} (hm : ∀ c < 52, m.testBit c = true ↔ c ∈ cs) :
    Hand.fromBitMask m = ofCards cs := by
  rw [Hand.fromBitMask, foldl_if_add]
  apply ofCards_perm
  rw [List.perm_ext_iff_of_nodup (List.nodup_range.filter _) h.1]
  intro c
  rw [List.mem_filter, List.mem_range]
  constructor
  · exact fun hc => (hm c hc.1).1 hc.2
  · exact fun hc => ⟨h.2 c hc, (hm c (h.2 c hc)).2 hc⟩

/-- A board `2s 7h Kc` given as bit mask plus hole cards `As Ad`, and the same cards added one by one in another order. -/
example : Hand.fromBitMask (1 <<< 0 ||| 1 <<< 21 ||| 1 <<< 46) + Hand.fromHoleCards 48 51 = ofCards [51, 46, 0, 48, 21] := by
  rw [C03_from_bit_mask (cs := [0, 21, 46]) (by decide) (by decide +kernel), (C03_hole_cards _ _ _).1]
  exact C03_perm (by decide)

/-! ## C04 -/

/-- `evaluate_without_flush` agrees with `evaluate` when no suit occurs five times. -/
theorem C04_no_flush {cs : List Nat} (h : IsCards cs) (hs : ∀ s < 4, cs.countP (fun c => Spec.suit c = s) < 5) :
    (ofCards cs).evaluateWithoutFlush = (ofCards cs).evaluate := by
  have hs' : ∀ s < 4, suitCnt cs s ≤ 4 := by
    intro s h4
    have := hs s h4
    have e : suitCnt cs s = cs.countP (fun c => decide (Spec.suit c = s)) := by
      unfold suitCnt
      apply List.countP_congr
      intro c _
      simp
    omega
  rw [evaluate_noflush h.2 hs', evaluateWithoutFlush_eq h.2 (fun s h => (hs' s h).trans (by omega))]

/-- In general it is the score of the ranks alone: it equals the score of any hand with the same ranks that has no flush … -/
theorem C04_ignores_suits {cs ds : List Nat} (h : IsCards cs) (hd : IsCards ds) (hl : cs.length ≤ 12)
    (hr : (cs.map Spec.rank).Perm (ds.map Spec.rank)) (hs : ∀ s < 4, ds.countP (fun c => Spec.suit c = s) < 5) :
    (ofCards cs).evaluateWithoutFlush = (ofCards ds).evaluate := by
  have hl' : ds.length = cs.length := by simpa using hr.length_eq.symm
  rw [← C04_no_flush hd hs, evaluateWithoutFlush_eq h.2 (suits_le12 hl), evaluateWithoutFlush_eq hd.2 (suits_le12 (by omega)),
    L, L]
  congr 1
  have e : ∀ l : List Nat, rankSum l = ((l.map Spec.rank).map (fun r => RANKS.getD r 0)).sum := by
    intro l; rw [List.map_map]; rfl
  rw [e, e, (hr.map _).sum_eq]

/-- … and it never exceeds `evaluate`. -/
theorem C04_le {cs : List Nat} (h : IsCards cs) (h7 : cs.length ≤ 7) :
    (ofCards cs).evaluateWithoutFlush ≤ (ofCards cs).evaluate := by
  rw [evaluateWithoutFlush_eq h.2 (suits_le12 (by omega))]
  rcases flush_cases cs with hno | ⟨s, hs, h5⟩
  · rw [evaluate_noflush h.2 hno]
  · have hF : 24576 ≤ F cs s := by
      rcases Nat.lt_or_ge 5 (suitCnt cs s) with h6 | h6
      · exact (F_big h hs h6 ((suitCnt_le_length cs s).trans h7)).1
      · exact (F_code h hs (by omega)).2.1
    rw [evaluate_flush h (by omega) hs h5]
    have hL : L cs < 24576 := by
      by_cases h6 : cs.length ≤ 6
      · exact L_noFlush h h6 (by omega : 4 ≤ suitCnt cs s)
      · obtain ⟨c, hc, he⟩ := (L_big h (by omega)).2
        rw [← he]
        have := suitCnt_erase hc s
        exact L_noFlush (IsCards.erase h c) (by rw [List.length_erase_of_mem hc]; omega)
          (by split at this <;> omega : 4 ≤ suitCnt (cs.erase c) s)
    omega

/-- The seven cards `As Ks Qs Js 9s 2h 2d` form a flush; ignoring suits they are worth less. -/
example : (ofCards [48, 44, 40, 36, 28, 1, 3]).evaluateWithoutFlush < (ofCards [48, 44, 40, 36, 28, 1, 3]).evaluate :=
  lt_of_le_of_ne (C04_le (by decide) (by decide)) (by decide +kernel)
example : ∀ s < 4, [48, 44, 40, 36, 29, 1, 3].countP (fun c => Spec.suit c = s) < 5 := by decide

/-! ## C05 -/

/-- Relabels the suit of a card. -/
def relabel (σ : Nat → Nat) (c : Nat) : Nat := 4 * Spec.rank c + σ (Spec.suit c)

theorem value_map_relabel {σ : Nat → Nat} (h4 : ∀ s < 4, σ s < 4) (hi : ∀ s < 4, ∀ t < 4, σ s = σ t → s = t) (x : List Nat) :
    value (x.map (relabel σ)) = value x := by
  have hr : ∀ c, Spec.rank (relabel σ c) = Spec.rank c := by
    intro c
    have := h4 (c % 4) (by omega)
    simp only [relabel, Spec.rank, Spec.suit]
    omega
  have hsu : ∀ c, Spec.suit (relabel σ c) = σ (Spec.suit c) := by
    intro c
    have := h4 (c % 4) (by omega)
    simp only [relabel, Spec.rank, Spec.suit]
    omega
  have hcnt : countRank (x.map (relabel σ)) = countRank x := by
    funext r
    unfold countRank
    rw [List.countP_map]
    apply List.countP_congr
    intro c _
    simp [hr]
  have hfl : isFlush (x.map (relabel σ)) = isFlush x := by
    by_cases h5 : x.length = 5
    · rw [Bool.eq_iff_iff]
      unfold isFlush
      simp only [List.length_map, h5, Bool.and_eq_true, List.any_eq_true, List.all_map, List.all_eq_true, Function.comp,
        Nat.beq_eq, hsu]
      constructor
      · rintro ⟨_, s, _, h⟩
        cases x with
        | nil => simp at h5
        | cons c x =>
          refine ⟨trivial, c % 4, by simp; omega, fun d hd => ?_⟩
          have e := h d hd
          rw [← h c List.mem_cons_self] at e
          exact hi _ (Nat.mod_lt _ (by norm_num)) _ (Nat.mod_lt _ (by norm_num)) e
      · rintro ⟨_, s, hs, h⟩
        refine ⟨trivial, σ s, ?_, fun d hd => by rw [h d hd]⟩
        have := h4 s (by simp at hs; omega)
        simp; omega
    · have hb : Nat.beq x.length 5 = false := by
        cases hb : Nat.beq x.length 5
        · rfl
        · exact absurd (Nat.eq_of_beq_eq_true hb) h5
      unfold isFlush
      simp [hb]
  rw [value, value, hcnt, hfl]

theorem isCards_relabel {σ : Nat → Nat} (h4 : ∀ s < 4, σ s < 4) (hi : ∀ s < 4, ∀ t < 4, σ s = σ t → s = t) {cs : List Nat}
    (h : IsCards cs) : IsCards (cs.map (relabel σ)) := by
  constructor
  · apply List.Nodup.map_on _ h.1
    intro a ha b hb hab
    have h1 := h4 (a % 4) (by omega)
    have h2 := h4 (b % 4) (by omega)
    simp only [relabel, Spec.rank, Spec.suit] at hab
    have := hi (a % 4) (by omega) (b % 4) (by omega) (by omega)
    omega
  · intro c hc
    obtain ⟨d, hd, rfl⟩ := List.mem_map.1 hc
    have h1 := h4 (d % 4) (by omega)
    have := h.2 d hd
    simp only [relabel, Spec.rank, Spec.suit]
    omega

theorem sublistsLen_map' {α β : Type} (f : α → β) (n : Nat) (l : List α) :
    (l.map f).sublistsLen n = (l.sublistsLen n).map (List.map f) := by
  induction l generalizing n with
  | nil => cases n <;> simp
  | cons a l ih =>
    cases n with
    | zero => simp
    | succ n =>
      rw [List.map_cons, List.sublistsLen_succ_cons, List.sublistsLen_succ_cons, ih, ih, List.map_append, List.map_map, List.map_map]
      rfl

/-- Permuting the suits does not change the score. -/
theorem C05_suit_relabelling {σ : Nat → Nat} (h4 : ∀ s < 4, σ s < 4) (hi : ∀ s < 4, ∀ t < 4, σ s = σ t → s = t)
    {cs : List Nat} (h : IsCards cs) (h2 : 2 ≤ cs.length) (h7 : cs.length ≤ 7) :
    (ofCards (cs.map (relabel σ))).evaluate = (ofCards cs).evaluate := by
  rw [(C01_evaluate_order (isCards_relabel h4 hi h) h (by simpa) (by simpa) h2 h7).2.1]
  have : playable (cs.map (relabel σ)) = (playable cs).map (List.map (relabel σ)) := by
    unfold playable
    rw [sublistsLen_map']
    simp
  unfold best
  rw [this, List.map_map]
  congr 1
  apply List.map_congr_left
  intro x _
  exact value_map_relabel h4 hi x

/-- Rotating the suits meets the hypotheses. -/
example : (ofCards ([48, 44, 40, 36, 28, 1, 3].map (relabel (fun s => (s + 1) % 4)))).evaluate
    = (ofCards [48, 44, 40, 36, 28, 1, 3]).evaluate :=
  C05_suit_relabelling (by decide) (by decide) (by decide) (by decide) (by decide)

/-! ## C06 -/

/-- The reads of `evaluate` and `evaluate_without_flush` are inside their tables, for every hand of at most seven cards. -/
theorem C06_evaluate_in_bounds {cs : List Nat} (h : IsCards cs) (h7 : cs.length ≤ 7) :
    let k := (ofCards cs).getRankKey
    k >>> PERF_HASH_ROW_SHIFT < PERF_HASH_OFFSETS.len ∧
    (k + PERF_HASH_OFFSETS.get (k >>> PERF_HASH_ROW_SHIFT)) % 2 ^ 32 < LOOKUP.len ∧
    (ofCards cs).getFlushKey < LOOKUP_FLUSH.len := by
  simp only
  rw [getRankKey_ofCards h.2 (suits_le12 (by omega))]
  have hb := L_bounds h h7
  refine ⟨hb.1, ?_, ?_⟩
  · have := hb.2
    rwa [fastHash_eq] at this
  · rcases flush_cases cs with hno | ⟨s, hs, h5⟩
    · unfold Hand.getFlushKey
      rw [if_neg]
      · decide
      · rw [hasFlush_ofCards h.2 (suits_le12 (by omega))]
        rintro ⟨s, h4, hf⟩
        have := hno s h4
        omega
    · rw [getFlushKey_ofCards h.2 (suits_le12 (by omega)) hs h5 (fun t ht hst => flush_unique (by omega) hs ht h5 (by omega))]
      show _ < 2 ^ 13
      apply Nat.lt_pow_two_of_testBit
      intro i hi
      rw [getSuitMask_testBit h.2 hs, decide_eq_false_iff_not]
      intro hm; have := h.2 _ hm; omega

/-- The declared lengths are those of the Rust arrays. -/
example : PERF_HASH_OFFSETS.len = 8191 ∧ LOOKUP.len = 86362 ∧ LOOKUP_FLUSH.len = 8192 ∧ CARD_MAP.len = 1326 ∧
    MASK_MAP.len = 3837 := by decide

/-! ## C07 -/

/-- A further card never lowers the score. -/
theorem C07_more_cards_never_hurt {cs : List Nat} {c : Nat} (h : IsCards (c :: cs)) (h2 : 2 ≤ cs.length) (h6 : cs.length ≤ 6) :
    (ofCards cs).evaluate ≤ (ofCards (c :: cs)).evaluate := by
  have := evaluate_erase_le h (by simp; omega) (by simp; omega) (List.mem_cons_self (a := c) (l := cs))
  rwa [List.erase_cons_head] at this

example : (ofCards [48, 44]).evaluate ≤ (ofCards [0, 48, 44]).evaluate :=
  C07_more_cards_never_hurt (by decide) (by decide) (by decide)

/-- Below two cards it does fail. -/
theorem more_cards_can_hurt_below_two : ∃ c, c < 52 ∧ (ofCards [c]).evaluate < (ofCards []).evaluate :=
  ⟨4, by decide, by decide +kernel⟩

/-! ## C08 -/

/-- The counters and masks of a hand describe its cards. -/
theorem C08_counters {cs : List Nat} (h : IsCards cs) (hl : cs.length ≤ 15)
    (hs : ∀ s < 4, cs.countP (fun c => Spec.suit c = s) ≤ 12) :
    (ofCards cs).count = cs.length ∧
    (∀ s < 4, (ofCards cs).suitCount s = (cs.countP (fun c => Spec.suit c = s) : Nat)) ∧
    (∀ c < 52, (ofCards cs).contains c = decide (c ∈ cs)) ∧
    ((ofCards cs).hasFlush = true ↔ ∃ s < 4, 5 ≤ cs.countP (fun c => Spec.suit c = s)) ∧
    (∀ s < 4, ∀ r, ((ofCards cs).getSuitMask s).testBit r = decide (∃ c ∈ cs, Spec.suit c = s ∧ Spec.rank c = r)) ∧
    (∀ r, ((ofCards cs).getRankMask).testBit r = decide (∃ c ∈ cs, Spec.rank c = r)) := by
  have e : ∀ s, cs.countP (fun c => decide (Spec.suit c = s)) = suitCnt cs s := by
    intro s
    unfold suitCnt
    apply List.countP_congr
    intro c _
    simp
  simp only [e] at hs ⊢
  have hsm : ∀ s < 4, ∀ r, ((ofCards cs).getSuitMask s).testBit r = decide (∃ c ∈ cs, Spec.suit c = s ∧ Spec.rank c = r) := by
    intro s h4 r
    rw [getSuitMask_testBit h.2 h4, decide_eq_decide]
    simp only [Spec.suit, Spec.rank]
    constructor
    · intro hm
      exact ⟨_, hm, by omega, by omega⟩
    · rintro ⟨c, hc, h1, h2⟩
      rwa [show 4 * r + s = c by omega]
  refine ⟨?_, ?_, ?_, hasFlush_ofCards h.2 hs, hsm, ?_⟩
  · rw [Hand.count, getCounters_ofCards h.2 hs, show CARD_COUNT_SHIFT - 32 = 0 by rfl, Nat.shiftRight_zero,
      show (0xf : Nat) = 2 ^ 4 - 1 by norm_num, Nat.and_two_pow_sub_one_eq_mod]
    omega
  · intro s h4
    have h0 := hs 0 (by omega); have h1 := hs 1 (by omega); have h2 := hs 2 (by omega); have h3 := hs 3 (by omega)
    rw [Hand.suitCount, getCounters_ofCards h.2 hs, show SUITS_SHIFT - 32 = 16 by rfl,
      show (0xf : Nat) = 2 ^ 4 - 1 by norm_num, Nat.and_two_pow_sub_one_eq_mod, Nat.shiftRight_eq_div_pow]
    rcases (show s = 0 ∨ s = 1 ∨ s = 2 ∨ s = 3 by omega) with rfl | rfl | rfl | rfl <;> norm_num <;> omega
  · intro c hc
    have := mask_testBit h.2 (show c % 4 < 4 by omega) (show c / 4 < 16 by omega)
    rw [show 4 * (c / 4) + c % 4 = c by omega] at this
    rw [← this, Hand.contains, Nat.one_shiftLeft, Nat.and_two_pow, Nat.mul_comm (3 - c % 4)]
    cases (ofCards cs).mask.testBit (16 * (3 - c % 4) + c / 4) <;> simp
  · intro r
    have hor : ∀ s < 4, ((ofCards cs).mask >>> (16 * (3 - s)) &&& 65535).testBit r = ((ofCards cs).getSuitMask s).testBit r := by
      intro s h4
      rw [Hand.getSuitMask, show (0xFFFF : Nat) = 2 ^ 16 - 1 by norm_num, Nat.testBit_mod_two_pow, Nat.testBit_and,
        Nat.testBit_two_pow_sub_one]
      by_cases hr : r < 16 <;> simp [hr]
    have : ((ofCards cs).getRankMask).testBit r =
        ([0, 1, 2, 3].any fun s => ((ofCards cs).getSuitMask s).testBit r) := by
      rw [Hand.getRankMask, show List.range 4 = [0, 1, 2, 3] from rfl, Nat.testBit_mod_two_pow]
      simp only [List.foldl_cons, List.foldl_nil, Nat.testBit_or, Nat.zero_testBit, Bool.false_or, List.any_cons, List.any_nil,
        Bool.or_false, hor 0 (by omega), hor 1 (by omega), hor 2 (by omega), hor 3 (by omega)]
      by_cases hr : r < 16
      · simp [hr, Bool.or_assoc]
      · have hz : ∀ s < 4, ((ofCards cs).getSuitMask s).testBit r = false := by
          intro s h4
          rw [Hand.getSuitMask, Nat.testBit_mod_two_pow]; simp [hr]
        simp [hr, hz]
    rw [this, Bool.eq_iff_iff, List.any_eq_true, decide_eq_true_eq]
    constructor
    · rintro ⟨s, hs4, hb⟩
      rw [hsm s (by simp at hs4; omega), decide_eq_true_eq] at hb
      obtain ⟨c, hc, _, hr⟩ := hb
      exact ⟨c, hc, hr⟩
    · rintro ⟨c, hc, hr⟩
      refine ⟨c % 4, by simp; omega, ?_⟩
      rw [hsm _ (by omega), decide_eq_true_eq]
      exact ⟨c, hc, rfl, hr⟩

/-- `get_flush_key` is the rank mask of the flush suit (with two flush suits, of the higher numbered one), and `0` without a
flush. -/
theorem C08_flush_key {cs : List Nat} (h : IsCards cs) (hs : ∀ s < 4, cs.countP (fun c => Spec.suit c = s) ≤ 12) :
    (∀ s < 4, 5 ≤ cs.countP (fun c => Spec.suit c = s) → (∀ t < 4, s < t → cs.countP (fun c => Spec.suit c = t) < 5) →
      ∀ r, ((ofCards cs).getFlushKey).testBit r = decide (∃ c ∈ cs, Spec.suit c = s ∧ Spec.rank c = r)) ∧
    ((∀ s < 4, cs.countP (fun c => Spec.suit c = s) < 5) → (ofCards cs).getFlushKey = 0) := by
  have e : ∀ s, cs.countP (fun c => decide (Spec.suit c = s)) = suitCnt cs s := by
    intro s
    unfold suitCnt
    apply List.countP_congr
    intro c _
    simp
  simp only [e] at hs ⊢
  constructor
  · intro s h4 h5 hmax r
    rw [getFlushKey_ofCards h.2 hs h4 h5 hmax, getSuitMask_testBit h.2 h4, decide_eq_decide]
    simp only [Spec.suit, Spec.rank]
    constructor
    · intro hm
      exact ⟨_, hm, by omega, by omega⟩
    · rintro ⟨c, hc, h1, h2⟩
      rwa [show 4 * r + s = c by omega]
  · intro hno
    rw [Hand.getFlushKey, if_neg]
    rw [hasFlush_ofCards h.2 hs]
    rintro ⟨s, h4, hf⟩
    have := hno s h4
    omega

/-- A nine-card hand meets the hypotheses. -/
example : (ofCards [0, 4, 8, 12, 16, 21, 22, 23, 51]).suitCount 0 = 5 :=
  (C08_counters (by decide) (by decide) (by decide)).2.1 0 (by decide)

/-! ## C09 -/

/-- The true (unwrapped) sum of the default key and the keys of any set of cards with at most twelve per suit fits 64 bits; so
does every partial sum, so no `u64` addition overflows however the hand is built. -/
theorem C09_no_key_overflow {t : Build} (h : IsCards t.cards) (hb : t.bases ≤ 1)
    (hs : ∀ s < 4, t.cards.countP (fun c => Spec.suit c = s) ≤ 12) :
    t.bases * Hand.default.key + (t.cards.map (fun c => (CARDS c).key)).sum < 2 ^ 64 ∧
    t.hand.key = t.bases * Hand.default.key + (t.cards.map (fun c => (CARDS c).key)).sum := by
  have e : ∀ s, t.cards.countP (fun c => decide (Spec.suit c = s)) = suitCnt t.cards s := by
    intro s
    unfold suitCnt
    apply List.countP_congr
    intro c _
    simp
  simp only [e] at hs
  have key : t.bases * Hand.default.key + (t.cards.map (fun c => (CARDS c).key)).sum < 2 ^ 64 := by
    have hr := rawKey_lt t.cards hs
    have hk := keySum_eq t.cards h.2
    have : t.bases * Hand.default.key ≤ 1 * Hand.default.key := Nat.mul_le_mul_right _ hb
    have hd := default_key
    unfold rawKey at hr
    omega
  refine ⟨key, ?_⟩
  have := build_key t
  rwa [Nat.mod_eq_of_lt (build_key_lt t h.2), Nat.mod_eq_of_lt key] at this

/-- The bound is sharp: the thirteen diamonds overflow. -/
theorem C09_bound_sharp : ∃ cs, IsCards cs ∧ cs.length = 13 ∧
    2 ^ 64 ≤ Hand.default.key + (cs.map (fun c => (CARDS c).key)).sum :=
  ⟨(List.range 13).map (fun r => 4 * r + 3), by decide, by decide, by decide⟩

example : (Build.sum (.sum .base (.card 3)) (.sum (.card 7) (.card 11))).hand.key =
    Hand.default.key + ([3, 7, 11].map (fun c => (CARDS c).key)).sum :=
  (C09_no_key_overflow (t := .sum (.sum .base (.card 3)) (.sum (.card 7) (.card 11))) (by decide) (by decide) (by decide)).2.trans
    (by decide)

end Pokers

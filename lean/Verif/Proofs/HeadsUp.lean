import Verif.Proofs.Showdown
import Verif.Spec.Totals
import Mathlib.Algebra.BigOperators.Ring.List
/-!
Two players on a board of four cards: the weights of the showdowns as sums that the kernel can evaluate.
Used only inside proofs, for concrete ranges.
-/
namespace Pokers
open Spec Kernel

namespace Kernel

/-- The keys of the 52 cards, 64 bits each. -/
def cardKeys : Nat :=
  0x1000000100494493010000010049449300100001004944930001000100494493100000010048f211010000010048f211001000010048f211000100010048f211100000010048c0e4010000010048c0e4001000010048c0e4000100010048c0e41000000100479068010000010047906800100001004790680001000100479068100000010047802e010000010047802e001000010047802e000100010047802e100000010041a013010000010041a013001000010041a013000100010041a013100000010036600001000001003660000010000100366000000100010036600010000001001760050100000100176005001000010017600500010001001760051000000100091000010000010009100000100001000910000001000100091000100000010003a000010000010003a000001000010003a000000100010003a000100000010001100001000001000110000010000100011000000100010001100010000001000080010100000100008001001000010000800100010001000080011000000100002000010000010000200000100001000020000001000100002000

/-- key of a card -/
noncomputable def ck (c : Nat) : Nat := Nat.land (Nat.shiftRight cardKeys (Nat.mul 64 c)) 0xffffffffffffffff

/-- mask of a card -/
noncomputable def cm (c : Nat) : Nat :=
  Nat.shiftLeft 1 (Nat.add (Nat.mul (Nat.sub 3 (Nat.land c 3)) 16) (Nat.shiftRight c 2))

theorem ck_eq : ∀ c < 52, ck c = (CARDS c).key := by decide +kernel
theorem cm_eq (c : Nat) : cm c = (CARDS c).mask := rfl

/-- score of a hand with the given key and mask -/
noncomputable def ev (key mask : Nat) : Nat :=
  bif' (Nat.beq (Nat.land key 0x8888000000000000) 0) (fastLookup (Nat.land key 0xffffffff))
    (fastFlush (Hand.getFlushKey ⟨key, mask⟩))

theorem ev_eq (h : Hand) : ev h.key h.mask = h.evaluate := by
  unfold ev Hand.evaluate
  have hf : h.hasFlush = !(Nat.beq (Nat.land h.key 0x8888000000000000) 0) := by
    show (h.key &&& 0x8888000000000000 != 0) = !(Nat.beq (h.key &&& 0x8888000000000000) 0)
    generalize h.key &&& 0x8888000000000000 = x
    cases x <;> rfl
  rw [hf, fastLookup_eq, fastFlush_eq, show (0xffffffff : Nat) = 2 ^ 32 - 1 by norm_num, land_mask]
  cases Nat.beq (Nat.land h.key 0x8888000000000000) 0 <;> rfl

/-- the two cards as a bit set -/
noncomputable def bits (v : WHand) : Nat := Nat.lor (Nat.shiftLeft 1 v.1) (Nat.shiftLeft 1 v.2.1)

/-- The sum of `g bits key mask` over the hands of `R` without a card in `U`, times their weights. -/
noncomputable def handLoop (g : Nat → Nat → Nat → Nat) (kb mb U : Nat) (R : List WHand) : Nat → Nat :=
  @List.rec WHand (fun _ => Nat → Nat) (fun acc => acc)
    (fun v _ ih acc => force v.1 fun c1 => force v.2.1 fun c2 => force (Nat.lor (Nat.shiftLeft 1 c1) (Nat.shiftLeft 1 c2)) fun vb =>
      bif' (Nat.beq (Nat.land U vb) 0)
        (force (Nat.add acc (Nat.mul v.2.2 (g vb (Nat.add (Nat.add kb (ck c1)) (ck c2)) (Nat.lor (Nat.lor mb (cm c1)) (cm c2))))) ih)
        (ih acc)) R

theorem handLoop_eq (g : Nat → Nat → Nat → Nat) (kb mb U : Nat) (R : List WHand) : ∀ acc, handLoop g kb mb U R acc =
    acc + (R.map fun v => if U &&& bits v = 0 then
      v.2.2 * g (bits v) (kb + ck v.1 + ck v.2.1) (mb ||| cm v.1 ||| cm v.2.1) else 0).sum := by
  induction R with
  | nil => intro acc; rfl
  | cons v R ih =>
    intro acc
    have e : handLoop g kb mb U (v :: R) acc =
      bif' (Nat.beq (U &&& bits v) 0)
        (handLoop g kb mb U R (acc + v.2.2 * g (bits v) (kb + ck v.1 + ck v.2.1) (mb ||| cm v.1 ||| cm v.2.1)))
        (handLoop g kb mb U R acc) := rfl
    rw [e, ih, ih, List.map_cons, List.sum_cons]
    by_cases h : U &&& bits v = 0
    · rw [if_pos h, h]
      show acc + _ + _ = _
      omega
    · rw [if_neg h, show Nat.beq (U &&& bits v) 0 = false from by
        rw [← Bool.not_eq_true, Nat.beq_eq]; exact h]
      show acc + _ = _
      omega

/-- Calls `k` with the bits, weights and scores of the hands of `R` without a card in `U`. -/
noncomputable def heroes (kb mb U : Nat) (R : List WHand) : (List (Nat × Nat × Nat) → Nat) → Nat :=
  @List.rec WHand (fun _ => (List (Nat × Nat × Nat) → Nat) → Nat) (fun k => k [])
    (fun v _ ih k => force v.1 fun c1 => force v.2.1 fun c2 => force v.2.2 fun w =>
      force (Nat.lor (Nat.shiftLeft 1 c1) (Nat.shiftLeft 1 c2)) fun vb =>
      bif' (Nat.beq (Nat.land U vb) 0)
        (force (ev (Nat.add (Nat.add kb (ck c1)) (ck c2)) (Nat.lor (Nat.lor mb (cm c1)) (cm c2))) fun s => ih fun l => k ((vb, w, s) :: l))
        (ih k)) R

/-- bits, weight and score of a hand -/
noncomputable def hero (kb mb : Nat) (v : WHand) : Nat × Nat × Nat :=
  (bits v, v.2.2, ev (kb + ck v.1 + ck v.2.1) (mb ||| cm v.1 ||| cm v.2.1))

theorem heroes_eq (kb mb U : Nat) (R : List WHand) : ∀ k, heroes kb mb U R k =
    k ((R.filter fun v => U &&& bits v = 0).map (hero kb mb)) := by
  induction R with
  | nil => intro k; rfl
  | cons v R ih =>
    intro k
    have e : heroes kb mb U (v :: R) k = bif' (Nat.beq (U &&& bits v) 0)
        (heroes kb mb U R fun l => k (hero kb mb v :: l)) (heroes kb mb U R k) := rfl
    rw [e, ih, ih, List.filter_cons]
    by_cases h : U &&& bits v = 0
    · rw [if_pos (by simpa using h), h]; rfl
    · rw [if_neg (by simpa using h), show Nat.beq (U &&& bits v) 0 = false from by rw [← Bool.not_eq_true, Nat.beq_eq]; exact h]

/-- The sum of `pts s t` over the heroes without a card in `vb`, times their weights. -/
noncomputable def heroLoop (pts : Nat → Nat → Nat) (vb t : Nat) (l : List (Nat × Nat × Nat)) : Nat → Nat :=
  @List.rec (Nat × Nat × Nat) (fun _ => Nat → Nat) (fun acc => acc)
    (fun h _ ih acc => bif' (Nat.beq (Nat.land vb h.1) 0) (force (Nat.add acc (Nat.mul h.2.1 (pts h.2.2 t))) ih) (ih acc)) l

theorem heroLoop_eq (pts : Nat → Nat → Nat) (vb t : Nat) (l : List (Nat × Nat × Nat)) : ∀ acc, heroLoop pts vb t l acc =
    acc + (l.map fun h => if vb &&& h.1 = 0 then h.2.1 * pts h.2.2 t else 0).sum := by
  induction l with
  | nil => intro acc; rfl
  | cons h l ih =>
    intro acc
    have e : heroLoop pts vb t (h :: l) acc = bif' (Nat.beq (vb &&& h.1) 0) (heroLoop pts vb t l (acc + h.2.1 * pts h.2.2 t))
      (heroLoop pts vb t l acc) := rfl
    rw [e, ih, ih, List.map_cons, List.sum_cons]
    by_cases h0 : vb &&& h.1 = 0
    · rw [if_pos h0, h0]
      show acc + _ + _ = _
      omega
    · rw [if_neg h0, show Nat.beq (vb &&& h.1) 0 = false from by rw [← Bool.not_eq_true, Nat.beq_eq]; exact h0]
      show acc + _ = _
      omega

/-- The sum of `f` over the cards below `n` that are not in `U`. -/
noncomputable def cardLoop (f : Nat → Nat) (U : Nat) (n : Nat) : Nat :=
  @Nat.rec (fun _ => Nat) 0 (fun r s => bif' (Nat.beq (Nat.land U (Nat.shiftLeft 1 r)) 0) (Nat.add s (f r)) s) n

theorem cardLoop_eq (f : Nat → Nat) (U n : Nat) :
    cardLoop f U n = ((List.range n).map fun r => if U &&& (1 <<< r) = 0 then f r else 0).sum := by
  induction n with
  | zero => rfl
  | succ n ih =>
    rw [List.range_succ, List.map_append, List.sum_append, ← ih, List.map_cons, List.map_nil, List.sum_cons, List.sum_nil, Nat.add_zero]
    have e : cardLoop f U (n + 1) = bif' (Nat.beq (U &&& (1 <<< n)) 0) (cardLoop f U n + f n) (cardLoop f U n) := rfl
    rw [e]
    by_cases h : U &&& (1 <<< n) = 0
    · rw [if_pos h, h]; rfl
    · rw [if_neg h, show Nat.beq (U &&& (1 <<< n)) 0 = false from by rw [← Bool.not_eq_true, Nat.beq_eq]; exact h]; rfl

/-- Points of the first of two players with scores `s` and `t`: two for the better hand, one for equal hands. -/
noncomputable def points (s t : Nat) : Nat := bif' (Nat.ble t s) (bif' (Nat.ble s t) 1 2) 0

/-- For the card `r` on the board: all heroes against all hands of `R1`. -/
noncomputable def riverSum (force_t : Bool) (pts : Nat → Nat → Nat) (kb mb U : Nat) (R0 R1 : List WHand) (r : Nat) : Nat :=
  force (Nat.add kb (ck r)) fun kb => force (Nat.lor mb (cm r)) fun mb => force (Nat.lor U (Nat.shiftLeft 1 r)) fun U =>
  heroes kb mb U R0 fun l =>
  handLoop (fun vb k m => bif' force_t (force (ev k m) fun t => heroLoop pts vb t l 0) (heroLoop pts vb 0 l 0)) kb mb U R1 0

end Kernel

/-! ## The sum over all showdowns -/

theorem list_sum_comm {α β : Type} (f : α → β → Nat) (l : List α) (m : List β) :
    (l.map fun a => (m.map fun b => f a b).sum).sum = (m.map fun b => (l.map fun a => f a b).sum).sum := by
  induction l with
  | nil => simp
  | cons a l ih =>
    simp only [List.map_cons, List.sum_cons, ih]
    rw [← List.sum_map_add]

theorem sum_filter_ite {α : Type} (l : List α) (P : α → Prop) [DecidablePred P] (f : α → Nat) :
    ((l.filter fun a => P a).map f).sum = (l.map fun a => if P a then f a else 0).sum := by
  induction l with
  | nil => rfl
  | cons a l ih =>
    rw [List.filter_cons, List.map_cons, List.sum_cons, ← ih]
    by_cases h : P a <;> simp [h]

theorem turn_boards {board : List Nat} (hb : board.length = 4) (dead : List Nat) (d : List WHand) (f : List Nat → Nat) :
    ((boards board dead d).map f).sum =
      ((List.range 52).map fun r => if r ∉ board ++ dead ++ dealt d then f (board ++ [r]) else 0).sum := by
  unfold boards completions
  rw [hb, show 5 - 4 = 1 from rfl, List.sublistsLen_one, List.map_map, List.map_map, ← sum_filter_ite]
  exact (List.Perm.map _ (List.reverse_perm _)).sum_eq

theorem choices_two (R0 R1 : List WHand) (f : List WHand → Nat) :
    ((choices [R0, R1]).map f).sum = (R0.map fun h => (R1.map fun v => f [h, v]).sum).sum := by
  simp only [choices, List.flatMap_def, List.map_flatten, List.sum_flatten, List.map_map, Function.comp_def, List.map_cons, List.map_nil,
    List.sum_cons, List.sum_nil, Nat.add_zero]

theorem turn_sum {board : List Nat} (hb : board.length = 4) (dead : List Nat) (R0 R1 : List WHand) (G : List WHand → List Nat → Nat) :
    ((showdowns [R0, R1] board dead).map fun x => G x.1 x.2).sum =
      ((List.range 52).map fun r => (R1.map fun v => (R0.map fun h =>
        if Legal (board ++ dead) [h, v] ∧ r ∉ board ++ dead ++ dealt [h, v] then G [h, v] (board ++ [r]) else 0).sum).sum).sum := by
  have e : ((showdowns [R0, R1] board dead).map fun x => G x.1 x.2).sum =
      ((deals [R0, R1] (board ++ dead)).map fun d => ((boards board dead d).map (G d)).sum).sum := by
    unfold showdowns
    rw [List.flatMap_def, List.map_flatten, List.sum_flatten, List.map_map, List.map_map]
    congr 1
    apply List.map_congr_left
    intro d _
    simp only [Function.comp_def, List.map_map]
  rw [e]
  unfold deals
  rw [sum_filter_ite, choices_two, list_sum_comm]
  simp only [turn_boards hb]
  generalize List.range 52 = L
  rw [list_sum_comm (fun r v => (R0.map fun h =>
        if Legal (board ++ dead) [h, v] ∧ r ∉ board ++ dead ++ dealt [h, v] then G [h, v] (board ++ [r]) else 0).sum)]
  congr 1
  apply List.map_congr_left
  intro v _
  rw [list_sum_comm (fun r h => if Legal (board ++ dead) [h, v] ∧ r ∉ board ++ dead ++ dealt [h, v] then G [h, v] (board ++ [r]) else 0)]
  congr 1
  apply List.map_congr_left
  intro h _
  by_cases hl : Legal (board ++ dead) [h, v]
  · rw [if_pos hl]
    congr 1
    apply List.map_congr_left
    intro r _
    by_cases hr : r ∉ board ++ dead ++ dealt [h, v]
    · rw [if_pos hr, if_pos ⟨hl, hr⟩]
    · rw [if_neg hr, if_neg (fun h => hr h.2)]
  · rw [if_neg hl]
    symm
    apply List.sum_eq_zero
    intro x hx
    obtain ⟨r, _, rfl⟩ := List.mem_map.1 hx
    rw [if_neg (fun h => hl h.1)]

/-! ## The kernel sums -/

/-- The cards as a bit set. -/
def cardBits (cs : List Nat) : Nat := cs.foldr (fun c m => 1 <<< c ||| m) 0

theorem cardBits_testBit (cs : List Nat) (i : Nat) : (cardBits cs).testBit i = decide (i ∈ cs) := by
  induction cs with
  | nil => simp [cardBits]
  | cons c cs ih =>
    have : cardBits (c :: cs) = 1 <<< c ||| cardBits cs := rfl
    rw [this, Nat.testBit_or, ih, Nat.one_shiftLeft, Nat.testBit_two_pow]
    by_cases h1 : i = c <;> by_cases h2 : i ∈ cs <;> simp [h1, h2, eq_comm]

theorem land_bit (x a : Nat) : x &&& (1 <<< a) = 0 ↔ x.testBit a = false := by
  rw [Nat.one_shiftLeft]
  constructor
  · intro h
    have := congrArg (Nat.testBit · a) h
    simpa [Nat.testBit_and, Nat.testBit_two_pow] using this
  · intro h
    apply Nat.eq_of_testBit_eq
    intro i
    rw [Nat.testBit_and, Nat.testBit_two_pow, Nat.zero_testBit]
    by_cases hi : a = i
    · subst hi; simp [h]
    · simp [hi]

theorem land_bits (x : Nat) (v : WHand) : x &&& bits v = 0 ↔ x.testBit v.1 = false ∧ x.testBit v.2.1 = false := by
  have : bits v = 1 <<< v.1 ||| 1 <<< v.2.1 := rfl
  rw [this, Nat.and_or_distrib_left, Nat.or_eq_zero_iff, land_bit, land_bit]

theorem bits_testBit (v : WHand) (i : Nat) : (bits v).testBit i = decide (i ∈ cardsOf v) := by
  have : bits v = cardBits (cardsOf v) := by simp [bits, cardBits, cardsOf]
  rw [this, cardBits_testBit]

theorem rawKey_eq {cs : List Nat} (h : ∀ c ∈ cs, c < 52) : rawKey cs = Hand.default.key + (cs.map fun c => (CARDS c).key).sum := by
  rw [keySum_eq cs h, default_key, rawKey]
  ring

theorem key_append {cs : List Nat} (h : ∀ c ∈ cs, c < 52) (hl : cs.length ≤ 11) {c : Nat} (hc : c < 52) :
    (ofCards (cs ++ [c])).key = (ofCards cs).key + ck c := by
  have h' : ∀ x ∈ cs ++ [c], x < 52 := by
    intro x hx
    rcases List.mem_append.1 hx with hx | hx
    · exact h x hx
    · rw [List.mem_singleton.1 hx]; exact hc
  rw [ofCards_key _ h' (suits_le12 (by simp; omega)), ofCards_key _ h (suits_le12 (by omega)), rawKey_eq h, rawKey_eq h', List.map_append,
    List.sum_append, ck_eq c hc]
  simp
  omega

theorem mask_append (cs : List Nat) (c : Nat) : (ofCards (cs ++ [c])).mask = (ofCards cs).mask ||| cm c := by
  rw [ofCards_append]; rfl

theorem ev_hand {cs : List Nat} (h : ∀ c ∈ cs, c < 52) (hl : cs.length ≤ 9) {v : WHand} (h1 : v.1 < 52) (h2 : v.2.1 < 52) :
    ev ((ofCards cs).key + ck v.1 + ck v.2.1) ((ofCards cs).mask ||| cm v.1 ||| cm v.2.1) = (ofCards (cs ++ cardsOf v)).evaluate := by
  have h' : ∀ x ∈ cs ++ [v.1], x < 52 := by
    intro x hx
    rcases List.mem_append.1 hx with hx | hx
    · exact h x hx
    · rw [List.mem_singleton.1 hx]; exact h1
  rw [← key_append h (by omega) h1, ← mask_append, ← key_append h' (by simp; omega) h2, ← mask_append, ev_eq]
  simp [cardsOf]

/-- The hands have two different cards of the deck. -/
def TwoCards (R : List WHand) : Prop := ∀ v ∈ R, v.1 < 52 ∧ v.2.1 < 52 ∧ v.1 ≠ v.2.1

instance (R : List WHand) : Decidable (TwoCards R) := inferInstanceAs (Decidable (∀ _ ∈ _, _))

theorem riverSum_eq {ft : Bool} {pts : Nat → Nat → Nat} (hp : ft = true ∨ ∀ s t t', pts s t = pts s t') {board dead : List Nat}
    (hb : ∀ c ∈ board, c < 52) (hl : board.length ≤ 4) {R0 R1 : List WHand} (h0 : TwoCards R0) (h1 : TwoCards R1) {r : Nat} (hr : r < 52)
    (hrU : r ∉ board ++ dead) :
    riverSum ft pts (ofCards board).key (ofCards board).mask (cardBits (board ++ dead)) R0 R1 r =
      (R1.map fun v => (R0.map fun h => if Legal (board ++ dead) [h, v] ∧ r ∉ board ++ dead ++ dealt [h, v] then
        dealWeight [h, v] * pts (ofCards (board ++ [r] ++ cardsOf h)).evaluate (ofCards (board ++ [r] ++ cardsOf v)).evaluate else 0).sum).sum := by
  have hb' : ∀ x ∈ board ++ [r], x < 52 := by
    intro x hx
    rcases List.mem_append.1 hx with hx | hx
    · exact hb x hx
    · rw [List.mem_singleton.1 hx]; exact hr
  have hl' : (board ++ [r]).length ≤ 9 := by simp; omega
  have e : riverSum ft pts (ofCards board).key (ofCards board).mask (cardBits (board ++ dead)) R0 R1 r =
      heroes ((ofCards board).key + ck r) ((ofCards board).mask ||| cm r) (cardBits (board ++ dead) ||| 1 <<< r) R0 fun l =>
      handLoop (fun vb k m => bif' ft (force (ev k m) fun t => heroLoop pts vb t l 0) (heroLoop pts vb 0 l 0))
        ((ofCards board).key + ck r) ((ofCards board).mask ||| cm r) (cardBits (board ++ dead) ||| 1 <<< r) R1 0 := rfl
  rw [e, ← key_append hb (by omega) hr, ← mask_append, heroes_eq, handLoop_eq, Nat.zero_add]
  congr 1
  apply List.map_congr_left
  intro v hv
  obtain ⟨v1, v2, v3⟩ := h1 v hv
  have hU : ∀ i, (cardBits (board ++ dead) ||| 1 <<< r).testBit i = decide (i ∈ board ++ dead ∨ i = r) := by
    intro i
    rw [Nat.testBit_or, cardBits_testBit, Nat.one_shiftLeft, Nat.testBit_two_pow]
    by_cases h1 : i ∈ board ++ dead <;> by_cases h2 : i = r <;> simp [h1, h2, eq_comm]
    exact fun h => h2 h.symm
  have hg : bif' ft (force (ev ((ofCards (board ++ [r])).key + ck v.1 + ck v.2.1) ((ofCards (board ++ [r])).mask ||| cm v.1 ||| cm v.2.1)) fun t =>
      heroLoop pts (bits v) t ((R0.filter fun h => (cardBits (board ++ dead) ||| 1 <<< r) &&& bits h = 0).map
        (hero (ofCards (board ++ [r])).key (ofCards (board ++ [r])).mask)) 0)
      (heroLoop pts (bits v) 0 ((R0.filter fun h => (cardBits (board ++ dead) ||| 1 <<< r) &&& bits h = 0).map
        (hero (ofCards (board ++ [r])).key (ofCards (board ++ [r])).mask)) 0) =
      heroLoop pts (bits v) (ofCards (board ++ [r] ++ cardsOf v)).evaluate
        ((R0.filter fun h => (cardBits (board ++ dead) ||| 1 <<< r) &&& bits h = 0).map
        (hero (ofCards (board ++ [r])).key (ofCards (board ++ [r])).mask)) 0 := by
    rw [force_eq, ev_hand hb' hl' v1 v2]
    cases ft with
    | true => rfl
    | false =>
      show heroLoop _ _ _ _ _ = _
      rw [heroLoop_eq, heroLoop_eq]
      congr 2
      apply List.map_congr_left
      intro h _
      rcases hp with hp | hp
      · cases hp
      · rw [hp _ 0]
  rw [hg, heroLoop_eq, Nat.zero_add, List.map_map, sum_filter_ite]
  by_cases hv0 : (cardBits (board ++ dead) ||| 1 <<< r) &&& bits v = 0
  · rw [if_pos hv0, ← List.sum_map_mul_left]
    congr 1
    apply List.map_congr_left
    intro h hh
    obtain ⟨g1, g2, g3⟩ := h0 h hh
    rw [land_bits, hU, hU] at hv0
    simp only [Function.comp, hero, land_bits, hU, bits_testBit, ev_hand hb' hl' g1 g2]
    have hw : dealWeight [h, v] = v.2.2 * h.2.2 := by simp [dealWeight, Nat.mul_comm]
    rw [hw]
    have hiff : (Legal (board ++ dead) [h, v] ∧ r ∉ board ++ dead ++ dealt [h, v]) ↔
        (decide (h.1 ∈ board ++ dead ∨ h.1 = r) = false ∧ decide (h.2.1 ∈ board ++ dead ∨ h.2.1 = r) = false) ∧
        (decide (h.1 ∈ cardsOf v) = false ∧ decide (h.2.1 ∈ cardsOf v) = false) := by
      simp only [decide_eq_false_iff_not] at hv0 ⊢
      simp only [Legal, dealt, cardsOf, List.flatMap_cons, List.flatMap_nil, List.append_nil, List.cons_append, List.nil_append,
        List.nodup_cons, List.mem_cons, List.not_mem_nil, or_false, List.nodup_nil, and_true, not_or, List.mem_append, forall_eq_or_imp,
        forall_eq, not_false_eq_true] at hv0 hrU ⊢
      grind
    by_cases hc : Legal (board ++ dead) [h, v] ∧ r ∉ board ++ dead ++ dealt [h, v]
    · rw [if_pos hc]
      have := hiff.1 hc
      rw [if_pos this.1, if_pos this.2, Nat.mul_assoc]
    · rw [if_neg hc]
      rw [hiff] at hc
      by_cases hx : decide (h.1 ∈ board ++ dead ∨ h.1 = r) = false ∧ decide (h.2.1 ∈ board ++ dead ∨ h.2.1 = r) = false
      · rw [if_pos hx, if_neg (fun hy => hc ⟨hx, hy⟩), Nat.mul_zero]
      · rw [if_neg hx, Nat.mul_zero]
  · rw [if_neg hv0]
    symm
    apply List.sum_eq_zero
    intro x hx
    obtain ⟨h, _, rfl⟩ := List.mem_map.1 hx
    rw [if_neg]
    rintro ⟨⟨_, ha⟩, hb⟩
    apply hv0
    rw [land_bits, hU, hU, decide_eq_false_iff_not, decide_eq_false_iff_not]
    have m1 : v.1 ∈ dealt [h, v] := by simp [dealt, cardsOf]
    have m2 : v.2.1 ∈ dealt [h, v] := by simp [dealt, cardsOf]
    constructor
    · rintro (h' | h')
      · exact ha _ m1 h'
      · exact hb (List.mem_append.2 (.inr (h' ▸ m1)))
    · rintro (h' | h')
      · exact ha _ m2 h'
      · exact hb (List.mem_append.2 (.inr (h' ▸ m2)))

/-- All showdowns of two players on the board `board` of four cards: the sum of `weight * pts score₀ score₁`. -/
noncomputable def turnSum (ft : Bool) (pts : Nat → Nat → Nat) (board dead : List Nat) (R0 R1 : List WHand) : Nat :=
  force (ofCards board).key fun kb => force (ofCards board).mask fun mb => force (cardBits (board ++ dead)) fun U =>
  cardLoop (riverSum ft pts kb mb U R0 R1) U 52

theorem turnSum_eq {ft : Bool} {pts : Nat → Nat → Nat} (hp : ft = true ∨ ∀ s t t', pts s t = pts s t') {board : List Nat} (dead : List Nat)
    (hb : ∀ c ∈ board, c < 52) (hl : board.length = 4) {R0 R1 : List WHand} (h0 : TwoCards R0) (h1 : TwoCards R1) :
    turnSum ft pts board dead R0 R1 = ((showdowns [R0, R1] board dead).map fun x => dealWeight x.1 *
      pts (ofCards (x.2 ++ cardsOf (x.1.getD 0 (0, 0, 0)))).evaluate (ofCards (x.2 ++ cardsOf (x.1.getD 1 (0, 0, 0)))).evaluate).sum := by
  rw [turn_sum hl dead R0 R1 (fun d B => dealWeight d *
      pts (ofCards (B ++ cardsOf (d.getD 0 (0, 0, 0)))).evaluate (ofCards (B ++ cardsOf (d.getD 1 (0, 0, 0)))).evaluate)]
  have e : turnSum ft pts board dead R0 R1 = cardLoop (riverSum ft pts (ofCards board).key (ofCards board).mask (cardBits (board ++ dead)) R0 R1)
    (cardBits (board ++ dead)) 52 := rfl
  rw [e, cardLoop_eq]
  congr 1
  apply List.map_congr_left
  intro r hr
  rw [List.mem_range] at hr
  have hUb : cardBits (board ++ dead) &&& 1 <<< r = 0 ↔ r ∉ board ++ dead := by
    rw [land_bit, cardBits_testBit, decide_eq_false_iff_not]
  by_cases hU : r ∈ board ++ dead
  · rw [if_neg (fun h => hUb.1 h hU)]
    symm
    apply List.sum_eq_zero
    intro x hx
    obtain ⟨v, _, rfl⟩ := List.mem_map.1 hx
    apply List.sum_eq_zero
    intro x hx
    obtain ⟨h, _, rfl⟩ := List.mem_map.1 hx
    rw [if_neg]
    exact fun h => h.2 (List.mem_append.2 (.inl hU))
  · rw [if_pos (hUb.2 hU), riverSum_eq hp hb hl.le h0 h1 hr hU]
    rfl

/-! ## Two players: points, wins and shares -/

theorem topTwo (sc : Nat → Nat) : topPlayers sc 2 = if sc 0 < sc 1 then [1] else if sc 1 < sc 0 then [0] else [0, 1] := by
  rw [topPlayers_eq, show List.range 2 = [0, 1] from rfl]
  have h0 : (∀ j < 2, sc j ≤ sc 0) ↔ ¬ sc 0 < sc 1 := by
    constructor
    · intro h; have := h 1 (by decide); omega
    · intro h j hj
      have : j = 0 ∨ j = 1 := by omega
      rcases this with rfl | rfl <;> omega
  have h1 : (∀ j < 2, sc j ≤ sc 1) ↔ ¬ sc 1 < sc 0 := by
    constructor
    · intro h; have := h 0 (by decide); omega
    · intro h j hj
      have : j = 0 ∨ j = 1 := by omega
      rcases this with rfl | rfl <;> omega
  simp only [List.filter_cons, List.filter_nil, h0, h1]
  by_cases a : sc 0 < sc 1 <;> by_cases b : sc 1 < sc 0 <;> simp [a, b]
  omega

theorem points_eq (s t : Nat) : points s t = if s < t then 0 else if t < s then 2 else 1 := by
  unfold points
  by_cases h1 : t ≤ s
  · rw [Nat.ble_eq_true_of_le h1, if_neg (by omega)]
    by_cases h2 : s ≤ t
    · rw [Nat.ble_eq_true_of_le h2, if_neg (by omega)]
    · rw [show Nat.ble s t = false by rw [← Bool.not_eq_true]; simpa [Nat.ble_eq] using h2, if_pos (by omega)]
  · rw [show Nat.ble t s = false by rw [← Bool.not_eq_true]; simpa [Nat.ble_eq] using h1, if_pos (by omega)]

theorem headsUp_winners {B : List Nat} {d : List WHand} (h2 : d.length = 2) (hd : IsCards (dealt d)) (hB : IsCards B) (hl : B.length = 5)
    (ha : ∀ c ∈ B, c ∉ dealt d) :
    winners B d = if (ofCards (B ++ cardsOf (d.getD 0 (0, 0, 0)))).evaluate < (ofCards (B ++ cardsOf (d.getD 1 (0, 0, 0)))).evaluate then [1]
      else if (ofCards (B ++ cardsOf (d.getD 1 (0, 0, 0)))).evaluate < (ofCards (B ++ cardsOf (d.getD 0 (0, 0, 0)))).evaluate then [0]
      else [0, 1] := by
  rw [← winners_eq hd hB hl ha, h2, topTwo]

/-- Twice the weight won by the first player. -/
theorem headsUp_total {sd : List (List WHand × List Nat)} (f : List WHand × List Nat → Nat)
    (hf : ∀ x ∈ sd, winners x.2 x.1 = [0] ∧ f x = 2 ∨ winners x.2 x.1 = [0, 1] ∧ f x = 1 ∨ winners x.2 x.1 = [1] ∧ f x = 0) :
    (((sd.map fun x => dealWeight x.1 * f x).sum : Nat) : ℚ) = 2 * ((winsOf sd [0] : ℚ) + sharesOf sd 0) := by
  induction sd with
  | nil => simp [winsOf, weightOf, sharesOf]
  | cons x sd ih =>
    have ih := ih fun y hy => hf y (List.mem_cons_of_mem _ hy)
    rw [List.map_cons, List.sum_cons, Nat.cast_add, ih]
    unfold winsOf weightOf sharesOf
    rw [List.filter_cons, List.filter_cons]
    rcases hf x List.mem_cons_self with ⟨h1, h2⟩ | ⟨h1, h2⟩ | ⟨h1, h2⟩
    · simp [h1, h2]; ring
    · simp [h1, h2]; ring
    · simp [h1, h2]

theorem turn_points {board dead : List Nat} (hb : IsCards board) (hl : board.length = 4) {R0 R1 : List WHand} (h0 : TwoCards R0) (h1 : TwoCards R1) :
    (turnSum true points board dead R0 R1 : ℚ) =
      2 * ((winsOf (showdowns [R0, R1] board dead) [0] : ℚ) + sharesOf (showdowns [R0, R1] board dead) 0) := by
  rw [turnSum_eq (.inl rfl) dead hb.2 hl h0 h1]
  apply headsUp_total
  intro x hx
  unfold showdowns at hx
  obtain ⟨d, hd, hx⟩ := List.mem_flatMap.1 hx
  obtain ⟨B, hB, rfl⟩ := List.mem_map.1 hx
  unfold deals at hd
  rw [List.mem_filter, decide_eq_true_iff] at hd
  obtain ⟨hd, hleg⟩ := hd
  have hd2 : ∃ h ∈ R0, ∃ v ∈ R1, d = [h, v] := by
    simp only [choices, List.mem_flatMap, List.mem_map] at hd
    obtain ⟨h, hh, e, ⟨v, hv, e', he', rfl⟩, rfl⟩ := hd
    rw [List.mem_singleton] at he'
    subst he'
    exact ⟨h, hh, v, hv, rfl⟩
  obtain ⟨h, hh, v, hv, rfl⟩ := hd2
  have hok : DealOk board dead [h, v] := by
    refine ⟨hb, by omega, ⟨hleg.1, ?_⟩, hleg.2⟩
    intro c hc
    have a := h0 h hh
    have b := h1 v hv
    simp [dealt, cardsOf] at hc
    rcases hc with rfl | rfl | rfl | rfl
    · exact a.1
    · exact a.2.1
    · exact b.1
    · exact b.2.1
  obtain ⟨k1, k2, k3⟩ := boards_ok hok hB
  have hw := headsUp_winners rfl hok.cards k1 k2 k3
  rw [hw, points_eq]
  dsimp only
  generalize (ofCards (B ++ cardsOf ([h, v].getD 0 (0, 0, 0)))).evaluate = s at *
  generalize (ofCards (B ++ cardsOf ([h, v].getD 1 (0, 0, 0)))).evaluate = t at *
  by_cases a : s < t
  · simp [a]
  · by_cases b : t < s <;> simp [a, b]

theorem turn_total {board : List Nat} (dead : List Nat) (hb : IsCards board) (hl : board.length = 4) {R0 R1 : List WHand} (h0 : TwoCards R0)
    (h1 : TwoCards R1) : turnSum false (fun _ _ => 1) board dead R0 R1 = totalWeight (showdowns [R0, R1] board dead) := by
  rw [turnSum_eq (.inr fun _ _ _ => rfl) dead hb.2 hl h0 h1]
  simp only [Nat.mul_one]
  rfl

end Pokers

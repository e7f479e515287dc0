import Verif.Proofs.FreqTotals
import Verif.Proofs.HeadsUp
/-!
Two known hands before the flop: the points over all 1712304 boards as sums over rank multisets that the kernel can evaluate.
The score without a flush depends on the ranks only; a flush needs at least three cards of one suit on the board.
-/
namespace Pokers.Kernel
open Spec

/-! ### sums over cards, grouped by rank -/

/-- A further card outside the suit, with rank key `v`. -/
def withOther (v : Nat) (F : Nat → Nat → Nat → Nat → Nat) (a b k m : Nat) : Nat :=
  F a b k m + match b with
    | 0 => 0
    | b + 1 => F a b (k + v) m

/-- A further card of the suit, with rank key `v` and bit `w`. -/
def withSuited (v w : Nat) (F : Nat → Nat → Nat → Nat → Nat) (a b k m : Nat) : Nat :=
  F a b k m + match a with
    | 0 => 0
    | a + 1 => F a b (k + v) (m + w)

theorem sumOver_cons (t : Nat → Bool) (g : Nat → Nat → Nat) (c : Nat) (l : List Nat) :
    sumOver t g (c :: l) = if t c then withSuited (RANKS.getD (c / 4) 0) (2 ^ (c / 4)) (sumOver t g l)
      else withOther (RANKS.getD (c / 4) 0) (sumOver t g l) := by
  funext a b k m
  by_cases h : t c = true
  · rw [if_pos h]
    rcases a with _ | a <;> rcases b with _ | b <;> simp only [sumOver, if_pos h, withSuited]
  · rw [if_neg h]
    rcases a with _ | a <;> rcases b with _ | b <;> simp only [sumOver, if_neg h, withOther]

theorem with_comm (v w : Nat) (F : Nat → Nat → Nat → Nat → Nat) :
    withOther v (withSuited v w F) = withSuited v w (withOther v F) := by
  funext a b k m
  rcases a with _ | a <;> rcases b with _ | b <;> simp only [withOther, withSuited] <;> omega

theorem iterate_comm (v w n : Nat) (F : Nat → Nat → Nat → Nat → Nat) :
    withOther v ((withSuited v w)^[n] F) = (withSuited v w)^[n] (withOther v F) := by
  induction n generalizing F with
  | zero => rfl
  | succ n ih => rw [Function.iterate_succ_apply, ih, with_comm, Function.iterate_succ_apply]

/-- The cards of one rank: only how many of them are in the suit and how many are not matters. -/
theorem sumOver_block (t : Nat → Bool) (g : Nat → Nat → Nat) {r : Nat} (l : List Nat) : ∀ blk : List Nat, (∀ c ∈ blk, c / 4 = r) →
    sumOver t g (blk ++ l) = (withSuited (RANKS.getD r 0) (2 ^ r))^[blk.countP t]
      ((withOther (RANKS.getD r 0))^[blk.countP fun c => !t c] (sumOver t g l))
  | [], _ => rfl
  | c :: blk, h => by
    have ih := sumOver_block t g l blk fun x hx => h x (List.mem_cons_of_mem _ hx)
    rw [List.cons_append, sumOver_cons, ih, h c List.mem_cons_self]
    by_cases ht : t c = true
    · rw [if_pos ht, List.countP_cons, List.countP_cons, if_pos ht, if_neg (by simp [ht]), Function.iterate_succ_apply']
      rfl
    · rw [if_neg ht, List.countP_cons, List.countP_cons, if_neg ht, if_pos (by simp [ht]), Nat.add_zero, Function.iterate_succ_apply',
        iterate_comm]

/-- `n` further cards outside the suit of the same rank, with the binomial coefficients `cs`. -/
noncomputable abbrev sumCoefs (v : Nat) (F : Nat → Nat → Nat) (cs : List Nat) : Nat → Nat → Nat :=
  @List.rec Nat (fun _ => Nat → Nat → Nat) (fun _ _ => 0)
    (fun c _ ih b k => Nat.add (Nat.mul c (F b k))
      (@Nat.rec (fun _ => Nat) 0 (fun b1 _ => force (Nat.add k v) fun k1 => ih b1 k1) b)) cs

/-- The binomial coefficients of `n`. -/
def binom (n : Nat) : List Nat := (List.range (n + 1)).map (Nat.choose n)

theorem sumCoefs_eq (v : Nat) (F : Nat → Nat → Nat → Nat → Nat) {n : Nat} (hn : n ≤ 4) (a b k m : Nat) :
    (withOther v)^[n] F a b k m = sumCoefs v (fun b k => F a b k m) (binom n) b k := by
  have e : n = 0 ∨ n = 1 ∨ n = 2 ∨ n = 3 ∨ n = 4 := by omega
  rcases e with rfl | rfl | rfl | rfl | rfl <;>
  [rw [show binom 0 = [1] from rfl]; rw [show binom 1 = [1, 1] from rfl]; rw [show binom 2 = [1, 2, 1] from rfl];
   rw [show binom 3 = [1, 3, 3, 1] from rfl]; rw [show binom 4 = [1, 4, 6, 4, 1] from rfl]] <;>
  rcases b with _ | _ | _ | _ | _ | b <;> simp [sumCoefs, force, Function.iterate_succ, withOther] <;> ring

/-- One rank: its key, its bit if the card of the suit is available (otherwise zero), and the binomial coefficients of the number of
the other cards. -/
abbrev Group := Nat × Nat × List Nat

noncomputable abbrev groupStep (p : Group) (ih : Nat → Nat → Nat → Nat → Nat) (a b k m : Nat) : Nat :=
  Nat.add (sumCoefs p.1 (fun b k => ih a b k m) p.2.2 b k)
    (bif' (Nat.beq p.2.1 0) 0
      (@Nat.rec (fun _ => Nat) 0 (fun a1 _ => force (Nat.add m p.2.1) fun m1 => force (Nat.add k p.1) fun k1 =>
        sumCoefs p.1 (fun b k => ih a1 b k m1) p.2.2 b k1) a))

/-- `sumOver`, rank by rank. -/
noncomputable def sumGroups (g : Nat → Nat → Nat) (gs : List Group) : Nat → Nat → Nat → Nat → Nat :=
  @List.rec Group (fun _ => Nat → Nat → Nat → Nat → Nat)
   (fun a b k m => @Nat.rec (fun _ => Nat) (@Nat.rec (fun _ => Nat) (g k m) (fun _ _ => 0) b) (fun _ _ => 0) a)
   (fun p _ ih a b k m => groupStep p ih a b k m) gs

/-- The cards of rank `r` among those with the property `p`. -/
def blockOf (p : Nat → Bool) (r : Nat) : List Nat := [4 * r, 4 * r + 1, 4 * r + 2, 4 * r + 3].filter p

/-- The groups of the cards with the property `p`. -/
def groupsOf (p t : Nat → Bool) (rs : List Nat) : List Group :=
  rs.map fun r => (RANKS.getD r 0, if (blockOf p r).countP t = 0 then 0 else 2 ^ r, binom ((blockOf p r).countP fun c => !t c))

theorem sumGroups_eq (p t : Nat → Bool) (ht : ∀ r, (blockOf p r).countP t ≤ 1) (g : Nat → Nat → Nat) (rs : List Nat) :
    sumOver t g (rs.flatMap (blockOf p)) = sumGroups g (groupsOf p t rs) := by
  induction rs with
  | nil => funext a b k m; rcases a with _ | a <;> rcases b with _ | b <;> rfl
  | cons r rs ih =>
    have hb : ∀ c ∈ blockOf p r, c / 4 = r := by
      intro c hc
      have := (List.mem_filter.1 hc).1
      simp at this
      omega
    have hn : ((blockOf p r).countP fun c => !t c) ≤ 4 := (List.countP_le_length).trans (List.length_filter_le _ _)
    rw [List.flatMap_cons, sumOver_block t g _ _ hb, ih]
    rw [show groupsOf p t (r :: rs) = (RANKS.getD r 0, if (blockOf p r).countP t = 0 then 0 else 2 ^ r,
      binom ((blockOf p r).countP fun c => !t c)) :: groupsOf p t rs from rfl]
    funext a b k m
    show _ = groupStep (_, _, _) (sumGroups g (groupsOf p t rs)) a b k m
    generalize sumGroups g (groupsOf p t rs) = F
    have h1 := ht r
    rcases (show (blockOf p r).countP t = 0 ∨ (blockOf p r).countP t = 1 by omega) with h0 | h0
    · rw [h0, if_pos rfl]
      show (withOther _)^[_] F a b k m = _
      rw [sumCoefs_eq _ _ hn]
      rfl
    · rw [h0, if_neg (by decide)]
      have e : Nat.beq (2 ^ r) 0 = false := by
        rw [← Bool.not_eq_true, Nat.beq_eq]
        exact Nat.pos_iff_ne_zero.1 (Nat.pow_pos (by decide))
      show withSuited _ _ ((withOther _)^[_] F) a b k m = _
      unfold groupStep
      simp only [e]
      unfold withSuited
      rcases a with _ | a
      · rw [sumCoefs_eq _ _ hn]; rfl
      · simp only [sumCoefs_eq _ _ hn]; rfl

/-! ### the boards for two known hands -/

/-- The cards of suit `s`. -/
def ofSuitBit (s c : Nat) : Bool := Nat.beq (suit c) s

theorem suited_block (p : Nat → Bool) {s : Nat} (hs : s < 4) (r : Nat) : (blockOf p r).countP (ofSuitBit s) ≤ 1 := by
  refine (List.filter_sublist.countP_le (p := ofSuitBit s)).trans ?_
  have e0 : 4 * r % 4 = 0 := by omega
  have e1 : (4 * r + 1) % 4 = 1 := by omega
  have e2 : (4 * r + 2) % 4 = 2 := by omega
  have e3 : (4 * r + 3) % 4 = 3 := by omega
  rcases (show s = 0 ∨ s = 1 ∨ s = 2 ∨ s = 3 by omega) with rfl | rfl | rfl | rfl <;>
    simp [ofSuitBit, suit, e0, e1, e2, e3]

theorem deck_blocks (p : Nat → Bool) : (List.range 52).filter p = (List.range 13).flatMap (blockOf p) := by
  rw [← fours_deck]
  unfold fours blockOf
  rw [List.filter_flatMap]

/-- What the points of two known hands on the boards with at least three cards of one suit depend on: the groups of the available cards,
and for each hand the sum of its rank keys, the bits of its cards of the suit and their number. -/
abbrev View := List Group × (Nat × Nat) × (Nat × Nat) × (Nat × Nat)

def view (used : List Nat) (h v : WHand) (s : Nat) : View :=
  (groupsOf (fun c => decide (c ∉ used)) (ofSuitBit s) (List.range 13), (rankSum (cardsOf h), rankSum (cardsOf v)),
    (bitSum (ofSuitBit s) (cardsOf h), bitSum (ofSuitBit s) (cardsOf v)), (suitCnt (cardsOf h) s, suitCnt (cardsOf v) s))

/-- Points without flushes. -/
noncomputable abbrev plainPoints (K : Nat × Nat) (k : Nat) : Nat :=
  force (fastLookup (Nat.add k K.1)) fun s => force (fastLookup (Nat.add k K.2)) fun t => points s t

/-- Points when `a` cards of the suit are on the board. -/
noncomputable abbrev suitPoints (K M N : Nat × Nat) (a k m : Nat) : Nat :=
  force (bif' (Nat.ble 5 (Nat.add a N.1)) (fastFlush (Nat.add m M.1)) (fastLookup (Nat.add k K.1))) fun s =>
  force (bif' (Nat.ble 5 (Nat.add a N.2)) (fastFlush (Nat.add m M.2)) (fastLookup (Nat.add k K.2))) fun t => points s t

/-- A sum over the numbers `a` of cards of the suit on the board with which a flush is possible. -/
def overFlush (N : Nat × Nat) (f : Nat → Nat) : Nat :=
  (if 5 ≤ 3 + max N.1 N.2 then f 3 else 0) + (if 5 ≤ 4 + max N.1 N.2 then f 4 else 0) + f 5

noncomputable def gain (x : View) : Nat := overFlush x.2.2.2 fun a => sumGroups (suitPoints x.2.1 x.2.2.1 x.2.2.2 a) x.1 a (5 - a) 0 0

noncomputable def loss (x : View) : Nat := overFlush x.2.2.2 fun a => sumGroups (fun k _ => plainPoints x.2.1 k) x.1 a (5 - a) 0 0

/-- The points on all boards, without flushes. -/
noncomputable def basePoints (gs : List Group) (K : Nat × Nat) : Nat := sumGroups (fun k _ => plainPoints K k) gs 0 5 0 0

/-- The groups if no suit matters. -/
def plainGroups (used : List Nat) : List Group := groupsOf (fun c => decide (c ∉ used)) (fun _ => false) (List.range 13)

def overSuits (f : Nat → Nat) : Nat := f 0 + f 1 + f 2 + f 3

theorem overSuits_single {f : Nat → Nat} {s : Nat} (hs : s < 4) (h : ∀ t < 4, t ≠ s → f t = 0) : overSuits f = f s := by
  unfold overSuits
  rcases (show s = 0 ∨ s = 1 ∨ s = 2 ∨ s = 3 by omega) with rfl | rfl | rfl | rfl
  · rw [h 1, h 2, h 3] <;> simp
  · rw [h 0, h 2, h 3] <;> simp
  · rw [h 0, h 1, h 3] <;> simp
  · rw [h 0, h 1, h 2] <;> simp

theorem overSuits_zero {f : Nat → Nat} (h : ∀ t < 4, f t = 0) : overSuits f = 0 := by
  unfold overSuits
  rw [h 0, h 1, h 2, h 3] <;> simp

theorem rankSum_append (xs ys : List Nat) : rankSum (xs ++ ys) = rankSum xs + rankSum ys := by
  simp [rankSum]

theorem bitSum_append (t : Nat → Bool) (xs ys : List Nat) : bitSum t (xs ++ ys) = bitSum t xs + bitSum t ys := by
  simp [bitSum]

/-- The score of seven cards, if only suit `s` can be a flush. -/
theorem score_suit {b e : List Nat} (h : IsCards (b ++ e)) (hl : (b ++ e).length ≤ 9) {s : Nat} (hs : s < 4)
    (ho : ∀ t < 4, t ≠ s → suitCnt b t + suitCnt e t ≤ 4) :
    (ofCards (b ++ e)).evaluate = bif' (Nat.ble 5 (suitCnt b s + suitCnt e s))
      (fastFlush (bitSum (ofSuitBit s) b + bitSum (ofSuitBit s) e)) (fastLookup (rankSum b + rankSum e)) := by
  by_cases h5 : 5 ≤ suitCnt b s + suitCnt e s
  · rw [Nat.ble_eq_true_of_le h5, evaluate_flush h hl hs (by rw [suitCnt_append]; exact h5)]
    unfold F
    rw [← bitSum_eq hs h]
    show fastFlush (bitSum (ofSuitBit s) (b ++ e)) = _
    rw [bitSum_append]
  · rw [show Nat.ble 5 (suitCnt b s + suitCnt e s) = false by rw [← Bool.not_eq_true]; simpa [Nat.ble_eq] using h5,
      evaluate_noflush h.2]
    · unfold L
      rw [rankSum_append]
    · intro t ht
      rw [suitCnt_append]
      by_cases e1 : t = s
      · subst e1; omega
      · exact ho t ht e1

theorem other_suits {b : List Nat} (hl : b.length = 5) {s t : Nat} (hs : s < 4) (ht : t < 4) (hst : t ≠ s) : suitCnt b s + suitCnt b t ≤ 5 := by
  have := length_eq_suits b
  rcases (show s = 0 ∨ s = 1 ∨ s = 2 ∨ s = 3 by omega) with rfl | rfl | rfl | rfl <;>
    rcases (show t = 0 ∨ t = 1 ∨ t = 2 ∨ t = 3 by omega) with rfl | rfl | rfl | rfl <;> omega

/-- One board: the points without flushes are replaced by the points with the suit that can be a flush. -/
theorem board_points {b e f : List Nat} (he : IsCards (b ++ e)) (hf : IsCards (b ++ f)) (hl : b.length = 5) (e2 : e.length = 2) (f2 : f.length = 2) :
    points (ofCards (b ++ e)).evaluate (ofCards (b ++ f)).evaluate +
      overSuits (fun s => if 5 ≤ suitCnt b s + max (suitCnt e s) (suitCnt f s) then plainPoints (rankSum e, rankSum f) (rankSum b) else 0) =
    plainPoints (rankSum e, rankSum f) (rankSum b) +
      overSuits (fun s => if 5 ≤ suitCnt b s + max (suitCnt e s) (suitCnt f s) then
        suitPoints (rankSum e, rankSum f) (bitSum (ofSuitBit s) e, bitSum (ofSuitBit s) f) (suitCnt e s, suitCnt f s)
          (suitCnt b s) (rankSum b) (bitSum (ofSuitBit s) b) else 0) := by
  have le : (b ++ e).length ≤ 9 := by rw [List.length_append]; omega
  have lf : (b ++ f).length ≤ 9 := by rw [List.length_append]; omega
  have ce : ∀ t, suitCnt e t ≤ 2 := fun t => e2 ▸ suitCnt_le_length e t
  have cf : ∀ t, suitCnt f t ≤ 2 := fun t => f2 ▸ suitCnt_le_length f t
  by_cases hc : ∃ s < 4, 5 ≤ suitCnt b s + max (suitCnt e s) (suitCnt f s)
  · obtain ⟨s, hs, h5⟩ := hc
    have h3 : 3 ≤ suitCnt b s := by have := ce s; have := cf s; omega
    have ho : ∀ t < 4, t ≠ s → suitCnt b t ≤ 2 := fun t ht hst => by have := other_suits hl hs ht hst; omega
    rw [overSuits_single hs (f := fun s => if 5 ≤ suitCnt b s + max (suitCnt e s) (suitCnt f s) then
        plainPoints (rankSum e, rankSum f) (rankSum b) else 0), overSuits_single hs (f := fun s =>
        if 5 ≤ suitCnt b s + max (suitCnt e s) (suitCnt f s) then
        suitPoints (rankSum e, rankSum f) (bitSum (ofSuitBit s) e, bitSum (ofSuitBit s) f) (suitCnt e s, suitCnt f s)
          (suitCnt b s) (rankSum b) (bitSum (ofSuitBit s) b) else 0)]
    · simp only [if_pos h5]
      rw [score_suit he le hs fun t ht hst => by have := ho t ht hst; have := ce t; omega,
        score_suit hf lf hs fun t ht hst => by have := ho t ht hst; have := cf t; omega, Nat.add_comm]
      rfl
    · intro t ht hst
      have := ho t ht hst; have := ce t; have := cf t
      rw [if_neg (by omega)]
    · intro t ht hst
      have := ho t ht hst; have := ce t; have := cf t
      rw [if_neg (by omega)]
  · have hn : ∀ s < 4, ¬ 5 ≤ suitCnt b s + max (suitCnt e s) (suitCnt f s) := fun s hs h => hc ⟨s, hs, h⟩
    rw [overSuits_zero fun t ht => if_neg (hn t ht), overSuits_zero fun t ht => if_neg (hn t ht),
      evaluate_noflush he.2 fun s hs => by rw [suitCnt_append]; have := hn s hs; omega,
      evaluate_noflush hf.2 fun s hs => by rw [suitCnt_append]; have := hn s hs; omega]
    unfold L
    rw [rankSum_append, rankSum_append]
    rfl

theorem sum_overSuits {α : Type} (l : List α) (f : α → Nat → Nat) :
    (l.map fun x => overSuits (f x)).sum = overSuits fun s => (l.map fun x => f x s).sum := by
  induction l with
  | nil => rfl
  | cons x l ih => rw [List.map_cons, List.sum_cons, ih]; unfold overSuits; simp only [List.map_cons, List.sum_cons]; omega

/-- The boards with a number of cards of suit `s` that makes a flush possible, by that number. -/
theorem sum_suit (l : List Nat) (s : Nat) (N : Nat × Nat) (h1 : N.1 ≤ 2) (h2 : N.2 ≤ 2) (G : Nat → Nat → Nat → Nat) :
    ((l.sublistsLen 5).map fun b => if 5 ≤ suitCnt b s + max N.1 N.2 then G (suitCnt b s) (rankSum b) (bitSum (ofSuitBit s) b) else 0).sum =
      overFlush N fun a => sumOver (ofSuitBit s) (G a) l a (5 - a) 0 0 := by
  unfold overFlush
  beta_reduce
  rw [sumOver_eq, sumOver_eq, sumOver_eq]
  simp only [Nat.zero_add]
  have e : ∀ (a : Nat) (q : Prop) [Decidable q], (if q then ((l.sublistsLen 5).map fun b => if b.countP (ofSuitBit s) = a then
      G a (rankSum b) (bitSum (ofSuitBit s) b) else 0).sum else 0) = ((l.sublistsLen 5).map fun b => if q then (if suitCnt b s = a then
      G a (rankSum b) (bitSum (ofSuitBit s) b) else 0) else 0).sum := by
    intro a q _
    by_cases hq : q
    · simp only [if_pos hq]; rfl
    · simp only [if_neg hq]; simp
  have e5 : ((l.sublistsLen 5).map fun b => if b.countP (ofSuitBit s) = 5 then G 5 (rankSum b) (bitSum (ofSuitBit s) b) else 0).sum =
      ((l.sublistsLen 5).map fun b => if suitCnt b s = 5 then G 5 (rankSum b) (bitSum (ofSuitBit s) b) else 0).sum := rfl
  show _ = (if _ then ((l.sublistsLen 5).map _).sum else 0) + (if _ then ((l.sublistsLen 5).map _).sum else 0) + ((l.sublistsLen 5).map _).sum
  rw [e, e, e5, ← List.sum_map_add, ← List.sum_map_add]
  congr 1
  refine List.map_congr_left fun b hb => ?_
  have hb5 : suitCnt b s ≤ 5 := (List.mem_sublistsLen.1 hb).2 ▸ suitCnt_le_length b s
  by_cases h : 5 ≤ suitCnt b s + max N.1 N.2
  · rw [if_pos h]
    rcases (show suitCnt b s = 3 ∨ suitCnt b s = 4 ∨ suitCnt b s = 5 by omega) with h3 | h3 | h3 <;> rw [h3] at h ⊢
    · simp [h]
    · simp [h]
    · simp
  · rw [if_neg h]
    have : suitCnt b s ≠ 5 := by omega
    by_cases h3 : suitCnt b s = 3
    · rw [h3] at h ⊢; simp [h]
    · by_cases h4 : suitCnt b s = 4
      · rw [h4] at h ⊢; simp [h]
      · simp [h3, h4, this]

/-- All boards for two known hands. -/
theorem known_points {dead : List Nat} {h v : WHand} (hc : IsCards (dealt [h, v])) :
    ((boards [] dead [h, v]).map fun b => points (ofCards (b ++ cardsOf h)).evaluate (ofCards (b ++ cardsOf v)).evaluate).sum +
      overSuits (fun s => loss (view (dead ++ dealt [h, v]) h v s)) =
    basePoints (plainGroups (dead ++ dealt [h, v])) (rankSum (cardsOf h), rankSum (cardsOf v)) +
      overSuits (fun s => gain (view (dead ++ dealt [h, v]) h v s)) := by
  have hd : dealt [h, v] = cardsOf h ++ cardsOf v := by simp [dealt]
  have hh : IsCards (cardsOf h) := ⟨by rw [hd] at hc; exact (List.nodup_append.1 hc.1).1, fun c hm => hc.2 c (by rw [hd]; exact List.mem_append_left _ hm)⟩
  have hv : IsCards (cardsOf v) := ⟨by rw [hd] at hc; exact (List.nodup_append.1 hc.1).2.1, fun c hm => hc.2 c (by rw [hd]; exact List.mem_append_right _ hm)⟩
  obtain ⟨used, hu⟩ : ∃ used, used = dead ++ dealt [h, v] := ⟨_, rfl⟩
  obtain ⟨l, hl⟩ : ∃ l, l = (List.range 52).filter fun c => decide (c ∉ used) := ⟨_, rfl⟩
  have hB : boards [] dead [h, v] = l.sublistsLen 5 := by
    unfold boards completions
    rw [hl, hu]
    simp
  have hmem : ∀ b ∈ l.sublistsLen 5, IsCards b ∧ b.length = 5 ∧ ∀ c ∈ b, c ∉ cardsOf h ∧ c ∉ cardsOf v := by
    intro b hb
    obtain ⟨hs, h5⟩ := List.mem_sublistsLen.1 hb
    have hm : ∀ c ∈ b, c < 52 ∧ c ∉ used := fun c hc => by
      have := hs.subset hc
      rw [hl, List.mem_filter, List.mem_range, decide_eq_true_iff] at this
      exact this
    refine ⟨⟨(hl ▸ List.nodup_range.filter _ : l.Nodup).sublist hs, fun c hc => (hm c hc).1⟩, h5, fun c hc => ?_⟩
    have := (hm c hc).2
    rw [hu, hd] at this
    exact ⟨fun x => this (by simp [x]), fun x => this (by simp [x])⟩
  have happ : ∀ b ∈ l.sublistsLen 5, ∀ e, IsCards e → (∀ c ∈ b, c ∉ e) → IsCards (b ++ e) := by
    intro b hb e he hd
    obtain ⟨k1, _, _⟩ := hmem b hb
    refine ⟨List.nodup_append.2 ⟨k1.1, he.1, fun x hx y hy e => hd x hx (e ▸ hy)⟩, fun c hc => ?_⟩
    rcases List.mem_append.1 hc with hc | hc
    · exact k1.2 c hc
    · exact he.2 c hc
  rw [← hu, hB]
  have c2 : ∀ (x : WHand) s, suitCnt (cardsOf x) s ≤ 2 := fun x s => suitCnt_le_length (cardsOf x) s
  have hsum : ∀ (g : Nat → Nat → Nat) {s : Nat}, s < 4 → sumOver (ofSuitBit s) g l = sumGroups g (groupsOf (fun c => decide (c ∉ used)) (ofSuitBit s) (List.range 13)) := by
    intro g s hs
    rw [hl, deck_blocks, sumGroups_eq _ _ (suited_block _ hs)]
  have hloss : ∀ s < 4, loss (view used h v s) = ((l.sublistsLen 5).map fun b => if 5 ≤ suitCnt b s + max (suitCnt (cardsOf h) s) (suitCnt (cardsOf v) s)
      then plainPoints (rankSum (cardsOf h), rankSum (cardsOf v)) (rankSum b) else 0).sum := by
    intro s hs
    rw [sum_suit l s (suitCnt (cardsOf h) s, suitCnt (cardsOf v) s) (c2 h s) (c2 v s)
      fun _ k _ => plainPoints (rankSum (cardsOf h), rankSum (cardsOf v)) k]
    simp only [hsum _ hs]
    rfl
  have hgain : ∀ s < 4, gain (view used h v s) = ((l.sublistsLen 5).map fun b => if 5 ≤ suitCnt b s + max (suitCnt (cardsOf h) s) (suitCnt (cardsOf v) s)
      then suitPoints (rankSum (cardsOf h), rankSum (cardsOf v)) (bitSum (ofSuitBit s) (cardsOf h), bitSum (ofSuitBit s) (cardsOf v))
        (suitCnt (cardsOf h) s, suitCnt (cardsOf v) s) (suitCnt b s) (rankSum b) (bitSum (ofSuitBit s) b) else 0).sum := by
    intro s hs
    rw [sum_suit l s (suitCnt (cardsOf h) s, suitCnt (cardsOf v) s) (c2 h s) (c2 v s)
      (suitPoints (rankSum (cardsOf h), rankSum (cardsOf v)) (bitSum (ofSuitBit s) (cardsOf h), bitSum (ofSuitBit s) (cardsOf v))
        (suitCnt (cardsOf h) s, suitCnt (cardsOf v) s))]
    simp only [hsum _ hs]
    rfl
  have hbase : basePoints (plainGroups used) (rankSum (cardsOf h), rankSum (cardsOf v)) =
      ((l.sublistsLen 5).map fun b => plainPoints (rankSum (cardsOf h), rankSum (cardsOf v)) (rankSum b)).sum := by
    unfold basePoints plainGroups
    rw [← sumGroups_eq _ _ (fun r => by simp), ← deck_blocks, ← hl, sumOver_eq]
    simp
  have hs4 : ∀ (f g : Nat → Nat), (∀ s < 4, f s = g s) → overSuits f = overSuits g := fun f g hfg => by
    unfold overSuits
    rw [hfg 0 (by decide), hfg 1 (by decide), hfg 2 (by decide), hfg 3 (by decide)]
  rw [hs4 _ _ hloss, hs4 _ _ hgain, hbase, ← sum_overSuits, ← sum_overSuits, ← List.sum_map_add, ← List.sum_map_add]
  congr 1
  refine List.map_congr_left fun b hb => ?_
  obtain ⟨k1, k2, k3⟩ := hmem b hb
  exact board_points (happ b hb _ hh fun c hc => (k3 c hc).1) (happ b hb _ hv fun c hc => (k3 c hc).2) k2 rfl rfl

end Pokers.Kernel

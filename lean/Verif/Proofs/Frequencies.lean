import Verif.Props.Evaluator
import Mathlib.Algebra.BigOperators.Ring.List
import Mathlib.Data.Nat.Choose.Basic
import Mathlib.Data.Nat.Digits.Lemmas
/-!
Counting the hands of `n` cards by category.  A sum over all `n`-card sublists of the deck is unrolled rank by rank:
the score without flushes depends on the rank keys only, the score of a flush on the ranks of its suit.
The counts of the categories are read off as the digits of one number.
-/
namespace Pokers.Kernel
open Spec

/-- Sum of `g (sum of rank keys) (mask of the ranks of the suited cards)` over the sublists of `l` with `a` suited and
`b` other cards. -/
def sumOver (t : Nat → Bool) (g : Nat → Nat → Nat) : List Nat → Nat → Nat → Nat → Nat → Nat
  | [], 0, 0, k, m => g k m
  | [], _ + 1, _, _, _ => 0
  | [], _, _ + 1, _, _ => 0
  | c :: l, a, b, k, m => sumOver t g l a b k m +
      (if t c then
        match a with
        | 0 => 0
        | a + 1 => sumOver t g l a b (k + RANKS.getD (c / 4) 0) (m + 2 ^ (c / 4))
      else
        match b with
        | 0 => 0
        | b + 1 => sumOver t g l a b (k + RANKS.getD (c / 4) 0) m)

/-- Sum of the rank bits of the suited cards. -/
def bitSum (t : Nat → Bool) (cs : List Nat) : Nat := ((cs.filter t).map (fun c => 2 ^ (c / 4))).sum

theorem sumOver_eq (t : Nat → Bool) (g : Nat → Nat → Nat) (l : List Nat) : ∀ a b k m,
    sumOver t g l a b k m =
      ((l.sublistsLen (a + b)).map (fun cs => if cs.countP t = a then g (k + rankSum cs) (m + bitSum t cs) else 0)).sum := by
  induction l with
  | nil =>
    intro a b k m
    rcases a with _ | a <;> rcases b with _ | b <;> simp [sumOver, rankSum, bitSum]
    rw [show a + 1 + (b + 1) = (a + 1 + b) + 1 by omega, List.sublistsLen_succ_nil]; rfl
  | cons c l ih =>
    intro a b k m
    have e : sumOver t g (c :: l) a b k m = sumOver t g l a b k m +
      (if t c then
        match a with
        | 0 => 0
        | a + 1 => sumOver t g l a b (k + RANKS.getD (c / 4) 0) (m + 2 ^ (c / 4))
      else
        match b with
        | 0 => 0
        | b + 1 => sumOver t g l a b (k + RANKS.getD (c / 4) 0) m) := by
      rcases a with _ | a <;> rcases b with _ | b <;> rfl
    rw [e, ih]
    have z : ∀ (q : List (List Nat)) (f : List Nat → Nat), (∀ x ∈ q, f x = 0) → (q.map f).sum = 0 := by
      intro q f h
      rw [List.map_congr_left h]; simp
    have rk : ∀ cs, rankSum (c :: cs) = RANKS.getD (c / 4) 0 + rankSum cs := fun cs => by simp [rankSum]
    by_cases ht : t c = true
    · rw [if_pos ht]
      have bs : ∀ cs, bitSum t (c :: cs) = 2 ^ (c / 4) + bitSum t cs := fun cs => by simp [bitSum, ht]
      rcases a with _ | a
      · rcases b with _ | b
        · simp [rankSum, bitSum]
        · rw [Nat.zero_add, List.sublistsLen_succ_cons, List.map_append, List.sum_append, List.map_map]
          congr 1
          refine (z _ _ fun x _ => ?_).symm
          simp [ht]
      · simp only
        rw [show a + 1 + b = (a + b) + 1 by omega, List.sublistsLen_succ_cons, List.map_append, List.sum_append,
          List.map_map, ih]
        congr 2
        refine List.map_congr_left fun x _ => ?_
        simp only [Function.comp, List.countP_cons, ht, if_true, rk, bs, Nat.add_assoc, Nat.add_right_cancel_iff]
    · rw [if_neg ht]
      have bs : ∀ cs, bitSum t (c :: cs) = bitSum t cs := fun cs => by simp [bitSum, ht]
      rcases b with _ | b
      · rcases a with _ | a
        · simp [rankSum, bitSum]
        · simp only
          rw [show a + 1 + 0 = a + 1 by omega, List.sublistsLen_succ_cons, List.map_append, List.sum_append, List.map_map]
          congr 1
          refine (z _ _ fun x hx => ?_).symm
          have hl := List.length_of_sublistsLen hx
          have := List.countP_le_length (p := t) (l := x)
          simp only [Function.comp, List.countP_cons, ht]
          rw [if_neg (by simp; omega)]
      · simp only
        rw [show a + (b + 1) = (a + b) + 1 by omega, List.sublistsLen_succ_cons, List.map_append, List.sum_append,
          List.map_map, ih]
        congr 2
        refine List.map_congr_left fun x _ => ?_
        simp [Function.comp, ht, rk, bs, Nat.add_assoc]

/-- The four cards of each rank. -/
def fours (rs : List Nat) : List Nat := rs.flatMap (fun r => [4 * r, 4 * r + 1, 4 * r + 2, 4 * r + 3])

theorem fours_deck : fours (List.range 13) = List.range 52 := by decide

/-- Sum of `(product of the weights) * g (sum of rank keys)` over the sublists of `l` with `n` elements. -/
def sumWeighted (x : Nat → Nat) (g : Nat → Nat) : List Nat → Nat → Nat → Nat
  | _, 0, k => g k
  | [], _ + 1, _ => 0
  | c :: l, n + 1, k => sumWeighted x g l (n + 1) k + x c * sumWeighted x g l n (k + RANKS.getD (c / 4) 0)

theorem sumWeighted_eq (x : Nat → Nat) (g : Nat → Nat) (l : List Nat) : ∀ n k,
    sumWeighted x g l n k = ((l.sublistsLen n).map (fun cs => (cs.map x).prod * g (k + rankSum cs))).sum := by
  induction l with
  | nil => intro n k; rcases n with _ | n <;> simp [sumWeighted, rankSum]
  | cons c l ih =>
    intro n k
    rcases n with _ | n
    · simp [sumWeighted, rankSum]
    rw [sumWeighted, List.sublistsLen_succ_cons, List.map_append, List.sum_append, List.map_map, ih, ih]
    congr 1
    rw [← List.sum_map_mul_left]
    congr 1
    refine List.map_congr_left fun cs _ => ?_
    simp [rankSum, Nat.add_assoc, Nat.mul_assoc]

/-- One rank (key `r`) of `sumPoly`. -/
noncomputable abbrev polyStep (X : Nat) (g : Nat → Nat) (r : Nat) (ih : Nat → Nat → Nat) (n k : Nat) : Nat :=
  @Nat.rec (fun _ => Nat) (g k) (fun n1 _ =>
    force (Nat.add k r) fun k1 => Nat.add (ih n k) (Nat.add (Nat.mul (Nat.add 3 X) (ih n1 k1))
     (@Nat.rec (fun _ => Nat) 0 (fun n2 _ => force (Nat.add k1 r) fun k2 =>
       Nat.add (Nat.mul (Nat.add 3 (Nat.mul 3 X)) (ih n2 k2))
       (@Nat.rec (fun _ => Nat) 0 (fun n3 _ => force (Nat.add k2 r) fun k3 =>
         Nat.add (Nat.mul (Nat.add 1 (Nat.mul 3 X)) (ih n3 k3))
         (@Nat.rec (fun _ => Nat) 0 (fun n4 _ => force (Nat.add k3 r) fun k4 => Nat.mul X (ih n4 k4)) n3)) n2)) n1))) n

/-- `sumWeighted` for weight `X` on the cards of one suit and weight one on the others, rank by rank (keys `rs`). -/
noncomputable def sumPoly (X : Nat) (g : Nat → Nat) (rs : List Nat) : Nat → Nat → Nat :=
  @List.rec Nat (fun _ => Nat → Nat → Nat) (fun n k => @Nat.rec (fun _ => Nat) (g k) (fun _ _ => 0) n)
   (fun r _ ih n k => polyStep X g r ih n k) rs

/-- One rank (key and bit `p`) of `sumSuit`. -/
noncomputable abbrev suitStep (p : Nat × Nat) (ih : Nat → Nat → Nat → Nat → Nat) (a b k m : Nat) : Nat :=
  force (Nat.add k p.1) fun k1 =>
  Nat.add (Nat.add (ih a b k m)
   (@Nat.rec (fun _ => Nat) 0 (fun b1 _ => Nat.add (Nat.mul 3 (ih a b1 k1 m))
     (@Nat.rec (fun _ => Nat) 0 (fun b2 _ => force (Nat.add k1 p.1) fun k2 => Nat.add (Nat.mul 3 (ih a b2 k2 m))
       (@Nat.rec (fun _ => Nat) 0 (fun b3 _ => force (Nat.add k2 p.1) fun k3 => ih a b3 k3 m) b2)) b1)) b))
   (@Nat.rec (fun _ => Nat) 0 (fun a1 _ => force (Nat.add m p.2) fun m1 => Nat.add (ih a1 b k1 m1)
     (@Nat.rec (fun _ => Nat) 0 (fun b1 _ => force (Nat.add k1 p.1) fun k2 => Nat.add (Nat.mul 3 (ih a1 b1 k2 m1))
       (@Nat.rec (fun _ => Nat) 0 (fun b2 _ => force (Nat.add k2 p.1) fun k3 => Nat.add (Nat.mul 3 (ih a1 b2 k3 m1))
         (@Nat.rec (fun _ => Nat) 0 (fun b3 _ => force (Nat.add k3 p.1) fun k4 => ih a1 b3 k4 m1) b2)) b1)) b)) a)

/-- `sumOver` for one suit, rank by rank: one suited and three other cards of each rank, with the keys and bits `rs`. -/
noncomputable def sumSuit (g : Nat → Nat → Nat) (rs : List (Nat × Nat)) : Nat → Nat → Nat → Nat → Nat :=
  @List.rec (Nat × Nat) (fun _ => Nat → Nat → Nat → Nat → Nat)
   (fun a b k m => @Nat.rec (fun _ => Nat) (@Nat.rec (fun _ => Nat) (g k m) (fun _ _ => 0) b) (fun _ _ => 0) a)
   (fun p _ ih a b k m => suitStep p ih a b k m) rs

theorem sumOver_zero (g : Nat → Nat → Nat) (t : Nat → Bool) (l : List Nat) (k m : Nat) :
    sumOver t g l 0 0 k m = g k m := by
  rw [sumOver_eq]; simp [rankSum, bitSum]

theorem sumPoly_eq (X : Nat) (g : Nat → Nat) {s : Nat} (hs : s < 4) (rs : List Nat) : ∀ n k,
    sumWeighted (fun c => if suit c = s then X else 1) g (fours rs) n k =
      sumPoly X g (rs.map (fun r => RANKS.getD r 0)) n k := by
  induction rs with
  | nil => intro n k; rcases n with _ | n <;> rfl
  | cons r rs ih =>
    intro n k
    rcases n with _ | n
    · simp [sumWeighted]; rfl
    have d0 : 4 * r / 4 = r := by omega
    have d1 : (4 * r + 1) / 4 = r := by omega
    have d2 : (4 * r + 2) / 4 = r := by omega
    have d3 : (4 * r + 3) / 4 = r := by omega
    have s0 : suit (4 * r) = 0 := by unfold suit; omega
    have s1 : suit (4 * r + 1) = 1 := by unfold suit; omega
    have s2 : suit (4 * r + 2) = 2 := by unfold suit; omega
    have s3 : suit (4 * r + 3) = 3 := by unfold suit; omega
    have e : fours (r :: rs) = 4 * r :: (4 * r + 1) :: (4 * r + 2) :: (4 * r + 3) :: fours rs := rfl
    rw [e, List.map_cons, show ∀ (r : Nat) rs, sumPoly X g (r :: rs) = polyStep X g r (sumPoly X g rs) from fun _ _ => rfl]
    have hz : ∀ k, sumPoly X g (rs.map fun r => RANKS.getD r 0) 0 k = g k := fun k => by
      rw [← ih]; simp [sumWeighted]
    generalize sumPoly X g (rs.map fun r => RANKS.getD r 0) = F at ih hz
    obtain ⟨v, hv⟩ : ∃ v, RANKS.getD r 0 = v := ⟨_, rfl⟩
    rw [hv]
    rcases (show s = 0 ∨ s = 1 ∨ s = 2 ∨ s = 3 by omega) with rfl | rfl | rfl | rfl <;>
    rcases n with _ | _ | _ | n <;>
    simp [sumWeighted, d0, d1, d2, d3, s0, s1, s2, s3, ih, polyStep, force, hz, hv, -List.getD_eq_getElem?_getD] <;> ring_nf

theorem sumSuit_eq (g : Nat → Nat → Nat) {s : Nat} (hs : s < 4) (rs : List Nat) : ∀ a b k m,
    sumOver (fun c => Nat.beq (suit c) s) g (fours rs) a b k m =
      sumSuit g (rs.map (fun r => (RANKS.getD r 0, 2 ^ r))) a b k m := by
  induction rs with
  | nil => intro a b k m; rcases a with _ | a <;> rcases b with _ | b <;> rfl
  | cons r rs ih =>
    intro a b k m
    have d0 : 4 * r / 4 = r := by omega
    have d1 : (4 * r + 1) / 4 = r := by omega
    have d2 : (4 * r + 2) / 4 = r := by omega
    have d3 : (4 * r + 3) / 4 = r := by omega
    have s0 : suit (4 * r) = 0 := by unfold suit; omega
    have s1 : suit (4 * r + 1) = 1 := by unfold suit; omega
    have s2 : suit (4 * r + 2) = 2 := by unfold suit; omega
    have s3 : suit (4 * r + 3) = 3 := by unfold suit; omega
    have e : fours (r :: rs) = 4 * r :: (4 * r + 1) :: (4 * r + 2) :: (4 * r + 3) :: fours rs := rfl
    rw [e]
    simp only [sumOver, d0, d1, d2, d3, s0, s1, s2, s3, ih]
    rw [List.map_cons, show ∀ p rs, sumSuit g (p :: rs) = suitStep p (sumSuit g rs) from fun _ _ => rfl]
    generalize sumSuit g (rs.map fun r => (RANKS.getD r 0, 2 ^ r)) = F
    generalize RANKS.getD r 0 = v
    generalize 2 ^ r = w
    rcases (show s = 0 ∨ s = 1 ∨ s = 2 ∨ s = 3 by omega) with rfl | rfl | rfl | rfl <;>
      rcases a with _ | a <;> rcases b with _ | _ | _ | b <;>
      simp [suitStep, force] <;> omega

/-- One unit in the digit of the category of a score. -/
noncomputable abbrev hist (sc : Nat) : Nat := Nat.shiftLeft 1 (Nat.mul 32 (Nat.shiftRight sc 12))

/-- Contribution of a rank multiset. -/
noncomputable abbrev leafPlain (k : Nat) : Nat := hist (fastLookup k)

/-- Contribution of a flush. -/
noncomputable abbrev leafSuit (_ m : Nat) : Nat := hist (fastFlush m)

def rankKeys : List Nat :=
  [8192, 32769, 69632, 237568, 593920, 1531909, 3563520, 4300819, 4685870, 4690024, 4767972, 4780561, 4801683]

theorem rankKeys_eq : (List.range 13).map (fun r => RANKS.getD r 0) = rankKeys := by decide

def suitKeys : List (Nat × Nat) :=
  [(8192, 1), (32769, 2), (69632, 4), (237568, 8), (593920, 16), (1531909, 32), (3563520, 64), (4300819, 128),
   (4685870, 256), (4690024, 512), (4767972, 1024), (4780561, 2048), (4801683, 4096)]

theorem suitKeys_eq : (List.range 13).map (fun r => (RANKS.getD r 0, 2 ^ r)) = suitKeys := by decide

/-- The number with the given digits in base `2 ^ 512`. -/
def digits512 (l : List Nat) : Nat := l.foldr (fun d n => Nat.add d (Nat.mul (Nat.shiftLeft 1 512) n)) 0

end Pokers.Kernel

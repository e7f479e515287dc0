import Verif.Proofs.Symmetry
import Verif.Proofs.Totals
import Verif.Props.Evaluator
import Mathlib.Data.Multiset.Powerset
/-!
# Exchanging the suits

The showdowns of relabelled ranges, board and dead cards are the relabelled showdowns.
-/
namespace Spec
open Pokers

/-- `σ` permutes the four suits. -/
structure SuitPerm (σ : Nat → Nat) : Prop where
  lt : ∀ s < 4, σ s < 4
  inj : ∀ s < 4, ∀ t < 4, σ s = σ t → s = t

/-- The hand with the suits exchanged. -/
def relabelHand (σ : Nat → Nat) (h : WHand) : WHand := (relabel σ h.1, relabel σ h.2.1, h.2.2)

/-- The deal with the suits exchanged. -/
def relabelDeal (σ : Nat → Nat) (d : List WHand) : List WHand := d.map (relabelHand σ)

namespace SuitPerm
variable {σ : Nat → Nat}

theorem suit_lt (c : Nat) : suit c < 4 := Nat.mod_lt _ (by decide)

theorem injective (h : SuitPerm σ) : Function.Injective (relabel σ) := by
  intro a b e
  have h1 := h.lt _ (suit_lt a)
  have h2 := h.lt _ (suit_lt b)
  unfold relabel at e
  have hr : Spec.rank a = Spec.rank b := by omega
  have hs := h.inj _ (suit_lt a) _ (suit_lt b) (by omega)
  unfold Spec.rank at hr; unfold Spec.suit at hs
  omega

theorem lt52 (h : SuitPerm σ) {c : Nat} (hc : c < 52) : relabel σ c < 52 := by
  have h1 := h.lt _ (suit_lt c)
  unfold relabel Spec.rank; omega

theorem deck (h : SuitPerm σ) : ((List.range 52).map (relabel σ)).Perm (List.range 52) := by
  refine List.Subperm.perm_of_length_le (List.subperm_of_subset (List.nodup_range.map h.injective) ?_) (by simp)
  intro c hc
  obtain ⟨a, ha, rfl⟩ := List.mem_map.1 hc
  exact List.mem_range.2 (h.lt52 (List.mem_range.1 ha))

end SuitPerm

theorem countRank_perm {x y : List Nat} (h : x.Perm y) : countRank x = countRank y := by
  funext r; exact h.countP_eq _

theorem isFlush_perm {x y : List Nat} (h : x.Perm y) : isFlush x = isFlush y := by
  unfold isFlush
  rw [h.length_eq]
  congr 2
  funext s
  rw [Bool.eq_iff_iff]
  simp only [List.all_eq_true, h.mem_iff]

theorem value_perm {x y : List Nat} (h : x.Perm y) : value x = value y := by
  unfold value; rw [countRank_perm h, isFlush_perm h]

theorem best_le_of_perm {xs ys : List Nat} (h : xs.Perm ys) : best xs ≤ best ys := by
  obtain ⟨x, hx, he⟩ := best_mem xs
  obtain ⟨hs, hl⟩ := List.mem_sublistsLen.1 hx
  obtain ⟨y, hy, hys⟩ := hs.subperm.trans h.subperm
  rw [← he, ← value_perm hy]
  refine le_best (List.mem_sublistsLen.2 ⟨hys, ?_⟩)
  rw [hy.length_eq, hl, h.length_eq]

/-- The strength of cards does not depend on their order. -/
theorem best_perm {xs ys : List Nat} (h : xs.Perm ys) : best xs = best ys := le_antisymm (best_le_of_perm h) (best_le_of_perm h.symm)

theorem best_relabel {σ : Nat → Nat} (h : SuitPerm σ) (cs : List Nat) : best (cs.map (relabel σ)) = best cs := by
  have : playable (cs.map (relabel σ)) = (playable cs).map (List.map (relabel σ)) := by
    unfold playable
    rw [sublistsLen_map']
    simp
  unfold best
  rw [this, List.map_map]
  congr 1
  apply List.map_congr_left
  intro x _
  exact value_map_relabel h.lt h.inj x

/-- Sums over all choices of `k` cards do not depend on the order of the cards. -/
theorem sum_sublistsLen_perm {M : Type} [AddCommMonoid M] {l l' : List Nat} (h : l.Perm l') (k : Nat) (f : List Nat → M)
    (hf : ∀ x y, x.Perm y → f x = f y) : ((l.sublistsLen k).map f).sum = ((l'.sublistsLen k).map f).sum := by
  let g : Multiset Nat → M := Quot.lift f hf
  have key : ∀ m : List Nat, ((m.sublistsLen k).map f).sum = ((Multiset.powersetCard k (m : Multiset Nat)).map g).sum := by
    intro m
    rw [Multiset.powersetCard_coe, Multiset.map_coe, Multiset.sum_coe, List.map_map]
    rfl
  rw [key, key, Multiset.coe_eq_coe.2 h]

variable {σ : Nat → Nat}

theorem dealt_relabel (d : List WHand) : dealt (relabelDeal σ d) = (dealt d).map (relabel σ) := by
  unfold dealt relabelDeal
  rw [List.flatMap_map, List.map_flatMap]
  rfl

theorem choices_relabel (rs : List (List WHand)) : choices (rs.map (relabelDeal σ)) = (choices rs).map (relabelDeal σ) := by
  induction rs with
  | nil => rfl
  | cons r rs ih =>
    rw [List.map_cons, choices, choices, ih]
    unfold relabelDeal
    rw [List.flatMap_map, List.map_flatMap]
    apply List.flatMap_congr
    intro h _
    rw [List.map_map, List.map_map]
    rfl

theorem legal_relabel (h : SuitPerm σ) {blocked blocked' : List Nat} (hb : ∀ c, relabel σ c ∈ blocked' ↔ c ∈ blocked) (d : List WHand) :
    Legal blocked' (relabelDeal σ d) ↔ Legal blocked d := by
  unfold Legal
  rw [dealt_relabel, List.nodup_map_iff h.injective]
  simp only [List.forall_mem_map, hb]

theorem deals_relabel (h : SuitPerm σ) {blocked blocked' : List Nat} (hb : ∀ c, relabel σ c ∈ blocked' ↔ c ∈ blocked)
    (rs : List (List WHand)) : deals (rs.map (relabelDeal σ)) blocked' = (deals rs blocked).map (relabelDeal σ) := by
  unfold deals
  rw [choices_relabel, List.filter_map]
  congr 1
  apply List.filter_congr
  intro d _
  simp only [Function.comp_apply, legal_relabel h hb]

theorem undealt_relabel (h : SuitPerm σ) {used used' : List Nat} (hu : ∀ c, relabel σ c ∈ used' ↔ c ∈ used) :
    ((List.range 52).filter fun c => c ∉ used').Perm (((List.range 52).filter fun c => c ∉ used).map (relabel σ)) := by
  refine (h.deck.symm.filter _).trans (List.Perm.of_eq ?_)
  rw [List.filter_map]
  congr 1
  apply List.filter_congr
  intro c _
  simp only [Function.comp_apply, hu]

theorem strength_relabel (h : SuitPerm σ) {B B' : List Nat} (hB : B'.Perm (B.map (relabel σ))) (d : List WHand) {i : Nat} (hi : i < d.length) :
    strength B' (relabelDeal σ d) i = strength B d i := by
  unfold strength
  have e : cardsOf ((relabelDeal σ d).getD i (0, 0, 0)) = (cardsOf (d.getD i (0, 0, 0))).map (relabel σ) := by
    unfold relabelDeal
    rw [List.getD_eq_getElem?_getD, List.getD_eq_getElem?_getD, List.getElem?_map, List.getElem?_eq_getElem hi]
    rfl
  rw [e, ← best_relabel h (B ++ _), List.map_append]
  exact best_perm (hB.append_right _)

theorem winners_relabel (h : SuitPerm σ) {B B' : List Nat} (hB : B'.Perm (B.map (relabel σ))) (d : List WHand) :
    winners B' (relabelDeal σ d) = winners B d := by
  have hl : (relabelDeal σ d).length = d.length := List.length_map _
  unfold winners
  rw [hl]
  apply List.filter_congr
  intro i hi
  rw [List.mem_range] at hi
  rw [decide_eq_decide]
  refine forall_congr' fun j => forall_congr' fun hj => ?_
  rw [strength_relabel h hB d hj, strength_relabel h hB d hi]

theorem dealWeight_relabel (d : List WHand) : dealWeight (relabelDeal σ d) = dealWeight d := by
  unfold dealWeight relabelDeal
  rw [List.map_map]
  rfl

theorem holds_relabel (h : SuitPerm σ) (p x y : Nat) (d : List WHand) :
    Holds p (relabel σ x) (relabel σ y) (relabelDeal σ d) ↔ Holds p x y d := by
  unfold Holds relabelDeal
  rw [List.length_map]
  refine and_congr_right fun hp => ?_
  rw [List.getD_eq_getElem?_getD, List.getD_eq_getElem?_getD, List.getElem?_map, List.getElem?_eq_getElem hp]
  simp only [Option.map_some, Option.getD_some, relabelHand, h.injective.eq_iff]

theorem winners_board_perm {B B' : List Nat} (h : B.Perm B') (d : List WHand) : winners B d = winners B' d := by
  unfold winners strength
  simp only [best_perm (h.append_right _)]

theorem sum_flatMap_map {α β M : Type} [AddCommMonoid M] (f : β → M) (g : α → List β) (l : List α) :
    ((l.flatMap g).map f).sum = (l.map fun a => ((g a).map f).sum).sum := by
  induction l with
  | nil => rfl
  | cons a l ih => rw [List.flatMap_cons, List.map_append, List.sum_append, ih, List.map_cons, List.sum_cons]

/-- Sums over the showdowns of the relabelled ranges. -/
theorem sum_relabel {M : Type} [AddCommMonoid M] (h : SuitPerm σ) {rs : List (List WHand)} {board board' dead dead' : List Nat}
    (hb : board'.Perm (board.map (relabel σ))) (hd : dead'.Perm (dead.map (relabel σ)))
    (F F' : List WHand × List Nat → M) (hinv : ∀ d B B', B.Perm B' → F' (d, B) = F' (d, B'))
    (hF : ∀ d B, F' (relabelDeal σ d, B.map (relabel σ)) = F (d, B)) :
    ((showdowns (rs.map (relabelDeal σ)) board' dead').map F').sum = ((showdowns rs board dead).map F).sum := by
  have hmem : ∀ {l l' : List Nat}, l'.Perm (l.map (relabel σ)) → ∀ c, relabel σ c ∈ l' ↔ c ∈ l := fun hl c => by
    rw [hl.mem_iff, List.mem_map_of_injective h.injective]
  have hblk : ∀ c, relabel σ c ∈ board' ++ dead' ↔ c ∈ board ++ dead := fun c => by
    rw [List.mem_append, List.mem_append, hmem hb, hmem hd]
  unfold showdowns
  rw [deals_relabel h hblk, List.flatMap_map, sum_flatMap_map, sum_flatMap_map]
  congr 1
  apply List.map_congr_left
  intro d _
  rw [List.map_map, List.map_map]
  unfold boards
  rw [List.map_map, List.map_map]
  have hu : ∀ c, relabel σ c ∈ board' ++ dead' ++ dealt (relabelDeal σ d) ↔ c ∈ board ++ dead ++ dealt d := fun c => by
    rw [List.mem_append (s := board' ++ dead'), List.mem_append (s := board ++ dead), hblk, dealt_relabel,
      List.mem_map_of_injective h.injective]
  have hlen : board'.length = board.length := by rw [hb.length_eq, List.length_map]
  unfold completions
  rw [hlen, sum_sublistsLen_perm (undealt_relabel h hu) _ ((F' ∘ fun b => (relabelDeal σ d, b)) ∘ fun x => board' ++ x)
    (fun x y hxy => hinv _ _ _ (hxy.append_left _)), sublistsLen_map',
    List.map_map]
  congr 1
  apply List.map_congr_left
  intro y _
  simp only [Function.comp_apply]
  rw [← hF, List.map_append]
  exact hinv _ _ _ (hb.append_right _)

theorem weightOf_eq_sum (sd : List (List WHand × List Nat)) (P : List WHand × List Nat → Prop) [DecidablePred P] :
    weightOf sd P = (sd.map fun x => if P x then dealWeight x.1 else 0).sum := by
  unfold weightOf
  induction sd with
  | nil => rfl
  | cons x sd ih =>
    rw [List.map_cons, List.sum_cons, ← ih, List.filter_cons]
    by_cases h : P x
    · simp [h]
    · simp [h]

theorem sharesOf_eq_sum (sd : List (List WHand × List Nat)) (p : Nat) : sharesOf sd p = (sd.map fun x =>
    if p ∈ winners x.2 x.1 ∧ winners x.2 x.1 ≠ [p] then (dealWeight x.1 : ℚ) / ((winners x.2 x.1).length : ℚ) else 0).sum := by
  induction sd with
  | nil => rfl
  | cons x sd ih => rw [sharesOf_cons, ih, List.map_cons, List.sum_cons]

theorem handShares_eq_sum (sd : List (List WHand × List Nat)) (p a b : Nat) : handShares sd p a b = (sd.map fun x =>
    if Holds p a b x.1 ∧ p ∈ winners x.2 x.1 ∧ winners x.2 x.1 ≠ [p] then (dealWeight x.1 : ℚ) / ((winners x.2 x.1).length : ℚ) else 0).sum := by
  induction sd with
  | nil => rfl
  | cons x sd ih => rw [handShares_cons, ih, List.map_cons, List.sum_cons]

theorem choices_perm {α : Type} {rs rs' : List (List α)} (h : List.Forall₂ List.Perm rs rs') : (choices rs).Perm (choices rs') := by
  induction h with
  | nil => exact List.Perm.refl _
  | cons h1 _ ih => exact (h1.flatMap_right _).trans (List.Perm.flatMap_left _ fun x _ => ih.map _)

/-- The showdowns do not depend on the order of the hands in the ranges. -/
theorem showdowns_perm {rs rs' : List (List WHand)} (h : List.Forall₂ List.Perm rs rs') (board dead : List Nat) :
    (showdowns rs board dead).Perm (showdowns rs' board dead) :=
  ((choices_perm h).filter _).flatMap_right _

theorem weightOf_perm {sd sd' : List (List WHand × List Nat)} (h : sd.Perm sd') (P : List WHand × List Nat → Prop) [DecidablePred P] :
    weightOf sd P = weightOf sd' P := ((h.filter _).map _).sum_eq

/-- The share of a permuted player. -/
theorem sharesOf_permute {σ τ : Nat → Nat} {rs : List (List WHand)} (h : PermOn rs.length σ τ) (board dead : List Nat) {p : Nat}
    (hp : p < rs.length) : sharesOf (showdowns (permute [] σ rs) board dead) p = sharesOf (showdowns rs board dead) (σ p) := by
  rw [sharesOf_eq_sum, sharesOf_eq_sum, ((showdowns_permute h board dead).map _).sum_eq, List.map_map]
  congr 1
  apply List.map_congr_left
  intro x hx
  have hl := showdowns_len hx
  have h' : PermOn x.1.length σ τ := by rw [hl]; exact h
  simp only [Function.comp_apply]
  rw [dealWeight_permute h', winners_length_permute h']
  refine if_congr ?_ rfl rfl
  rw [mem_winners_permute h' _ (by rw [hl]; exact hp), Ne, winners_single_permute h' _ (by rw [hl]; exact hp)]

section
variable {rs : List (List WHand)} {board board' dead dead' : List Nat}

theorem weightOf_relabel (h : SuitPerm σ) (hb : board'.Perm (board.map (relabel σ))) (hd : dead'.Perm (dead.map (relabel σ)))
    (P P' : List WHand × List Nat → Prop) [DecidablePred P] [DecidablePred P'] (hinv : ∀ d B B', B.Perm B' → (P' (d, B) ↔ P' (d, B')))
    (hP : ∀ d B, P' (relabelDeal σ d, B.map (relabel σ)) ↔ P (d, B)) :
    weightOf (showdowns (rs.map (relabelDeal σ)) board' dead') P' = weightOf (showdowns rs board dead) P := by
  rw [weightOf_eq_sum, weightOf_eq_sum]
  refine sum_relabel h hb hd _ _ (fun d B B' e => ?_) (fun d B => ?_)
  · simp only [hinv d B B' e]
  · simp only [hP, dealWeight_relabel]

theorem sharesOf_relabel (h : SuitPerm σ) (hb : board'.Perm (board.map (relabel σ))) (hd : dead'.Perm (dead.map (relabel σ))) (p : Nat) :
    sharesOf (showdowns (rs.map (relabelDeal σ)) board' dead') p = sharesOf (showdowns rs board dead) p := by
  rw [sharesOf_eq_sum, sharesOf_eq_sum]
  refine sum_relabel h hb hd _ _ (fun d B B' e => ?_) (fun d B => ?_)
  · simp only [winners_board_perm e]
  · simp only [winners_relabel h (List.Perm.refl _), dealWeight_relabel]

theorem handShares_relabel (h : SuitPerm σ) (hb : board'.Perm (board.map (relabel σ))) (hd : dead'.Perm (dead.map (relabel σ)))
    (p x y : Nat) : handShares (showdowns (rs.map (relabelDeal σ)) board' dead') p (relabel σ x) (relabel σ y) =
      handShares (showdowns rs board dead) p x y := by
  rw [handShares_eq_sum, handShares_eq_sum]
  refine sum_relabel h hb hd _ _ (fun d B B' e => ?_) (fun d B => ?_)
  · simp only [winners_board_perm e]
  · simp only [winners_relabel h (List.Perm.refl _), dealWeight_relabel, holds_relabel h]

theorem totalWeight_relabel (h : SuitPerm σ) (hb : board'.Perm (board.map (relabel σ))) (hd : dead'.Perm (dead.map (relabel σ))) :
    totalWeight (showdowns (rs.map (relabelDeal σ)) board' dead') = totalWeight (showdowns rs board dead) := by
  unfold totalWeight
  exact sum_relabel h hb hd _ _ (fun d B B' e => rfl) (fun d B => dealWeight_relabel d)

end

end Spec

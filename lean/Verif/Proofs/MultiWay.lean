import Verif.Proofs.HeadsUp
import Verif.Proofs.Counts
/-!
Any number of players: the wins of the showdowns without ties as sums that the kernel can evaluate.
Used only inside proofs, for concrete ranges.
-/
namespace Pokers
open Spec Kernel

namespace Kernel

/-- The player with the only best hand among the hands of `hs`, or 99. -/
noncomputable def soleLoop (kb mb : Nat) (hs : List WHand) : Nat → Nat → Nat → Nat :=
  @List.rec WHand (fun _ => Nat → Nat → Nat → Nat) (fun _ _ who => who)
    (fun v _ ih i best who =>
      force (ev (Nat.add (Nat.add kb (ck v.1)) (ck v.2.1)) (Nat.lor (Nat.lor mb (cm v.1)) (cm v.2.1))) fun s => force (Nat.succ i) fun j =>
        bif' (Nat.ble s best) (bif' (Nat.beq s best) (ih j best 99) (ih j best who)) (ih j s i)) hs

/-- What is known after `n` hands. -/
def SoleBest (sc : Nat → Nat) (n best who : Nat) : Prop :=
  (∀ j < n, sc j ≤ best) ∧ (who ≠ 99 → who < n ∧ sc who = best ∧ ∀ j < n, j ≠ who → sc j < best)

theorem soleLoop_spec {kb mb : Nat} {sc : Nat → Nat} : ∀ (hs : List WHand) (i best who : Nat), SoleBest sc i best who →
    (∀ k (hk : k < hs.length), sc (i + k) = ev (kb + ck hs[k].1 + ck hs[k].2.1) (mb ||| cm hs[k].1 ||| cm hs[k].2.1)) →
    ∃ b, SoleBest sc (i + hs.length) b (soleLoop kb mb hs i best who)
  | [], i, best, who, h, _ => ⟨best, h⟩
  | v :: hs, i, best, who, h, hsc => by
    have h0 : sc i = ev (kb + ck v.1 + ck v.2.1) (mb ||| cm v.1 ||| cm v.2.1) := hsc 0 (by simp)
    have hrec : ∀ k (hk : k < hs.length), sc (i + 1 + k) = ev (kb + ck hs[k].1 + ck hs[k].2.1) (mb ||| cm hs[k].1 ||| cm hs[k].2.1) := by
      intro k hk
      have := hsc (k + 1) (by simp; omega)
      rw [show i + 1 + k = i + (k + 1) by omega]
      simpa using this
    have e : soleLoop kb mb (v :: hs) i best who = if sc i ≤ best then (if sc i = best then soleLoop kb mb hs (i + 1) best 99
        else soleLoop kb mb hs (i + 1) best who) else soleLoop kb mb hs (i + 1) (sc i) i := by
      show bif' (Nat.ble (ev (kb + ck v.1 + ck v.2.1) (mb ||| cm v.1 ||| cm v.2.1)) best)
        (bif' (Nat.beq (ev (kb + ck v.1 + ck v.2.1) (mb ||| cm v.1 ||| cm v.2.1)) best) (soleLoop kb mb hs (i + 1) best 99)
          (soleLoop kb mb hs (i + 1) best who)) (soleLoop kb mb hs (i + 1) (ev (kb + ck v.1 + ck v.2.1) (mb ||| cm v.1 ||| cm v.2.1)) i) = _
      rw [← h0]
      by_cases h1 : sc i ≤ best
      · rw [if_pos h1, Nat.ble_eq_true_of_le h1, bif'_true]
        by_cases h2 : sc i = best
        · rw [if_pos h2, Nat.beq_eq.mpr h2, bif'_true]
        · rw [if_neg h2, show Nat.beq (sc i) best = false by rw [← Bool.not_eq_true, Nat.beq_eq]; exact h2, bif'_false]
      · rw [if_neg h1, show Nat.ble (sc i) best = false by rw [← Bool.not_eq_true, Nat.ble_eq]; exact h1, bif'_false]
    rw [e, List.length_cons, show i + (hs.length + 1) = i + 1 + hs.length by omega]
    have hlt : ∀ j, j < i + 1 → j < i ∨ j = i := fun j hj => by omega
    split
    · rename_i h1
      have hle : ∀ j < i + 1, sc j ≤ best := by
        intro j hj
        rcases hlt j hj with h' | rfl
        · exact h.1 j h'
        · exact h1
      split
      · exact soleLoop_spec hs _ _ _ ⟨hle, fun h' => absurd rfl h'⟩ hrec
      · rename_i h2
        refine soleLoop_spec hs _ _ _ ⟨hle, fun h' => ?_⟩ hrec
        obtain ⟨g1, g2, g3⟩ := h.2 h'
        refine ⟨by omega, g2, fun j hj hne => ?_⟩
        rcases hlt j hj with h'' | rfl
        · exact g3 j h'' hne
        · omega
    · rename_i h1
      refine soleLoop_spec hs _ _ _ ⟨fun j hj => ?_, fun _ => ⟨by omega, rfl, fun j hj hne => ?_⟩⟩ hrec
      · rcases hlt j hj with h' | rfl
        · have := h.1 j h'; omega
        · exact le_rfl
      · rcases hlt j hj with h' | rfl
        · have := h.1 j h'; omega
        · exact absurd rfl hne

/-- The sum of `g key mask` over all choices of `k` cards from `l`. -/
noncomputable def boardSum (g : Nat → Nat → Nat) (l : List Nat) : Nat → Nat → Nat → Nat :=
  @List.rec Nat (fun _ => Nat → Nat → Nat → Nat) (fun k kb mb => bif' (Nat.beq k 0) (g kb mb) 0)
    (fun a _ ih k kb mb => bif' (Nat.beq k 0) (g kb mb)
      (Nat.add (ih k kb mb) (force (Nat.sub k 1) fun k' => force (Nat.add kb (ck a)) fun kb' => force (Nat.lor mb (cm a)) fun mb' => ih k' kb' mb'))) l

theorem boardSum_eq (g : Nat → Nat → Nat) : ∀ (l : List Nat) (k kb mb : Nat), boardSum g l k kb mb =
    ((l.sublistsLen k).map fun T => g (T.foldl (fun x c => x + ck c) kb) (T.foldl (fun x c => x ||| cm c) mb)).sum
  | [], 0, kb, mb => by simp [boardSum]
  | [], k + 1, kb, mb => by
    show bif' (Nat.beq (k + 1) 0) (g kb mb) 0 = _
    simp [Nat.beq]
  | a :: l, 0, kb, mb => by
    have e : boardSum g (a :: l) 0 kb mb = g kb mb := rfl
    rw [e]
    simp
  | a :: l, k + 1, kb, mb => by
    show bif' (Nat.beq (k + 1) 0) (g kb mb) (boardSum g l (k + 1) kb mb + boardSum g l k (kb + ck a) (mb ||| cm a)) = _
    rw [show Nat.beq (k + 1) 0 = false from rfl, bif'_false, boardSum_eq g l, boardSum_eq g l, List.sublistsLen_succ_cons, List.map_append,
      List.sum_append, List.map_map]
    rfl

end Kernel

theorem key_extend : ∀ (T cs : List Nat), (∀ c ∈ cs, c < 52) → (∀ c ∈ T, c < 52) → cs.length + T.length ≤ 12 →
    T.foldl (fun x c => x + ck c) (ofCards cs).key = (ofCards (cs ++ T)).key ∧
    T.foldl (fun x c => x ||| cm c) (ofCards cs).mask = (ofCards (cs ++ T)).mask
  | [], cs, _, _, _ => by simp
  | c :: T, cs, h, hT, hl => by
    have hl' : cs.length + (T.length + 1) ≤ 12 := hl
    rw [List.foldl_cons, List.foldl_cons, ← key_append h (by omega) (hT c List.mem_cons_self), ← mask_append]
    have := key_extend T (cs ++ [c]) (fun x hx => ?_) (fun x hx => hT x (List.mem_cons_of_mem _ hx)) (by simp; omega)
    · rw [this.1, this.2, List.append_assoc]
      exact ⟨rfl, rfl⟩
    · rcases List.mem_append.1 hx with hx | hx
      · exact h x hx
      · rw [List.mem_singleton.1 hx]; exact hT c List.mem_cons_self

/-- The player who alone wins on the board `B`, or 99. -/
noncomputable def soleWinner (d : List WHand) (B : List Nat) : Nat := soleLoop (ofCards B).key (ofCards B).mask d 0 0 99

theorem soleWinner_sound {board dead : List Nat} {d : List WHand} (h : DealOk board dead d) {B : List Nat} (hB : B ∈ boards board dead d)
    (hne : soleWinner d B ≠ 99) : winners B d = [soleWinner d B] := by
  obtain ⟨hc, hl, ha⟩ := boards_ok h hB
  have hs := soleLoop_spec (kb := (ofCards B).key) (mb := (ofCards B).mask) (sc := fun i => (ofCards (B ++ cardsOf (d.getD i (0, 0, 0)))).evaluate)
    d 0 0 99 ⟨fun j hj => by omega, fun h' => absurd rfl h'⟩ (fun k hk => ?_)
  · obtain ⟨b, _, h2⟩ := hs
    rw [Nat.zero_add] at h2
    obtain ⟨g1, g2, g3⟩ := h2 hne
    simp only at g2 g3
    rw [← winners_eq h.cards hc hl ha, topPlayers_eq]
    change _ = [soleLoop (ofCards B).key (ofCards B).mask d 0 0 99]
    generalize soleLoop (ofCards B).key (ofCards B).mask d 0 0 99 = w at *
    rw [← List.perm_singleton, List.perm_ext_iff_of_nodup (List.nodup_range.filter _) (List.nodup_singleton _)]
    intro i
    rw [List.mem_filter, List.mem_range, decide_eq_true_iff, List.mem_singleton]
    constructor
    · rintro ⟨h3, h4⟩
      by_contra hi
      have h5 := g3 i h3 hi
      have h6 := h4 w g1
      rw [g2] at h6
      omega
    · rintro rfl
      refine ⟨g1, fun j hj => ?_⟩
      by_cases hjw : j = i
      · rw [hjw]
      · have := g3 j hj hjw
        rw [g2]
        exact this.le
  · have hv : ∀ c ∈ cardsOf d[k], c < 52 := fun c hc' => h.cards.2 c (List.mem_flatMap.2 ⟨_, List.getElem_mem hk, hc'⟩)
    rw [Nat.zero_add, List.getD_eq_getElem _ _ hk]
    exact (ev_hand hc.2 (by omega) (hv _ (by simp [cardsOf])) (hv _ (by simp [cardsOf]))).symm

/-- The sum of a function of the sole winner over all boards of a deal. -/
noncomputable def soleSum (f : Nat → Nat) (board : List Nat) (d : List WHand) (free : List Nat) : Nat :=
  boardSum (fun kb mb => force (soleLoop kb mb d 0 0 99) f) free (5 - board.length) (ofCards board).key (ofCards board).mask

/-- The cards that are left. -/
def freeCards (board dead : List Nat) (d : List WHand) : List Nat := (List.range 52).filter fun c => c ∉ board ++ dead ++ dealt d

theorem soleSum_eq {board dead : List Nat} {d : List WHand} (h : DealOk board dead d) (f : Nat → Nat) :
    soleSum f board d (freeCards board dead d) = ((boards board dead d).map fun B => f (soleWinner d B)).sum := by
  unfold soleSum boards completions
  rw [boardSum_eq, List.map_map]
  congr 1
  apply List.map_congr_left
  intro T hT
  have hT' : T ∈ (freeCards board dead d).sublistsLen (5 - board.length) := hT
  rw [List.mem_sublistsLen] at hT'
  have hc : ∀ c ∈ T, c < 52 := fun c hc => by
    have := hT'.1.subset hc
    unfold freeCards at this
    rw [List.mem_filter, List.mem_range] at this
    exact this.1
  have hl := h.len
  obtain ⟨e1, e2⟩ := key_extend T board h.isBoard.2 hc (by omega)
  rw [e1, e2]
  rfl

theorem sum_map_zero {α : Type} {l : List α} {f : α → Nat} (h : (l.map f).sum = 0) : ∀ x ∈ l, f x = 0 := by
  induction l with
  | nil => intro x hx; cases hx
  | cons a l ih =>
    rw [List.map_cons, List.sum_cons] at h
    intro x hx
    rcases List.mem_cons.1 hx with rfl | hx
    · omega
    · exact ih (by omega) x hx

/-- The wins, if there are no ties.  `rows` are the deals and the cards left. -/
theorem sole_wins {Rs : List (List WHand)} {board dead : List Nat} (hok : ∀ d ∈ deals Rs (board ++ dead), DealOk board dead d)
    {rows : List (List WHand × List Nat)} (hrows : (deals Rs (board ++ dead)).map (fun d => (d, freeCards board dead d)) = rows)
    (h0 : (rows.map fun x => soleSum (fun w => bif' (Nat.beq w 99) 1 0) board x.1 x.2).sum = 0) :
    (∀ x ∈ showdowns Rs board dead, ∃ p, winners x.2 x.1 = [p]) ∧
    ∀ p, winsOf (showdowns Rs board dead) [p] =
      (rows.map fun x => Spec.dealWeight x.1 * soleSum (fun w => bif' (Nat.beq w p) 1 0) board x.1 x.2).sum := by
  subst hrows
  rw [List.map_map] at h0
  have hs : ∀ d ∈ deals Rs (board ++ dead), ∀ B ∈ boards board dead d, winners B d = [soleWinner d B] := by
    intro d hd B hB
    apply soleWinner_sound (hok d hd) hB
    have h1 := sum_map_zero h0 d hd
    simp only [Function.comp] at h1
    rw [soleSum_eq (hok d hd)] at h1
    have h2 := sum_map_zero h1 B hB
    intro h3
    rw [h3] at h2
    exact absurd h2 (by decide)
  refine ⟨?_, fun p => ?_⟩
  · intro x hx
    rw [showdowns_eq] at hx
    obtain ⟨d, hd, hx⟩ := List.mem_flatMap.1 hx
    obtain ⟨B, hB, rfl⟩ := List.mem_map.1 hx
    exact ⟨_, hs d hd B hB⟩
  · rw [showdowns_eq, List.map_map]
    generalize deals Rs (board ++ dead) = L at *
    clear h0
    induction L with
    | nil => rfl
    | cons d L ih =>
      rw [List.flatMap_cons, List.map_cons, List.sum_cons, ← ih (fun x hx => hok x (by simp [hx])) (fun x hx => hs x (by simp [hx]))]
      unfold winsOf
      have happ : ∀ (A C : List (List WHand × List Nat)), weightOf (A ++ C) (fun x => winners x.2 x.1 = [p]) =
          weightOf A (fun x => winners x.2 x.1 = [p]) + weightOf C (fun x => winners x.2 x.1 = [p]) := by
        intro A C
        unfold weightOf
        rw [List.filter_append, List.map_append, List.sum_append]
      rw [happ]
      congr 1
      simp only [Function.comp]
      rw [soleSum_eq (hok d (by simp))]
      have hd := hs d (by simp)
      unfold dealShows
      generalize boards board dead d = bs at *
      induction bs with
      | nil => rfl
      | cons B bs ihb =>
        rw [List.map_cons, weightOf_cons, ihb (fun x hx => hd x (by simp [hx])), List.map_cons, List.sum_cons, Nat.mul_add]
        congr 1
        rw [hd B (by simp)]
        by_cases hp : soleWinner d B = p
        · rw [if_pos (by rw [hp]), Nat.beq_eq.mpr hp, bif'_true, Nat.mul_one]
        · rw [if_neg (by simpa using hp), show Nat.beq (soleWinner d B) p = false by rw [← Bool.not_eq_true, Nat.beq_eq]; exact hp,
            bif'_false, Nat.mul_zero]

end Pokers

import Verif.Props.Draws
import Verif.Props.Rates
import Verif.Proofs.NutFlush
/-!
# The table of draws (C64)

What the draw flags of the hand results and the ten columns of the draw table mean in the results of a calculation.
-/
namespace Pokers
open Spec

/-- The hand `x`, `y`, which makes category `k` on the board (`0` high card, … `4` straight, `5` flush, …), belongs in column `c` of the
draw table. -/
def HasDraw (board : List Nat) (k x y : Nat) : Nat → Prop
  | 0 => k < 4 ∧ OpenEnded (board ++ [x, y])
  | 1 => k < 4 ∧ Gutshot (board ++ [x, y])
  | 2 => k < 4 ∧ DoubleGutshot (board ++ [x, y])
  | 3 => k < 4 ∧ board.length = 3 ∧ BackdoorStraight (board ++ [x, y])
  | 4 => k = 4 ∧ NutStraight board (board ++ [x, y])
  | 5 => k < 5 ∧ ∃ s < 4, suitTotal (board ++ [x, y]) s = 4
  | 6 => k < 5 ∧ board.length = 3 ∧ ∃ s < 4, suitTotal (board ++ [x, y]) s = 3
  | 7 => k < 5 ∧ board.length = 3 ∧ ∃ s < 4, suitTotal (board ++ [x, y]) s = 3 ∧ HoldsBest board [x, y] s
  | 8 => k < 5 ∧ ∃ s < 4, suitTotal (board ++ [x, y]) s = 4 ∧ HoldsBest board [x, y] s
  | 9 => k = 5 ∧ ∃ s < 4, 5 ≤ suitTotal (board ++ [x, y]) s ∧ HoldsBest board [x, y] s
  | _ => False

theorem land_shift_bit (d c : Nat) : d &&& (1 <<< c) ≠ 0 ↔ d.testBit c = true := by
  rw [Nat.shiftLeft_eq, one_mul, Ne, Nat.and_two_pow]
  cases d.testBit c <;> simp

/-- The columns in terms of the flags: one column for each of the first seven, and three columns for the eighth, depending on the flags
for flush draws. -/
theorem inColumn_iff (c d : Nat) : InColumn c d ↔
    (c < 7 ∧ d.testBit c = true) ∨ (c = 7 ∧ d.testBit 7 = true ∧ d.testBit 6 = true ∧ d.testBit 5 = false) ∨
    (c = 8 ∧ d.testBit 7 = true ∧ d.testBit 5 = true) ∨
    (c = 9 ∧ d.testBit 7 = true ∧ d.testBit 6 = false ∧ d.testBit 5 = false) := by
  unfold InColumn
  rw [land_shift_bit]
  apply or_congr Iff.rfl
  unfold nutIndex
  have e6 : (1 <<< 7) >>> 1 = 1 <<< 6 := by decide
  have e5 : (1 <<< 7) >>> 2 = 1 <<< 5 := by decide
  simp only [e5, e6, land_shift_bit]
  cases d.testBit 7 <;> cases d.testBit 6 <;> cases d.testBit 5 <;> simp [eq_comm]

theorem suitTotal_add {cs : List Nat} {s t : Nat} (h : s ≠ t) : suitTotal cs s + suitTotal cs t ≤ cs.length := by
  unfold suitTotal
  induction cs with
  | nil => simp
  | cons c cs ih =>
    simp only [List.countP_cons, List.length_cons]
    by_cases h1 : suit c = s
    · have : ¬ suit c = t := fun e => h (h1.symm.trans e)
      simp [h1, h]; omega
    · by_cases h2 : suit c = t
      · have := h.symm
        simp [h2, this]; omega
      · simp [h1, h2]; omega

/-- C64: the column of a hand that is not complete: what `get_draw` reports, translated by `generate_board_data`. -/
theorem C64_column {board : List Nat} {x y : Nat} (h : IsCards (board ++ [x, y])) (h3 : 3 ≤ board.length) (h5 : board.length < 5) (c : Nat) :
    InColumn c (drawOf board x y) ↔ HasDraw board (madeCategory board x y) x y c := by
  obtain ⟨f0, f1, f2, f3, f4, f5, f6, f7, _⟩ := C46_flags h h5 (C46_no_panic h h5)
  have hl : (board ++ [x, y]).length = board.length + 2 := by simp
  have h43 : board.length < 4 ↔ board.length = 3 := by omega
  rw [h43] at f3 f6 f7
  rw [inColumn_iff]
  generalize madeCategory board x y = k at *
  generalize drawOf board x y = d at *
  have hnot : ∀ {q}, ¬ q = true ↔ q = false := fun {q} => by simp
  match c with
  | 0 => simpa [HasDraw] using f0
  | 1 => simpa [HasDraw] using f1
  | 2 => simpa [HasDraw] using f2
  | 3 => simpa [HasDraw] using f3
  | 4 => simpa [HasDraw] using f4
  | 5 => simpa [HasDraw] using f5
  | 6 => simpa [HasDraw] using f6
  | 7 =>
    simp only [HasDraw, ← hnot, f5, f6, f7]
    constructor
    · rintro (⟨h, _⟩ | ⟨_, ⟨s, hs, hb, hc⟩, ⟨hk, hl3, _⟩, hn⟩ | ⟨h, _⟩ | ⟨h, _⟩)
      · omega
      · refine ⟨hk, hl3, s, hs, ?_, hb⟩
        rcases hc with ⟨_, (h4 | h4)⟩ | ⟨h4, _⟩
        · exact absurd ⟨hk, s, hs, h4⟩ hn
        · exact h4.1
        · omega
      · omega
      · omega
    · rintro ⟨hk, hl3, s, hs, h3', hb⟩
      refine .inr (.inl ⟨trivial, ⟨s, hs, hb, .inl ⟨hk, .inr ⟨h3', hl3⟩⟩⟩, ⟨hk, hl3, s, hs, h3'⟩, ?_⟩)
      rintro ⟨_, t, ht, h4⟩
      have hne : s ≠ t := by rintro rfl; omega
      have := suitTotal_add (cs := board ++ [x, y]) hne
      omega
  | 8 =>
    simp only [HasDraw, f5, f7]
    constructor
    · rintro (⟨h, _⟩ | ⟨h, _⟩ | ⟨_, ⟨s, hs, hb, hc⟩, ⟨hk, t, ht, h4⟩⟩ | ⟨h, _⟩)
      · omega
      · omega
      · refine ⟨hk, s, hs, ?_, hb⟩
        rcases hc with ⟨_, (h4' | h4')⟩ | ⟨h4', _⟩
        · exact h4'
        · exfalso
          have hne : s ≠ t := by rintro rfl; omega
          have := suitTotal_add (cs := board ++ [x, y]) hne
          omega
        · omega
      · omega
    · rintro ⟨hk, s, hs, h4, hb⟩
      exact .inr (.inr (.inl ⟨trivial, ⟨s, hs, hb, .inl ⟨hk, .inl h4⟩⟩, hk, s, hs, h4⟩))
  | 9 =>
    simp only [HasDraw, ← hnot, f5, f6, f7]
    constructor
    · rintro (⟨h, _⟩ | ⟨h, _⟩ | ⟨h, _⟩ | ⟨_, ⟨s, hs, hb, hc⟩, hn6, hn5⟩)
      · omega
      · omega
      · omega
      · rcases hc with ⟨hk, (h4 | h4)⟩ | ⟨hk, h5'⟩
        · exact absurd ⟨hk, s, hs, h4⟩ hn5
        · exact absurd ⟨hk, h4.2, s, hs, h4.1⟩ hn6
        · exact ⟨hk, s, hs, h5', hb⟩
    · rintro ⟨hk, s, hs, h5', hb⟩
      refine .inr (.inr (.inr ⟨trivial, ⟨s, hs, hb, .inr ⟨hk, h5'⟩⟩, fun h => ?_, fun h => ?_⟩))
      · omega
      · omega
  | c + 10 =>
    simp only [HasDraw]
    constructor
    · rintro (⟨h, _⟩ | ⟨h, _⟩ | ⟨h, _⟩ | ⟨h, _⟩) <;> omega
    · exact False.elim

theorem holdsBest_more {board hole : List Nat} {s : Nat} (h : HoldsBest board hole s) (more : List Nat) : HoldsBest (board ++ more) hole s := by
  obtain ⟨x, hx, hs, hall⟩ := h
  exact ⟨x, hx, hs, fun y hy hys hxy => by simp [hall y hy hys hxy]⟩

/-- C64: what the "nut" flags of flush draws and flushes promise.  If the hand holds the best card of suit `s` that is not on the board,
then on any board that continues this one and gives it five cards of the suit, it beats every flush that other hole cards can make. -/
theorem C64_nut_flush {board more : List Nat} {x y u v s : Nat} (hbest : HoldsBest board [x, y] s)
    (h : IsCards (board ++ more ++ [x, y] ++ [u, v])) (h5 : (board ++ more).length ≤ 5)
    (hfl : 5 ≤ suitTotal (board ++ more ++ [x, y]) s) (hother : (ofCards (board ++ more ++ [u, v])).evaluate >>> 12 = 6) :
    (ofCards (board ++ more ++ [u, v])).evaluate < (ofCards (board ++ more ++ [x, y])).evaluate := by
  replace hbest := holdsBest_more hbest more
  generalize board ++ more = bd at *
  have hus : IsCards (bd ++ [x, y]) := ⟨(List.nodup_append.1 h.1).1, fun c hc => h.2 c (List.mem_append_left _ hc)⟩
  have hperm : (bd ++ [x, y] ++ [u, v]).Perm (bd ++ [u, v] ++ [x, y]) := by
    rw [List.append_assoc, List.append_assoc]
    exact (List.perm_append_comm).append_left bd
  have hoc : IsCards (bd ++ [u, v]) := ⟨(List.nodup_append.1 (hperm.nodup_iff.1 h.1)).1, fun c hc => h.2 c (by
    rcases List.mem_append.1 hc with hc | hc
    · exact List.mem_append_left _ (List.mem_append_left _ hc)
    · exact List.mem_append_right _ hc)⟩
  have hl1 : (bd ++ [x, y]).length = bd.length + 2 := by simp
  have hl2 : (bd ++ [u, v]).length = bd.length + 2 := by simp
  rw [(C01_evaluate_order hoc hus (by omega) (by omega) (by omega) (by omega)).1]
  obtain ⟨⟨T, hT, hmax⟩, hcat⟩ := C02_category hoc (by omega) (by omega)
  have hTc := (hcat T hT hmax).symm.trans hother
  obtain ⟨T', hT', he⟩ := best_mem (bd ++ [u, v])
  have hb : best (bd ++ [u, v]) = value T := le_antisymm (he ▸ hmax T' hT') (le_best hT)
  have hsub : T.Sublist (bd ++ [u, v]) := (List.mem_sublistsLen.1 hT).1
  obtain ⟨t, ht4, hTs⟩ := suitHand_of_category ⟨hoc.1.sublist hsub, fun c hc => hoc.2 c (hsub.subset hc)⟩ hTc
  have hbt : 5 ≤ suitTotal (bd ++ [u, v]) t := by
    have : suitTotal T t = 5 := by
      unfold suitTotal
      rw [List.countP_eq_length.2 (fun c hc => by simpa using hTs.suit c hc), hTs.length]
    rw [← this]
    exact hsub.countP_le
  have hhole : ∀ a b q, suitTotal (bd ++ [a, b]) q ≤ suitTotal bd q + 2 := fun a b q => by
    unfold suitTotal
    rw [List.countP_append]
    have := List.countP_le_length (p := fun c => decide (suit c = q)) (l := [a, b])
    simp only [List.length_cons, List.length_nil] at this
    omega
  have hst : t = s := by
    by_contra hne
    have h1 := hhole x y s
    have h2 := hhole u v t
    have := suitTotal_add (cs := bd) (Ne.symm hne)
    omega
  subst hst
  rw [hb]
  obtain ⟨z, hz, hzs, hzall⟩ := hbest
  have hz52 : z < 52 := hus.2 z (List.mem_append_right _ hz)
  have hze : 4 * (z / 4) + t = z := by unfold suit at hzs; omega
  refine best_beats (R := z / 4) hus hfl (by omega) (fun r hr hzr => ?_) hTs hTc ?_
  · by_cases e : r = z / 4
    · rw [e, hze]; exact List.mem_append_right _ hz
    · exact List.mem_append_left _ (hzall _ (by omega) (by unfold suit; omega) (by omega))
  · rw [hze]
    intro hzT
    have hzo := hsub.subset hzT
    have hdis := List.nodup_append.1 h.1
    rcases List.mem_append.1 hzo with hzb | hzo
    · exact (List.nodup_append.1 hus.1).2.2 z hzb z hz rfl
    · exact hdis.2.2 z (List.mem_append_right _ hz) z hzo rfl

theorem exists_missing {l : List Nat} {s : Nat} (hl : l.length < 13) : ∃ r ≤ 12, 4 * r + s ∉ l := by
  by_contra hc
  push Not at hc
  have hsub : (Finset.range 13).image (fun r => 4 * r + s) ⊆ l.toFinset := by
    intro c hm
    obtain ⟨r, hr, rfl⟩ := Finset.mem_image.1 hm
    rw [Finset.mem_range] at hr
    exact List.mem_toFinset.2 (hc r (by omega))
  have h1 := Finset.card_le_card hsub
  rw [Finset.card_image_of_injective _ (fun a b e => by simpa using e), Finset.card_range] at h1
  have := List.toFinset_card_le l
  omega

/-- C64: and a flush without this card is beaten by some other hole cards. -/
theorem C64_not_nut_flush {board : List Nat} {x y s : Nat} (hs : s < 4) (h : IsCards (board ++ [x, y])) (h5 : board.length ≤ 5)
    (hfl : 5 ≤ suitTotal (board ++ [x, y]) s) (hcat : (ofCards (board ++ [x, y])).evaluate >>> 12 = 6) (hno : ¬ HoldsBest board [x, y] s) :
    ∃ u v, IsCards (board ++ [x, y] ++ [u, v]) ∧ (ofCards (board ++ [x, y])).evaluate < (ofCards (board ++ [u, v])).evaluate := by
  have hl1 : (board ++ [x, y]).length = board.length + 2 := by simp
  let R := Nat.findGreatest (fun r => 4 * r + s ∉ board) 12
  obtain ⟨r0, hr0, hm0⟩ := exists_missing (l := board) (s := s) (by omega)
  have hR : 4 * R + s ∉ board := Nat.findGreatest_spec (P := fun r => 4 * r + s ∉ board) hr0 hm0
  have hR12 : R ≤ 12 := Nat.findGreatest_le 12
  have habove : ∀ r < 13, R < r → 4 * r + s ∈ board := fun r hr hRr => by
    simpa using Nat.findGreatest_is_greatest (P := fun r => 4 * r + s ∉ board) hRr (by omega : r ≤ 12)
  have hRh : 4 * R + s ∉ [x, y] := fun hin => hno ⟨_, hin, by unfold suit; omega, fun c hc hcs hlt => by
    have : c = 4 * (c / 4) + s := by unfold suit at hcs; omega
    rw [this]
    exact habove _ (by omega) (by omega)⟩
  obtain ⟨q, hq, hmq⟩ := exists_missing (l := board ++ [x, y] ++ [4 * R + s]) (s := s) (by simp; omega)
  simp only [List.mem_append, List.mem_singleton, not_or] at hmq
  obtain ⟨⟨hq1, hq2⟩, hq3⟩ := hmq
  have hall : IsCards (board ++ [x, y] ++ [4 * R + s, 4 * q + s]) := by
    refine ⟨List.nodup_append.2 ⟨h.1, by simp; omega, ?_⟩, fun c hc => ?_⟩
    · intro a ha b hb hab
      subst hab
      simp only [List.mem_append] at ha
      simp only [List.mem_cons, List.not_mem_nil, or_false] at hb
      rcases hb with rfl | rfl
      · exact ha.elim hR hRh
      · exact ha.elim hq1 hq2
    · rcases List.mem_append.1 hc with hc | hc
      · exact h.2 c hc
      · simp only [List.mem_cons, List.not_mem_nil, or_false] at hc; omega
  refine ⟨4 * R + s, 4 * q + s, hall, ?_⟩
  have hperm : (board ++ [x, y] ++ [4 * R + s, 4 * q + s]).Perm (board ++ [4 * R + s, 4 * q + s] ++ [x, y]) := by
    rw [List.append_assoc, List.append_assoc]
    exact (List.perm_append_comm).append_left board
  have hoc : IsCards (board ++ [4 * R + s, 4 * q + s]) := ⟨(List.nodup_append.1 (hperm.nodup_iff.1 hall.1)).1, fun c hc => hall.2 c (by
    rcases List.mem_append.1 hc with hc | hc
    · exact List.mem_append_left _ (List.mem_append_left _ hc)
    · exact List.mem_append_right _ hc)⟩
  have hl2 : (board ++ [4 * R + s, 4 * q + s]).length = board.length + 2 := by simp
  rw [(C01_evaluate_order h hoc (by omega) (by omega) (by omega) (by omega)).1]
  obtain ⟨⟨T, hT, hmax⟩, hcatT⟩ := C02_category h (by omega) (by omega)
  have hTc := (hcatT T hT hmax).symm.trans hcat
  obtain ⟨T', hT', he⟩ := best_mem (board ++ [x, y])
  have hb : best (board ++ [x, y]) = value T := le_antisymm (he ▸ hmax T' hT') (le_best hT)
  have hsub : T.Sublist (board ++ [x, y]) := (List.mem_sublistsLen.1 hT).1
  obtain ⟨t, ht4, hTs⟩ := suitHand_of_category ⟨h.1.sublist hsub, fun c hc => h.2 c (hsub.subset hc)⟩ hTc
  have hbt : 5 ≤ suitTotal (board ++ [x, y]) t := by
    have : suitTotal T t = 5 := by
      unfold suitTotal
      rw [List.countP_eq_length.2 (fun c hc => by simpa using hTs.suit c hc), hTs.length]
    rw [← this]
    exact hsub.countP_le
  have hst : t = s := by
    by_contra hne
    have := suitTotal_add (cs := board ++ [x, y]) hne
    omega
  subst hst
  rw [hb]
  refine best_beats (R := R) hoc ?_ (by omega) (fun r hr hRr => ?_) hTs hTc (fun hin => ?_)
  · have e1 : suitTotal (board ++ [x, y]) t ≤ suitTotal board t + 2 := by
      unfold suitTotal
      rw [List.countP_append]
      have := List.countP_le_length (p := fun c => decide (suit c = t)) (l := [x, y])
      simp only [List.length_cons, List.length_nil] at this
      omega
    have e2 : List.countP (fun c => decide (suit c = t)) [4 * R + t, 4 * q + t] = 2 := by
      rw [List.countP_eq_length.2]
      · rfl
      · intro c hc
        simp only [List.mem_cons, List.not_mem_nil, or_false] at hc
        unfold suit; simp only [decide_eq_true_eq]; omega
    rw [List.countP_append, e2]
    unfold suitTotal at e1 hfl
    omega
  · by_cases e : r = R
    · rw [e]; simp
    · exact List.mem_append_left _ (habove r hr (by omega))
  · have := hsub.subset hin
    exact (List.mem_append.1 this).elim hR hRh

/-- A flush draw to the best flush: ace of clubs with two clubs on the flop, against any other flush, and one that is beaten. -/
example : HoldsBest [0, 20, 33] [48, 4] 0 ∧ suitTotal ([0, 20, 33] ++ [48, 4]) 0 = 4 ∧
    InColumn 8 (drawOf [0, 20, 33] 48 4) ∧ ¬ InColumn 7 (drawOf [0, 20, 33] 48 4) ∧
    (ofCards ([0, 20, 33] ++ [24] ++ [44, 40])).evaluate < (ofCards ([0, 20, 33] ++ [24] ++ [48, 4])).evaluate := by
  have hb : HoldsBest [0, 20, 33] [48, 4] 0 := ⟨48, by simp, rfl, fun y h1 h2 h3 => by unfold suit at h2; omega⟩
  exact ⟨hb, by decide, by unfold InColumn nutIndex; decide +kernel, by unfold InColumn nutIndex; decide +kernel,
    C64_nut_flush hb (by decide) (by decide) (by decide) (by decide +kernel)⟩

example : ∃ u v, IsCards ([0, 20, 32] ++ [44, 4] ++ [u, v]) ∧
    (ofCards ([0, 20, 32] ++ [44, 4])).evaluate < (ofCards ([0, 20, 32] ++ [u, v])).evaluate :=
  C64_not_nut_flush (s := 0) (by decide) (by decide) (by decide) (by decide) (by decide +kernel) (by
    rintro ⟨z, hz, hs, hall⟩
    have := hall 48 (by decide) (by decide) (by simp at hz; omega)
    simp at this)

/-- The ten columns are all used: hands on the flop (or turn) that belong in each of them. -/
example : InColumn 0 (drawOf [4 * 9 + 0, 4 * 8 + 0, 4 * 2 + 1] (4 * 11 + 0) (4 * 10 + 1)) ∧
    InColumn 1 (drawOf [4 * 9 + 0, 4 * 8 + 0, 4 * 2 + 1] (4 * 12 + 0) (4 * 11 + 1)) ∧
    InColumn 2 (drawOf [4 * 9 + 0, 4 * 7 + 0, 4 * 5 + 1] (4 * 11 + 1) (4 * 8 + 2)) ∧
    InColumn 3 (drawOf [4 * 9 + 0, 4 * 8 + 0, 4 * 2 + 1] (4 * 12 + 2) (4 * 3 + 3)) ∧
    InColumn 4 (drawOf [4 * 9 + 0, 4 * 8 + 0, 4 * 10 + 1] (4 * 12 + 2) (4 * 11 + 3)) ∧
    InColumn 5 (drawOf [4 * 9 + 0, 4 * 8 + 0, 4 * 2 + 1] (4 * 3 + 0) (4 * 1 + 0)) ∧
    InColumn 6 (drawOf [4 * 9 + 0, 4 * 8 + 1, 4 * 2 + 1] (4 * 3 + 0) (4 * 1 + 0)) ∧
    InColumn 7 (drawOf [4 * 9 + 0, 4 * 8 + 1, 4 * 2 + 1] (4 * 12 + 0) (4 * 1 + 0)) ∧
    InColumn 9 (drawOf [4 * 9 + 0, 4 * 8 + 0, 4 * 2 + 0] (4 * 12 + 0) (4 * 1 + 0)) := by
  unfold InColumn nutIndex
  decide +kernel

example : HasDraw [4 * 9 + 0, 4 * 8 + 0, 4 * 2 + 1] (madeCategory [4 * 9 + 0, 4 * 8 + 0, 4 * 2 + 1] (4 * 11 + 0) (4 * 10 + 1))
    (4 * 11 + 0) (4 * 10 + 1) 0 :=
  (C64_column (by decide) (by decide) (by decide) 0).1 (by unfold InColumn nutIndex; decide +kernel)

section
variable {ranges : List (List Combo)} {b d nT : Nat} {cancelled stopped : Bool} {r : Results} {sent : List Nat} {sqrt : ℚ → ℚ}
    {ex : Bool} {s : Sim} {flag : Nat} {r0 : Results} {hist : List (Batch × HandStats)} {sd : List (List WHand × List Nat)}

/-- The record of the hand `q` of player `p`. -/
def recordOf (r : Results) (p : Nat) (q : Nat × Nat) : UnitResults := r.handResults (NUM_HANDS * p + getCardIndex q.1 q.2)

theorem Calc.flags (hdist : ∀ r ∈ ranges, DistinctHands r) (h : Calc sqrt ex ranges b d r s flag r0 hist sd)
    {p : Nat} (hp : p < ranges.length) {x y : Nat} (hx : x < 52) (hy : y < 52) (hxy : x ≠ y) (h3 : 3 ≤ (maskCards b).length) {w : Nat}
    (hav : Available ranges[p] b d x y w) :
    IsCards (maskCards b ++ [x, y]) ∧ (recordOf r p (x, y)).rank = madeCategory (maskCards b) x y ∧
      (recordOf r p (x, y)).draw = drawOf (maskCards b) x y := by
  obtain ⟨c, hc, hok, he⟩ := (h.hand_info hdist hp hx hy hxy).1 w hav
  have hco : countOnes b > 2 := by have := maskCards_length_le b; omega
  have hr : (recordOf r p (x, y)).rank = rankInfo b c := congrArg HandInfo.rank he
  have hdr : (recordOf r p (x, y)).draw = drawInfo b c := congrArg HandInfo.draw he
  rw [hr, hdr, rankInfo, drawInfo, if_pos hco, if_pos hco]
  rcases hc with ⟨rfl, rfl⟩ | ⟨rfl, rfl⟩
  · exact ⟨hok, rfl, rfl⟩
  · have hperm : (maskCards b ++ [c.c1, c.c2]).Perm (maskCards b ++ [c.c2, c.c1]) := (List.Perm.swap ..).append_left _
    exact ⟨⟨hperm.nodup_iff.1 hok.1, fun z hz => hok.2 z (hperm.mem_iff.2 hz)⟩, by rw [C03_perm hperm]; rfl, drawOf_comm _ _ _⟩

open Classical in
/-- The hands of player `p` in the range and not blocked, that have the draw of column `c`. -/
noncomputable def drawing (ranges : List (List Combo)) (b d p c : Nat) (r : Results) : List (Nat × Nat) :=
  allHands.filter fun q => decide ((∃ R w, ranges[p]? = some R ∧ Available R b d q.1 q.2 w) ∧ (maskCards b).length < 5 ∧
    HasDraw (maskCards b) (recordOf r p q).rank q.1 q.2 c)

open Classical in
theorem mem_drawing {p c : Nat} {q : Nat × Nat} : q ∈ drawing ranges b d p c r ↔ q ∈ allHands ∧
    (∃ R w, ranges[p]? = some R ∧ Available R b d q.1 q.2 w) ∧ (maskCards b).length < 5 ∧
    HasDraw (maskCards b) (recordOf r p q).rank q.1 q.2 c := by
  unfold drawing
  rw [List.mem_filter]
  exact and_congr_right fun _ => decide_eq_true_iff

theorem Calc.draw_table (hdist : ∀ r ∈ ranges, DistinctHands r) (h : Calc sqrt ex ranges b d r s flag r0 hist sd)
    {p : Nat} (hp : p < ranges.length) (h3 : 3 ≤ (maskCards b).length) {c : Nat} (hc : c < 10) :
    r.boardDraws (10 * p + c) = tableRecord (sumHands ((drawing ranges b d p c r).map (recordOf r p))) := by
  rw [(h.tables hdist hp h3).2 c hc]
  congr 2
  unfold drawHands drawing handsOf
  rw [List.filter_map]
  show List.map (recordOf r p) _ = _
  congr 1
  apply List.filter_congr
  rintro ⟨x, y⟩ hq
  obtain ⟨hx, hy, hne⟩ := mem_allHands.1 hq
  have hne' : x ≠ y := by rintro rfl; omega
  refine decide_eq_decide.2 ?_
  show (recordOf r p (x, y)).valid = true ∧ InColumn c (recordOf r p (x, y)).draw ↔ _
  rw [show (recordOf r p (x, y)).valid = true ↔ _ from (h.weights hdist hp hx hy hne').1]
  have hR : (∃ R w, ranges[p]? = some R ∧ Available R b d x y w) ↔ ∃ w, Available ranges[p] b d x y w := by
    rw [List.getElem?_eq_getElem hp]
    constructor
    · rintro ⟨R, w, e, hw⟩; cases e; exact ⟨w, hw⟩
    · rintro ⟨w, hw⟩; exact ⟨_, w, rfl, hw⟩
  rw [hR]
  refine and_congr_right fun ⟨w, hav⟩ => ?_
  obtain ⟨hok, hr, hdr⟩ := h.flags hdist hp hx hy hne' h3 hav
  rw [hdr, hr]
  by_cases h5 : (maskCards b).length < 5
  · rw [C64_column hok h3 h5]; exact (and_iff_right h5).symm
  · refine iff_of_false ?_ fun hh => h5 hh.1
    rw [inColumn_iff]
    unfold drawOf
    rw [if_neg h5]
    simp

/-- C64: with three or more board cards the draw flags reported for every hand of the range are those of `get_draw` for the category
reported; on a complete board there are none. -/
theorem C64_flags (hwf : ∀ r ∈ ranges, WfRange r) (hdist : ∀ r ∈ ranges, DistinctHands r) (hb : CardMask b) (hd : CardMask d)
    (h : ExactEquity ranges b d nT cancelled stopped (.ok r) sent) {p : Nat} (hp : p < ranges.length) {x y : Nat} (hx : x < 52)
    (hy : y < 52) (hxy : x ≠ y) (h3 : 3 ≤ (maskCards b).length) {w : Nat} (hav : Available ranges[p] b d x y w) :
    ((maskCards b).length < 5 →
      getDraw (Hand.fromHoleCards x y) (ofCards (maskCards b)) (recordOf r p (x, y)).rank = some (recordOf r p (x, y)).draw) ∧
    ((maskCards b).length = 5 → (recordOf r p (x, y)).draw = 0) := by
  obtain ⟨_, _, _, _, _, _, _, hc⟩ := exact_calc hwf hb hd h
  obtain ⟨h1, h2, h4⟩ := hc.flags hdist hp hx hy hxy h3 hav
  rw [h2, h4]
  refine ⟨fun h5 => C46_no_panic h1 h5, fun h5 => ?_⟩
  unfold drawOf
  rw [if_neg (by omega)]

/-- C64: with three or more board cards, column `c` of the draw table holds the sums over exactly those hands of the range that have the
draw of that column; on a complete board it is empty. -/
theorem C64_table (hwf : ∀ r ∈ ranges, WfRange r) (hdist : ∀ r ∈ ranges, DistinctHands r) (hb : CardMask b) (hd : CardMask d)
    (h : ExactEquity ranges b d nT cancelled stopped (.ok r) sent) {p : Nat} (hp : p < ranges.length) (h3 : 3 ≤ (maskCards b).length)
    {c : Nat} (hc : c < 10) : r.boardDraws (10 * p + c) = tableRecord (sumHands ((drawing ranges b d p c r).map (recordOf r p))) := by
  obtain ⟨_, _, _, _, _, _, _, hcalc⟩ := exact_calc hwf hb hd h
  exact hcalc.draw_table hdist hp h3 hc

/-- C64: the same for the random simulation. -/
theorem C64_table_approx (hwf : ∀ r ∈ ranges, WfRange r) (hdist : ∀ r ∈ ranges, DistinctHands r) (hb : CardMask b) (hd : CardMask d)
    {target : ℚ} (h : ApproxEquity sqrt ranges b d nT target cancelled (.ok r) sent) {p : Nat} (hp : p < ranges.length)
    (h3 : 3 ≤ (maskCards b).length) {c : Nat} (hc : c < 10) :
    r.boardDraws (10 * p + c) = tableRecord (sumHands ((drawing ranges b d p c r).map (recordOf r p))) := by
  obtain ⟨s, flag, r0, hist, sd, hrun, _⟩ := approx_run hwf hb hd h
  exact hrun.calc.draw_table hdist hp h3 hc

end

/-- On the flop 2c3d4h the aces (with a king-high hand against them) are in the column of the backdoor straight draws. -/
example (nT : Nat) : ∃ r sent, ExactEquity twoHands flopMask 0 nT false false (.ok r) sent ∧
    (recordOf r 0 (50, 51)).draw = 8 ∧ (50, 51) ∈ drawing twoHands flopMask 0 0 3 r := by
  obtain ⟨r, sent, h⟩ := two_run nT false
  have hwf : ∀ r ∈ twoHands, WfRange r := by unfold WfRange twoHands; decide
  have hds : ∀ r ∈ twoHands, DistinctHands r := by unfold DistinctHands twoHands; decide
  have hb : CardMask flopMask := by unfold CardMask; decide
  have hav : Available twoHands[0] flopMask 0 50 51 100 := by unfold Available twoHands; decide +kernel
  obtain ⟨_, _, _, _, _, _, _, hc⟩ := exact_calc hwf hb zero_deck h
  obtain ⟨h1, h2, h3⟩ := hc.flags hds (p := 0) (by decide) (by decide) (by decide) (by decide) (by decide +kernel) hav
  refine ⟨r, sent, h, h3.trans (by decide +kernel), ?_⟩
  refine mem_drawing.2 ⟨by decide +kernel, ⟨_, _, rfl, hav⟩, by decide +kernel, ?_⟩
  rw [h2]
  exact (C64_column h1 (by decide +kernel) (by decide +kernel) 3).1 (by unfold InColumn nutIndex; decide +kernel)

end Pokers

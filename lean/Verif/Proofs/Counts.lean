import Verif.Proofs.Exact
import Verif.Props.Index
import Mathlib.Algebra.BigOperators.Group.List.Basic
/-!
# The counters in terms of showdowns
-/
namespace Pokers
open Spec CombinedRange

/-- The sum of the contributions of a list of showdowns. -/
def sdTally (sd : List (List WHand × List Nat)) : Tally :=
  (sd.map fun x => Spec.dealWeight x.1 • contrib x.1.length (cellIndex (phOf x.1)) (winners x.2 x.1)).sum

theorem sdTally_nil : sdTally [] = 0 := rfl

theorem sdTally_cons (x : List WHand × List Nat) (sd : List (List WHand × List Nat)) : sdTally (x :: sd) =
    Spec.dealWeight x.1 • contrib x.1.length (cellIndex (phOf x.1)) (winners x.2 x.1) + sdTally sd := by
  unfold sdTally; rw [List.map_cons, List.sum_cons]

theorem sdTally_append (x y : List (List WHand × List Nat)) : sdTally (x ++ y) = sdTally x + sdTally y := by
  unfold sdTally; rw [List.map_append, List.sum_append]

/-- The showdowns of one deal. -/
def dealShows (board dead : List Nat) (d : List WHand) : List (List WHand × List Nat) := (boards board dead d).map fun B => (d, B)

theorem dealTally_eq (board dead : List Nat) (d : List WHand) : dealTally board dead d = sdTally (dealShows board dead d) := by
  unfold dealTally sdTally dealShows
  rw [List.map_map]
  induction boards board dead d with
  | nil => simp
  | cons B bs ih =>
    rw [List.map_cons, List.sum_cons, nsmul_add, ih, List.map_cons, List.sum_cons]
    rfl

theorem sdTally_flatMap (ds : List (List WHand)) (board dead : List Nat) :
    (ds.map (dealTally board dead)).sum = sdTally (ds.flatMap (dealShows board dead)) := by
  induction ds with
  | nil => rfl
  | cons d ds ih => rw [List.map_cons, List.sum_cons, List.flatMap_cons, sdTally_append, ih, dealTally_eq]

/-! ## Weights of showdowns -/

theorem weightOf_nil (P : List WHand × List Nat → Prop) [DecidablePred P] : weightOf [] P = 0 := rfl

theorem weightOf_cons (x : List WHand × List Nat) (sd : List (List WHand × List Nat)) (P : List WHand × List Nat → Prop) [DecidablePred P] :
    weightOf (x :: sd) P = (if P x then Spec.dealWeight x.1 else 0) + weightOf sd P := by
  unfold weightOf
  rw [List.filter_cons]
  by_cases h : P x
  · simp [h]
  · simp [h]

/-- Winner masks. -/
theorem sdTally_mask (sd : List (List WHand × List Nat)) (i : Nat) :
    (sdTally sd).1 i = weightOf sd fun x => u8Mask (winners x.2 x.1) = i := by
  induction sd with
  | nil => rfl
  | cons x sd ih =>
    rw [sdTally_cons, weightOf_cons, ← ih]
    show Spec.dealWeight x.1 • (Pi.single (u8Mask (winners x.2 x.1)) 1 : Nat → Nat) i + (sdTally sd).1 i = _
    congr 1
    by_cases h : u8Mask (winners x.2 x.1) = i
    · subst h; rw [Pi.single_eq_same, if_pos rfl]; simp
    · rw [Pi.single_eq_of_ne (fun h' => h h'.symm), if_neg h]; simp

theorem u8Mask_filter (P : Nat → Bool) : ∀ n, n ≤ 8 → u8Mask ((List.range n).filter P) < 2 ^ n ∧
    ∀ j, (u8Mask ((List.range n).filter P)).testBit j = (decide (j < n) && P j) := by
  intro n
  induction n with
  | zero => intro _; exact ⟨by simp [u8Mask], fun j => by simp [u8Mask]⟩
  | succ n ih =>
    intro hn
    obtain ⟨h1, h2⟩ := ih (by omega)
    have h2n : (2 : Nat) ^ n % 2 ^ 8 = 2 ^ n := Nat.mod_eq_of_lt (Nat.pow_lt_pow_right (by omega) (by omega))
    have e : u8Mask ((List.range (n + 1)).filter P) = u8Mask ((List.range n).filter P) + if P n then 2 ^ n else 0 := by
      rw [List.range_succ, List.filter_append, u8Mask_append]
      congr 1
      cases hp : P n
      · simp [u8Mask, hp]
      · rw [List.filter_cons_of_pos hp, List.filter_nil]
        simpa [u8Mask] using h2n
    rw [e]
    generalize u8Mask ((List.range n).filter P) = m at h1 h2
    have hpow : (2 : Nat) ^ (n + 1) = 2 ^ n + 2 ^ n := by rw [pow_succ]; omega
    cases hp : P n
    · simp only [Bool.false_eq_true, if_false, add_zero]
      refine ⟨by omega, fun j => ?_⟩
      rw [h2]
      by_cases hj : j = n
      · subst hj; simp [hp]
      · have : j < n ↔ j < n + 1 := by omega
        simp only [this]
    · simp only [if_true]
      refine ⟨by omega, fun j => ?_⟩
      rw [← or_shift m n h1, Nat.testBit_or, h2, Nat.testBit_two_pow]
      by_cases hj : j = n
      · subst hj; simp [hp]
      · have : j < n ↔ j < n + 1 := by omega
        simp [this, Ne.symm hj]

/-- The players of a mask. -/
def maskPlayers (n i : Nat) : List Nat := (List.range n).filter fun p => i.testBit p

theorem winners_filter (B : List Nat) (d : List WHand) : winners B d =
    (List.range d.length).filter fun i => decide (∀ j < d.length, strength B d j ≤ strength B d i) := rfl

/-- With at most eight players the mask determines the winners. -/
theorem u8Mask_eq_iff {B : List Nat} {d : List WHand} (h8 : d.length ≤ 8) {i : Nat} (hi : i < 2 ^ d.length) :
    u8Mask (winners B d) = i ↔ winners B d = maskPlayers d.length i := by
  rw [winners_filter]
  generalize (fun i => decide (∀ j < d.length, strength B d j ≤ strength B d i)) = P
  obtain ⟨h1, h2⟩ := u8Mask_filter P d.length h8
  constructor
  · rintro rfl
    unfold maskPlayers
    apply List.filter_congr
    intro p hp
    rw [h2, decide_eq_true (List.mem_range.1 hp), Bool.true_and]
  · intro h
    rw [h]
    obtain ⟨h3, h4⟩ := u8Mask_filter (fun p => i.testBit p) d.length h8
    apply Nat.eq_of_testBit_eq
    intro j
    rw [maskPlayers, h4]
    by_cases hj : j < d.length
    · simp [hj]
    · rw [Nat.testBit_lt_two_pow (lt_of_lt_of_le hi (Nat.pow_le_pow_right (by omega) (by omega)))]; simp [hj]

/-! ## Hand cells -/

theorem single_sum_apply {α : Type} (l : List α) (key : α → Nat) (v : Cell) (k : Nat) :
    (l.map fun a => (Pi.single (key a) v : Nat → Cell)).sum k = (l.map fun a => if key a = k then v else 0).sum := by
  induction l with
  | nil => rfl
  | cons a l ih =>
    rw [List.map_cons, List.sum_cons, Pi.add_apply, ih, List.map_cons, List.sum_cons]
    congr 1
    by_cases h : key a = k
    · subst h; rw [Pi.single_eq_same, if_pos rfl]
    · rw [Pi.single_eq_of_ne (fun h' => h h'.symm), if_neg h]

theorem sum_ite_one (l : List Nat) (hl : l.Nodup) (p : Nat) (Q : Nat → Prop) [DecidablePred Q] (hQ : ∀ i ∈ l, Q i → i = p) (v : Cell) :
    (l.map fun i => if Q i then v else 0).sum = if p ∈ l ∧ Q p then v else 0 := by
  induction l with
  | nil => simp
  | cons a l ih =>
    rw [List.map_cons, List.sum_cons, ih (List.nodup_cons.1 hl).2 (fun i hi => hQ i (by simp [hi]))]
    have hna := (List.nodup_cons.1 hl).1
    by_cases ha : Q a
    · have := hQ a (by simp) ha
      subst this
      rw [if_pos ha, if_neg (fun h => hna h.1), if_pos ⟨by simp, ha⟩, add_zero]
    · rw [if_neg ha, zero_add]
      by_cases hp : p ∈ l ∧ Q p
      · rw [if_pos hp, if_pos ⟨by simp [hp.1], hp.2⟩]
      · rw [if_neg hp, if_neg]
        rintro ⟨h1, h2⟩
        rcases List.mem_cons.1 h1 with rfl | h1
        · exact ha h2
        · exact hp ⟨h1, h2⟩

/-- All hands are two different cards of the deck. -/
def WfDeal (d : List WHand) : Prop := ∀ h ∈ d, h.1 < 52 ∧ h.2.1 < 52 ∧ h.1 ≠ h.2.1

theorem cellIndex_eq {d : List WHand} (hd : WfDeal d) {p a b : Nat} (ha : a < 52) (hb : b < 52) (hab : a ≠ b) {i : Nat}
    (hi : i < d.length) : cellIndex (phOf d) i = NUM_HANDS * p + getCardIndex a b ↔ i = p ∧ Holds p a b d := by
  have hw := hd (d.getD i (0, 0, 0)) (by rw [List.getD_eq_getElem _ _ hi]; exact List.getElem_mem hi)
  have l1 := C10_card_index_bijective.2.1 _ hw.1 _ hw.2.1 hw.2.2
  have l2 := C10_card_index_bijective.2.1 a ha b hb hab
  unfold cellIndex phOf NUM_HANDS
  constructor
  · intro h
    have hip : i = p := by omega
    subst hip
    refine ⟨rfl, hi, ?_⟩
    exact C10_card_index_bijective.2.2.1 _ hw.1 _ hw.2.1 a ha b hb hw.2.2 hab (by omega)
  · rintro ⟨rfl, _, h⟩
    rcases h with ⟨h1, h2⟩ | ⟨h1, h2⟩
    · rw [h1, h2]
    · rw [h1, h2, C10_card_index_bijective.1 b a]

/-- What a showdown adds to the cell of the hand `a`, `b` of player `p`. -/
theorem contrib_cell {d : List WHand} (hd : WfDeal d) {W : List Nat} (hW : W.Nodup) (hWn : ∀ i ∈ W, i < d.length) {p a b : Nat}
    (ha : a < 52) (hb : b < 52) (hab : a ≠ b) :
    (contrib d.length (cellIndex (phOf d)) W).2 (NUM_HANDS * p + getCardIndex a b) =
      (if Holds p a b d ∧ W = [p] then 1 else 0, if Holds p a b d ∧ p ∈ W ∧ W ≠ [p] then 1 else 0,
       if Holds p a b d then 1 else 0, if Holds p a b d ∧ p ∈ W ∧ W ≠ [p] then 1 / (W.length : ℚ) else 0) := by
  have key : ∀ (l : List Nat), l.Nodup → (∀ i ∈ l, i < d.length) → ∀ v : Cell,
      (l.map fun i => (Pi.single (cellIndex (phOf d) i) v : Nat → Cell)).sum (NUM_HANDS * p + getCardIndex a b) =
        if p ∈ l ∧ Holds p a b d then v else 0 := by
    intro l hl hln v
    rw [single_sum_apply]
    have e : (l.map fun i => if cellIndex (phOf d) i = NUM_HANDS * p + getCardIndex a b then v else 0) =
        l.map fun i => if i = p ∧ Holds p a b d then v else 0 := by
      apply List.map_congr_left
      intro i hi
      have := cellIndex_eq hd ha hb hab (p := p) (hln i hi)
      by_cases h : i = p ∧ Holds p a b d
      · rw [if_pos h, if_pos (this.2 h)]
      · rw [if_neg h, if_neg (fun h' => h (this.1 h'))]
    rw [e, sum_ite_one l hl p (fun i => i = p ∧ Holds p a b d) (fun i _ h => h.1)]
    simp
  unfold contrib
  show (((List.range d.length).map fun i => (Pi.single (cellIndex (phOf d) i) ((0, 0, 1, 0) : Cell) : Nat → Cell)).sum + _)
    (NUM_HANDS * p + getCardIndex a b) = _
  rw [Pi.add_apply, key _ List.nodup_range (fun i hi => List.mem_range.1 hi)]
  have hmem : (p ∈ List.range d.length ∧ Holds p a b d) ↔ Holds p a b d := by
    constructor
    · exact fun h => h.2
    · exact fun h => ⟨List.mem_range.2 h.1, h⟩
  simp only [hmem]
  by_cases hlen : W.length = 1
  · obtain ⟨q, rfl⟩ := List.length_eq_one_iff.1 hlen
    rw [if_pos hlen, key _ hW hWn]
    by_cases hH : Holds p a b d <;> by_cases hq : q = p
    · subst hq; simp [hH]
    · simp [hH, hq, Ne.symm hq]
    · subst hq; simp [hH]; rfl
    · simp [hH]; rfl
  · rw [if_neg hlen, key _ hW hWn]
    have hne : W ≠ [p] := by rintro rfl; exact hlen rfl
    by_cases hH : Holds p a b d <;> by_cases hp : p ∈ W
    · simp [hH, hp, hne]
    · simp [hH, hp, hne]
    · simp [hH]; rfl
    · simp [hH]; rfl

theorem winners_nodup (B : List Nat) (d : List WHand) : (winners B d).Nodup := List.nodup_range.filter _
theorem winners_lt {B : List Nat} {d : List WHand} {i : Nat} (h : i ∈ winners B d) : i < d.length :=
  List.mem_range.1 (List.mem_filter.1 h).1

/-- The cell of a hand: wins, ties, total and share. -/
theorem sdTally_cell (sd : List (List WHand × List Nat)) (hsd : ∀ x ∈ sd, WfDeal x.1) {p a b : Nat} (ha : a < 52) (hb : b < 52)
    (hab : a ≠ b) : (sdTally sd).2 (NUM_HANDS * p + getCardIndex a b) =
      (handWins sd p a b, handTies sd p a b, handTotal sd p a b, handShares sd p a b) := by
  induction sd with
  | nil => rfl
  | cons x sd ih =>
    have hc := contrib_cell (hsd x (by simp)) (winners_nodup x.2 x.1) (fun i hi => winners_lt hi) ha hb hab (p := p)
    rw [sdTally_cons]
    show Spec.dealWeight x.1 • (contrib x.1.length (cellIndex (phOf x.1)) (winners x.2 x.1)).2 (NUM_HANDS * p + getCardIndex a b) +
      (sdTally sd).2 (NUM_HANDS * p + getCardIndex a b) = _
    rw [ih (fun y hy => hsd y (by simp [hy])), hc]
    unfold handWins handTies handTotal
    rw [weightOf_cons, weightOf_cons, weightOf_cons]
    have hsh : handShares (x :: sd) p a b = Spec.dealWeight x.1 • (if Holds p a b x.1 ∧ p ∈ winners x.2 x.1 ∧ winners x.2 x.1 ≠ [p]
        then 1 / ((winners x.2 x.1).length : ℚ) else 0) + handShares sd p a b := by
      unfold handShares
      rw [List.filter_cons]
      by_cases h : Holds p a b x.1 ∧ p ∈ winners x.2 x.1 ∧ winners x.2 x.1 ≠ [p]
      · rw [if_pos h, if_pos (decide_eq_true h), List.map_cons, List.sum_cons, nsmul_eq_mul, mul_one_div]
      · rw [if_neg h, if_neg (fun h' => h (of_decide_eq_true h')), smul_zero, zero_add]
    have hnat : ∀ (P : Prop) [Decidable P], Spec.dealWeight x.1 • (if P then 1 else 0) = if P then Spec.dealWeight x.1 else 0 := by
      intro P _; by_cases h : P <;> simp [h]
    rw [hsh, ← hnat, ← hnat, ← hnat]
    rfl

/-! ## The results of a run -/

section
variable {ranges : List (List Combo)} {b d : Nat} {s : Sim} {ds : List DividerU64} {total size : Nat}

/-- The showdowns of the deals at a collection of positions. -/
def posShows (s : Sim) (ds : List DividerU64) (pos : Nat) : List (List WHand × List Nat) :=
  match s.decode ds pos with
  | some (some x) => dealShows (maskCards s.boardMask) (maskCards s.deadMask) ((List.range s.nPlayers).map x.2)
  | _ => []

theorem posFull_fst (s : Sim) (ds : List DividerU64) (pos : Nat) :
    ((posFull s ds pos).1.1, (posFull s ds pos).1.2) =
      (cut (2 ^ s.nPlayers) (sdTally (posShows s ds pos)).1, cut (NUM_HANDS * s.nPlayers) (sdTally (posShows s ds pos)).2) := by
  unfold posFull posShows
  cases hdec : s.decode ds pos with
  | none => rfl
  | some o =>
    cases o with
    | none => rfl
    | some x =>
      simp only
      rw [← dealTally_eq]
      rfl

/-- A list of positions: the sum of the contributions is that of the list of showdowns. -/
theorem sumOf_posFull (s : Sim) (ds : List DividerU64) (D : List Nat) :
    (sumOf (posFull s ds) (D : Multiset Nat)).1 =
      (cut (2 ^ s.nPlayers) (sdTally (D.flatMap (posShows s ds))).1,
       cut (NUM_HANDS * s.nPlayers) (sdTally (D.flatMap (posShows s ds))).2) := by
  induction D with
  | nil =>
    refine Prod.ext ?_ ?_
    · exact (cut_zero _).symm
    · exact (cut_zero _).symm
  | cons p D ih =>
    have e : sumOf (posFull s ds) ((p :: D : List Nat) : Multiset Nat) = posFull s ds p + sumOf (posFull s ds) (D : Multiset Nat) := by
      unfold sumOf
      rw [← Multiset.cons_coe, Multiset.map_cons, Multiset.sum_cons]
    rw [e]
    show (posFull s ds p).1 + (sumOf (posFull s ds) (D : Multiset Nat)).1 = _
    rw [ih, List.flatMap_cons, sdTally_append]
    have hp := posFull_fst s ds p
    refine Prod.ext ?_ ?_
    · refine Eq.trans ?_ (cut_add _ _ _).symm
      exact congrArg (· + _) (congrArg Prod.fst hp)
    · refine Eq.trans ?_ (cut_add _ _ _).symm
      exact congrArg (· + _) (congrArg Prod.snd hp)

theorem showdowns_eq (ranges : List (List WHand)) (board dead : List Nat) :
    showdowns ranges board dead = (deals ranges (board ++ dead)).flatMap (dealShows board dead) := rfl

/-- All positions together give all showdowns. -/
theorem Ready.all_showdowns (h : Ready ranges b d s ds total size) :
    (((List.range total).flatMap (posShows s ds)).Perm (showdowns (specRanges ranges) (maskCards b) (maskCards d))) := by
  have hC := (C28_decode h.wf h.boardMask h.deadMask h.ok h.dividers h.count).2
  obtain ⟨_, h2, h3, _⟩ := h.fields
  rw [showdowns_eq]
  refine List.Perm.trans (List.Perm.of_eq ?_) (hC.flatMap_right _)
  generalize List.range total = l
  induction l with
  | nil => rfl
  | cons p l ih =>
    rw [List.flatMap_cons, List.filterMap_cons, ih]
    unfold posShows
    cases hdec : s.decode ds p with
    | none => rfl
    | some o =>
      cases o with
      | none => rfl
      | some x => simp [h2, h3]

/-- Every showdown met by the enumeration is one of all showdowns. -/
theorem Ready.posShows_mem (h : Ready ranges b d s ds total size) {pos : Nat} (hpos : pos < total) {x : List WHand × List Nat}
    (hx : x ∈ posShows s ds pos) : x ∈ showdowns (specRanges ranges) (maskCards b) (maskCards d) :=
  h.all_showdowns.mem_iff.1 (List.mem_flatMap.2 ⟨pos, List.mem_range.2 hpos, hx⟩)

theorem showdowns_wf (hwf : ∀ r ∈ ranges, WfRange r) {board dead : List Nat} {x : List WHand × List Nat}
    (hx : x ∈ showdowns (specRanges ranges) board dead) : WfDeal x.1 ∧ x.1.length = ranges.length := by
  unfold showdowns at hx
  obtain ⟨dd, hdd, hx⟩ := List.mem_flatMap.1 hx
  obtain ⟨B, _, rfl⟩ := List.mem_map.1 hx
  obtain ⟨h1, h2, _, _⟩ := deals_wf hwf hdd
  exact ⟨h2, h1⟩

end

end Pokers

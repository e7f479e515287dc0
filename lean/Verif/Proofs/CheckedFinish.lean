import Verif.Model.CheckedFinish
import Verif.Proofs.CheckedRun
import Verif.Proofs.CheckedSound
import Verif.Proofs.CheckedMc
import Verif.Proofs.Describe
/-!
# The checks before and after the threads
-/
namespace Pokers

theorem foldlM_some {σ α : Type} {f : σ → α → σ} {fC : σ → α → Option σ} (l : List α) (h : ∀ s, ∀ a ∈ l, fC s a = some (f s a)) :
    ∀ s, l.foldlM fC s = some (l.foldl f s) := by
  induction l with
  | nil => intro s; rfl
  | cons a l ih =>
    intro s
    rw [List.foldlM_cons, h s a (by simp)]
    exact ih (fun s b hb => h s b (by simp [hb])) _

/-- A fold with an invariant that depends on the number of elements seen. -/
theorem foldlM_inv {σ α : Type} {f : σ → α → σ} {fC : σ → α → Option σ} (I : Nat → σ → Prop) (l : List α) :
    ∀ (k : Nat) (s : σ), I k s →
    (∀ a ∈ l, ∀ j s, k ≤ j → j < k + l.length → I j s → fC s a = some (f s a) ∧ I (j + 1) (f s a)) →
    l.foldlM fC s = some (l.foldl f s) ∧ I (k + l.length) (l.foldl f s) := by
  induction l with
  | nil => intro k s h _; exact ⟨rfl, h⟩
  | cons a l ih =>
    intro k s h hs
    have hlen : (a :: l).length = l.length + 1 := rfl
    obtain ⟨h1, h2⟩ := hs a (by simp) k s le_rfl (by omega) h
    obtain ⟨h3, h4⟩ := ih (k + 1) (f s a) h2 (fun b hb j s h1 h2 => hs b (by simp [hb]) j s (by omega) (by omega))
    refine ⟨?_, ?_⟩
    · rw [List.foldlM_cons, h1]; exact h3
    · rw [hlen, show k + (l.length + 1) = k + 1 + l.length by omega]; exact h4

/-! ## Indices -/

theorem getCardIndexC_eq {a b : Nat} (ha : a < 52) (hb : b < 52) (hab : a ≠ b) : getCardIndexC a b = some (getCardIndex a b) := by
  have hbound := (C06_card_index_in_bounds ha hb hab).1
  unfold getCardIndexC getCardIndex
  unfold cardMapIndex at *
  simp only at *
  generalize hc1 : (if a > b then b else a) = c1 at *
  generalize hc2 : (if a > b then a else b) = c2 at *
  have h1 : c1 < 52 := by rw [← hc1]; split <;> assumption
  have h2 : c2 < 52 := by rw [← hc2]; split <;> assumption
  have h3 : 1 ≤ c2 := by rw [← hc2]; split <;> omega
  have h4 : c1 * (101 - c1) ≤ 52 * 101 := Nat.mul_le_mul (by omega) (by omega)
  unfold subC fits
  rw [if_pos (show c1 ≤ 101 by omega)]
  simp only [Option.bind_eq_bind, Option.bind_some]
  rw [if_pos (show c1 * (101 - c1) < 2 ^ 64 by omega)]
  simp only [Option.bind_some]
  rw [if_pos (show c1 * (101 - c1) / 2 + c2 < 2 ^ 64 by omega)]
  simp only [Option.bind_some]
  rw [if_pos (show 1 ≤ c1 * (101 - c1) / 2 + c2 by omega)]
  simp only [Option.bind_some]
  rw [if_pos hbound]

theorem cellC_eq {n i : Nat} {c : Combo} (hi : i < n) (hn : n ≤ 16) (h : c.c1 < 52 ∧ c.c2 < 52 ∧ c.c1 ≠ c.c2) :
    cellC (NUM_HANDS * n) i c = some (NUM_HANDS * i + getCardIndex c.c1 c.c2) := by
  have hlt := cell_lt hi h.1 h.2.1 h.2.2
  unfold cellC
  rw [getCardIndexC_eq h.1 h.2.1 h.2.2]
  simp only [Option.bind_eq_bind, Option.bind_some]
  have : NUM_HANDS * n ≤ NUM_HANDS * 16 := Nat.mul_le_mul le_rfl hn
  unfold fits
  rw [if_pos (by have : NUM_HANDS * 16 < 2 ^ 64 := by decide
                 omega)]
  simp only [Option.bind_some]
  rw [if_pos hlt]

theorem shlC_one {w i : Nat} (hi : i < w) : shlC w 1 i = some (1 <<< i) := by
  unfold shlC
  rw [if_pos hi, Nat.mod_eq_of_lt]
  rw [Nat.one_shiftLeft]
  exact Nat.pow_lt_pow_right (by omega) hi

theorem zipIdx_fst {α : Type} {l : List α} {x : α × Nat} (h : x ∈ l.zipIdx) : x.1 ∈ l ∧ x.2 < l.length := by
  have := List.mem_zipIdx h
  refine ⟨this.2.2 ▸ List.getElem_mem _, ?_⟩
  have := this.2.1
  omega

theorem bind_some_map {α β : Type} (o : Option α) (f : α → β) : (o.bind fun x => some (f x)) = o.map f := by cases o <;> rfl

/-! ## Before the threads -/

section
variable {hrs : List (List Combo)}

theorem saveHandWeightsC_eq (hwf : ∀ r ∈ hrs, WfRange r) (hn : hrs.length ≤ 16) (hr : Nat → UnitResults) :
    saveHandWeightsC (NUM_HANDS * hrs.length) hrs hr = some (saveHandWeights hrs hr) := by
  unfold saveHandWeightsC saveHandWeights
  apply foldlM_some
  rintro x ⟨range, i⟩ hx
  obtain ⟨hm, hi⟩ := zipIdx_fst hx
  simp only at hm hi
  have hw := hwf _ hm
  simp only
  rw [shlC_one (show i < 16 by omega)]
  simp only [Option.bind_eq_bind, Option.bind_some]
  rw [foldlM_some (f := fun (y : (Nat → UnitResults) × Bool × Nat) (hand : Combo) =>
      let k := NUM_HANDS * i + getCardIndex hand.c1 hand.c2
      let u : UnitResults := { y.1 k with weight := hand.w, valid := true }
      let hr := Function.update y.1 k u
      if y.2.1 && u.valid && u.weight != 100 then (hr, false, y.2.2 ^^^ (1 <<< i)) else (hr, y.2.1, y.2.2)) range]
  · simp only [Option.bind_some]
    split
    · rw [foldlM_some (f := fun (hr : Nat → UnitResults) (hand : Combo) =>
        let k := NUM_HANDS * i + getCardIndex hand.c1 hand.c2
        if (hr k).valid then Function.update hr k { hr k with weight := 1 } else hr) range]
      · rfl
      · intro g c hc
        rw [cellC_eq hi hn (hw c hc)]
        rfl
    · rfl
  · intro y c hc
    rw [cellC_eq hi hn (hw c hc)]
    simp only [Option.bind_some]
    split <;> rfl

theorem fixHandWeightsC_eq (hwf : ∀ r ∈ hrs, WfRange r) (hn : hrs.length ≤ 16) (flag : Nat) (hr : Nat → UnitResults) :
    fixHandWeightsC (NUM_HANDS * hrs.length) hrs flag hr = some (fixHandWeights hrs flag hr) := by
  unfold fixHandWeightsC fixHandWeights
  apply foldlM_some
  rintro x ⟨range, i⟩ hx
  obtain ⟨hm, hi⟩ := zipIdx_fst hx
  simp only at hm hi
  have hw := hwf _ hm
  simp only
  rw [shlC_one (show i < 16 by omega)]
  simp only [Option.bind_eq_bind, Option.bind_some]
  split
  · apply foldlM_some
    intro g c hc
    rw [cellC_eq hi hn (hw c hc)]
    rfl
  · rfl

theorem rankHandC_eq {c : Combo} (h : c.c1 < 52 ∧ c.c2 < 52 ∧ c.c1 ≠ c.c2) (board : Hand) (u : UnitResults) :
    rankHandC board c u = rankHand board c u := by
  unfold rankHandC rankHand fromHoleCardsC cardC CARD_COUNT
  rw [if_pos h.1, if_pos h.2.1]
  simp only [Option.bind_eq_bind, Option.bind_some]
  split
  · exact bind_some_map _ _
  · rfl

theorem foldlM_congr {σ α : Type} {f g : σ → α → Option σ} (l : List α) (h : ∀ s, ∀ a ∈ l, f s a = g s a) :
    ∀ s, l.foldlM f s = l.foldlM g s := by
  induction l with
  | nil => intro s; rfl
  | cons a l ih =>
    intro s
    rw [List.foldlM_cons, List.foldlM_cons, h s a (by simp)]
    cases g s a with
    | none => rfl
    | some t => exact ih (fun s b hb => h s b (by simp [hb])) t

theorem setRanksC_eq (hwf : ∀ r ∈ hrs, WfRange r) (hn : hrs.length ≤ 16) (b : Nat) (hr : Nat → UnitResults) :
    setRanksC (NUM_HANDS * hrs.length) hrs b hr = setRanks hrs b hr := by
  unfold setRanksC setRanks
  simp only
  apply foldlM_congr
  rintro x ⟨range, i⟩ hx
  obtain ⟨hm, hi⟩ := zipIdx_fst hx
  simp only at hm hi
  have hw := hwf _ hm
  simp only
  apply foldlM_congr
  intro g c hc
  rw [cellC_eq hi hn (hw c hc)]
  simp only [Option.bind_eq_bind, Option.bind_some]
  rw [rankHandC_eq (hw c hc)]
  exact bind_some_map _ _

theorem startResultsC_eq {s : Sim} (hwf : ∀ r ∈ s.handRanges, WfRange r) (hlen : s.handRanges.length = s.nPlayers) (hn : s.nPlayers ≤ 16) :
    startResultsC s = startResults s := by
  unfold startResultsC startResults
  simp only
  rw [← hlen] at hn ⊢
  rw [saveHandWeightsC_eq hwf hn]
  simp only [Option.bind_eq_bind, Option.bind_some]
  rw [setRanksC_eq hwf hn]
  split
  · exact bind_some_map _ _
  · rfl

end

/-! ## The description of the hands -/

/-- A weight written by `save_hand_weights` fits in eight bits, and only hands of the ranges are valid. -/
theorem saveHandWeights_cells {hrs : List (List Combo)} (hw : ∀ r ∈ hrs, ∀ c ∈ r, c.w ≤ 255) (hr : Nat → UnitResults)
    (h0 : ∀ k, (hr k).weight ≤ 255 ∧ (hr k).valid = false) :
    ∀ k, ((saveHandWeights hrs hr).1 k).weight ≤ 255 ∧
      (((saveHandWeights hrs hr).1 k).valid = true → ∃ (p : Nat) (hp : p < hrs.length), ∃ c ∈ hrs[p], rowKey p c = k) := by
  let Q : (Nat → UnitResults) → Prop := fun h => ∀ k, (h k).weight ≤ 255 ∧
      ((h k).valid = true → ∃ (p : Nat) (hp : p < hrs.length), ∃ c ∈ hrs[p], rowKey p c = k)
  have hupd : ∀ (h : Nat → UnitResults) (j w : Nat), w ≤ 255 → (∃ (p : Nat) (hp : p < hrs.length), ∃ c ∈ hrs[p], rowKey p c = j) → Q h →
      Q (Function.update h j { h j with weight := w, valid := true }) := by
    intro h j w hw hj hQ k
    by_cases hk : k = j
    · subst hk; rw [Function.update_self]; exact ⟨hw, fun _ => hj⟩
    · rw [Function.update_of_ne hk]; exact hQ k
  have hone : ∀ (h : Nat → UnitResults) (j : Nat), Q h → Q (if (h j).valid then Function.update h j { h j with weight := 1 } else h) := by
    intro h j hQ
    split
    · intro k
      by_cases hk : k = j
      · subst hk; rw [Function.update_self]; exact ⟨show 1 ≤ 255 by decide, (hQ k).2⟩
      · rw [Function.update_of_ne hk]; exact hQ k
    · exact hQ
  have hQ0 : Q hr := fun k => ⟨(h0 k).1, fun h => by rw [(h0 k).2] at h; cases h⟩
  have hall : ∀ x ∈ hrs.zipIdx, ∃ hp : x.2 < hrs.length, x.1 = hrs[x.2] := by
    intro x hx
    have := List.mem_zipIdx hx
    have h2 := this.2.1
    refine ⟨by omega, ?_⟩
    have h3 := this.2.2
    simpa using h3
  suffices H : ∀ (l : List (List Combo × Nat)), (∀ x ∈ l, ∃ hp : x.2 < hrs.length, x.1 = hrs[x.2]) → ∀ y : (Nat → UnitResults) × Nat, Q y.1 →
      Q (l.foldl (fun (hr, flag) (range, i) =>
        let flag := flag ||| (1 <<< i)
        let x := range.foldl (fun (hr, check, flag) (hand : Combo) =>
          let k := NUM_HANDS * i + getCardIndex hand.c1 hand.c2
          let u : UnitResults := { hr k with weight := hand.w, valid := true }
          let hr := Function.update hr k u
          if check && u.valid && u.weight != 100 then (hr, false, flag ^^^ (1 <<< i)) else (hr, check, flag))
          (hr, true, flag)
        let hr := if x.2.1 then range.foldl (fun hr (hand : Combo) =>
            let k := NUM_HANDS * i + getCardIndex hand.c1 hand.c2
            if (hr k).valid then Function.update hr k { hr k with weight := 1 } else hr) x.1
          else x.1
        (hr, x.2.2)) y).1 from H _ hall (hr, 0) hQ0
  intro l
  induction l with
  | nil => exact fun _ y hy => hy
  | cons x l ih =>
    intro hl y hy
    rw [List.foldl_cons]
    apply ih (fun z hz => hl z (by simp [hz]))
    obtain ⟨hp, hx⟩ := hl x (by simp)
    obtain ⟨range, i⟩ := x
    simp only at hp hx
    obtain ⟨h, flag⟩ := y
    simp only
    have h1 : ∀ (l : List Combo), (∀ c ∈ l, c ∈ hrs[i]) → ∀ (z : (Nat → UnitResults) × Bool × Nat), Q z.1 →
        Q (l.foldl (fun (hr, check, flag) (hand : Combo) =>
          let k := NUM_HANDS * i + getCardIndex hand.c1 hand.c2
          let u : UnitResults := { hr k with weight := hand.w, valid := true }
          let hr := Function.update hr k u
          if check && u.valid && u.weight != 100 then (hr, false, flag ^^^ (1 <<< i)) else (hr, check, flag)) z).1 := by
      intro l
      induction l with
      | nil => exact fun _ z hz => hz
      | cons c l ih =>
        intro hc z hz
        rw [List.foldl_cons]
        apply ih (fun c' hc' => hc c' (by simp [hc']))
        obtain ⟨h, check, flag⟩ := z
        simp only
        have hcm := hc c (by simp)
        have := hupd h (NUM_HANDS * i + getCardIndex c.c1 c.c2) c.w (hw _ (List.getElem_mem hp) c hcm) ⟨i, hp, c, hcm, rfl⟩ hz
        split <;> exact this
    have h2 := h1 range (fun c hc => hx ▸ hc) (h, true, flag ||| (1 <<< i)) hy
    generalize range.foldl _ (h, true, flag ||| (1 <<< i)) = z at h2
    split
    · exact foldl_keep (P := Q) _ (fun h c hQ => hone h _ hQ) _ _ h2
    · exact h2

/-- What the functions after the threads need to know about a hand. -/
def CellOk (three : Prop) (i : HandInfo) : Prop := i.weight ≤ 255 ∧ (three → i.valid = true → i.rank < 9)

theorem start_cells {ranges : List (List Combo)} {b d : Nat} (hwf : ∀ r ∈ ranges, WfRange r) (hw : ∀ r ∈ ranges, ∀ c ∈ r, c.w ≤ 255)
    {s : Sim} (hb : s.boardMask = b) (h5 : (maskCards b).length ≤ 5) (hr : s.handRanges = ranges.map fun h => removeConflictingCombos h b d)
    {r0 : Results} {flag : Nat} (h : startResults s = some (r0, flag)) :
    ∀ k, CellOk (countOnes b > 2) (infoOf (r0.handResults k)) := by
  obtain ⟨hw', hok⟩ := filtered_board_hand hwf b d
  have hws : ∀ r ∈ s.handRanges, ∀ c ∈ r, c.w ≤ 255 := by
    intro r hr' c hc
    rw [hr] at hr'
    obtain ⟨r1, h1, rfl⟩ := List.mem_map.1 hr'
    unfold removeConflictingCombos at hc
    exact hw r1 h1 c (List.mem_filter.1 hc).1
  rw [← hr] at hw' hok
  have hS := saveHandWeights_cells hws (Results.init s.nPlayers).handResults (fun k => ⟨Nat.zero_le _, rfl⟩)
  unfold startResults at h
  simp only at h
  rw [hb] at h
  obtain ⟨g, h1, h2⟩ := Option.map_eq_some_iff.1 h
  have h3 := (Prod.mk.inj h2).1
  subst h3
  intro k
  show CellOk _ (infoOf (g k))
  split at h1
  · rename_i hc
    have hk := setRanks_keep h1 k
    refine ⟨?_, fun _ hv => ?_⟩
    · have : (infoOf (g k)).weight = ((saveHandWeights s.handRanges (Results.init s.nPlayers).handResults).1 k).weight := by
        rw [hk]; rfl
      rw [this]
      exact (hS k).1
    · have hv' : ((saveHandWeights s.handRanges (Results.init s.nPlayers).handResults).1 k).valid = true := by
        rw [hk] at hv; exact hv
      obtain ⟨p, hp, c, hc', rfl⟩ := (hS k).2 hv'
      obtain ⟨g', e, hg⟩ := setRanks_spec hw' h5 hok (saveHandWeights s.handRanges (Results.init s.nPlayers).handResults).1
      rw [h1] at e
      have e := Option.some.inj e
      subst e
      rw [(hg p hp).1 c hc']
      have hcs := hok _ (List.getElem_mem hp) c hc'
      exact (categoryOfScore_eq hcs (by simp) (by simp; omega)).2
  · rename_i hc
    have := Option.some.inj h1
    subst this
    exact ⟨(hS k).1, fun h => absurd h hc⟩

theorem updateResults_info (sqrt : ℚ → ℚ) (n : Nat) (ex : Bool) (b : Batch) (hb : HandStats) (r : Results) (k : Nat) :
    infoOf ((updateResults sqrt n ex b hb r).handResults k) = infoOf (r.handResults k) := by
  have : (updateResults sqrt n ex b hb r).handResults k =
      if k < NUM_HANDS * n then (r.handResults k).addAssign (hb k) else r.handResults k := by
    unfold updateResults; simp only; split <;> rfl
  rw [this]
  split <;> rfl

theorem applyFlushes_info (sqrt : ℚ → ℚ) (n : Nat) (ex : Bool) : ∀ (hist : List (Batch × HandStats)) (r : Results) (k : Nat),
    infoOf ((applyFlushes sqrt n ex hist r).handResults k) = infoOf (r.handResults k) := by
  intro hist
  induction hist with
  | nil => intro r k; rfl
  | cons x xs ih =>
    intro r k
    show infoOf ((applyFlushes sqrt n ex xs (updateResults sqrt n ex x.1 x.2 r)).handResults k) = _
    rw [ih, updateResults_info]

/-! ## After the threads -/

/-- The counters of a hand are `u64` values and its weight a `u8` value. -/
def HandOk (u : UnitResults) : Prop := UFits u ∧ u.weight ≤ 255

theorem finalUnit_ok {u : UnitResults} (h : HandOk u) : HandOk (finalUnit u) := by
  unfold finalUnit
  split
  · split <;> exact h
  · exact h

/-- Sums over at most `c` hands. -/
structure AggOk (c : Nat) (a : Agg) : Prop where
  counter : a.counter ≤ c
  weight : a.weight ≤ 255 * c
  wins : a.wins ≤ 2 ^ 64 * c
  ties : a.ties ≤ 2 ^ 64 * c
  total : a.total ≤ 2 ^ 64 * c

theorem finalHandC_eq {u : UnitResults} (hu : HandOk u) {c : Nat} (hc : c < 100) {a : Agg} (ha : AggOk c a) :
    finalHandC u a = some (finalHand u a) ∧ AggOk (c + 1) (finalHand u a).2 := by
  obtain ⟨⟨u1, u2, u3⟩, u4⟩ := hu
  obtain ⟨a1, a2, a3, a4, a5⟩ := ha
  unfold finalHandC finalHand
  split
  · split
    · unfold fits
      rw [if_pos (by omega), if_pos (by omega), if_pos (by omega), if_pos (by omega), if_pos (by omega)]
      refine ⟨rfl, ?_⟩
      constructor <;> simp only <;> omega
    · refine ⟨rfl, ?_⟩
      constructor <;> simp only <;> omega
  · refine ⟨rfl, ?_⟩
    constructor <;> simp only <;> omega

theorem finalHandsC_eq {len start size : Nat} {hr : Nat → UnitResults} (hs : start + size ≤ len) (h12 : size ≤ 12)
    (hok : ∀ k < len, HandOk (hr k)) :
    finalHandsC len start size hr = some (finalHands start size hr) ∧ AggOk size (finalHands start size hr).2 ∧
    ∀ k < len, HandOk ((finalHands start size hr).1 k) := by
  have := foldlM_inv (f := fun (x : (Nat → UnitResults) × Agg) k =>
      let y := finalHand (x.1 (start + k)) x.2
      (Function.update x.1 (start + k) y.1, y.2))
    (fC := fun (x : (Nat → UnitResults) × Agg) k => do
      let i ← if start + k < len then some (start + k) else none
      let y ← finalHandC (x.1 i) x.2
      some (Function.update x.1 i y.1, y.2))
    (I := fun j x => AggOk j x.2 ∧ ∀ k < len, HandOk (x.1 k)) (List.range size) 0 (hr, {})
    ⟨⟨le_rfl, le_rfl, le_rfl, le_rfl, le_rfl⟩, hok⟩ (fun a ha j x _ hj hI => by
      have ha := List.mem_range.1 ha
      rw [List.length_range] at hj
      obtain ⟨h1, h2⟩ := finalHandC_eq (hI.2 (start + a) (by omega)) (show j < 100 by omega) hI.1
      rw [if_pos (by omega)]
      simp only [Option.bind_eq_bind, Option.bind_some]
      rw [h1]
      refine ⟨rfl, h2, fun k hk => ?_⟩
      show HandOk (Function.update x.1 (start + a) _ k)
      by_cases hka : k = start + a
      · subst hka
        rw [Function.update_self, finalHand_fst]
        exact finalUnit_ok (hI.2 _ hk)
      · rw [Function.update_of_ne hka]
        exact hI.2 k hk)
  rw [List.length_range, Nat.zero_add] at this
  exact ⟨this.1, this.2.1, this.2.2⟩

theorem finalComboC_eq {size c : Nat} (hs : 0 < size) (hc : c < 100) {a : Agg} (ha : AggOk c a) :
    finalComboC size a = some (finalCombo size a) := by
  have h5 := ha.total
  have hd : ∀ x y : Nat, y ≠ 0 → divC x y = some (x / y) := fun x y h => by unfold divC; rw [if_neg h]
  unfold finalComboC finalCombo
  split
  · by_cases ht : a.total > U64_MAX
    · simp only [ht, if_true]
      have hlt : a.total / U64_MAX + 1 < 2 ^ 128 := by
        have := Nat.div_le_self a.total U64_MAX
        omega
      unfold fits
      rw [if_pos hlt]
      simp only [Option.bind_eq_bind, Option.bind_some]
      have h0 := Nat.succ_ne_zero (a.total / U64_MAX)
      rw [hd _ _ h0, hd _ _ h0, hd _ _ h0, hd _ _ (by omega)]
      rfl
    · simp only [ht, if_false, Option.bind_eq_bind, Option.bind_some]
      rw [hd _ _ (by omega)]
      rfl
  · rfl

/-- The first hands of the combos. -/
def ComboStart (j : Nat) : Prop :=
  (j ≤ 78 ∧ j % 6 = 0) ∨ (78 ≤ j ∧ j ≤ 390 ∧ (j - 78) % 4 = 0) ∨ (390 ≤ j ∧ j ≤ 1326 ∧ (j - 390) % 12 = 0)

theorem ComboStart.next {j : Nat} (h : ComboStart j) (hj : j < NUM_HANDS) : ComboStart (j + batchSize j) ∧ j + batchSize j ≤ NUM_HANDS := by
  unfold ComboStart batchSize NUM_HANDS at *
  split
  · omega
  · split <;> omega

theorem finalPlayerC_eq {n i : Nat} (hi : i < n) : ∀ fuel j hr cs, ComboStart j → (∀ k < NUM_HANDS * n, HandOk (hr k)) →
    finalPlayerC (NUM_HANDS * n) i fuel j hr cs = some (finalPlayer i fuel j hr cs) ∧
    ∀ k < NUM_HANDS * n, HandOk ((finalPlayer i fuel j hr cs).1 k) := by
  intro fuel
  induction fuel with
  | zero => intro j hr cs _ hok; exact ⟨rfl, hok⟩
  | succ f ih =>
    intro j hr cs hj hok
    unfold finalPlayerC finalPlayer
    by_cases hlt : j < NUM_HANDS
    · simp only [hlt, if_true]
      obtain ⟨h1, h2⟩ := hj.next hlt
      have hle : i * NUM_HANDS + NUM_HANDS ≤ NUM_HANDS * n := by
        have := Nat.mul_le_mul_left NUM_HANDS (show i + 1 ≤ n from hi)
        rw [Nat.mul_add, Nat.mul_comm NUM_HANDS i] at this
        omega
      have h12 : batchSize j ≤ 12 := by unfold batchSize; split <;> [omega; split <;> omega]
      obtain ⟨e1, e2, e3⟩ := finalHandsC_eq (start := i * NUM_HANDS + j) (size := batchSize j) (by omega) h12 hok
      rw [e1]
      simp only [Option.bind_eq_bind, Option.bind_some]
      rw [finalComboC_eq (batchSize_pos j) (show batchSize j < 100 by omega) e2]
      simp only [Option.bind_some]
      exact ih _ _ _ h1 e3
    · simp only [hlt, if_false]
      exact ⟨trivial, hok⟩

theorem generateFinalDataC_eq {n : Nat} {r : Results} (hok : ∀ k < NUM_HANDS * n, HandOk (r.handResults k)) :
    generateFinalDataC n r = some (generateFinalData n r) := by
  have := foldlM_inv (f := fun (x : (Nat → UnitResults) × List UnitResults) i => finalPlayer i NUM_HANDS 0 x.1 x.2)
    (fC := fun (x : (Nat → UnitResults) × List UnitResults) i => finalPlayerC (NUM_HANDS * n) i NUM_HANDS 0 x.1 x.2)
    (I := fun _ x => ∀ k < NUM_HANDS * n, HandOk (x.1 k)) (List.range n) 0 (r.handResults, r.comboResults) hok
    (fun a ha j x _ _ hI => finalPlayerC_eq (List.mem_range.1 ha) _ _ _ _ (Or.inl ⟨by omega, by omega⟩) hI)
  unfold generateFinalDataC
  rw [this.1]
  rfl

/-- Sums over at most `c` hands. -/
def BigOk (c : Nat) (b : BigUnitResults) : Prop :=
  b.wins ≤ 2 ^ 64 * c ∧ b.ties ≤ 2 ^ 64 * c ∧ b.total ≤ 2 ^ 64 * c ∧ b.weight ≤ 255 * c

theorem addHandC_eq {len k c : Nat} {t : Nat → BigUnitResults} {u : UnitResults} (hk : k < len) (hc : c < 2 ^ 20) (hu : HandOk u)
    (ht : ∀ k, BigOk c (t k)) :
    addHandC len t k u = some (Function.update t k ((t k).addHand u)) ∧
    ∀ j, BigOk (c + 1) (Function.update t k ((t k).addHand u) j) := by
  obtain ⟨⟨u1, u2, u3⟩, u4⟩ := hu
  obtain ⟨t1, t2, t3, t4⟩ := ht k
  constructor
  · unfold addHandC fits BigUnitResults.addHand
    rw [if_pos hk, if_pos (by omega), if_pos (by omega), if_pos (by omega), if_pos (by omega)]
    rfl
  · intro j
    by_cases hj : j = k
    · subst hj
      rw [Function.update_self]
      unfold BigUnitResults.addHand BigOk
      simp only
      omega
    · rw [Function.update_of_ne hj]
      obtain ⟨t1, t2, t3, t4⟩ := ht j
      unfold BigOk
      omega

theorem BigOk.mono {c c' : Nat} (h : c ≤ c') {b : BigUnitResults} (hb : BigOk c b) : BigOk c' b := by
  unfold BigOk at *; omega

theorem nutIndex_lt {draw k : Nat} (h : nutIndex draw = some k) : k < 10 := by
  unfold nutIndex at h
  simp only at h
  split at h
  · split at h
    · cases h; decide
    · split at h
      · cases h; decide
      · split at h
        · cases h; decide
        · cases h
  · cases h

theorem boardHandC_eq {n i c : Nat} (hi : i < n) (hc : c + 8 < 2 ^ 20) {u : UnitResults} (hu : HandOk u) (hr : u.valid = true → u.rank < 9)
    {t : (Nat → BigUnitResults) × (Nat → BigUnitResults)} (ht : (∀ k, BigOk c (t.1 k)) ∧ ∀ k, BigOk c (t.2 k)) :
    boardHandC n i u t = some (boardHand i u t) ∧ (∀ k, BigOk (c + 8) ((boardHand i u t).1 k)) ∧ ∀ k, BigOk (c + 8) ((boardHand i u t).2 k) := by
  unfold boardHandC boardHand
  by_cases hv : u.valid
  · simp only [hv, if_true]
    have hr := hr hv
    obtain ⟨e1, o1⟩ := addHandC_eq (len := 9 * n) (k := i * 9 + u.rank) (by omega) (show c < 2 ^ 20 by omega) hu ht.1
    rw [e1]
    simp only [Option.bind_eq_bind, Option.bind_some]
    have hfold := foldlM_inv (f := fun (d : Nat → BigUnitResults) k =>
        if u.draw &&& (1 <<< k) ≠ 0 then Function.update d (i * 10 + k) ((d (i * 10 + k)).addHand u) else d)
      (fC := fun (d : Nat → BigUnitResults) k => (shlC 8 1 k).bind fun bit =>
        if u.draw &&& bit ≠ 0 then addHandC (10 * n) d (i * 10 + k) u else some d)
      (I := fun j d => ∀ k, BigOk (c + j) (d k)) (List.range 7) 0 t.2 ht.2 (fun a ha j d _ hj hI => by
        have ha := List.mem_range.1 ha
        rw [List.length_range] at hj
        rw [shlC_one (show a < 8 by omega)]
        simp only [Option.bind_some]
        split
        · exact addHandC_eq (by omega) (show c + j < 2 ^ 20 by omega) hu hI
        · exact ⟨rfl, fun k => (hI k).mono (by omega)⟩)
    rw [List.length_range, Nat.zero_add] at hfold
    rw [hfold.1]
    simp only [Option.bind_some]
    cases hx : nutIndex u.draw with
    | none =>
      simp only
      exact ⟨trivial, fun k => (o1 k).mono (by omega), fun k => (hfold.2 k).mono (by omega)⟩
    | some k =>
      have hk := nutIndex_lt hx
      obtain ⟨e2, o2⟩ := addHandC_eq (len := 10 * n) (k := i * 10 + k) (by omega) (show c + 7 < 2 ^ 20 by omega) hu hfold.2
      simp only
      rw [e2]
      exact ⟨rfl, fun k => (o1 k).mono (by omega), o2⟩
  · have hv : u.valid = false := by simpa using hv
    simp only [hv, Bool.false_eq_true, if_false]
    exact ⟨trivial, fun k => (ht.1 k).mono (by omega), fun k => (ht.2 k).mono (by omega)⟩

theorem boardTablesC_eq {n : Nat} (hn : n ≤ 16) {hr : Nat → UnitResults} (hok : ∀ k < NUM_HANDS * n, HandOk (hr k) ∧ ((hr k).valid = true → (hr k).rank < 9)) :
    boardTablesC n hr = some (boardTables n hr) := by
  unfold boardTablesC boardTables
  refine (foldlM_inv (I := fun j (t : (Nat → BigUnitResults) × (Nat → BigUnitResults)) =>
    (∀ k, BigOk (8 * (NUM_HANDS * j)) (t.1 k)) ∧ ∀ k, BigOk (8 * (NUM_HANDS * j)) (t.2 k)) (List.range n) 0 _ ?_ ?_).1
  · exact ⟨fun _ => ⟨le_rfl, le_rfl, le_rfl, le_rfl⟩, fun _ => ⟨le_rfl, le_rfl, le_rfl, le_rfl⟩⟩
  · intro i hi j t _ hj hI
    have hi := List.mem_range.1 hi
    rw [List.length_range] at hj
    have hle : i * NUM_HANDS + NUM_HANDS ≤ NUM_HANDS * n := by
      have := Nat.mul_le_mul_left NUM_HANDS (show i + 1 ≤ n from hi)
      rw [Nat.mul_add, Nat.mul_comm NUM_HANDS i] at this
      omega
    have hjn : NUM_HANDS * j + NUM_HANDS ≤ NUM_HANDS * 16 := by
      have := Nat.mul_le_mul_left NUM_HANDS (show j + 1 ≤ 16 by omega)
      rw [Nat.mul_add] at this
      omega
    have h16 : 8 * (NUM_HANDS * 16) < 2 ^ 20 := by decide
    have := foldlM_inv (f := fun (t : (Nat → BigUnitResults) × (Nat → BigUnitResults)) m => boardHand i (hr (i * NUM_HANDS + m)) t)
      (fC := fun (t : (Nat → BigUnitResults) × (Nat → BigUnitResults)) m => do
        let k ← if i * NUM_HANDS + m < NUM_HANDS * n then some (i * NUM_HANDS + m) else none
        boardHandC n i (hr k) t)
      (I := fun l t => (∀ k, BigOk (8 * (NUM_HANDS * j + l)) (t.1 k)) ∧ ∀ k, BigOk (8 * (NUM_HANDS * j + l)) (t.2 k))
      (List.range NUM_HANDS) 0 t hI (fun m hm l t _ hl hI => by
        have hm := List.mem_range.1 hm
        rw [List.length_range] at hl
        rw [if_pos (by omega)]
        simp only [Option.bind_eq_bind, Option.bind_some]
        obtain ⟨o1, o2⟩ := hok (i * NUM_HANDS + m) (by omega)
        exact boardHandC_eq hi (show 8 * (NUM_HANDS * j + l) + 8 < 2 ^ 20 by omega) o1 o2 hI)
    rw [List.length_range, Nat.zero_add] at this
    refine ⟨this.1, ?_⟩
    rw [show NUM_HANDS * (j + 1) = NUM_HANDS * j + NUM_HANDS by rw [Nat.mul_add, Nat.mul_one]]
    exact this.2

theorem fixHandWeights_weight {hrs : List (List Combo)} (flag : Nat) {hr : Nat → UnitResults} (h : ∀ k, (hr k).weight ≤ 255) :
    ∀ k, (fixHandWeights hrs flag hr k).weight ≤ 255 := by
  unfold fixHandWeights
  apply foldl_keep (P := fun h => ∀ k, (h k).weight ≤ 255) _ ?_ _ _ h
  rintro h ⟨range, i⟩ hP
  simp only
  split
  · apply foldl_keep (P := fun h => ∀ k, (h k).weight ≤ 255) _ ?_ _ _ hP
    intro h hand hP k
    split
    · by_cases hk : k = NUM_HANDS * i + getCardIndex hand.c1 hand.c2
      · subst hk; rw [Function.update_self]; exact (show 100 ≤ 255 by decide)
      · rw [Function.update_of_ne hk]; exact hP k
    · exact hP k
  · exact hP

/-- Nothing overflows and no index is out of bounds after the threads have finished. -/
theorem finishResultsC_eq {s : Sim} (hwf : ∀ r ∈ s.handRanges, WfRange r) (hlen : s.handRanges.length = s.nPlayers) (hn : s.nPlayers ≤ 16)
    {r : Results} (flag : Nat) (hfits : HFits (NUM_HANDS * s.nPlayers) r.handResults)
    (hcell : ∀ k, CellOk (countOnes s.boardMask > 2) (infoOf (r.handResults k))) :
    finishResultsC s flag r = some (finishResults s flag r) := by
  unfold finishResultsC finishResults
  rw [← hlen, fixHandWeightsC_eq hwf (by omega), hlen]
  simp only [Option.bind_eq_bind, Option.bind_some]
  have hkeep := fixHandWeights_keep s.handRanges flag r.handResults
  have hweight := fixHandWeights_weight (hrs := s.handRanges) flag (hr := r.handResults) (fun k => (hcell k).1)
  generalize fixHandWeights s.handRanges flag r.handResults = hr at *
  have hok : ∀ k < NUM_HANDS * s.nPlayers, HandOk (hr k) := by
    intro k hk
    refine ⟨?_, hweight k⟩
    rw [hkeep k]
    exact hfits k hk
  rw [generateFinalDataC_eq (r := getEquity s.nPlayers { r with handResults := hr }) hok]
  simp only [Option.bind_some]
  split
  · rename_i h3
    unfold generateBoardDataC generateBoardData
    rw [boardTablesC_eq hn]
    · rfl
    · intro k hk
      rw [(generateFinalData_eq _ _).1]
      simp only
      rw [if_pos (by rw [Nat.mul_comm]; exact hk)]
      show HandOk (finalUnit (hr k)) ∧ ((finalUnit (hr k)).valid = true → (finalUnit (hr k)).rank < 9)
      refine ⟨finalUnit_ok (hok k hk), fun hv => ?_⟩
      have hi := infoOf_finalUnit (hr k)
      have e1 : (finalUnit (hr k)).rank = (hr k).rank := congrArg HandInfo.rank hi
      have e2 : (finalUnit (hr k)).valid = (hr k).valid := congrArg HandInfo.valid hi
      rw [e1]
      rw [e2] at hv
      have h4 := (hcell k).2 h3
      rw [hkeep k] at hv ⊢
      exact h4 hv
  · rfl

end Pokers

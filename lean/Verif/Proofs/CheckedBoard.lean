import Verif.Model.Checked
import Verif.Proofs.Showdown
/-!
# The board enumeration does not overflow
-/
namespace Pokers
open Spec

theorem fits_some {w x : Nat} (h : x < 2 ^ w) : fits w x = some x := if_pos h
theorem subC_some {a b : Nat} (h : b ≤ a) : subC a b = some (a - b) := if_pos h
theorem cardC_some {c : Nat} (h : c < 52) : cardC c = some (CARDS c) := if_pos h
theorem get_some {deck : List Nat} {i : Nat} (h : i < deck.length) : deck[i]? = some (deck.getD i 0) := by
  rw [List.getElem?_eq_getElem h, List.getD_eq_getElem _ _ h]

theorem binomC_some : ∀ n ≤ 4, ∀ k ≤ 4, binomC n k = some ((BINOM_COEFF.getD n []).getD k 0) := by decide
theorem choose_le4 : ∀ n ≤ 4, ∀ k ≤ 4, n.choose k ≤ 4 ^ k := by decide

/-! ## The last card -/

theorem lastNoFlushC_eq {deck : List Nat} {start : Nat} (hn : (deck.drop start).Nodup) (hc : ∀ c ∈ deck.drop start, c < 52)
    {w : Nat} (hw : w * 4 < 2 ^ 64) (board : Hand) : ∀ fuel i, start ≤ i →
    lastNoFlushC board deck w fuel i = some (lastNoFlush board deck w fuel i) ∧
      ∀ e ∈ lastNoFlush board deck w fuel i, w ≤ e.weight ∧ e.weight ≤ w * 4 := by
  intro fuel
  induction fuel with
  | zero => intro i _; exact ⟨rfl, by simp [lastNoFlush]⟩
  | succ fuel ih =>
    intro i hs
    rw [lastNoFlushC, lastNoFlush]
    by_cases hi : i < deck.length
    · have hsub : ∀ j, start ≤ j → (deck.drop j).Sublist (deck.drop start) := by
        intro j hj
        rw [show j = start + (j - start) by omega, ← List.drop_drop]
        exact List.drop_sublist _ _
      have hmem : deck.getD i 0 ∈ deck.drop start := (hsub i hs).subset (by rw [drop_cons hi]; simp)
      have hm : 1 ≤ (sameRankLoop deck (deck.getD i 0 >>> 2) deck.length 1 (i + 1)).1 ∧
          (sameRankLoop deck (deck.getD i 0 >>> 2) deck.length 1 (i + 1)).1 ≤ 4 := by
        obtain ⟨k, T, h1, h2, h3, h4⟩ := sameRankLoop_eq deck (deck.getD i 0 >>> 2) deck.length 1 (i + 1)
        rw [h1]
        have hd := drop_cons hi
        rw [h2] at hd
        have hnd := hn.sublist (hsub i hs)
        rw [hd, ← List.cons_append] at hnd
        have := same_rank_le4 (T := deck.getD i 0 :: T) (rank := rk (deck.getD i 0)) (hnd.sublist (List.sublist_append_left _ _))
          (fun c hc => by
            rcases List.mem_cons.1 hc with rfl | hc
            · rfl
            · rw [h4 c hc, shr2])
        rw [List.length_cons, h3] at this
        show 1 ≤ 1 + k ∧ 1 + k ≤ 4
        omega
      have hge : i + 1 ≤ (sameRankLoop deck (deck.getD i 0 >>> 2) deck.length 1 (i + 1)).2 := by
        obtain ⟨k, T, h1, _⟩ := sameRankLoop_eq deck (deck.getD i 0 >>> 2) deck.length 1 (i + 1)
        rw [h1]; exact Nat.le_add_right _ _
      rw [if_pos hi, if_pos hi, get_some hi]
      simp only [Option.bind_eq_bind, Option.bind_some, cardC_some (hc _ hmem)]
      generalize sameRankLoop deck (deck.getD i 0 >>> 2) deck.length 1 (i + 1) = x at hm hge
      have hx : w * x.1 ≤ w * 4 := Nat.mul_le_mul_left w hm.2
      have hx' : w * 1 ≤ w * x.1 := Nat.mul_le_mul_left w hm.1
      obtain ⟨h1, h2⟩ := ih x.2 (by omega)
      rw [fits_some (by omega), h1]
      refine ⟨rfl, fun e he => ?_⟩
      rcases List.mem_cons.1 he with rfl | he
      · show w ≤ w * x.1 ∧ w * x.1 ≤ w * 4; omega
      · exact h2 e he
    · rw [if_neg hi, if_neg hi]; exact ⟨rfl, by simp⟩

theorem lastFlushC_eq {deck : List Nat} {start : Nat} (hn : (deck.drop start).Nodup) (hc : ∀ c ∈ deck.drop start, c < 52)
    (hs : (deck.drop start).Pairwise (fun a b => rk b ≤ rk a))
    {w : Nat} (hw : w * 4 < 2 ^ 64) (board : Hand) (sc : Nat → Nat) : ∀ fuel lr i, start ≤ i →
    lastFlushC board deck sc w fuel lr i = some (lastFlush board deck sc w fuel lr i) ∧
      ∀ e ∈ lastFlush board deck sc w fuel lr i, w ≤ e.weight ∧ e.weight ≤ w * 4 := by
  intro fuel
  induction fuel with
  | zero => intro lr i _; exact ⟨rfl, by simp [lastFlush]⟩
  | succ fuel ih =>
    intro lr i hsi
    rw [lastFlushC, lastFlush]
    by_cases hi : i < deck.length
    · have hsub : (deck.drop i).Sublist (deck.drop start) := by
        rw [show i = start + (i - start) by omega, ← List.drop_drop]
        exact List.drop_sublist _ _
      have hmem : deck.getD i 0 ∈ deck.drop start := hsub.subset (by rw [drop_cons hi]; simp)
      have hd := drop_cons hi
      have hnd := hn.sublist hsub
      have hso := hs.sublist hsub
      rw [hd] at hnd hso
      rw [List.pairwise_cons] at hso
      rw [if_pos hi, if_pos hi, get_some hi]
      simp only [Option.bind_eq_bind, Option.bind_some, cardC_some (hc _ hmem)]
      by_cases hsc : sc (deck.getD i 0 &&& 3) < 4
      · rw [if_pos hsc, if_pos hsc]
        by_cases hr : deck.getD i 0 >>> 2 = lr
        · rw [if_pos hr, if_pos hr]; exact ih lr (i + 1) (by omega)
        · rw [if_neg hr, if_neg hr]
          have hm : 1 ≤ countLoop deck sc (deck.getD i 0 >>> 2) deck.length 1 (i + 1) ∧
              countLoop deck sc (deck.getD i 0 >>> 2) deck.length 1 (i + 1) ≤ 4 := by
            rw [shr2, countLoop_eq deck sc (rk (deck.getD i 0)) deck.length 1 (i + 1) (by omega) hso.2 hso.1, List.countP_eq_length_filter]
            refine ⟨Nat.le_add_right _ _, ?_⟩
            have := same_rank_le4 (T := deck.getD i 0 :: (deck.drop (i + 1)).filter fun c => decide (lastDead sc c ∧ rk c = rk (deck.getD i 0)))
              (rank := rk (deck.getD i 0)) (hnd.sublist (List.Sublist.cons_cons _ List.filter_sublist))
              (fun c hc => by
                rcases List.mem_cons.1 hc with rfl | hc
                · rfl
                · have := (List.mem_filter.1 hc).2
                  rw [decide_eq_true_iff] at this
                  exact this.2)
            rw [List.length_cons] at this
            omega
          generalize countLoop deck sc (deck.getD i 0 >>> 2) deck.length 1 (i + 1) = x at hm
          have hx : w * x ≤ w * 4 := Nat.mul_le_mul_left w hm.2
          have hx' : w * 1 ≤ w * x := Nat.mul_le_mul_left w hm.1
          obtain ⟨h1, h2⟩ := ih (deck.getD i 0 >>> 2) (i + 1) (by omega)
          rw [fits_some (by omega), h1]
          refine ⟨rfl, fun e he => ?_⟩
          rcases List.mem_cons.1 he with rfl | he
          · show w ≤ w * x ∧ w * x ≤ w * 4; omega
          · exact h2 e he
      · rw [if_neg hsc, if_neg hsc]
        obtain ⟨h1, h2⟩ := ih lr (i + 1) (by omega)
        rw [fits_some (by omega), h1]
        refine ⟨rfl, fun e he => ?_⟩
        rcases List.mem_cons.1 he with rfl | he
        · show w ≤ w * 1 ∧ w * 1 ≤ w * 4; omega
        · exact h2 e he
    · rw [if_neg hi, if_neg hi]; exact ⟨rfl, by simp⟩

/-! ## The inner loops -/

theorem gatherLoopC_eq {sc : Nat → Nat} {r : Nat} (hsc : ∀ s < 4, sc s + r < 2 ^ 8) (rank i : Nat) : ∀ fuel j deck cnt, i + cnt ≤ j →
    gatherLoopC sc r rank i fuel j deck cnt = some (gatherLoop sc r rank i fuel j deck cnt) := by
  intro fuel
  induction fuel with
  | zero => intro j deck cnt _; rfl
  | succ fuel ih =>
    intro j deck cnt hij
    rw [gatherLoopC, gatherLoop]
    by_cases hj : j < deck.length
    · rw [if_pos hj, if_pos hj, get_some hj]
      simp only [Option.bind_eq_bind, Option.bind_some]
      by_cases hk : deck.getD j 0 >>> 2 ≠ rank
      · rw [if_pos hk, if_pos hk]
      · rw [if_neg hk, if_neg hk, fits_some (hsc _ (by rw [and3]; exact Nat.mod_lt _ (by decide)))]
        simp only [Option.bind_some]
        by_cases h5 : sc (deck.getD j 0 &&& 3) + r < 5
        · rw [if_pos h5, if_pos h5]
          by_cases hne : j ≠ i + cnt
          · rw [if_pos hne, if_pos hne, swapC, if_pos ⟨hj, by omega⟩]
            exact ih (j + 1) _ (cnt + 1) (by omega)
          · rw [if_neg hne, if_neg hne]
            exact ih (j + 1) _ (cnt + 1) (by omega)
        · rw [if_neg h5, if_neg h5]
          exact ih (j + 1) deck cnt (by omega)
    · rw [if_neg hj, if_neg hj]

variable {hs : Nat → Nat} {avail : Nat → Prop}

/-- The effect that does not count anything. -/
abbrev F0 : Hand → Bool → Nat := fun _ _ => 0

theorem boardFun0 : BoardFun hs avail F0 := ⟨fun _ _ _ _ _ _ _ _ _ _ _ => rfl, fun _ _ _ _ _ => rfl⟩

/-- A call with checks succeeds, with the same result, every evaluation has at least the weight of the call
and at most that of four boards for each missing card. -/
def Succeeds (w r : Nat) (y : Option (List Ev × Bufs)) (x : List Ev × Bufs) : Prop :=
  y = some x ∧ ∀ e ∈ x.1, w ≤ e.weight ∧ e.weight ≤ w * 4 ^ r

/-- What the recursive calls with checks are assumed to do. -/
def ChildC (hs : Nat → Nat) (avail : Nat → Prop) (childC : RecCallC) (child : RecCall) (r : Nat) : Prop :=
  ∀ bs deck sc r' start w, r' < r → Node hs avail bs deck sc r' start → w * 4 ^ r' < 2 ^ 64 →
    Succeeds w r' (childC (ofCards bs) deck sc r' start w) (child (ofCards bs) deck sc r' start w)

theorem Node.sc_le {bs deck : List Nat} {sc : Nat → Nat} {r start : Nat} (h : Node hs avail bs deck sc r start) (h2 : ∀ s < 4, hs s ≤ 2)
    {s : Nat} (hs4 : s < 4) : sc s ≤ 7 ∧ r ≤ 5 := by
  have hl := h.len
  refine ⟨?_, by omega⟩
  rcases h.counts s hs4 with h1 | h1
  · have : suitCnt bs s ≤ bs.length := List.countP_le_length
    have := h2 s hs4
    omega
  · omega

theorem repeatLoopC_eq {childC : RecCallC} {child : RecCall} {r : Nat} (hch : ChildOk hs avail F0 child r)
    (hcc : ChildC hs avail childC child r)
    {bs : List Nat} {sc : Nat → Nat} {i cnt w : Nat} (hcnt : cnt ≤ 4) (hw : w * 4 ^ r < 2 ^ 64) (G : List Nat) :
    ∀ (fuel k : Nat) (deck : List Nat), Node hs avail bs deck sc r i → i + cnt ≤ deck.length → k + fuel = min cnt r →
      G = (deck.drop i).take cnt → (∀ c ∈ G, sc (c % 4) + r < 5) →
      Succeeds w r (repeatLoopC childC r i cnt w fuel (k + 1) (ofCards (bs ++ G.take k)) deck sc)
        (repeatLoop child r i cnt w fuel (k + 1) (ofCards (bs ++ G.take k)) deck sc) := by
  intro fuel
  induction fuel with
  | zero => intro k deck _ _ _ _ _; exact ⟨rfl, by simp [repeatLoop]⟩
  | succ fuel ih =>
    intro k deck hN hl hk hG hd
    rw [repeatLoopC, repeatLoop]
    have hkc : k + 1 ≤ cnt := by omega
    have hkr : k + 1 ≤ r := by omega
    have hGl : G.length = cnt := by rw [hG]; simp; omega
    have hb : ofCards (bs ++ G.take k) + CARDS (deck.getD (i + (k + 1) - 1) 0) = ofCards (bs ++ G.take (k + 1)) := by
      rw [hG, take_drop_getD (by omega) hl, ← List.append_assoc, ofCards_snoc, show i + (k + 1) - 1 = i + k by omega]
    have hbin : (BINOM_COEFF.getD cnt []).getD (k + 1) 0 = cnt.choose (k + 1) := binom_eq cnt hcnt (k + 1) hkc (by omega)
    have hc52 : deck.getD (i + (k + 1) - 1) 0 < 52 := by
      apply hN.cards.2
      apply List.mem_append_right
      rw [show i + (k + 1) - 1 = i + k by omega, List.getD_eq_getElem _ _ (by omega)]
      exact List.mem_drop_iff_getElem.2 ⟨k, by omega, rfl⟩
    have hpos : 1 ≤ cnt.choose (k + 1) := Nat.choose_pos hkc
    have hch4 : cnt.choose (k + 1) ≤ 4 ^ (k + 1) := choose_le4 cnt hcnt (k + 1) (by omega)
    have hnew : cnt.choose (k + 1) * w * 4 ^ (r - (k + 1)) ≤ w * 4 ^ r := by
      calc cnt.choose (k + 1) * w * 4 ^ (r - (k + 1)) ≤ 4 ^ (k + 1) * w * 4 ^ (r - (k + 1)) :=
            Nat.mul_le_mul_right _ (Nat.mul_le_mul_right _ hch4)
        _ = w * (4 ^ (k + 1) * 4 ^ (r - (k + 1))) := by ring
        _ = w * 4 ^ r := by rw [← pow_add, show k + 1 + (r - (k + 1)) = r by omega]
    have hnw : cnt.choose (k + 1) * w < 2 ^ 64 := by
      have : cnt.choose (k + 1) * w * 1 ≤ cnt.choose (k + 1) * w * 4 ^ (r - (k + 1)) := Nat.mul_le_mul_left _ (Nat.one_le_pow _ _ (by decide))
      omega
    have hwle : w ≤ cnt.choose (k + 1) * w := Nat.le_mul_of_pos_left w hpos
    rw [binomC_some cnt hcnt (k + 1) (by omega)]
    simp only [hbin, hb, Option.bind_eq_bind, Option.bind_some, fits_some hnw, get_some (show i + (k + 1) - 1 < deck.length by omega),
      cardC_some hc52]
    by_cases hkr' : k + 1 = r
    · rw [if_pos hkr', if_pos hkr']
      obtain ⟨e1, e2⟩ := ih (k + 1) deck hN hl (by omega) hG hd
      rw [e1]
      refine ⟨rfl, fun e he => ?_⟩
      rcases List.mem_cons.1 he with rfl | he
      · exact ⟨hwle, (Nat.le_mul_of_pos_right _ (by positivity)).trans hnew⟩
      · exact e2 e he
    · rw [if_neg hkr', if_neg hkr', subC_some hkr]
      have hN' : Node hs avail (bs ++ G.take (k + 1)) deck sc (r - (k + 1)) (i + cnt) := by
        rw [hG]; rw [hG] at hd hGl
        exact hN.group (by omega) hd (by omega)
      obtain ⟨_, c2, c3⟩ := hch (bs ++ G.take (k + 1)) deck sc (r - (k + 1)) (i + cnt) (cnt.choose (k + 1) * w) (by omega) hN'
      obtain ⟨d1, d2⟩ := hcc (bs ++ G.take (k + 1)) deck sc (r - (k + 1)) (i + cnt) (cnt.choose (k + 1) * w) (by omega) hN' (by omega)
      simp only [Option.bind_some, d1]
      generalize child (ofCards (bs ++ G.take (k + 1))) deck sc (r - (k + 1)) (i + cnt) (cnt.choose (k + 1) * w) = x at c2 c3 d2
      rw [c3]
      have hG' : G = (x.2.1.drop i).take cnt := by rw [group_eq c2]; exact hG
      obtain ⟨e1, e2⟩ := ih (k + 1) x.2.1 (hN.deck (c2.mono (Nat.le_add_right _ _))) (by rw [c2.length]; exact hl) (by omega) hG' hd
      rw [e1]
      refine ⟨rfl, fun e he => ?_⟩
      rcases List.mem_append.1 he with he | he
      · exact ⟨hwle.trans (d2 e he).1, (d2 e he).2.trans hnew⟩
      · exact e2 e he

theorem boardLoopC_eq {childC : RecCallC} {child : RecCall} {r : Nat} (hch : ChildOk hs avail F0 child r)
    (hcc : ChildC hs avail childC child r) (hr : 2 ≤ r) (h2 : ∀ s < 4, hs s ≤ 2) {bs : List Nat} {w : Nat} (hw : w * 4 ^ r < 2 ^ 64) :
    ∀ (fuel i : Nat) (deck : List Nat) (sc : Nat → Nat), deck.length ≤ fuel + i → Node hs avail bs deck sc r i →
      Succeeds w r (boardLoopC childC (ofCards bs) r w fuel i deck sc) (boardLoop child (ofCards bs) r w fuel i deck sc) := by
  intro fuel
  induction fuel with
  | zero => intro i deck sc hl _; exact ⟨rfl, by simp [boardLoop]⟩
  | succ fuel ih =>
    intro i deck sc hl hN
    rw [boardLoopC, boardLoop]
    by_cases hi : i < deck.length
    · have hsc8 : ∀ s < 4, sc s + r < 2 ^ 8 := fun s hs4 => by have := hN.sc_le h2 hs4; omega
      have hc52 : deck.getD i 0 < 52 := hN.cards.2 _ (List.mem_append_right _ (by rw [drop_cons hi]; simp))
      rw [if_pos hi, if_pos hi, get_some hi]
      simp only [and3, shr2, Option.bind_eq_bind, Option.bind_some]
      have hm4 : deck.getD i 0 % 4 < 4 := Nat.mod_lt _ (by decide)
      rw [fits_some (hsc8 _ hm4)]
      simp only [Option.bind_some]
      by_cases hsc : sc (deck.getD i 0 % 4) + r < 5
      · rw [if_pos hsc, if_pos hsc, gatherLoopC_eq hsc8 _ i deck.length (i + 1) deck 1 le_rfl]
        obtain ⟨g1, g2, g3, g4⟩ := gatherLoop_eq sc r (rk (deck.getD i 0)) i deck.length (i + 1) deck 1 (by omega) le_rfl
          (fun k h1 h2 _ => by rw [show k = i by omega])
          (fun k hk => by rw [show i + k = i by omega]; exact hsc) (by omega)
        generalize gatherLoop sc r (rk (deck.getD i 0)) i deck.length (i + 1) deck 1 = gg at g1 g2 g3 g4
        obtain ⟨d, cnt⟩ := gg
        simp only at g1 g2 g3 g4 ⊢
        have hN1 := hN.deck g1
        have hdl := g1.length
        have hGall : ∀ c ∈ (d.drop i).take cnt, rk c = rk (deck.getD i 0) ∧ sc (c % 4) + r < 5 := by
          intro c hc
          obtain ⟨k, hk, rfl⟩ := List.getElem_of_mem hc
          have hk' : k < cnt := by simp at hk; omega
          have := g4 k hk'
          rw [List.getD_eq_getElem _ _ (by omega)] at this
          simpa using this
        generalize hG : (d.drop i).take cnt = G at hGall
        have hGl : G.length = cnt := by rw [← hG]; simp; omega
        have hcards : IsCards (bs ++ (G ++ d.drop (i + cnt))) := by
          rw [← hG, ← drop_group]; exact hN1.cards
        have hcnt : cnt ≤ 4 := by
          rw [← hGl]
          refine same_rank_le4 (rank := rk (deck.getD i 0)) ?_ (fun c hc => (hGall c hc).1)
          exact hcards.1.sublist ((List.sublist_append_left G _).trans (List.sublist_append_right bs _))
        obtain ⟨_, p2, p3⟩ := repeatLoop_ok hch (w := w) hcnt G (min cnt r) 0 d hN1 (by omega) (by omega) hG.symm
          (fun c hc => (hGall c hc).2)
        obtain ⟨q1, q2⟩ := repeatLoopC_eq hch hcc hcnt hw G (min cnt r) 0 d hN1 (by omega) (by omega) hG.symm
          (fun c hc => (hGall c hc).2)
        rw [List.take_zero, List.append_nil] at p2 p3 q1 q2
        simp only [Option.bind_some]
        rw [q1]
        simp only [Option.bind_some]
        generalize repeatLoop child r i cnt w (min cnt r) (0 + 1) (ofCards bs) d sc = x at p2 p3 q2
        rw [p3]
        have hN2 : Node hs avail bs x.2.1 sc r (i + (cnt - 1) + 1) := by
          rw [show i + (cnt - 1) + 1 = i + cnt by omega]
          exact (hN1.skip (Nat.le_add_right i cnt)).deck p2
        obtain ⟨e1, e2⟩ := ih (i + (cnt - 1) + 1) x.2.1 sc (by rw [p2.length]; omega) hN2
        rw [e1]
        refine ⟨rfl, fun e he => ?_⟩
        rcases List.mem_append.1 he with he | he
        · exact q2 e he
        · exact e2 e he
      · rw [if_neg hsc, if_neg hsc, cardC_some hc52]
        generalize hc : deck.getD i 0 = c at *
        rw [fits_some (show sc (c % 4) + 1 < 2 ^ 8 by have := hsc8 _ hm4; omega), subC_some (show 1 ≤ r by omega)]
        simp only [Option.bind_some]
        generalize hsc1 : Function.update sc (c % 4) (sc (c % 4) + 1) = sc1
        have hdc := drop_cons hi
        rw [hc] at hdc
        have hN1 : Node hs avail (bs ++ [c]) deck sc1 (r - 1) (i + 1) := by
          refine ⟨?_, ?_, ?_, by omega, ?_, ?_⟩
          · have := hN.cards; rw [hdc] at this; simpa using this
          · have := hN.av; rw [hdc] at this; simpa using this
          · have := hN.len; rw [List.length_append, List.length_singleton]; omega
          · have := hN.sorted; rw [hdc, List.pairwise_cons] at this; exact this.2
          · intro s hs4
            rw [← hsc1, suitCnt_append, suitCnt_cons]
            by_cases hs : s = c % 4
            · subst hs
              rw [Function.update_self, if_pos rfl]
              rcases hN.counts _ hs4 with h1 | h1
              · left; rw [h1]; simp [suitCnt]; omega
              · exact absurd h1.1 hsc
            · rw [Function.update_of_ne hs, if_neg (fun h => hs h.symm)]
              rcases hN.counts s hs4 with h1 | h1
              · left; rw [h1]; simp [suitCnt]
              · exact Or.inr ⟨by omega, h1.2.append _⟩
        obtain ⟨_, c2, c3⟩ := hch (bs ++ [c]) deck sc1 (r - 1) (i + 1) w (by omega) hN1
        have hw' : w * 4 ^ (r - 1) < 2 ^ 64 := lt_of_le_of_lt (Nat.mul_le_mul_left _ (Nat.pow_le_pow_right (by omega) (by omega))) hw
        obtain ⟨d1, d2⟩ := hcc (bs ++ [c]) deck sc1 (r - 1) (i + 1) w (by omega) hN1 hw'
        rw [ofCards_snoc] at c2 c3 d1 d2
        rw [d1]
        simp only [Option.bind_some]
        generalize child (ofCards bs + CARDS c) deck sc1 (r - 1) (i + 1) w = x at c2 c3 d2
        have hval : x.2.2 (c % 4) = sc (c % 4) + 1 := by rw [c3, ← hsc1, Function.update_self]
        rw [subC_some (show 1 ≤ x.2.2 (c % 4) by omega)]
        simp only [Option.bind_some]
        have hsc2 : Function.update x.2.2 (c % 4) (x.2.2 (c % 4) - 1) = sc := by
          rw [c3, ← hsc1, Function.update_self, Function.update_idem, Nat.add_sub_cancel, Function.update_eq_self]
        rw [hsc2]
        obtain ⟨e1, e2⟩ := ih (i + 1) x.2.1 sc (by rw [c2.length]; omega) ((hN.skip (Nat.le_succ i)).deck c2)
        rw [e1]
        refine ⟨rfl, fun e he => ?_⟩
        rcases List.mem_append.1 he with he | he
        · exact ⟨(d2 e he).1, (d2 e he).2.trans (Nat.mul_le_mul_left _ (Nat.pow_le_pow_right (by omega) (by omega)))⟩
        · exact e2 e he
    · rw [if_neg hi, if_neg hi]; exact ⟨rfl, by simp⟩

/-- The recursion succeeds if the weight leaves room for the multiplicities. -/
theorem enumerateBoardRecC_eq (h2 : ∀ s < 4, hs s ≤ 2) : ∀ depth r, r ≤ depth → ∀ bs deck sc start w,
    Node hs avail bs deck sc r start → w * 4 ^ r < 2 ^ 64 →
    Succeeds w r (enumerateBoardRecC depth (ofCards bs) deck sc r start w) (enumerateBoardRec depth (ofCards bs) deck sc r start w) := by
  intro depth
  induction depth with
  | zero => intro r hr bs deck sc start w hN; have := hN.pos; omega
  | succ depth ih =>
    intro r hr bs deck sc start w hN hw
    rw [enumerateBoardRecC, enumerateBoardRec]
    by_cases h1 : r = 1
    · rw [if_pos h1, if_pos h1]
      subst h1
      have hw4 : w * 4 < 2 ^ 64 := by simpa using hw
      have hn := hN.cards.1.sublist (List.sublist_append_right bs (deck.drop start))
      have hc : ∀ c ∈ deck.drop start, c < 52 := fun c hc => hN.cards.2 c (List.mem_append_right _ hc)
      split
      · obtain ⟨e1, e2⟩ := lastNoFlushC_eq hn hc hw4 (ofCards bs) deck.length start le_rfl
        exact ⟨by rw [e1]; rfl, by rw [pow_one]; exact e2⟩
      · obtain ⟨e1, e2⟩ := lastFlushC_eq hn hc hN.sorted hw4 (ofCards bs) sc deck.length 255 start le_rfl
        exact ⟨by rw [e1]; rfl, by rw [pow_one]; exact e2⟩
    · rw [if_neg h1, if_neg h1]
      have := hN.pos
      exact boardLoopC_eq (fun bs deck sc r' start w hr' hN' => enumerateBoardRec_ok boardFun0 depth r' (by omega) bs deck sc start w hN')
        (fun bs deck sc r' start w hr' hN' hw' => ih r' (by omega) bs deck sc start w hN' hw') (by omega) h2 hw
        deck.length start deck sc (by omega) hN

/-! ## A deal -/

theorem holeSuits_le (n : Nat) (holes : Nat → Hole) (s : Nat) : holeSuits n holes s ≤ 2 := by
  induction n with
  | zero => exact Nat.zero_le _
  | succ n ih =>
    rw [holeSuits_succ]
    exact max_le ih ((List.countP_le_length).trans (by simp [cardsOf]))

/-- The state at the first call of the recursion. -/
theorem DealOk.node {board dead : List Nat} {d : List WHand} (h : DealOk board dead d) (ph : Nat → Hole) {used : Nat}
    (hu : ∀ c < 52, used.testBit c = true ↔ c ∈ board ++ dead ++ dealt d) (hr : 5 - board.length ≠ 0) :
    Node (holeSuits d.length ph) (fun c => c ∉ dealt d) board (makeDeck used) (suitCounts d.length ph (ofCards board))
      (5 - board.length) 0 := by
  have hdp := deck_perm hu
  have hmem : ∀ c ∈ makeDeck used, c < 52 ∧ c ∉ board ++ dead ++ dealt d := by
    intro c hc
    have := hdp.mem_iff.1 hc
    rw [List.mem_filter, List.mem_range, decide_eq_true_iff] at this
    exact this
  refine ⟨⟨?_, ?_⟩, ?_, by have := h.len; omega, by omega, makeDeck_sorted used, ?_⟩
  · rw [List.drop_zero, List.nodup_append]
    refine ⟨h.isBoard.1, hdp.nodup_iff.2 (List.nodup_range.filter _), ?_⟩
    intro a ha b hb hab
    subst hab
    exact (hmem a hb).2 (by simp [ha])
  · intro c hc
    rw [List.drop_zero] at hc
    rcases List.mem_append.1 hc with hc | hc
    · exact h.isBoard.2 c hc
    · exact (hmem c hc).1
  · intro c hc hd
    rw [List.drop_zero] at hc
    rcases List.mem_append.1 hc with hc | hc
    · exact h.legal c hd (by simp [hc])
    · exact (hmem c hc).2 (by simp [hd])
  · intro s hs
    exact Or.inl (suitCounts_eq d.length ph h.isBoard h.len hs)

theorem DealOk.count {board dead : List Nat} {d : List WHand} (h : DealOk board dead d) : (ofCards board).count = board.length :=
  (C08_counters h.isBoard (by have := h.len; omega) (fun s _ => (List.countP_le_length).trans (by have := h.len; omega))).1

/-- The enumeration of the boards of a deal does not panic if the weight of the deal, taken four times for each
missing card, fits into 64 bits; an evaluation stands for at most four boards for each missing card. -/
theorem boardEventsC_weights {board dead : List Nat} {d : List WHand} (h : DealOk board dead d) (ph : Nat → Hole) {used : Nat}
    (hu : ∀ c < 52, used.testBit c = true ↔ c ∈ board ++ dead ++ dealt d) {w : Nat}
    (hw : w * 4 ^ (5 - board.length) < 2 ^ 64) :
    boardEventsC d.length ph w (ofCards board) used = some (boardEvents d.length ph w (ofCards board) used) ∧
      ∀ e ∈ boardEvents d.length ph w (ofCards board) used, w ≤ e.weight ∧ e.weight ≤ w * 4 ^ (5 - board.length) := by
  unfold boardEventsC boardEvents
  simp only [h.count, BOARD_CARDS]
  rw [subC_some h.len]
  simp only [Option.bind_eq_bind, Option.bind_some]
  by_cases hr : 5 - board.length = 0
  · rw [if_pos hr, if_pos hr]
    refine ⟨rfl, fun e he => ?_⟩
    rw [List.mem_singleton] at he
    subst he
    rw [hr]
    exact ⟨le_rfl, by simp⟩
  · rw [if_neg hr, if_neg hr]
    obtain ⟨e1, e2⟩ := enumerateBoardRecC_eq (fun s _ => holeSuits_le d.length ph s) (5 - board.length) (5 - board.length) le_rfl board
      (makeDeck used) (suitCounts d.length ph (ofCards board)) 0 w (h.node ph hu hr) hw
    exact ⟨by rw [e1]; rfl, e2⟩

/-- The enumeration of the boards of a deal does not panic if 1024 times the weight of the deal fits into 64 bits. -/
theorem boardEventsC_eq {board dead : List Nat} {d : List WHand} (h : DealOk board dead d) (ph : Nat → Hole) {used : Nat}
    (hu : ∀ c < 52, used.testBit c = true ↔ c ∈ board ++ dead ++ dealt d) {w : Nat} (hw : w * 4 ^ 5 < 2 ^ 64) :
    boardEventsC d.length ph w (ofCards board) used = some (boardEvents d.length ph w (ofCards board) used) ∧
      ∀ e ∈ boardEvents d.length ph w (ofCards board) used, w ≤ e.weight := by
  obtain ⟨h1, h2⟩ := boardEventsC_weights h ph hu (w := w)
    (lt_of_le_of_lt (Nat.mul_le_mul_left _ (Nat.pow_le_pow_right (by omega) (by omega))) hw)
  exact ⟨h1, fun e he => (h2 e he).1⟩

/-! ## The number of evaluations -/

/-- Two results with the same number of evaluations and the same buffers. -/
def SameLen (x y : List Ev × Bufs) : Prop := x.1.length = y.1.length ∧ x.2 = y.2

theorem lastNoFlush_len (board : Hand) (deck : List Nat) (w w' : Nat) : ∀ fuel i,
    (lastNoFlush board deck w fuel i).length = (lastNoFlush board deck w' fuel i).length := by
  intro fuel
  induction fuel with
  | zero => intro i; rfl
  | succ fuel ih =>
    intro i
    rw [lastNoFlush, lastNoFlush]
    split
    · rw [List.length_cons, List.length_cons, ih]
    · rfl

theorem lastFlush_len (board : Hand) (deck : List Nat) (sc : Nat → Nat) (w w' : Nat) : ∀ fuel lr i,
    (lastFlush board deck sc w fuel lr i).length = (lastFlush board deck sc w' fuel lr i).length := by
  intro fuel
  induction fuel with
  | zero => intro lr i; rfl
  | succ fuel ih =>
    intro lr i
    rw [lastFlush, lastFlush]
    split
    · simp only
      split
      · split
        · exact ih _ _
        · rw [List.length_cons, List.length_cons, ih]
      · rw [List.length_cons, List.length_cons, ih]
    · rfl

theorem repeatLoop_len {child : RecCall} (hc : ∀ b deck sc r st w w', SameLen (child b deck sc r st w) (child b deck sc r st w'))
    (r i cnt w w' : Nat) : ∀ fuel k b deck sc,
    SameLen (repeatLoop child r i cnt w fuel k b deck sc) (repeatLoop child r i cnt w' fuel k b deck sc) := by
  intro fuel
  induction fuel with
  | zero => intro k b deck sc; exact ⟨rfl, rfl⟩
  | succ fuel ih =>
    intro k b deck sc
    rw [repeatLoop, repeatLoop]
    simp only
    split
    · obtain ⟨h1, h2⟩ := ih (k + 1) (b + CARDS (deck.getD (i + k - 1) 0)) deck sc
      exact ⟨congrArg (· + 1) h1, h2⟩
    · obtain ⟨g1, g2⟩ := hc (b + CARDS (deck.getD (i + k - 1) 0)) deck sc (r - k) (i + cnt)
        ((BINOM_COEFF.getD cnt []).getD k 0 * w) ((BINOM_COEFF.getD cnt []).getD k 0 * w')
      rw [g2]
      generalize child (b + CARDS (deck.getD (i + k - 1) 0)) deck sc (r - k) (i + cnt) ((BINOM_COEFF.getD cnt []).getD k 0 * w') = x at g1 g2 ⊢
      obtain ⟨h1, h2⟩ := ih (k + 1) (b + CARDS (deck.getD (i + k - 1) 0)) x.2.1 x.2.2
      refine ⟨?_, h2⟩
      rw [List.length_append, List.length_append, g1, h1]

theorem boardLoop_len {child : RecCall} (hc : ∀ b deck sc r st w w', SameLen (child b deck sc r st w) (child b deck sc r st w'))
    (b : Hand) (r w w' : Nat) : ∀ fuel i deck sc,
    SameLen (boardLoop child b r w fuel i deck sc) (boardLoop child b r w' fuel i deck sc) := by
  intro fuel
  induction fuel with
  | zero => intro i deck sc; exact ⟨rfl, rfl⟩
  | succ fuel ih =>
    intro i deck sc
    rw [boardLoop, boardLoop]
    split
    · simp only
      split
      · generalize gatherLoop sc r (deck.getD i 0 >>> 2) i deck.length (i + 1) deck 1 = g
        obtain ⟨g1, g2⟩ := repeatLoop_len hc r i g.2 w w' (min g.2 r) 1 b g.1 sc
        rw [g2]
        generalize repeatLoop child r i g.2 w' (min g.2 r) 1 b g.1 sc = x at g1 g2 ⊢
        obtain ⟨h1, h2⟩ := ih (i + (g.2 - 1) + 1) x.2.1 x.2.2
        refine ⟨?_, h2⟩
        rw [List.length_append, List.length_append, g1, h1]
      · generalize Function.update sc (deck.getD i 0 &&& 3) (sc (deck.getD i 0 &&& 3) + 1) = sc1
        obtain ⟨g1, g2⟩ := hc (b + CARDS (deck.getD i 0)) deck sc1 (r - 1) (i + 1) w w'
        rw [g2]
        generalize child (b + CARDS (deck.getD i 0)) deck sc1 (r - 1) (i + 1) w' = x at g1 g2 ⊢
        obtain ⟨h1, h2⟩ := ih (i + 1) x.2.1 (Function.update x.2.2 (deck.getD i 0 &&& 3) (x.2.2 (deck.getD i 0 &&& 3) - 1))
        refine ⟨?_, h2⟩
        rw [List.length_append, List.length_append, g1, h1]
    · exact ⟨rfl, rfl⟩

theorem enumerateBoardRec_len : ∀ depth b deck sc r st w w',
    SameLen (enumerateBoardRec depth b deck sc r st w) (enumerateBoardRec depth b deck sc r st w') := by
  intro depth
  induction depth with
  | zero => intro b deck sc r st w w'; exact ⟨rfl, rfl⟩
  | succ depth ih =>
    intro b deck sc r st w w'
    rw [enumerateBoardRec, enumerateBoardRec]
    split
    · split
      · exact ⟨lastNoFlush_len _ _ _ _ _ _, rfl⟩
      · exact ⟨lastFlush_len _ _ _ _ _ _ _ _, rfl⟩
    · exact boardLoop_len ih b r w w' deck.length st deck sc

/-- At most one evaluation for every board, and at least one for every four boards for each missing card. -/
theorem boardEvents_lengths {board dead : List Nat} {d : List WHand} (h : DealOk board dead d) {ph : Nat → Hole}
    (hph : ∀ i < d.length, ph i = d.getD i (0, 0, 0)) {used : Nat}
    (hu : ∀ c < 52, used.testBit c = true ↔ c ∈ board ++ dead ++ dealt d) (w : Nat) :
    (boardEvents d.length ph w (ofCards board) used).length ≤ (boards board dead d).length ∧
    (boards board dead d).length ≤ 4 ^ (5 - board.length) * (boardEvents d.length ph w (ofCards board) used).length := by
  have e : (boardEvents d.length ph w (ofCards board) used).length = (boardEvents d.length ph 1 (ofCards board) used).length := by
    unfold boardEvents
    simp only
    split
    · rfl
    · exact (enumerateBoardRec_len _ _ _ _ _ _ _ _).1
  rw [e]
  have hs := boardEvents_sum h (Φ := fun _ => (1 : Nat)) (fun _ _ _ => rfl) hph hu 1
  have hp := (boardEventsC_weights h ph hu (w := 1) (by
    rw [one_mul]
    exact lt_of_le_of_lt (Nat.pow_le_pow_right (by omega) (show 5 - board.length ≤ 5 by omega)) (by decide))).2
  have hb : ((boards board dead d).map fun _ => (1 : Nat)).sum = (boards board dead d).length := by simp
  rw [one_nsmul, hb] at hs
  rw [← hs]
  rw [one_mul] at hp
  generalize boardEvents d.length ph 1 (ofCards board) used = es at hp
  generalize 4 ^ (5 - board.length) = m at hp
  clear hs e hb
  induction es with
  | nil => exact ⟨le_rfl, le_rfl⟩
  | cons x es ih =>
    rw [evSum_cons, List.length_cons]
    have h1 := hp x (by simp)
    have h2 := ih (fun y hy => hp y (by simp [hy]))
    show es.length + 1 ≤ x.weight • (1 : Nat) + _ ∧ x.weight • (1 : Nat) + _ ≤ _
    rw [smul_eq_mul, mul_one]
    rw [Nat.mul_add]
    omega

/-- At most one evaluation for every board. -/
theorem boardEvents_length {board dead : List Nat} {d : List WHand} (h : DealOk board dead d) {ph : Nat → Hole}
    (hph : ∀ i < d.length, ph i = d.getD i (0, 0, 0)) {used : Nat}
    (hu : ∀ c < 52, used.testBit c = true ↔ c ∈ board ++ dead ++ dealt d) (w : Nat) :
    (boardEvents d.length ph w (ofCards board) used).length ≤ (boards board dead d).length :=
  (boardEvents_lengths h hph hu w).1

end Pokers

import Verif.Proofs.BoardSum
import Verif.Model.Board
/-!
# The board enumeration visits every completion with its multiplicity
-/
namespace Pokers
open Spec

theorem shr2 (c : Nat) : c >>> 2 = rk c := by rw [Nat.shiftRight_eq_div_pow]
theorem and3 (c : Nat) : c &&& 3 = c % 4 := Nat.and_two_pow_sub_one_eq_mod c 2

theorem drop_cons {deck : List Nat} {i : Nat} (h : i < deck.length) : deck.drop i = deck.getD i 0 :: deck.drop (i + 1) := by
  rw [List.drop_eq_getElem_cons h, List.getD_eq_getElem _ _ h]

variable {M : Type} [AddCommMonoid M]

/-- The sum of the effects of the calls of `evaluate_hands`. -/
def evSum (F : Hand → Bool → M) (es : List Ev) : M := (es.map fun e => e.weight • F e.board e.flush).sum

theorem evSum_nil (F : Hand → Bool → M) : evSum F [] = 0 := rfl

theorem evSum_cons (F : Hand → Bool → M) (e : Ev) (es : List Ev) :
    evSum F (e :: es) = e.weight • F e.board e.flush + evSum F es := by simp [evSum]

theorem evSum_append (F : Hand → Bool → M) (es fs : List Ev) : evSum F (es ++ fs) = evSum F es + evSum F fs := by
  simp [evSum]

theorem ofCards_snoc (bs : List Nat) (c : Nat) : ofCards (bs ++ [c]) = ofCards bs + CARDS c := by
  unfold ofCards; rw [List.foldl_append]; rfl

/-! ## The last card -/

theorem sameRankLoop_eq (deck : List Nat) (rank : Nat) : ∀ fuel m i, ∃ k T, sameRankLoop deck rank fuel m i = (m + k, i + k) ∧
    deck.drop i = T ++ deck.drop (i + k) ∧ T.length = k ∧ ∀ c ∈ T, rk c = rank := by
  intro fuel
  induction fuel with
  | zero => intro m i; exact ⟨0, [], rfl, rfl, rfl, by simp⟩
  | succ fuel ih =>
    intro m i
    rw [sameRankLoop]
    by_cases h : i < deck.length ∧ deck.getD i 0 >>> 2 = rank
    · rw [if_pos h]
      obtain ⟨k, T, h1, h2, h3, h4⟩ := ih (m + 1) (i + 1)
      refine ⟨k + 1, deck.getD i 0 :: T, ?_, ?_, by simp [h3], ?_⟩
      · rw [h1]; congr 1 <;> omega
      · rw [drop_cons h.1, h2, List.cons_append, show i + 1 + k = i + (k + 1) by omega]
      · intro c hc
        rcases List.mem_cons.1 hc with rfl | hc
        · rw [← shr2]; exact h.2
        · exact h4 c hc
    · rw [if_neg h]
      exact ⟨0, [], rfl, rfl, rfl, by simp⟩

theorem lastNoFlush_eq (F : Hand → Bool → M) (bs : List Nat) (deck : List Nat) (w : Nat) : ∀ fuel i, deck.length ≤ fuel + i →
    (∀ a ∈ deck.drop i, ∀ b ∈ deck.drop i, rk a = rk b → F (ofCards (bs ++ [a])) false = F (ofCards (bs ++ [b])) false) →
    evSum F (lastNoFlush (ofCards bs) deck w fuel i) = w • ((deck.drop i).map fun c => F (ofCards (bs ++ [c])) false).sum := by
  intro fuel
  induction fuel with
  | zero =>
    intro i hl _
    rw [List.drop_eq_nil_of_le (by omega), lastNoFlush, evSum_nil]; simp
  | succ fuel ih =>
    intro i hl h
    rw [lastNoFlush]
    by_cases hi : i < deck.length
    · rw [if_pos hi]
      obtain ⟨k, T, h1, h2, h3, h4⟩ := sameRankLoop_eq deck (deck.getD i 0 >>> 2) deck.length 1 (i + 1)
      show evSum F (⟨w * (sameRankLoop deck (deck.getD i 0 >>> 2) deck.length 1 (i + 1)).1, _, false⟩ ::
        lastNoFlush (ofCards bs) deck w fuel (sameRankLoop deck (deck.getD i 0 >>> 2) deck.length 1 (i + 1)).2) = _
      rw [h1, evSum_cons]
      have hd : deck.drop i = (deck.getD i 0 :: T) ++ deck.drop (i + 1 + k) := by rw [drop_cons hi, h2]; rfl
      rw [ih (i + 1 + k) (by omega) (fun a ha b hb => h a (by rw [hd]; exact List.mem_append_right _ ha) b
        (by rw [hd]; exact List.mem_append_right _ hb)), hd, List.map_append, List.sum_append, nsmul_add,
        sum_const_map (deck.getD i 0 :: T) _ (F (ofCards (bs ++ [deck.getD i 0])) false)]
      · rw [List.length_cons, h3, ← mul_nsmul', ofCards_snoc, Nat.add_comm 1 k]
      · intro x hx
        apply h x (by rw [hd]; exact List.mem_append_left _ hx) _ (by rw [hd]; simp)
        rcases List.mem_cons.1 hx with rfl | hx
        · rfl
        · rw [h4 x hx, shr2]
    · rw [if_neg hi, List.drop_eq_nil_of_le (by omega), evSum_nil]; simp

/-- A card that cannot complete a flush as the last card, in terms of the counters. -/
abbrev lastDead (sc : Nat → Nat) (c : Nat) : Prop := sc (c % 4) < 4

theorem countLoop_eq (deck : List Nat) (sc : Nat → Nat) (rank : Nat) : ∀ fuel m j, deck.length ≤ fuel + j →
    (deck.drop j).Pairwise (fun a b => rk b ≤ rk a) → (∀ c ∈ deck.drop j, rk c ≤ rank) →
    countLoop deck sc rank fuel m j = m + (deck.drop j).countP (fun c => decide (lastDead sc c ∧ rk c = rank)) := by
  intro fuel
  induction fuel with
  | zero =>
    intro m j hl _ _
    rw [List.drop_eq_nil_of_le (by omega)]; rfl
  | succ fuel ih =>
    intro m j hl hs hr
    rw [countLoop]
    by_cases hj : j < deck.length
    · rw [if_pos hj, shr2, and3]
      have hd := drop_cons hj
      rw [hd] at hs hr ⊢
      rw [List.pairwise_cons] at hs
      by_cases hk : rk (deck.getD j 0) = rank
      · rw [if_neg (by rw [hk]; simp), ih _ _ (by omega) hs.2 (fun c hc => hr c (by simp [hc])), List.countP_cons]
        by_cases hsc : sc (deck.getD j 0 % 4) < 4
        · rw [if_pos hsc, if_pos (decide_eq_true ⟨hsc, hk⟩)]; omega
        · rw [if_neg hsc, if_neg (fun h => hsc (of_decide_eq_true h).1)]; omega
      · rw [if_pos hk]
        have h0 := hr (deck.getD j 0) (by simp)
        have : (deck.getD j 0 :: deck.drop (j + 1)).countP (fun c => decide (lastDead sc c ∧ rk c = rank)) = 0 := by
          rw [List.countP_eq_zero]
          intro c hc
          rw [decide_eq_true_iff]
          rintro ⟨_, hck⟩
          rcases List.mem_cons.1 hc with rfl | hc
          · exact hk hck
          · have := hs.1 c hc
            omega
        rw [this]; rfl
    · rw [if_neg hj, List.drop_eq_nil_of_le (by omega)]; rfl

theorem sum_filter_split (f : Nat → M) (p : Nat → Prop) [DecidablePred p] (L : List Nat) :
    (L.map f).sum = ((L.filter fun c => p c).map f).sum + ((L.filter fun c => ¬ p c).map f).sum := by
  induction L with
  | nil => simp
  | cons a L ih =>
    by_cases h : p a
    · rw [List.filter_cons_of_pos (by simpa using h), List.filter_cons_of_neg (by simpa using h)]
      simp only [List.map_cons, List.sum_cons, ih]
      abel
    · rw [List.filter_cons_of_neg (by simpa using h), List.filter_cons_of_pos (by simpa using h)]
      simp only [List.map_cons, List.sum_cons, ih]
      abel

theorem lastFlush_eq (F : Hand → Bool → M) (bs : List Nat) (deck : List Nat) (sc : Nat → Nat) (w : Nat) :
    ∀ fuel i ℓ, deck.length ≤ fuel + i → (deck.drop i).Pairwise (fun a b => rk b ≤ rk a) → (∀ c ∈ deck.drop i, rk c ≤ ℓ) →
    (∀ a ∈ deck.drop i, ∀ b ∈ deck.drop i, lastDead sc a → lastDead sc b → rk a = rk b →
      gOf F (bs ++ [a]) = gOf F (bs ++ [b])) →
    evSum F (lastFlush (ofCards bs) deck sc w fuel ℓ i) =
      w • (((deck.drop i).filter fun c => ¬ (lastDead sc c ∧ rk c = ℓ)).map fun c => gOf F (bs ++ [c])).sum := by
  intro fuel
  induction fuel with
  | zero =>
    intro i ℓ hl _ _ _
    rw [List.drop_eq_nil_of_le (by omega), lastFlush, evSum_nil]; simp
  | succ fuel ih =>
    intro i ℓ hl hs hr h
    rw [lastFlush]
    by_cases hi : i < deck.length
    · rw [if_pos hi]
      have hd := drop_cons hi
      have ih' := ih (i + 1)
      generalize deck.getD i 0 = c at hd
      generalize hL : deck.drop (i + 1) = L at hd ih'
      rw [hd] at hs hr h ⊢
      rw [List.pairwise_cons] at hs
      have hr' : ∀ x ∈ L, rk x ≤ ℓ := fun x hx => hr x (by simp [hx])
      have h' : ∀ a ∈ L, ∀ b ∈ L, lastDead sc a → lastDead sc b → rk a = rk b → gOf F (bs ++ [a]) = gOf F (bs ++ [b]) :=
        fun a ha b hb => h a (by simp [ha]) b (by simp [hb])
      simp only [and3, shr2]
      by_cases hsc : sc (c % 4) < 4
      · rw [if_pos hsc]
        by_cases hk : rk c = ℓ
        · rw [if_pos hk, ih' ℓ (by omega) hs.2 hr' h', List.filter_cons_of_neg (by simp [lastDead, hsc, hk])]
        · have hlt : rk c < ℓ := lt_of_le_of_ne (hr c (by simp)) hk
          have hLc : ∀ x ∈ L, rk x ≤ rk c := hs.1
          rw [if_neg hk, evSum_cons, ih' (rk c) (by omega) hs.2 hLc h',
            countLoop_eq deck sc (rk c) deck.length 1 (i + 1) (by omega) (by rw [hL]; exact hs.2) (by rw [hL]; exact hLc), hL]
          rw [List.filter_cons_of_pos (by simp [lastDead, hk]), List.map_cons, List.sum_cons]
          have hall : (L.filter fun c => ¬ (lastDead sc c ∧ rk c = ℓ)) = L := by
            rw [List.filter_eq_self]
            intro x hx
            rw [decide_eq_true_iff]
            rintro ⟨_, hx2⟩
            have := hLc x hx
            omega
          rw [hall, sum_filter_split _ (fun x => lastDead sc x ∧ rk x = rk c) L,
            sum_const_map (L.filter fun x => lastDead sc x ∧ rk x = rk c) _ (gOf F (bs ++ [c])), ← List.countP_eq_length_filter]
          · show (w * _) • F _ true + _ = _
            rw [nsmul_add, nsmul_add, mul_nsmul', add_nsmul, one_nsmul, nsmul_add, ← ofCards_snoc]
            abel
          · intro x hx
            rw [List.mem_filter, decide_eq_true_iff] at hx
            exact h x (by simp [hx.1]) c (by simp) hx.2.1 hsc hx.2.2
      · rw [if_neg hsc, evSum_cons, ih' ℓ (by omega) hs.2 hr' h', List.filter_cons_of_pos (by simp [lastDead, hsc]),
          List.map_cons, List.sum_cons, nsmul_add, Nat.mul_one, ← ofCards_snoc]
    · rw [if_neg hi, List.drop_eq_nil_of_le (by omega), evSum_nil]; simp

/-! ## Changes of the deck -/

/-- `d'` arises from `d` by permuting cards of equal rank at positions from `i` on. -/
structure DeckEq (i : Nat) (d d' : List Nat) : Prop where
  take : d'.take i = d.take i
  perm : d'.Perm d
  ranks : d'.map rk = d.map rk

theorem DeckEq.refl (i : Nat) (d : List Nat) : DeckEq i d d := ⟨rfl, List.Perm.refl _, rfl⟩

theorem DeckEq.trans {i : Nat} {d d' d'' : List Nat} (h : DeckEq i d d') (h' : DeckEq i d' d'') : DeckEq i d d'' :=
  ⟨h'.take.trans h.take, h'.perm.trans h.perm, h'.ranks.trans h.ranks⟩

theorem DeckEq.mono {i j : Nat} {d d' : List Nat} (h : DeckEq j d d') (hij : i ≤ j) : DeckEq i d d' :=
  ⟨by have := congrArg (List.take i) h.take
      rwa [List.take_take, List.take_take, Nat.min_eq_left hij] at this, h.perm, h.ranks⟩

theorem DeckEq.length {i : Nat} {d d' : List Nat} (h : DeckEq i d d') : d'.length = d.length := h.perm.length_eq

theorem DeckEq.drop {i : Nat} {d d' : List Nat} (h : DeckEq i d d') : (d'.drop i).Perm (d.drop i) := by
  have := h.perm
  rw [← List.take_append_drop i d', ← List.take_append_drop i d, h.take] at this
  exact (List.perm_append_left_iff _).1 this

theorem DeckEq.sorted {i j : Nat} {d d' : List Nat} (h : DeckEq i d d') (hs : (d.drop j).Pairwise (fun a b => rk b ≤ rk a)) :
    (d'.drop j).Pairwise (fun a b => rk b ≤ rk a) := by
  have e : (d'.drop j).map rk = (d.drop j).map rk := by rw [List.map_drop, List.map_drop, h.ranks]
  have : ((d.drop j).map rk).Pairwise (fun a b => b ≤ a) := List.pairwise_map.2 hs
  rw [← e] at this
  exact List.pairwise_map.1 this

theorem DeckEq.getD {i k : Nat} {d d' : List Nat} (h : DeckEq i d d') (hk : k < i) : d'.getD k 0 = d.getD k 0 := by
  have h1 : ∀ l : List Nat, l.getD k 0 = (l.take i).getD k 0 := by
    intro l
    rw [List.getD_eq_getElem?_getD, List.getD_eq_getElem?_getD, List.getElem?_take_of_lt hk]
  rw [h1 d', h.take, ← h1 d]

theorem swap_deckEq {deck : List Nat} {a b i : Nat} (ha : a < deck.length) (hb : b < deck.length) (hia : i ≤ a) (hib : i ≤ b)
    (hr : rk (deck.getD a 0) = rk (deck.getD b 0)) : DeckEq i deck (swap deck a b) := by
  unfold swap
  rw [List.getD_eq_getElem _ _ ha, List.getD_eq_getElem _ _ hb] at *
  refine ⟨?_, List.set_set_perm ha hb, ?_⟩
  · rw [List.take_set_of_le hib, List.take_set_of_le hia]
  · rw [List.map_set, List.map_set, ← hr]
    have h1 : (deck.map rk).set a (rk deck[a]) = deck.map rk := by
      rw [show rk deck[a] = (deck.map rk)[a]'(by simpa using ha) by simp, List.set_getElem_self]
    rw [h1, hr, show rk deck[b] = (deck.map rk)[b]'(by simpa using hb) by simp, List.set_getElem_self]

theorem swap_getD {deck : List Nat} {a b k : Nat} (ha : a < deck.length) (hb : b < deck.length) :
    (swap deck a b).getD k 0 = if k = b then deck.getD a 0 else if k = a then deck.getD b 0 else deck.getD k 0 := by
  unfold swap
  rw [List.getD_eq_getElem?_getD, List.getElem?_set, List.getElem?_set]
  by_cases h1 : k = b
  · subst h1; simp [hb]
  · rw [if_neg (fun h => h1 h.symm), if_neg h1]
    by_cases h2 : k = a
    · subst h2; simp [ha]
    · rw [if_neg (fun h => h2 h.symm), if_neg h2, List.getD_eq_getElem?_getD]

theorem gatherLoop_eq (sc : Nat → Nat) (r rank i : Nat) : ∀ fuel j deck cnt, i + cnt ≤ j → 1 ≤ cnt →
    (∀ k, i ≤ k → k < j → k < deck.length → rk (deck.getD k 0) = rank) →
    (∀ k < cnt, sc (deck.getD (i + k) 0 % 4) + r < 5) → i + cnt ≤ deck.length →
    DeckEq i deck (gatherLoop sc r rank i fuel j deck cnt).1 ∧ cnt ≤ (gatherLoop sc r rank i fuel j deck cnt).2 ∧
    i + (gatherLoop sc r rank i fuel j deck cnt).2 ≤ deck.length ∧
    ∀ k < (gatherLoop sc r rank i fuel j deck cnt).2,
      rk ((gatherLoop sc r rank i fuel j deck cnt).1.getD (i + k) 0) = rank ∧
      sc ((gatherLoop sc r rank i fuel j deck cnt).1.getD (i + k) 0 % 4) + r < 5 := by
  intro fuel
  induction fuel with
  | zero =>
    intro j deck cnt h1 h2 h3 h4 h5
    rw [gatherLoop]
    exact ⟨DeckEq.refl _ _, le_rfl, h5, fun k hk => ⟨h3 _ (by omega) (by omega) (by omega), h4 k hk⟩⟩
  | succ fuel ih =>
    intro j deck cnt h1 h2 h3 h4 h5
    have stop : DeckEq i deck deck ∧ cnt ≤ cnt ∧ i + cnt ≤ deck.length ∧
        ∀ k < cnt, rk (deck.getD (i + k) 0) = rank ∧ sc (deck.getD (i + k) 0 % 4) + r < 5 :=
      ⟨DeckEq.refl _ _, le_rfl, h5, fun k hk => ⟨h3 _ (by omega) (by omega) (by omega), h4 k hk⟩⟩
    rw [gatherLoop]
    by_cases hj : j < deck.length
    · rw [if_pos hj, shr2, and3]
      by_cases hk : rk (deck.getD j 0) = rank
      · rw [if_neg (by rw [hk]; simp)]
        have h3' : ∀ k, i ≤ k → k < j + 1 → k < deck.length → rk (deck.getD k 0) = rank := by
          intro k ha hb hc
          by_cases hkj : k = j
          · rw [hkj]; exact hk
          · exact h3 k ha (by omega) hc
        by_cases hsc : sc (deck.getD j 0 % 4) + r < 5
        · rw [if_pos hsc]
          generalize hd : (if j ≠ i + cnt then swap deck j (i + cnt) else deck) = d
          have hde : DeckEq i deck d := by
            rw [← hd]
            by_cases hjc : j = i + cnt
            · rw [if_neg (by simpa using hjc)]; exact DeckEq.refl _ _
            · rw [if_pos hjc]
              exact swap_deckEq hj (by omega) (by omega) (by omega)
                (by rw [hk, h3 (i + cnt) (by omega) (by omega) (by omega)])
          have hg : ∀ k, d.getD k 0 = if k = i + cnt then deck.getD j 0 else if k = j then deck.getD (i + cnt) 0
              else deck.getD k 0 := by
            intro k
            rw [← hd]
            by_cases hjc : j = i + cnt
            · rw [if_neg (by simpa using hjc)]
              by_cases e1 : k = i + cnt
              · rw [if_pos e1, e1, ← hjc]
              · rw [if_neg e1]
                by_cases e2 : k = j
                · omega
                · rw [if_neg e2]
            · rw [if_pos hjc, swap_getD hj (by omega)]
          have := ih (j + 1) d (cnt + 1) (by omega) (by omega) ?_ ?_ (by rw [hde.length]; omega)
          · obtain ⟨e1, e2, e3, e4⟩ := this
            exact ⟨hde.trans e1, by omega, by rw [← hde.length]; exact e3, e4⟩
          · intro k ha hb hc
            rw [hde.length] at hc
            rw [hg]
            split_ifs
            · exact hk
            · exact h3 _ (by omega) (by omega) (by omega)
            · exact h3' k ha hb hc
          · intro k hkc
            rw [hg]
            by_cases e1 : k = cnt
            · rw [if_pos (by omega)]; exact hsc
            · rw [if_neg (by omega), if_neg (by omega)]; exact h4 k (by omega)
        · rw [if_neg hsc]
          exact ih (j + 1) deck cnt (by omega) h2 h3' h4 h5
      · rw [if_pos hk]; exact stop
    · rw [if_neg hj]; exact stop

/-! ## The recursion -/

variable {hs : Nat → Nat} {avail : Nat → Prop} {F : Hand → Bool → M}

/-- What holds at every call of `enumerate_board_rec`: `bs` are the board cards so far. -/
structure Node (hs : Nat → Nat) (avail : Nat → Prop) (bs deck : List Nat) (sc : Nat → Nat) (r start : Nat) : Prop where
  cards : IsCards (bs ++ deck.drop start)
  av : ∀ c ∈ bs ++ deck.drop start, avail c
  len : bs.length + r = 5
  pos : 1 ≤ r
  sorted : (deck.drop start).Pairwise (fun a b => rk b ≤ rk a)
  counts : ∀ s < 4, sc s = hs s + suitCnt bs s ∨ (sc s + r < 5 ∧ Dead hs bs s)

/-- What a call does. -/
structure CallRes (F : Hand → Bool → M) (bs deck : List Nat) (sc : Nat → Nat) (r start w : Nat) (x : List Ev × Bufs) : Prop where
  sum : evSum F x.1 = w • S (gOf F) bs (deck.drop start) r
  deckEq : DeckEq start deck x.2.1
  sc : x.2.2 = sc

theorem Node.dead {bs deck : List Nat} {sc : Nat → Nat} {r start : Nat} (h : Node hs avail bs deck sc r start) {s : Nat}
    (hs4 : s < 4) (hd : sc s + r < 5) : Dead hs bs s := by
  rcases h.counts s hs4 with h1 | h1
  · unfold Dead
    have := h.len
    omega
  · exact h1.2

theorem Node.deck {bs deck deck' : List Nat} {sc : Nat → Nat} {r start : Nat} (h : Node hs avail bs deck sc r start)
    (hd : DeckEq start deck deck') : Node hs avail bs deck' sc r start :=
  ⟨IsCards.perm h.cards (hd.drop.symm.append_left bs), fun c hc => h.av c ((hd.drop.append_left bs).mem_iff.1 hc), h.len, h.pos,
    hd.sorted h.sorted, h.counts⟩

theorem Node.skip {bs deck : List Nat} {sc : Nat → Nat} {r start start' : Nat} (h : Node hs avail bs deck sc r start)
    (hst : start ≤ start') : Node hs avail bs deck sc r start' := by
  have hsub : (deck.drop start').Sublist (deck.drop start) := by
    rw [show start' = start + (start' - start) by omega, ← List.drop_drop]
    exact List.drop_sublist _ _
  have hsub' := List.Sublist.append_left hsub bs
  exact ⟨⟨h.cards.1.sublist hsub', fun c hc => h.cards.2 c (hsub'.subset hc)⟩, fun c hc => h.av c (hsub'.subset hc), h.len, h.pos,
    h.sorted.sublist hsub, h.counts⟩

omit [AddCommMonoid M] in
/-- The single-card interchange used at the last card. -/
theorem last_swap (hF : BoardFun hs avail F) {bs L : List Nat} (hl : bs.length = 4) (hc : IsCards (bs ++ L))
    (ha : ∀ c ∈ bs ++ L, avail c) {a b : Nat} (haL : a ∈ L) (hbL : b ∈ L) (hda : Dead hs bs (a % 4)) (hdb : Dead hs bs (b % 4))
    (hr : rk a = rk b) : gOf F (bs ++ [a]) = gOf F (bs ++ [b]) := by
  have one : ∀ x ∈ L, IsCards (bs ++ [x]) ∧ ∀ c ∈ bs ++ [x], avail c := by
    intro x hx
    have hsub : (bs ++ [x]).Sublist (bs ++ L) := List.Sublist.append_left (List.singleton_sublist.2 hx) bs
    exact ⟨⟨hc.1.sublist hsub, fun c h => hc.2 c (hsub.subset h)⟩, fun c h => ha c (hsub.subset h)⟩
  exact swap_group hF (rk a) 1 [a] [b] bs rfl rfl (by simpa using hda) (by simpa [hr] using hdb) (one a haL).1 (one b hbL).1
    (one a haL).2 (one b hbL).2 (by simp [hl])

theorem last_ok (hF : BoardFun hs avail F) {bs deck : List Nat} {sc : Nat → Nat} {start : Nat}
    (h : Node hs avail bs deck sc 1 start) (w : Nat) :
    CallRes F bs deck sc 1 start w
      (if sc 0 < 4 ∧ sc 1 < 4 ∧ sc 2 < 4 ∧ sc 3 < 4 then (lastNoFlush (ofCards bs) deck w deck.length start, deck, sc)
       else (lastFlush (ofCards bs) deck sc w deck.length 255 start, deck, sc)) := by
  have hl : bs.length = 4 := by have := h.len; omega
  have hm4 : ∀ c : Nat, c % 4 < 4 := fun c => Nat.mod_lt _ (by decide)
  have hsw : ∀ a ∈ deck.drop start, ∀ b ∈ deck.drop start, lastDead sc a → lastDead sc b → rk a = rk b →
      gOf F (bs ++ [a]) = gOf F (bs ++ [b]) := by
    intro a ha b hb da db hr
    exact last_swap hF hl h.cards h.av ha hb (h.dead (hm4 a) (by unfold lastDead at da; omega))
      (h.dead (hm4 b) (by unfold lastDead at db; omega)) hr
  split
  · rename_i hsc
    have hall : ∀ s < 4, sc s < 4 := by
      intro s hs
      rcases (show s = 0 ∨ s = 1 ∨ s = 2 ∨ s = 3 by omega) with rfl | rfl | rfl | rfl
      · exact hsc.1
      · exact hsc.2.1
      · exact hsc.2.2.1
      · exact hsc.2.2.2
    have hno : ∀ c ∈ deck.drop start, F (ofCards (bs ++ [c])) false = gOf F (bs ++ [c]) := by
      intro c hc
      have hsub : (bs ++ [c]).Sublist (bs ++ deck.drop start) := List.Sublist.append_left (List.singleton_sublist.2 hc) bs
      exact hF.noflush _ ⟨h.cards.1.sublist hsub, fun x hx => h.cards.2 x (hsub.subset hx)⟩ (fun x hx => h.av x (hsub.subset hx))
        (by simp [hl]) (fun s hs => (h.dead hs (by have := hall s hs; omega)).append [c])
    refine ⟨?_, DeckEq.refl _ _, rfl⟩
    show evSum F (lastNoFlush _ _ _ _ _) = _
    rw [lastNoFlush_eq F bs deck w deck.length start (by omega), S_one]
    · congr 2
      exact List.map_congr_left hno
    · intro a ha b hb hr
      rw [hno a ha, hno b hb]
      exact hsw a ha b hb (hall _ (hm4 a)) (hall _ (hm4 b)) hr
  · have hr12 : ∀ c ∈ deck.drop start, rk c ≤ 12 := by
      intro c hc
      have := h.cards.2 c (List.mem_append_right _ hc)
      unfold rk; omega
    refine ⟨?_, DeckEq.refl _ _, rfl⟩
    show evSum F (lastFlush _ _ _ _ _ _ _) = _
    rw [lastFlush_eq F bs deck sc w deck.length start 255 (by omega) h.sorted (fun c hc => (hr12 c hc).trans (by omega)) hsw, S_one]
    have : ((deck.drop start).filter fun c => ¬ (lastDead sc c ∧ rk c = 255)) = deck.drop start := by
      rw [List.filter_eq_self]
      intro c hc
      rw [decide_eq_true_iff]
      rintro ⟨_, h2⟩
      have := hr12 c hc
      omega
    rw [this]

/-- What the recursive calls are assumed to do. -/
def ChildOk (hs : Nat → Nat) (avail : Nat → Prop) (F : Hand → Bool → M) (child : RecCall) (r : Nat) : Prop :=
  ∀ bs deck sc r' start w, r' < r → Node hs avail bs deck sc r' start →
    CallRes F bs deck sc r' start w (child (ofCards bs) deck sc r' start w)

theorem same_rank_le4 {T : List Nat} (hn : T.Nodup) {rank : Nat} (h : ∀ c ∈ T, rk c = rank) : T.length ≤ 4 := by
  have hsub : T ⊆ [4 * rank, 4 * rank + 1, 4 * rank + 2, 4 * rank + 3] := by
    intro c hc
    have := h c hc
    unfold rk at this
    simp only [List.mem_cons, List.not_mem_nil, or_false]
    omega
  exact (List.subperm_of_subset hn hsub).length_le

theorem binom_eq : ∀ n ≤ 4, ∀ k ≤ n, 1 ≤ k → (BINOM_COEFF.getD n []).getD k 0 = n.choose k := by decide

theorem take_drop_getD {deck : List Nat} {i cnt k : Nat} (hk : k < cnt) (hl : i + cnt ≤ deck.length) :
    ((deck.drop i).take cnt).take (k + 1) = ((deck.drop i).take cnt).take k ++ [deck.getD (i + k) 0] := by
  have hlen : k < ((deck.drop i).take cnt).length := by simp; omega
  rw [List.take_add_one, List.getElem?_eq_getElem hlen]
  simp only [List.getElem_take, List.getElem_drop, Option.toList_some]
  rw [List.getD_eq_getElem _ _ (by omega)]

theorem group_eq {deck deck' : List Nat} {i cnt : Nat} (h : DeckEq (i + cnt) deck deck') :
    (deck'.drop i).take cnt = (deck.drop i).take cnt := by
  have e : ∀ l : List Nat, (l.drop i).take cnt = (l.take (i + cnt)).drop i := fun l => by
    rw [List.drop_take, Nat.add_sub_cancel_left]
  rw [e, e, h.take]

theorem drop_group (deck : List Nat) (i cnt : Nat) : deck.drop i = (deck.drop i).take cnt ++ deck.drop (i + cnt) := by
  rw [← List.drop_drop, List.take_append_drop]

/-- The node of the recursive call after taking `k` dead cards. -/
theorem Node.group {bs deck : List Nat} {sc : Nat → Nat} {r i cnt : Nat} (h : Node hs avail bs deck sc r i) {k : Nat}
    (hk : k < r) (hd : ∀ c ∈ (deck.drop i).take cnt, sc (c % 4) + r < 5) (hkc : k ≤ ((deck.drop i).take cnt).length) :
    Node hs avail (bs ++ ((deck.drop i).take cnt).take k) deck sc (r - k) (i + cnt) := by
  have hsub : (bs ++ ((deck.drop i).take cnt).take k ++ deck.drop (i + cnt)).Sublist (bs ++ deck.drop i) := by
    rw [List.append_assoc]
    conv => rhs; rw [drop_group deck i cnt]
    exact List.Sublist.append_left (List.Sublist.append_right (List.take_sublist _ _) _) _
  have htl : (((deck.drop i).take cnt).take k).length = k := by rw [List.length_take]; omega
  refine ⟨⟨h.cards.1.sublist hsub, fun c hc => h.cards.2 c (hsub.subset hc)⟩, fun c hc => h.av c (hsub.subset hc), ?_, by omega,
    (h.skip (Nat.le_add_right i cnt)).sorted, ?_⟩
  · rw [List.length_append, htl]
    have := h.len
    omega
  · intro s hs4
    by_cases hsd : sc s + r < 5
    · exact Or.inr ⟨by omega, (h.dead hs4 hsd).append _⟩
    · left
      rcases h.counts s hs4 with h1 | h1
      · have h0 : suitCnt (((deck.drop i).take cnt).take k) s = 0 := by
          unfold suitCnt
          rw [List.countP_eq_zero]
          intro c hc hcs
          have := hd c (List.mem_of_mem_take hc)
          have hcs' : c % 4 = s := Nat.eq_of_beq_eq_true hcs
          rw [hcs'] at this
          exact hsd this
        rw [suitCnt_append, h0]; exact h1
      · exact absurd h1.1 hsd

theorem repeatLoop_ok {child : RecCall} {r : Nat} (hch : ChildOk hs avail F child r)
    {bs : List Nat} {sc : Nat → Nat} {i cnt w : Nat} (hcnt : cnt ≤ 4) (G : List Nat) :
    ∀ (fuel k : Nat) (deck : List Nat), Node hs avail bs deck sc r i → i + cnt ≤ deck.length → k + fuel = min cnt r →
      G = (deck.drop i).take cnt → (∀ c ∈ G, sc (c % 4) + r < 5) →
      evSum F (repeatLoop child r i cnt w fuel (k + 1) (ofCards (bs ++ G.take k)) deck sc).1 =
        w • (∑ j ∈ Finset.range fuel, cnt.choose (k + j + 1) •
          S (gOf F) (bs ++ G.take (k + j + 1)) (deck.drop (i + cnt)) (r - (k + j + 1))) ∧
      DeckEq (i + cnt) deck (repeatLoop child r i cnt w fuel (k + 1) (ofCards (bs ++ G.take k)) deck sc).2.1 ∧
      (repeatLoop child r i cnt w fuel (k + 1) (ofCards (bs ++ G.take k)) deck sc).2.2 = sc := by
  intro fuel
  induction fuel with
  | zero =>
    intro k deck _ _ _ _ _
    rw [repeatLoop]
    exact ⟨by simp [evSum_nil], DeckEq.refl _ _, rfl⟩
  | succ fuel ih =>
    intro k deck hN hl hk hG hd
    rw [repeatLoop]
    have hkc : k + 1 ≤ cnt := by omega
    have hkr : k + 1 ≤ r := by omega
    have hGl : G.length = cnt := by rw [hG]; simp; omega
    have hb : ofCards (bs ++ G.take k) + CARDS (deck.getD (i + (k + 1) - 1) 0) = ofCards (bs ++ G.take (k + 1)) := by
      rw [hG, take_drop_getD (by omega) hl, ← List.append_assoc, ofCards_snoc, show i + (k + 1) - 1 = i + k by omega]
    have hbin : (BINOM_COEFF.getD cnt []).getD (k + 1) 0 = cnt.choose (k + 1) := binom_eq cnt hcnt (k + 1) hkc (by omega)
    have hsum : ∀ (L : List Nat), (∑ j ∈ Finset.range (fuel + 1), cnt.choose (k + j + 1) •
          S (gOf F) (bs ++ G.take (k + j + 1)) L (r - (k + j + 1))) =
        cnt.choose (k + 1) • S (gOf F) (bs ++ G.take (k + 1)) L (r - (k + 1)) +
        ∑ j ∈ Finset.range fuel, cnt.choose (k + 1 + j + 1) •
          S (gOf F) (bs ++ G.take (k + 1 + j + 1)) L (r - (k + 1 + j + 1)) := by
      intro L
      rw [Finset.sum_range_succ', add_comm]
      congr 1
      apply Finset.sum_congr rfl
      intro j _
      rw [show k + (j + 1) + 1 = k + 1 + j + 1 by omega]
    simp only [hbin, hb]
    by_cases hkr' : k + 1 = r
    · rw [if_pos hkr']
      obtain ⟨e1, e2, e3⟩ := ih (k + 1) deck hN hl (by omega) hG hd
      refine ⟨?_, e2, e3⟩
      rw [evSum_cons, e1, hsum, nsmul_add, ← hkr', Nat.sub_self, S_zero, Nat.mul_comm, mul_nsmul']
    · rw [if_neg hkr']
      have hN' : Node hs avail (bs ++ G.take (k + 1)) deck sc (r - (k + 1)) (i + cnt) := by
        rw [hG]; rw [hG] at hd hGl
        exact hN.group (by omega) hd (by omega)
      have hc := hch (bs ++ G.take (k + 1)) deck sc (r - (k + 1)) (i + cnt) (cnt.choose (k + 1) * w) (by omega) hN'
      obtain ⟨c1, c2, c3⟩ := hc
      generalize child (ofCards (bs ++ G.take (k + 1))) deck sc (r - (k + 1)) (i + cnt) (cnt.choose (k + 1) * w) = x at c1 c2 c3
      rw [c3]
      have hG' : G = (x.2.1.drop i).take cnt := by rw [group_eq c2]; exact hG
      obtain ⟨e1, e2, e3⟩ := ih (k + 1) x.2.1 (hN.deck (c2.mono (Nat.le_add_right _ _))) (by rw [c2.length]; exact hl) (by omega) hG' hd
      refine ⟨?_, c2.trans e2, e3⟩
      rw [evSum_append, c1, e1, hsum, nsmul_add, Nat.mul_comm, mul_nsmul']
      congr 2
      apply Finset.sum_congr rfl
      intro j _
      rw [S_perm (gOf_perm F) c2.drop]

theorem boardLoop_ok (hF : BoardFun hs avail F) {child : RecCall} {r : Nat} (hch : ChildOk hs avail F child r) (hr : 2 ≤ r)
    {bs : List Nat} {w : Nat} :
    ∀ (fuel i : Nat) (deck : List Nat) (sc : Nat → Nat), deck.length ≤ fuel + i → Node hs avail bs deck sc r i →
      CallRes F bs deck sc r i w (boardLoop child (ofCards bs) r w fuel i deck sc) := by
  intro fuel
  have stop : ∀ (i : Nat) (deck : List Nat) (sc : Nat → Nat), deck.length ≤ i →
      CallRes F bs deck sc r i w (([], deck, sc) : List Ev × Bufs) := by
    intro i deck sc hl
    refine ⟨?_, DeckEq.refl _ _, rfl⟩
    obtain ⟨r', rfl⟩ : ∃ r', r = r' + 1 := ⟨r - 1, by omega⟩
    rw [List.drop_eq_nil_of_le hl, S_nil, evSum_nil, nsmul_zero]
  induction fuel with
  | zero =>
    intro i deck sc hl _
    exact stop i deck sc (by omega)
  | succ fuel ih =>
    intro i deck sc hl hN
    rw [boardLoop]
    by_cases hi : i < deck.length
    · rw [if_pos hi]
      simp only [and3, shr2]
      have hm4 : deck.getD i 0 % 4 < 4 := Nat.mod_lt _ (by decide)
      by_cases hsc : sc (deck.getD i 0 % 4) + r < 5
      · rw [if_pos hsc]
        obtain ⟨g1, g2, g3, g4⟩ := gatherLoop_eq sc r (rk (deck.getD i 0)) i deck.length (i + 1) deck 1 (by omega) le_rfl
          (fun k h1 h2 _ => by rw [show k = i by omega])
          (fun k hk => by rw [show i + k = i by omega]; exact hsc) (by omega)
        generalize gatherLoop sc r (rk (deck.getD i 0)) i deck.length (i + 1) deck 1 = gg at g1 g2 g3 g4
        obtain ⟨d, cnt⟩ := gg
        simp only at g1 g2 g3 g4 ⊢
        have hN1 := hN.deck g1
        have hdl := g1.length
        have hGall : ∀ c ∈ (d.drop i).take cnt, rk c = rk (deck.getD i 0) ∧ sc (c % 4) + r < 5 := by
          intro c hc
          obtain ⟨k, hk, rfl⟩ := List.getElem_of_mem hc
          have hk' : k < cnt := by simp at hk; omega
          have := g4 k hk'
          rw [List.getD_eq_getElem _ _ (by omega)] at this
          simpa using this
        generalize hG : (d.drop i).take cnt = G at hGall
        have hGl : G.length = cnt := by rw [← hG]; simp; omega
        have hcards : IsCards (bs ++ (G ++ d.drop (i + cnt))) := by
          rw [← hG, ← drop_group]; exact hN1.cards
        have hav : ∀ c ∈ bs ++ (G ++ d.drop (i + cnt)), avail c := by
          rw [← hG, ← drop_group]; exact hN1.av
        have hcnt : cnt ≤ 4 := by
          rw [← hGl]
          refine same_rank_le4 (rank := rk (deck.getD i 0)) ?_ (fun c hc => (hGall c hc).1)
          exact hcards.1.sublist ((List.sublist_append_left G _).trans (List.sublist_append_right bs _))
        obtain ⟨p1, p2, p3⟩ := repeatLoop_ok hch (w := w) hcnt G (min cnt r) 0 d hN1 (by omega) (by omega) hG.symm
          (fun c hc => (hGall c hc).2)
        rw [List.take_zero, List.append_nil] at p1 p2 p3
        generalize repeatLoop child r i cnt w (min cnt r) (0 + 1) (ofCards bs) d sc = x at p1 p2 p3
        rw [p3]
        have hN2 : Node hs avail bs x.2.1 sc r (i + (cnt - 1) + 1) := by
          rw [show i + (cnt - 1) + 1 = i + cnt by omega]
          exact (hN1.skip (Nat.le_add_right i cnt)).deck p2
        obtain ⟨q1, q2, q3⟩ := ih (i + (cnt - 1) + 1) x.2.1 sc (by rw [p2.length]; omega) hN2
        rw [show i + (cnt - 1) + 1 = i + cnt by omega] at *
        refine ⟨?_, ?_, q3⟩
        · rw [evSum_append, p1, q1, ← nsmul_add]
          congr 1
          rw [S_perm (gOf_perm F) p2.drop, ← S_perm (gOf_perm F) g1.drop, drop_group d i cnt, hG,
            S_dead_group hF hN.len (fun c hc => ⟨(hGall c hc).1, hN.dead (Nat.mod_lt _ (by decide)) (hGall c hc).2⟩) hcards hav,
            hGl, add_comm]
          congr 1
          apply Finset.sum_congr rfl
          intro j _
          rw [Nat.zero_add]
        · exact g1.trans ((p2.trans q2).mono (Nat.le_add_right _ _))
      · rw [if_neg hsc]
        generalize hc : deck.getD i 0 = c at *
        generalize hsc1 : Function.update sc (c % 4) (sc (c % 4) + 1) = sc1
        have hdc := drop_cons hi
        rw [hc] at hdc
        have hN1 : Node hs avail (bs ++ [c]) deck sc1 (r - 1) (i + 1) := by
          refine ⟨?_, ?_, ?_, by omega, ?_, ?_⟩
          · have := hN.cards; rw [hdc] at this; simpa using this
          · have := hN.av; rw [hdc] at this; simpa using this
          · have := hN.len; rw [List.length_append, List.length_singleton]; omega
          · have := hN.sorted; rw [hdc, List.pairwise_cons] at this; exact this.2
          · intro s hs4
            rw [← hsc1, suitCnt_append, suitCnt_cons]
            by_cases hs : s = c % 4
            · subst hs
              rw [Function.update_self, if_pos rfl]
              rcases hN.counts _ hs4 with h1 | h1
              · left; rw [h1]; simp [suitCnt]; omega
              · exact absurd h1.1 hsc
            · rw [Function.update_of_ne hs, if_neg (fun h => hs h.symm)]
              rcases hN.counts s hs4 with h1 | h1
              · left; rw [h1]; simp [suitCnt]
              · exact Or.inr ⟨by omega, h1.2.append _⟩
        obtain ⟨c1, c2, c3⟩ := hch (bs ++ [c]) deck sc1 (r - 1) (i + 1) w (by omega) hN1
        rw [ofCards_snoc] at c1 c2 c3
        generalize child (ofCards bs + CARDS c) deck sc1 (r - 1) (i + 1) w = x at c1 c2 c3
        have hsc2 : Function.update x.2.2 (c % 4) (x.2.2 (c % 4) - 1) = sc := by
          rw [c3, ← hsc1, Function.update_self, Function.update_idem, Nat.add_sub_cancel, Function.update_eq_self]
        rw [hsc2]
        obtain ⟨q1, q2, q3⟩ := ih (i + 1) x.2.1 sc (by rw [c2.length]; omega) ((hN.skip (Nat.le_succ i)).deck c2)
        refine ⟨?_, (c2.trans q2).mono (Nat.le_succ i), q3⟩
        rw [evSum_append, c1, q1, hdc, S_perm (gOf_perm F) c2.drop]
        obtain ⟨r', rfl⟩ : ∃ r', r = r' + 1 := ⟨r - 1, by omega⟩
        rw [S_cons, nsmul_add, Nat.add_sub_cancel, add_comm]
    · rw [if_neg hi]; exact stop i deck sc (by omega)

/-- The recursion adds `weight` times the sum over all completions of the board. -/
theorem enumerateBoardRec_ok (hF : BoardFun hs avail F) : ∀ depth r, r ≤ depth → ∀ bs deck sc start w,
    Node hs avail bs deck sc r start →
    CallRes F bs deck sc r start w (enumerateBoardRec depth (ofCards bs) deck sc r start w) := by
  intro depth
  induction depth with
  | zero => intro r hr bs deck sc start w hN; have := hN.pos; omega
  | succ depth ih =>
    intro r hr bs deck sc start w hN
    rw [enumerateBoardRec]
    by_cases h1 : r = 1
    · rw [if_pos h1]; subst h1; exact last_ok hF hN w
    · rw [if_neg h1]
      have := hN.pos
      exact boardLoop_ok hF (fun bs deck sc r' start w hr' hN' => ih r' (by omega) bs deck sc start w hN') (by omega)
        deck.length start deck sc (by omega) hN

end Pokers

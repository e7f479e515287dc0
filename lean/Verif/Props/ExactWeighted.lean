import Verif.Proofs.Preflop
import Verif.Proofs.KingsPoints
import Verif.Props.Whole
import Verif.Props.DebugFloat
/-!
# Known pairs before the flop, and the crate's `test_exact_weighted` (C88)
-/
namespace Pokers
open Spec Kernel

section
variable {nT : Nat} {cb : CallbackP}

/-! ## The rules of the game -/

theorem pair_equity {h v : WHand} {n : Nat} (h0 : TwoCards [h]) (h1 : TwoCards [v]) (hL : Spec.Legal [] [h, v]) (hw : dealWeight [h, v] ≠ 0)
    (hp : ((boards [] [] [h, v]).map fun B => points (ofCards (B ++ cardsOf h)).evaluate (ofCards (B ++ cardsOf v)).evaluate).sum = n) :
    equityOf [[h], [v]] [] [] 0 = some ((n : ℚ) / 3424608) := by
  rw [preflop_equity h0 h1 (pts := fun _ _ => n)]
  · simp only [List.map_cons, List.map_nil, List.sum_cons, List.sum_nil, if_pos hL, Nat.add_zero]
    have : (dealWeight [h, v] : ℚ) ≠ 0 := by exact_mod_cast hw
    unfold fdiv
    push_cast
    rw [if_neg (by simpa using hw)]
    congr 1
    field_simp
    ring
  · intro a ha b hb _
    rw [List.mem_singleton.1 ha, List.mem_singleton.1 hb]
    exact hp

/-- C88: two kings against two aces, by the rules of the game: the equity of the kings is 641926, 618277 or 594628 out of 3424608 if the
two hands have no, one or two suits in common. -/
theorem C88_kings_aces {h v : WHand} (hh : h ∈ pairsOf 11 100) (hv : v ∈ pairsOf 12 1) :
    equityOf [[h], [v]] [] [] 0 = some ((([641926, 618277, 594628].getD (shared h v) 0 : Nat) : ℚ) / 3424608) := by
  have hc : ∀ h ∈ pairsOf 11 100, ∀ v ∈ pairsOf 12 1, TwoCards [h] ∧ TwoCards [v] ∧ Spec.Legal [] [h, v] ∧ dealWeight [h, v] ≠ 0 := by
    decide +kernel
  obtain ⟨a, b, c, d⟩ := hc h hh v hv
  exact pair_equity a b c d (aces_points hh hv)

/-- C88: two kings against two queens. -/
theorem C88_kings_queens {h v : WHand} (hh : h ∈ pairsOf 11 100) (hv : v ∈ pairsOf 10 100) :
    equityOf [[h], [v]] [] [] 0 = some ((([2782312, 2805946, 2829580].getD (shared h v) 0 : Nat) : ℚ) / 3424608) := by
  have hc : ∀ h ∈ pairsOf 11 100, ∀ v ∈ pairsOf 10 100, TwoCards [h] ∧ TwoCards [v] ∧ Spec.Legal [] [h, v] ∧ dealWeight [h, v] ≠ 0 := by
    decide +kernel
  obtain ⟨a, b, c, d⟩ := hc h hh v hv
  exact pair_equity a b c d (queens_points hh hv)

/-- The ranges of the test. -/
def weightedRanges : List (List WHand) := [pairsOf 11 100, pairsOf 12 1 ++ pairsOf 10 100]

/-- C88: the equity of `KK` against `AA@1,QQ` before the flop, by the rules of the game. -/
theorem C88_equity {Rs : List (List WHand)} (h : Rs = weightedRanges) : equityOf Rs [] [] 0 = some (10123663572 / 12451874688) := by
  rw [h]
  unfold weightedRanges
  rw [preflop_equity (pts := fun h v => if v.2.2 = 1 then acesPoints h v else queensPoints h v)]
  · rw [show ((pairsOf 11 100).map fun h => ((pairsOf 12 1 ++ pairsOf 10 100).map fun v => if Spec.Legal [] [h, v] then
        dealWeight [h, v] * (if v.2.2 = 1 then acesPoints h v else queensPoints h v) else 0).sum).sum = 1012366357200 by decide +kernel,
      show ((pairsOf 11 100).map fun h => ((pairsOf 12 1 ++ pairsOf 10 100).map fun v => if Spec.Legal [] [h, v] then
        dealWeight [h, v] * 1712304 else 0).sum).sum = 622593734400 by decide +kernel]
    unfold fdiv
    norm_num
  · decide +kernel
  · decide +kernel
  · intro h hh v hv _
    rcases List.mem_append.1 hv with hv | hv
    · have : ∀ v ∈ pairsOf 12 1, v.2.2 = 1 := by decide
      rw [if_pos (this v hv), aces_points hh hv]
    · have : ∀ v ∈ pairsOf 10 100, v.2.2 ≠ 1 := by decide
      rw [if_neg (this v hv), queens_points hh hv]

/-! ## The texts of the test -/

theorem pairs_iff (r w a b x : Nat) (hr : r < 13) :
    (a, b, x) ∈ pairsOf r w ↔ b < a ∧ a < 52 ∧ rank a = r ∧ rank b = r ∧ x = w := by
  unfold pairsOf Spec.rank
  simp only [List.mem_cons, Prod.mk.injEq, List.not_mem_nil, or_false]
  constructor
  · rintro (h | h | h | h | h | h) <;> omega
  · rintro ⟨h1, h2, h3, h4, rfl⟩
    omega

theorem pair_denotes (r a b : Nat) : (Shape.plain r r .any).denotes a b ↔ rank a = r ∧ rank b = r := by
  unfold Shape.denotes hasRanks
  constructor
  · rintro ⟨h | h, _⟩
    · exact h
    · exact h
  · intro h
    exact ⟨.inl h, trivial⟩

/-- The texts of the crate's `test_exact_weighted`. -/
theorem weighted_problem : Problem asciiLower ["KK".toList, "AA@1,QQ".toList] "".toList "".toList weightedRanges [] [] := by
  refine ⟨.cons ⟨.tokens [⟨.plain 11 11 .any, none⟩], ⟨by simp, ?_, by decide, by decide⟩, by decide +kernel, ?_⟩
    (.cons ⟨.tokens [⟨.plain 12 12 .any, some [1]⟩, ⟨.plain 10 10 .any, none⟩], ⟨by simp, ?_, by decide, by decide⟩, by decide +kernel, ?_⟩ .nil),
    ⟨by decide, by decide, by decide⟩, ⟨by decide, by decide, by decide⟩⟩
  · intro t ht
    rw [List.mem_singleton.1 ht]
    exact ⟨⟨by decide, by decide⟩, fun ds h => by cases h⟩
  · intro a b w
    rw [pairs_iff 11 100 a b w (by decide)]
    refine and_congr_right fun _ => and_congr_right fun _ => ?_
    unfold Described.Gives HasWeight
    constructor
    · rintro ⟨h1, h2, h3⟩
      exact ⟨0, by simp, (pair_denotes 11 a b).2 ⟨h1, h2⟩, h3.symm, fun j hj => absurd hj (by omega)⟩
    · rintro ⟨i, hi, h1, h2, _⟩
      have : i = 0 := by simpa using hi
      subst this
      obtain ⟨h3, h4⟩ := (pair_denotes 11 a b).1 h1
      exact ⟨h3, h4, h2.symm⟩
  · intro t ht
    rcases List.mem_cons.1 ht with rfl | ht
    · refine ⟨⟨by decide, by decide⟩, fun ds h => ?_⟩
      obtain rfl : [1] = ds := Option.some.inj h
      exact ⟨by simp, by decide, by decide⟩
    · rw [List.mem_singleton.1 ht]
      exact ⟨⟨by decide, by decide⟩, fun ds h => by cases h⟩
  · intro a b w
    rw [List.mem_append, pairs_iff 12 1 a b w (by decide), pairs_iff 10 100 a b w (by decide), ← and_or_left, ← and_or_left]
    refine and_congr_right fun _ => and_congr_right fun _ => ?_
    unfold Described.Gives HasWeight
    constructor
    · rintro (⟨h1, h2, h3⟩ | ⟨h1, h2, h3⟩)
      · exact ⟨0, by simp, (pair_denotes 12 a b).2 ⟨h1, h2⟩, h3.symm, fun j hj => absurd hj (by omega)⟩
      · refine ⟨1, by simp, (pair_denotes 10 a b).2 ⟨h1, h2⟩, h3.symm, fun j hj => ?_⟩
        obtain rfl : j = 0 := by omega
        intro h
        have := ((pair_denotes 12 a b).1 h).1
        omega
    · rintro ⟨i, hi, h1, h2, _⟩
      have : i = 0 ∨ i = 1 := by
        simp only [List.length_cons, List.length_nil] at hi
        omega
      rcases this with rfl | rfl
      · obtain ⟨h3, h4⟩ := (pair_denotes 12 a b).1 h1
        exact .inl ⟨h3, h4, h2.symm⟩
      · obtain ⟨h3, h4⟩ := (pair_denotes 10 a b).1 h1
        exact .inr ⟨h3, h4, h2.symm⟩

theorem weighted_deals {Rs : List (List WHand)} (h : Rs = weightedRanges) : deals Rs ([] ++ []) ≠ [] := by
  have : [((45, 44, 100) : WHand), (49, 48, 1)] ∈ deals Rs ([] ++ []) := by
    rw [h]
    decide +kernel
  intro e
  rw [e] at this
  cases this

theorem weighted_total : totalWeight (showdowns weightedRanges [] []) = 622593734400 := by
  unfold weightedRanges
  rw [preflop_total (by decide +kernel) (by decide +kernel)]
  decide +kernel

theorem weighted_literal : fl 0.8130232455484216 = fl (10123663572 / 12451874688) := by decide +kernel

/-- C88: `test_exact_weighted` (src/equity_calculator/simulator.rs:1405-1414): the texts are read, for every number of threads there is a run,
and every run that is not cancelled reports for the kings the equity that the rules give, which the `f64` numbers round to the very number
that the literal of the test denotes. -/
theorem C88_exact_weighted :
    ∃ ranges, fromStrings asciiLower ["KK".toList, "AA@1,QQ".toList] = .ok ranges ∧ ∀ nT, 0 < nT →
      (∃ r sent, ExactEquity ranges (getCardMask asciiLower "".toList) (getCardMask asciiLower "".toList) nT false false (.ok r) sent) ∧
      (∀ cancelled r sent, ExactEquity ranges (getCardMask asciiLower "".toList) (getCardMask asciiLower "".toList) nT cancelled false
        (.ok r) sent → r.equities[0]? = some (some (10123663572 / 12451874688))) ∧
      ∀ cancelled r sent, ExactEquityF ranges (getCardMask asciiLower "".toList) (getCardMask asciiLower "".toList) nT cancelled false
        (.ok r) sent → r.equities[0]? = some (some (fl 0.8130232455484216)) := by
  have hp := weighted_problem
  have he := C88_equity rfl
  have hd := weighted_deals rfl
  have ht := weighted_total
  have heven : ∀ x ∈ pairsOf 11 100, 2 ∣ x.2.2 := by decide +kernel
  unfold weightedRanges at *
  generalize pairsOf 11 100 = R0 at *
  generalize pairsOf 12 1 ++ pairsOf 10 100 = R1 at *
  obtain ⟨ranges, hok, hrun⟩ := C71_two_players hp (by decide) (by decide) hd (Or.inl heven)
  refine ⟨ranges, hok, fun nT hT => ?_⟩
  obtain ⟨h1, _, h3, h4⟩ := hrun nT hT
  refine ⟨h1, fun c r sent hE => ?_, fun c r sent hE => ?_⟩
  · rw [h3 c r sent hE, he]
    rfl
  · rw [h4 (by rw [ht]; decide) c r sent hE 0 (by decide), he, weighted_literal]
    rfl

/-- C88: `test_exact_weighted` in a release build: with any number of threads and any callback that does not panic or cancel, there is an
end, and every end is the return of the number the test expects, to the last bit. -/
theorem C88_release (hT : 0 < nT) (hcb : ∀ c m, cb c m = some false) :
    (∃ e calls, WholeRelease asciiLower ["KK".toList, "AA@1,QQ".toList] "".toList "".toList nT false false cb e calls) ∧
    ∀ e calls, WholeRelease asciiLower ["KK".toList, "AA@1,QQ".toList] "".toList "".toList nT false false cb e calls →
      ∃ r, e = .returned (.ok r) ∧ r.equities[0]? = some (some (fl 0.8130232455484216)) := by
  have hp := weighted_problem
  have he := C88_equity rfl
  have hd := weighted_deals rfl
  have ht := weighted_total
  have heven : ∀ x ∈ pairsOf 11 100, 2 ∣ x.2.2 := by decide +kernel
  unfold weightedRanges at *
  generalize pairsOf 11 100 = R0 at *
  generalize pairsOf 12 1 ++ pairsOf 10 100 = R1 at *
  have hcb' : ∀ c m, cb c m ≠ none := fun c m => by rw [hcb]; simp
  obtain ⟨g1, g2⟩ := C83_two_players hp (by decide) (by decide) hd (Or.inl heven) hT hcb'
  constructor
  · obtain ⟨e, calls, st, h1, h2⟩ := g1 false
    rw [h2 hcb] at h1
    exact ⟨e, calls, h1⟩
  · intro e calls hE
    obtain ⟨r, h1, h2⟩ := g2 false false e calls hE
    refine ⟨r, h1, ?_⟩
    rw [(h2 rfl).1 (by rw [ht]; decide), he, weighted_literal]
    rfl

/-- C88: `test_exact_weighted` in a debug build, which is how `cargo test` runs it. -/
theorem C88_debug (hT : 0 < nT) (hcb : ∀ c m, cb c m = some false) :
    (∃ e calls, WholeDebugF asciiLower ["KK".toList, "AA@1,QQ".toList] "".toList "".toList nT false false cb e calls) ∧
    ∀ e calls, WholeDebugF asciiLower ["KK".toList, "AA@1,QQ".toList] "".toList "".toList nT false false cb e calls →
      ∃ r, e = .returned (.ok r) ∧ r.equities[0]? = some (some (fl 0.8130232455484216)) := by
  obtain ⟨g1, g2⟩ := C88_release (nT := nT) (cb := cb) hT hcb
  obtain ⟨ranges, hq⟩ := weighted_problem.parsed
  have hok := hq.ok
  clear hq
  generalize ht : ["KK".toList, "AA@1,QQ".toList] = texts at *
  have h2 : texts.length = 2 := by rw [← ht]; rfl
  clear ht
  generalize "".toList = dt at *
  refine ⟨?_, fun e calls hE => g2 e calls ((C85_whole_two h2 hok e).1 hE)⟩
  obtain ⟨e, calls, h⟩ := g1
  exact ⟨e, calls, (C85_whole_two h2 hok e).2 h⟩

/-! ## Examples -/

/-- The best and the worst case of two kings against two aces. -/
example : equityOf [[(45, 44, 100)], [(51, 50, 1)]] [] [] 0 = some (641926 / 3424608) ∧
    equityOf [[(45, 44, 100)], [(49, 48, 1)]] [] [] 0 = some (594628 / 3424608) :=
  ⟨C88_kings_aces (h := (45, 44, 100)) (v := (51, 50, 1)) (by decide) (by decide),
    C88_kings_aces (h := (45, 44, 100)) (v := (49, 48, 1)) (by decide) (by decide)⟩

end
end Pokers

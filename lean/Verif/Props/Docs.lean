import Verif.Model.Misc
import Verif.Props.RepoTests
import Verif.Props.SuitSymmetry
import Verif.Props.Combining
import Verif.Props.FastDivide
/-!
The examples of the documentation, and the parts of the code that nothing uses.
-/
namespace Pokers

open Spec CombinedRange

/-! ## C67: the examples of the documentation -/

theorem prepare_of_deal {ranges : List (List Combo)} {b d : Nat} (hwf : ∀ r ∈ ranges, WfRange r) (hb : CardMask b)
    (hd : CardMask d) (hv : validate ranges.length b d = none) (hdeal : deals (specRanges ranges) (maskCards b ++ maskCards d) ≠ []) :
    ∃ s, prepareExact ranges b d = .ok s := by
  cases h : prepareExact ranges b d with
  | ok s => exact ⟨s, rfl⟩
  | error e =>
    exfalso
    unfold prepareExact at h
    rw [hv] at h
    simp only at h
    split at h
    · injection h with h
      subst h
      apply hdeal
      apply C40_sound hwf hb hd
      unfold prepareExact
      rw [hv]
      simp only
      rename_i hc
      rw [if_pos hc]
    · cases h

/-- If the input is valid and some deal is possible, the simulation has a run in which every thread evaluates one batch, whatever the
target. -/
theorem approx_of_deal {ranges : List (List Combo)} {b d : Nat} (sqrt : ℚ → ℚ) (target : ℚ) (hwf : ∀ r ∈ ranges, WfRange r)
    (hb : CardMask b) (hd : CardMask d) (hv : validate ranges.length b d = none)
    (hdeal : deals (specRanges ranges) (maskCards b ++ maskCards d) ≠ []) (nT : Nat) (cancelled : Bool) :
    ∃ r sent, ApproxEquity sqrt ranges b d nT target cancelled (.ok r) sent ∧ r.evalCount = 4096 * nT := by
  obtain ⟨s0, hs0⟩ := prepare_of_deal hwf hb hd hv hdeal
  obtain ⟨s, hs⟩ := C39_approx_ok hs0
  exact exists_run sqrt target hwf hb hd hs hdeal nT cancelled

/-- The board of the examples. -/
def quadsMask : Nat := 1 <<< 45 ||| 1 <<< 44 ||| 1 <<< 47 ||| 1 <<< 46 ||| 1 <<< 5

theorem quads_board : getCardMask asciiLower "KhKsKdKc3h".toList = quadsMask := by decide +kernel
theorem quads_deck : CardMask quadsMask := by unfold CardMask; decide
theorem quads_cards : maskCards quadsMask = [5, 44, 45, 46, 47] := by decide +kernel

theorem all_wf : WfRange addAll := accuracy_wf addAll (by simp)

theorem random_ranges : fromStrings asciiLower ["random".toList, "random".toList] = .ok [addAll, addAll] := by
  simp only [fromStrings, List.mapM_cons, List.mapM_nil]
  rw [show fromString asciiLower "random".toList = .ok addAll from rfl]
  rfl

theorem all_spec : specRanges [addAll, addAll] = [allHands, allHands] := by
  have := accuracy_spec
  simp only [specRanges, List.map_cons, List.map_nil, List.cons.injEq, and_true] at this ⊢
  exact ⟨this.2, this.2⟩

theorem all_length : addAll.length = 1326 := by
  obtain ⟨hands, he, hl, _⟩ := C22_random asciiLower
  rw [← hl, Except.ok.inj (show Except.ok addAll = Except.ok hands from he)]

theorem all_mem : (⟨1, 0, 100⟩ : Combo) ∈ addAll ∧ (⟨9, 8, 100⟩ : Combo) ∈ addAll := ⟨(mem_addAll _).2 (by decide), (mem_addAll _).2 (by decide)⟩

/-- A deal of the example: 2♠ 2♥ against 4♠ 4♥. -/
def twosFours : List WHand := [(1, 0, 100), (9, 8, 100)]

theorem quads_deal : twosFours ∈ deals [allHands, allHands] ([5, 44, 45, 46, 47] ++ []) := by
  unfold deals
  rw [List.mem_filter, mem_choices]
  refine ⟨⟨rfl, fun p hp _ => ?_⟩, by decide +kernel⟩
  have : p = 0 ∨ p = 1 := by
    have : twosFours.length = 2 := rfl
    omega
  rcases this with rfl | rfl
  · exact List.mem_flatMap.2 ⟨1, by decide, List.mem_map.2 ⟨0, by decide, rfl⟩⟩
  · exact List.mem_flatMap.2 ⟨9, by decide, List.mem_map.2 ⟨8, by decide, rfl⟩⟩

theorem quads_show : (twosFours, [5, 44, 45, 46, 47]) ∈ showdowns [allHands, allHands] [5, 44, 45, 46, 47] [] := by
  unfold showdowns
  refine List.mem_flatMap.2 ⟨twosFours, quads_deal, List.mem_map.2 ⟨_, ?_, rfl⟩⟩
  decide +kernel

theorem totalWeight_pos {sd : List (List WHand × List Nat)} {x : List WHand × List Nat} (hx : x ∈ sd) (h : 0 < dealWeight x.1) :
    0 < totalWeight sd := by
  unfold totalWeight
  exact Nat.lt_of_lt_of_le h (List.single_le_sum (fun _ _ => Nat.zero_le _) _ (List.mem_map.2 ⟨x, hx, rfl⟩))

theorem doc_run {ranges : List (List Combo)} {b d : Nat} (hr : ranges = [addAll, addAll]) (hb : b = quadsMask) (hd : d = 0) (nT : Nat) :
    (∃ r sent, ExactEquity ranges b d nT false false (.ok r) sent) ∧
    ∀ sqrt target, ∃ r sent, ApproxEquity sqrt ranges b d nT target false (.ok r) sent ∧ r.evalCount = 4096 * nT := by
  have hwf : ∀ r ∈ ranges, WfRange r := by
    rw [hr]; intro r hr'
    rcases List.mem_cons.1 hr' with hr' | hr'
    · rw [hr']; exact all_wf
    · rw [List.mem_singleton.1 hr']; exact all_wf
  have hbD : CardMask b := by rw [hb]; exact quads_deck
  have hdD : CardMask d := by rw [hd]; exact zero_deck
  have hs : specRanges ranges = [allHands, allHands] := by rw [hr]; exact all_spec
  have hbc : maskCards b = [5, 44, 45, 46, 47] := by rw [hb]; exact quads_cards
  have hdc : maskCards d = [] := by rw [hd]; decide +kernel
  have hv : validate ranges.length b d = none := by rw [hr, hb, hd]; decide +kernel
  have hdeal : deals (specRanges ranges) (maskCards b ++ maskCards d) ≠ [] := by
    rw [hs, hbc, hdc]
    exact List.ne_nil_of_mem quads_deal
  refine ⟨run_of_deal hwf hbD hdD hv hdeal ?_ nT false, fun sqrt target => approx_of_deal sqrt target hwf hbD hdD hv hdeal nT false⟩
  rw [hr, List.map_cons, List.map_cons, List.map_nil, all_length]
  decide

theorem doc_equity {ranges : List (List Combo)} {b d nT : Nat} (hr : ranges = [addAll, addAll]) (hb : b = quadsMask) (hd : d = 0)
    (hT : 0 < nT) {cancelled : Bool} {r : Results} {sent : List Nat} (h : ExactEquity ranges b d nT cancelled false (.ok r) sent) :
    r.equities = [some (1 / 2), some (1 / 2)] := by
  have hwf : ∀ r ∈ ranges, WfRange r := by
    rw [hr]; intro r hr'
    rcases List.mem_cons.1 hr' with hr' | hr'
    · rw [hr']; exact all_wf
    · rw [List.mem_singleton.1 hr']; exact all_wf
  have hbD : CardMask b := by rw [hb]; exact quads_deck
  have hdD : CardMask d := by rw [hd]; exact zero_deck
  have hs : specRanges ranges = [allHands, allHands] := by rw [hr]; exact all_spec
  have hbc : maskCards b = [5, 44, 45, 46, 47] := by rw [hb]; exact quads_cards
  have hdc : maskCards d = [] := by rw [hd]; decide +kernel
  have hl : ranges.length = 2 := by rw [hr]; rfl
  have hw : WholeShares ranges b d := by
    refine C61_two_players hwf hl (p := 0) (by omega) (fun c hc => ?_)
    have hc : c ∈ addAll := by subst hr; exact hc
    have := (mem_addAll c).1 hc
    omega
  have hpos : 0 < totalWeight (showdowns (specRanges ranges) (maskCards b) (maskCards d)) := by
    rw [hs, hbc, hdc]
    exact totalWeight_pos quads_show (by decide)
  rw [C65_equal_ranges hwf hbD hdD hT (by omega) hw hpos h (R := addAll) (fun x hx => ?_), hl]
  · norm_num [List.replicate]
  · rw [hr] at hx
    rcases List.mem_cons.1 hx with hx | hx
    · exact hx
    · exact List.mem_singleton.1 hx

/-- C67: the example of `exact_equity` (src/equity_calculator/simulator.rs:53-68): two random hands on the board K♥ K♠ K♦ K♣ 3♥.  For
every number of threads but zero, four in particular, it has a run, and every run that is not cancelled reports one half for both. -/
theorem C67_exact_example :
    ∃ ranges, fromStrings asciiLower ["random".toList, "random".toList] = .ok ranges ∧
      ∀ nT, 0 < nT →
        (∃ r sent, ExactEquity ranges (getCardMask asciiLower "KhKsKdKc3h".toList) (getCardMask asciiLower "".toList) nT false false (.ok r) sent) ∧
        ∀ cancelled r sent, ExactEquity ranges (getCardMask asciiLower "KhKsKdKc3h".toList) (getCardMask asciiLower "".toList) nT cancelled false
          (.ok r) sent → r.equities = [some (1 / 2), some (1 / 2)] := by
  obtain ⟨ranges, hr⟩ : ∃ ranges, ranges = [addAll, addAll] := ⟨_, rfl⟩
  exact ⟨ranges, by rw [hr]; exact random_ranges, fun nT hT => ⟨(doc_run hr quads_board accuracy_dead nT).1,
    fun cancelled r sent h => doc_equity hr quads_board accuracy_dead hT h⟩⟩

/-! ### The example of the README -/

/-- `AK,22+` in the order in which the hands are added. -/
def readme1 : List Combo := addCombosPlus (addCombos [] 12 11 true true 100) 0 0 true true 100
/-- `AA,KK,QQ@50` in the order in which the hands are added. -/
def readme2 : List Combo := addCombos (addCombos (addCombos [] 12 12 true true 100) 11 11 true true 100) 10 10 true true 50

theorem readme_bytes1 : ∀ c ∈ readme1, c.c1 < 256 ∧ c.c2 < 256 := by decide +kernel
theorem readme_bytes2 : ∀ c ∈ readme2, c.c1 < 256 ∧ c.c2 < 256 := by decide +kernel

theorem readme_parse1 : parseLoop (asciiLower "AK,22+".toList ++ [' ']) ((asciiLower "AK,22+".toList ++ [' ']).length + 1) 0 [] = .ok readme1 := by
  decide +kernel
theorem readme_parse2 : parseLoop (asciiLower "AA,KK,QQ@50".toList ++ [' ']) ((asciiLower "AA,KK,QQ@50".toList ++ [' ']).length + 1) 0 [] =
    .ok readme2 := by
  decide +kernel

theorem readme_range {text : List Char} {l : List Combo} (hr : text ≠ ['r', 'a', 'n', 'd', 'o', 'm'])
    (hl : parseLoop (asciiLower text ++ [' ']) ((asciiLower text ++ [' ']).length + 1) 0 [] = .ok l) :
    fromString asciiLower text = .ok (removeDuplicates l) := by
  unfold fromString
  rw [if_neg hr]
  simp only [hl, bind, Except.bind, pure, Except.pure]

theorem readme_ranges : fromStrings asciiLower ["AK,22+".toList, "AA,KK,QQ@50".toList] =
    .ok [removeDuplicates readme1, removeDuplicates readme2] := by
  simp only [fromStrings, List.mapM_cons, List.mapM_nil]
  rw [readme_range (by decide) readme_parse1, readme_range (by decide) readme_parse2]
  rfl

/-- The board of the example. -/
def babyMask : Nat := 1 <<< 1 ||| 1 <<< 7 ||| 1 <<< 10

theorem readme_board : getCardMask asciiLower "2h3d4c".toList = babyMask := by decide +kernel
theorem baby_deck : CardMask babyMask := by unfold CardMask; decide
theorem baby_cards : maskCards babyMask = [1, 7, 10] := by decide +kernel

theorem readme_wf : ∀ r ∈ [removeDuplicates readme1, removeDuplicates readme2], WfRange r := by
  have h1 : ∀ c ∈ readme1, c.c1 < 52 ∧ c.c2 < 52 ∧ c.c1 ≠ c.c2 := by decide +kernel
  have h2 : ∀ c ∈ readme2, c.c1 < 52 ∧ c.c2 < 52 ∧ c.c1 ≠ c.c2 := by decide +kernel
  intro r hr
  rcases List.mem_cons.1 hr with rfl | hr
  · intro c hc
    have := h1 c (mem_removeDuplicates_of hc)
    exact this
  · rw [List.mem_singleton.1 hr]
    intro c hc
    have := h2 c (mem_removeDuplicates_of hc)
    exact this

theorem readme_lengths : (removeDuplicates readme1).length = 94 ∧ (removeDuplicates readme2).length = 18 := by
  rw [removeDuplicates_length readme_bytes1, removeDuplicates_length readme_bytes2]
  constructor <;> decide +kernel

/-- C67: the example of the README: `AK,22+` (94 hands) against `AA,KK,QQ@50` (18 hands) on the board 2♥ 3♦ 4♣ with the target 0.01
and four threads.  It has a run, and every run, whatever the random values and the schedule, makes exactly 16384 evaluations, one batch
per thread, and calls the callback eight times, the first time with the value 255. -/
theorem C67_readme_example (sqrt : ℚ → ℚ) (h0 : 0 < sqrt eps) (hsq : 8 / 5 * sqrt eps ≤ 1 / 100) :
    ∃ ranges, fromStrings asciiLower ["AK,22+".toList, "AA,KK,QQ@50".toList] = .ok ranges ∧ ranges.map List.length = [94, 18] ∧
      (∃ r sent, ApproxEquity sqrt ranges (getCardMask asciiLower "2h3d4c".toList) (getCardMask asciiLower "".toList) 4 (1 / 100) false
        (.ok r) sent) ∧
      ∀ cancelled r sent, ApproxEquity sqrt ranges (getCardMask asciiLower "2h3d4c".toList) (getCardMask asciiLower "".toList) 4 (1 / 100)
        cancelled (.ok r) sent → r.evalCount = 16384 ∧ sent.length = 8 ∧ sent.head? = some 255 := by
  obtain ⟨ranges, hr⟩ : ∃ ranges, ranges = [removeDuplicates readme1, removeDuplicates readme2] := ⟨_, rfl⟩
  obtain ⟨b, hb⟩ : ∃ b, b = babyMask := ⟨_, rfl⟩
  obtain ⟨d, hd⟩ : ∃ d, d = 0 := ⟨_, rfl⟩
  have hwf : ∀ r ∈ ranges, WfRange r := by rw [hr]; exact readme_wf
  have hlen : ranges.map List.length = [94, 18] := by
    rw [hr, List.map_cons, List.map_cons, List.map_nil, readme_lengths.1, readme_lengths.2]
  have hl : ranges.length = 2 := by rw [hr]; rfl
  have hbD : CardMask b := by rw [hb]; exact baby_deck
  have hdD : CardMask d := by rw [hd]; exact zero_deck
  have hbc : maskCards b = [1, 7, 10] := by rw [hb]; exact baby_cards
  have hdc : maskCards d = [] := by rw [hd]; decide +kernel
  rw [readme_board, accuracy_dead, ← hb, ← hd]
  refine ⟨ranges, by rw [hr]; exact readme_ranges, hlen, ?_, fun cancelled r sent h => ?_⟩
  · have hv : validate ranges.length b d = none := by rw [hl, hb, hd]; decide +kernel
    have hdeal : deals (specRanges ranges) (maskCards b ++ maskCards d) ≠ [] := by
      refine List.ne_nil_of_mem (a := [(51, 47, 100), (49, 48, 100)]) ?_
      unfold deals
      rw [List.mem_filter, mem_choices]
      refine ⟨⟨?_, fun p hp hp' => ?_⟩, by rw [hbc, hdc]; decide +kernel⟩
      · rw [hr]; rfl
      · have hp2 : p = 0 ∨ p = 1 := by
          have : ([(51, 47, 100), (49, 48, 100)] : List WHand).length = 2 := rfl
          omega
        have m1 : (⟨51, 47, 100⟩ : Combo) ∈ removeDuplicates readme1 := (mem_removeDuplicates_iff readme_bytes1 _).2 (by decide +kernel)
        have m2 : (⟨49, 48, 100⟩ : Combo) ∈ removeDuplicates readme2 := (mem_removeDuplicates_iff readme_bytes2 _).2 (by decide +kernel)
        subst hr
        rcases hp2 with rfl | rfl
        · exact List.mem_map.2 ⟨_, m1, rfl⟩
        · exact List.mem_map.2 ⟨_, m2, rfl⟩
    obtain ⟨r, sent, h, _⟩ := approx_of_deal sqrt (1 / 100) hwf hbD hdD hv hdeal 4 false
    exact ⟨r, sent, h⟩
  · have h1 : (fromRanges (ranges.map fun h => removeConflictingCombos h b d)).length = 1 := by
      apply C66_single
      · rw [hr]; exact (fun h => by cases h)
      · have e1 : (removeConflictingCombos (removeDuplicates readme1) b d).length ≤ 94 :=
          (List.length_filter_le _ _).trans (le_of_eq readme_lengths.1)
        have e2 : (removeConflictingCombos (removeDuplicates readme2) b d).length ≤ 18 :=
          (List.length_filter_le _ _).trans (le_of_eq readme_lengths.2)
        rw [hr]
        simp only [List.map_cons, List.map_nil, List.prod_cons, List.prod_nil, Nat.mul_one]
        exact Nat.lt_of_le_of_lt (Nat.mul_le_mul e1 e2) (by decide)
    obtain ⟨c1, c2⟩ := C52_one_batch hwf hbD hdD h1 (by linarith) h
    exact ⟨c1, c2, C52_progress hwf hbD hdD h1 h0 hsq (by omega) h⟩

/-- The hypotheses of the theorem hold for a function whose value at `1e-9` is `sqrt(1e-9)` up to rounding. -/
example : (0 : ℚ) < (fun _ => 31622776601683795 / 10 ^ 21) eps ∧ 8 / 5 * (fun _ : ℚ => (31622776601683795 / 10 ^ 21 : ℚ)) eps ≤ 1 / 100 := by norm_num

/-- C67: the example of `approx_equity` (src/equity_calculator/simulator.rs:159-174), two random hands on the board K♥ K♠ K♦ K♣ 3♥, has
a run with four batches of evaluations. -/
theorem C67_approx_example (sqrt : ℚ → ℚ) :
    ∃ ranges, fromStrings asciiLower ["random".toList, "random".toList] = .ok ranges ∧
      ∃ r sent, ApproxEquity sqrt ranges (getCardMask asciiLower "KhKsKdKc3h".toList) (getCardMask asciiLower "".toList) 4 (1 / 1000) false
        (.ok r) sent ∧ r.evalCount = 16384 := by
  obtain ⟨ranges, hr⟩ : ∃ ranges, ranges = [addAll, addAll] := ⟨_, rfl⟩
  exact ⟨ranges, by rw [hr]; exact random_ranges, (doc_run hr quads_board accuracy_dead 4).2 sqrt (1 / 1000)⟩

/-- C67: the evaluator example of the README (with `Hand::default()`, as there is no `Hand::empty()`): the cards 0 and 1, the deuces of
spades and hearts, are evaluated as a pair, lower than any other pair. -/
theorem C67_evaluator_example :
    (Hand.default + CARDS 0 + CARDS 1).evaluate >>> 12 = 2 ∧
    ∀ r < 13, 0 < r → (Hand.default + CARDS 0 + CARDS 1).evaluate < (Hand.default + CARDS (4 * r) + CARDS (4 * r + 1)).evaluate := by
  decide +kernel

/-! ### No threads -/

theorem steps_none {s : Sim} {ds : List DividerU64} {total size : Nat} {w v : World} (h : Steps s ds total size 0 w v) :
    v.shared.results = w.shared.results ∧ v.shared.sent = w.shared.sent := by
  induction h with
  | refl => exact ⟨rfl, rfl⟩
  | step _ h ih =>
    cases h with
    | thread ht => omega
    | cancel => exact ih

theorem mcSteps_none {sqrt : ℚ → ℚ} {target : ℚ} {s : Sim} {w v : McWorld} (h : McSteps sqrt target s 0 w v) :
    v.shared.results = w.shared.results ∧ v.shared.sent = w.shared.sent := by
  induction h with
  | refl => exact ⟨rfl, rfl⟩
  | step _ h ih =>
    cases h with
    | thread ht => omega
    | cancel => exact ih

/-- C67: with no threads nothing is evaluated, nothing is sent and every equity is `NaN`, in both modes. -/
theorem C67_no_threads {ranges : List (List Combo)} {b d : Nat} (hwf : ∀ r ∈ ranges, WfRange r) (hb : CardMask b) (hd : CardMask d)
    {r : Results} {sent : List Nat} {cancelled : Bool}
    (h : (∃ stopped, ExactEquity ranges b d 0 cancelled stopped (.ok r) sent) ∨
      ∃ sqrt target, ApproxEquity sqrt ranges b d 0 target cancelled (.ok r) sent) :
    r.equities = List.replicate ranges.length none ∧ r.evalCount = 0 ∧ sent = [] := by
  rcases h with ⟨stopped, h⟩ | ⟨sqrt, target, h⟩
  · have he := (C33_equities hwf hb hd h).2
    unfold ExactEquity at h
    split at h
    · exact absurd h.1 (by simp)
    · rename_i s hok
      obtain ⟨r0, flag, ds, total, size, w, h1, h2, h3, h4, h5, h6, h7, h8, h9⟩ := h
      injection h7 with h7
      rw [(steps_none h5).1] at h7
      rw [(steps_none h5).2] at h8
      obtain ⟨s1, s2, s3, _⟩ := startResults_counts h1
      obtain ⟨f1, f2, f3, f4, _⟩ := finishResults_counts s flag r0
      have hw : ∀ p, r.wins p = 0 := fun p => by rw [h7]; show (finishResults s flag r0).wins p = 0; rw [f1, s1]
      have ht : ∀ p, r.ties p = 0 := fun p => by rw [h7]; show (finishResults s flag r0).ties p = 0; rw [f2, s2]
      refine ⟨(he ?_).1, ?_, h8⟩
      · simp [hw, ht]
      · rw [h7]
        show (finishResults s flag r0).evalCount = 0
        rw [f4]
        exact congrArg Prod.snd s3
  · have he := (C58_equities hwf hb hd h).2
    obtain ⟨s, r0, flag, w, hr, h1, h2, h5, h6, h7, h8⟩ := approx_world hwf hb hd h
    rw [(mcSteps_none h5).1] at h7
    rw [(mcSteps_none h5).2] at h8
    obtain ⟨s1, s2, s3, _⟩ := startResults_counts h1
    obtain ⟨f1, f2, f3, f4, _⟩ := finishResults_counts s flag r0
    have hw : ∀ p, r.wins p = 0 := fun p => by rw [h7]; show (finishResults s flag r0).wins p = 0; rw [f1, s1]
    have ht : ∀ p, r.ties p = 0 := fun p => by rw [h7]; show (finishResults s flag r0).ties p = 0; rw [f2, s2]
    refine ⟨(he ?_).1, ?_, h8⟩
    · simp [hw, ht]
    · rw [h7]
      show (finishResults s flag r0).evalCount = 0
      rw [f4, h2]

/-- Two random hands, no thread: the exact calculation has a run, and both equities are `NaN`. -/
example : ∃ ranges r sent, ExactEquity ranges quadsMask 0 0 false false (.ok r) sent ∧ r.equities = List.replicate ranges.length none ∧
    ranges.length = 2 := by
  obtain ⟨ranges, hr⟩ : ∃ ranges, ranges = [addAll, addAll] := ⟨_, rfl⟩
  obtain ⟨r, sent, h⟩ := (doc_run hr rfl rfl 0).1
  have hwf : ∀ r ∈ ranges, WfRange r := by
    rw [hr]; intro r hr'
    rcases List.mem_cons.1 hr' with hr' | hr'
    · rw [hr']; exact all_wf
    · rw [List.mem_singleton.1 hr']; exact all_wf
  exact ⟨ranges, r, sent, h, (C67_no_threads hwf quads_deck zero_deck (Or.inl ⟨false, h⟩)).1, by rw [hr]; rfl⟩

/-! ### Unused code -/

/-- C67: `u64 / DividerU64` is division, exact for every divisor and dividend. -/
theorem C67_div {d n : Nat} (h0 : 0 < d) (hd : d < 2 ^ 64) (hn : n < 2 ^ 64) : (DividerU64.divideBy d).bind (divOp n) = some (n / d) :=
  C25_divide_exact h0 hd hn

/-- C67: the order of `HandWithIndex` compares the cards only and is a total order on them; hands that differ in the weight or the player
compare as equal although they are different, against the contract of `Ord`. -/
theorem C67_hand_with_index (a b c : HandWithIndex) :
    (a.cmp b = .eq ↔ a.cards.1 = b.cards.1 ∧ a.cards.2.1 = b.cards.2.1) ∧ (a.cmp b = .gt ↔ b.cmp a = .lt) ∧
    (a.cmp b = .lt → b.cmp c = .lt → a.cmp c = .lt) ∧ HandWithIndex.partialCmp a b = some (a.cmp b) ∧
    (∃ x y : HandWithIndex, x.cmp y = .eq ∧ x ≠ y) := by
  have key : ∀ x y : HandWithIndex, x.cmp y = Combo.cmp ⟨x.cards.1, x.cards.2.1, 0⟩ ⟨y.cards.1, y.cards.2.1, 0⟩ := fun _ _ => rfl
  refine ⟨by rw [key, cmp_eq_iff], by rw [key, key, cmp_gt_iff, cmp_lt_iff], ?_, rfl, ⟨HandWithIndex.default, ⟨(52, 52, 100), 1⟩, by decide, by decide⟩⟩
  rw [key, key, key, cmp_lt_iff, cmp_lt_iff, cmp_lt_iff]
  unfold Combo.Lt
  omega

end Pokers

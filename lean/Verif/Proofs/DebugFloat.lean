import Verif.Model.DebugFloat
import Verif.Proofs.CheckedFinish
import Verif.Proofs.FloatRun
import Verif.Proofs.FloatMc
/-!
# The debug build with floating-point numbers: its checks only depend on integers

`…_ints`: with states that differ in floating-point numbers only, a function with exact numbers and its version with rounded numbers
both panic, or neither of them does and the new states differ in floating-point numbers only.
`…CF_sound`: if it does not panic the new state is that of the version without checks.
-/
namespace Pokers

theorem rel_bind {α β γ δ : Type} {R : α → β → Prop} {S : γ → δ → Prop} {x : Option α} {y : Option β} {f : α → Option γ} {g : β → Option δ}
    (h : Option.Rel R x y) (hf : ∀ a b, R a b → Option.Rel S (f a) (g b)) : Option.Rel S (x.bind f) (y.bind g) := by
  cases h with
  | some h => exact hf _ _ h
  | none => exact .none

theorem rel_map {α β γ δ : Type} {R : α → β → Prop} {S : γ → δ → Prop} {x : Option α} {y : Option β} {f : α → γ} {g : β → δ}
    (h : Option.Rel R x y) (hf : ∀ a b, R a b → S (f a) (g b)) : Option.Rel S (x.map f) (y.map g) := by
  cases h with
  | some h => exact .some (hf _ _ h)
  | none => exact .none

theorem rel_eq {α : Type} {x y : Option α} (h : y = x) : Option.Rel (fun a b => b = a) x y := by
  subst h
  cases y with
  | some a => exact .some rfl
  | none => exact .none

theorem rel_foldlM {α β γ : Type} {R : α → β → Prop} {f : α → γ → Option α} {g : β → γ → Option β} :
    ∀ (l : List γ), (∀ x ∈ l, ∀ a b, R a b → Option.Rel R (f a x) (g b x)) → ∀ {a : α} {b : β}, R a b → Option.Rel R (l.foldlM f a) (l.foldlM g b) := by
  intro l
  induction l with
  | nil => intro _ a b h; exact .some h
  | cons x l ih =>
    intro hf a b h
    rw [List.foldlM_cons, List.foldlM_cons]
    exact rel_bind (hf x (by simp) a b h) fun a b h => ih (fun y hy => hf y (by simp [hy])) h

theorem Option.Rel.none_iff {α β : Type} {R : α → β → Prop} {x : Option α} {y : Option β} (h : Option.Rel R x y) : y = none ↔ x = none := by
  cases h <;> simp

theorem Option.Rel.of_some {α β : Type} {R : α → β → Prop} {x : Option α} {y : Option β} (h : Option.Rel R x y) {b : β} (hy : y = some b) :
    ∃ a, x = some a ∧ R a b := by
  cases h with
  | some h => cases hy; exact ⟨_, rfl, h⟩
  | none => cases hy

/-! ## States that differ in floating-point numbers only -/

/-- Two hands' counters that agree in all integers. -/
structure UnitSame (u v : UnitResults) : Prop where
  wins : v.wins = u.wins
  ties : v.ties = u.ties
  total : v.total = u.total
  weight : v.weight = u.weight
  rank : v.rank = u.rank
  draw : v.draw = u.draw
  valid : v.valid = u.valid

theorem UnitSame.refl (u : UnitResults) : UnitSame u u := ⟨rfl, rfl, rfl, rfl, rfl, rfl, rfl⟩

theorem UClose.same {n : Nat} {u v : UnitResults} (h : UClose n u v) : UnitSame u v :=
  ⟨h.wins, h.ties, h.total, h.weight, h.rank, h.draw, h.valid⟩

def HandsSame (hs hs' : Nat → UnitResults) : Prop := ∀ k, UnitSame (hs k) (hs' k)

theorem HandsSame.update {hs hs' : Nat → UnitResults} (h : HandsSame hs hs') (k : Nat) {u v : UnitResults} (huv : UnitSame u v) :
    HandsSame (Function.update hs k u) (Function.update hs' k v) := by
  intro j
  by_cases hj : j = k
  · subst hj; simpa using huv
  · simpa [Function.update_of_ne hj] using h j

/-- Two threads' counters. -/
def StSame (st st' : Batch × HandStats) : Prop := st'.1 = st.1 ∧ HandsSame st.2 st'.2

structure MergeSame (m m' : Merge) : Prop where
  wins : m'.wins = m.wins
  masks : m'.winsByMask = m.winsByMask
  hands : m'.batchHands = m.batchHands

/-- Two results. -/
structure ResSame (r r' : Results) : Prop where
  wins : r'.wins = r.wins
  masks : r'.winsByMask = r.winsByMask
  evals : r'.evalCount = r.evalCount
  hands : HandsSame r.handResults r'.handResults
  combos : List.Forall₂ UnitSame r.comboResults r'.comboResults
  boards : HandsSame r.boardResults r'.boardResults
  draws : HandsSame r.boardDraws r'.boardDraws

theorem ResSame.refl (r : Results) : ResSame r r :=
  ⟨rfl, rfl, rfl, fun _ => .refl _, List.forall₂_same.2 fun _ _ => .refl _, fun _ => .refl _, fun _ => .refl _⟩

structure AggSame (a a' : Agg) : Prop where
  counter : a'.counter = a.counter
  weight : a'.weight = a.weight
  wins : a'.wins = a.wins
  ties : a'.ties = a.ties
  total : a'.total = a.total

structure BigSame (b b' : BigUnitResults) : Prop where
  weight : b'.weight = b.weight
  wins : b'.wins = b.wins
  ties : b'.ties = b.ties
  total : b'.total = b.total

/-! ## The threads -/

theorem fits_ints {k x y : Nat} (h : y = x) : Option.Rel (fun a b => b = a) (fits k x) (fits k y) := rel_eq (by rw [h])

theorem updateTotal_ints (w : Nat) {u v : UnitResults} (h : UnitSame u v) : Option.Rel UnitSame (u.updateTotalC w) (v.updateTotalC w) :=
  rel_map (fits_ints (by rw [h.total])) fun _ _ hx => ⟨h.wins, h.ties, hx, h.weight, h.rank, h.draw, h.valid⟩

theorem updateWins_ints (w : Nat) {u v : UnitResults} (h : UnitSame u v) : Option.Rel UnitSame (u.updateWinsC w) (v.updateWinsC w) :=
  rel_map (fits_ints (by rw [h.wins])) fun _ _ hx => ⟨hx, h.ties, h.total, h.weight, h.rank, h.draw, h.valid⟩

theorem updateTies_ints (w c : Nat) {u v : UnitResults} (h : UnitSame u v) : Option.Rel UnitSame (u.updateTiesC w c) (v.updateTiesCF w c) :=
  rel_map (fits_ints (by rw [h.ties])) fun _ _ hx => ⟨h.wins, hx, h.total, h.weight, h.rank, h.draw, h.valid⟩

theorem addAssign_ints {u v o p : UnitResults} (h : UnitSame u v) (ho : UnitSame o p) :
    Option.Rel UnitSame (u.addAssignC o) (v.addAssignCF p) := by
  unfold UnitResults.addAssignC UnitResults.addAssignCF
  refine rel_bind (fits_ints (by rw [h.wins, ho.wins])) fun w w' hw => ?_
  refine rel_bind (fits_ints (by rw [h.ties, ho.ties])) fun t t' ht => ?_
  refine rel_bind (fits_ints (by rw [h.total, ho.total])) fun T T' hT => ?_
  exact .some ⟨hw, ht, hT, h.weight, h.rank, h.draw, h.valid⟩

theorem modify_ints {len k : Nat} {hs hs' : HandStats} {f g : UnitResults → Option UnitResults} (h : HandsSame hs hs')
    (hf : ∀ u v, UnitSame u v → Option.Rel UnitSame (f u) (g v)) : Option.Rel HandsSame (modifyC len hs k f) (modifyC len hs' k g) := by
  unfold modifyC
  split
  · exact rel_map (hf _ _ (h k)) fun u v huv => h.update k huv
  · exact .none

theorem evaluateHands_ints {n len : Nat} {hands : Nat → Hand} {weight : Nat} {board : Hand} {lookup : Nat → Nat} {flush : Bool}
    {st st' : Batch × HandStats} (h : StSame st st') :
    Option.Rel StSame (evaluateHandsC n len hands weight board lookup flush st) (evaluateHandsCF n len hands weight board lookup flush st') := by
  unfold evaluateHandsC evaluateHandsCF
  have hend : ∀ hs hs', HandsSame hs hs' → Option.Rel StSame
      ((fits 64 (st.1.winsByMask (scan n hands board flush).winnerMask + weight)).bind fun wins => (fits 64 (st.1.evalCount + 1)).bind fun evals =>
        some ({ st.1 with winsByMask := Function.update st.1.winsByMask (scan n hands board flush).winnerMask wins, evalCount := evals }, hs))
      ((fits 64 (st'.1.winsByMask (scan n hands board flush).winnerMask + weight)).bind fun wins => (fits 64 (st'.1.evalCount + 1)).bind fun evals =>
        some ({ st'.1 with winsByMask := Function.update st'.1.winsByMask (scan n hands board flush).winnerMask wins, evalCount := evals }, hs')) := by
    intro hs hs' hh
    refine rel_bind (fits_ints (by rw [h.1])) fun w w' hw => ?_
    refine rel_bind (fits_ints (by rw [h.1])) fun e e' he => ?_
    refine .some ⟨?_, hh⟩
    simp only
    rw [h.1, hw, he]
  refine rel_bind (R := HandsSame) ?_ fun hs hs' hh => ?_
  · refine rel_foldlM _ (fun i _ hs hs' hh => ?_) h.2
    exact modify_ints hh fun u v => updateTotal_ints weight
  simp only
  split
  · exact rel_bind (R := HandsSame) (modify_ints hh fun u v => updateWins_ints weight) hend
  · refine rel_bind (R := HandsSame) ?_ hend
    refine rel_foldlM _ (fun i _ hs hs' hh => ?_) hh
    exact modify_ints hh fun u v => updateTies_ints weight _

theorem mergePlayers_ints (n : Nat) (b : Batch) (i : Nat) {m m' : Merge} (h : MergeSame m m') :
    Option.Rel (fun x x' : Merge × Nat => MergeSame x.1 x'.1 ∧ x'.2 = x.2) (mergePlayersC n b i m) (mergePlayersCF n b i m') := by
  unfold mergePlayersC mergePlayersCF
  refine rel_foldlM _ ?_ ⟨h, rfl⟩
  rintro j _ ⟨m, a⟩ ⟨m', a'⟩ ⟨hm, ha⟩
  simp only at hm ha ⊢
  split
  · split
    · refine rel_bind (R := MergeSame) ?_ fun x x' hx => ?_
      · exact rel_map (fits_ints (by rw [hm.wins])) fun w w' hw => ⟨by simp only [hw, hm.wins], hm.masks, hm.hands⟩
      · exact .some ⟨hx, by rw [ha]⟩
    · exact .some ⟨⟨hm.wins, hm.masks, hm.hands⟩, by rw [ha]⟩
  · exact .some ⟨hm, ha⟩

theorem mergeMasks_ints (n : Nat) (b : Batch) {m m' : Merge} (h : MergeSame m m') :
    Option.Rel MergeSame (mergeMasksC n b m) (mergeMasksCF n b m') := by
  unfold mergeMasksC mergeMasksCF
  refine rel_foldlM _ (fun i _ m m' hm => ?_) h
  refine rel_bind (fits_ints (by rw [hm.hands])) fun x x' hx => ?_
  refine rel_bind (mergePlayers_ints n b i (m := { m with batchHands := x }) (m' := { m' with batchHands := x' }) ⟨hm.wins, hm.masks, hx⟩)
    fun y y' hy => ?_
  refine rel_bind (fits_ints (by rw [hy.1.masks, hy.2])) fun w w' hw => ?_
  exact .some ⟨hy.1.wins, by simp only [hy.1.masks, hy.2, hw], hy.1.hands⟩

theorem updateResults_ints (sqrt : ℚ → ℚ) (dev : ℚ → ℚ → Option ℚ) (n : Nat) (ex : Bool) {st st' : Batch × HandStats} (hst : StSame st st')
    {r r' : Results} (h : ResSame r r') :
    Option.Rel ResSame (updateResultsC sqrt n ex st.1 st.2 r) (updateResultsCF dev n ex st'.1 st'.2 r') := by
  unfold updateResultsC updateResultsCF
  refine rel_bind (R := HandsSame) (rel_foldlM _ (fun k _ hs hs' hh => rel_map (addAssign_ints (hh k) (hst.2 k)) fun u v huv => hh.update k huv)
    h.hands) fun hs hs' hh => ?_
  rw [hst.1]
  refine rel_bind (mergeMasks_ints n st.1 (m := ⟨r.wins, r.ties, r.winsByMask, 0, 0⟩) (m' := ⟨r'.wins, r'.ties, r'.winsByMask, 0, 0⟩)
    ⟨h.wins, h.masks, rfl⟩) fun m m' hm => ?_
  refine rel_bind (fits_ints (by rw [h.evals])) fun e e' he => ?_
  simp only
  split
  · exact .some ⟨hm.wins, hm.masks, he, hh, h.combos, h.boards, h.draws⟩
  · exact .some ⟨hm.wins, hm.masks, he, hh, h.combos, h.boards, h.draws⟩

theorem processPos_ints (s : Sim) (ds : List DividerU64) (pos : Nat) {st st' : Batch × HandStats} (h : StSame st st') :
    Option.Rel StSame (s.processPosC ds pos st) (s.processPosCF ds pos st') := by
  unfold Sim.processPosC Sim.processPosCF
  rcases s.decode ds pos with _ | _ | ⟨used, ph⟩
  · exact .none
  · exact .some h
  · refine rel_bind (rel_eq rfl) fun w w' hw => ?_
    rw [hw]
    unfold Sim.enumerateBoardC Sim.enumerateBoardCF
    simp only
    rw [h.1]
    refine rel_bind (rel_eq rfl) fun es es' hes => ?_
    rw [hes]
    refine rel_foldlM _ (fun e _ st st' hst => ?_) h
    exact evaluateHands_ints hst

/-! ## After the threads -/

theorem fixHandWeights_ints (len : Nat) (hrs : List (List Combo)) (flag : Nat) {hr hr' : Nat → UnitResults} (h : HandsSame hr hr') :
    Option.Rel HandsSame (fixHandWeightsC len hrs flag hr) (fixHandWeightsC len hrs flag hr') := by
  unfold fixHandWeightsC
  refine rel_foldlM _ (fun p _ hr hr' hh => ?_) h
  refine rel_bind (rel_eq rfl) fun x x' hx => ?_
  rw [hx]
  split
  · refine rel_foldlM _ (fun c _ hr hr' hh => ?_) hh
    refine rel_bind (rel_eq rfl) fun k k' hk => ?_
    rw [hk]
    refine .some ?_
    rw [(hh k).valid]
    split
    · exact hh.update k ⟨(hh k).wins, (hh k).ties, (hh k).total, rfl, (hh k).rank, (hh k).draw, (hh k).valid⟩
    · exact hh
  · exact .some hh

theorem finalHand_ints {u v : UnitResults} {a a' : Agg} (h : UnitSame u v) (ha : AggSame a a') :
    Option.Rel (fun x x' : UnitResults × Agg => UnitSame x.1 x'.1 ∧ AggSame x.2 x'.2) (finalHandC u a) (finalHandCF v a') := by
  unfold finalHandC finalHandCF
  rw [h.valid, h.total]
  split
  · split
    · refine rel_bind (fits_ints (by rw [ha.counter])) fun c c' hc => ?_
      refine rel_bind (fits_ints (by rw [ha.weight, h.weight])) fun w w' hw => ?_
      refine rel_bind (fits_ints (by rw [ha.wins, h.wins])) fun x x' hx => ?_
      refine rel_bind (fits_ints (by rw [ha.ties, h.ties])) fun t t' ht => ?_
      refine rel_bind (fits_ints (by rw [ha.total])) fun T T' hT => ?_
      exact .some ⟨⟨h.wins, h.ties, rfl, h.weight, h.rank, h.draw, rfl⟩, hc, hw, hx, ht, hT⟩
    · exact .some ⟨⟨h.wins, h.ties, rfl, h.weight, h.rank, h.draw, rfl⟩, ha⟩
  · exact .some ⟨h, ha⟩

theorem finalCombo_ints (size : Nat) {a a' : Agg} (h : AggSame a a') : Option.Rel UnitSame (finalComboC size a) (finalComboCF size a') := by
  unfold finalComboC finalComboCF
  rw [h.counter, h.weight, h.wins, h.ties, h.total]
  split
  · by_cases hbig : a.total > U64_MAX
    · simp only [hbig, if_true]
      refine rel_bind (rel_eq rfl) fun r r' hr => ?_
      rw [hr]
      refine rel_bind (rel_eq rfl) fun w w' hw => ?_
      refine rel_bind (rel_eq rfl) fun t t' ht => ?_
      refine rel_bind (rel_eq rfl) fun T T' hT => ?_
      refine rel_bind (rel_eq rfl) fun g g' hg => ?_
      exact .some ⟨by simp only [hw], by simp only [ht], by simp only [hT], hg, rfl, rfl, rfl⟩
    · simp only [hbig, if_false]
      show Option.Rel UnitSame ((divC a.weight size).bind _) ((divC a.weight size).bind _)
      refine rel_bind (R := fun g g' => g' = g) (rel_eq rfl) fun g g' hg => ?_
      exact Option.Rel.some ⟨rfl, rfl, rfl, hg, rfl, rfl, rfl⟩
  · exact .some (.refl _)

theorem finalHands_ints (len start size : Nat) {hr hr' : Nat → UnitResults} (h : HandsSame hr hr') :
    Option.Rel (fun x x' : (Nat → UnitResults) × Agg => HandsSame x.1 x'.1 ∧ AggSame x.2 x'.2) (finalHandsC len start size hr)
      (finalHandsCF len start size hr') := by
  unfold finalHandsC finalHandsCF
  refine rel_foldlM _ (fun k _ x x' hx => ?_) ⟨h, rfl, rfl, rfl, rfl, rfl⟩
  simp only
  split
  · refine rel_bind (rel_eq rfl) fun i i' hi => ?_
    rw [hi]
    refine rel_bind (finalHand_ints (hx.1 i) hx.2) fun y y' hy => ?_
    exact .some ⟨hx.1.update i hy.1, hy.2⟩
  · exact .none

theorem finalPlayer_ints (len i : Nat) : ∀ (fuel j : Nat) {hr hr' : Nat → UnitResults} {cs cs' : List UnitResults}, HandsSame hr hr' →
    List.Forall₂ UnitSame cs cs' →
    Option.Rel (fun x x' : (Nat → UnitResults) × List UnitResults => HandsSame x.1 x'.1 ∧ List.Forall₂ UnitSame x.2 x'.2)
      (finalPlayerC len i fuel j hr cs) (finalPlayerCF len i fuel j hr' cs') := by
  intro fuel
  induction fuel with
  | zero => intro j hr hr' cs cs' h hc; exact .some ⟨h, hc⟩
  | succ fuel ih =>
    intro j hr hr' cs cs' h hc
    unfold finalPlayerC finalPlayerCF
    split
    · refine rel_bind (finalHands_ints len _ _ h) fun x x' hx => ?_
      refine rel_bind (finalCombo_ints _ hx.2) fun c c' hcc => ?_
      exact ih _ hx.1 (List.rel_append hc (List.Forall₂.cons hcc .nil))
    · exact .some ⟨h, hc⟩

theorem generateFinalData_ints (n : Nat) {r r' : Results} (h : ResSame r r') :
    Option.Rel ResSame (generateFinalDataC n r) (generateFinalDataCF n r') := by
  unfold generateFinalDataC generateFinalDataCF
  refine rel_bind (rel_foldlM _ (fun i _ x x' hx => finalPlayer_ints _ i _ _ hx.1 hx.2)
    (a := (r.handResults, r.comboResults)) (b := (r'.handResults, r'.comboResults)) ⟨h.hands, h.combos⟩) fun x x' hx => ?_
  exact .some ⟨h.wins, h.masks, h.evals, hx.1, hx.2, h.boards, h.draws⟩

def TablesSame (t t' : Nat → BigUnitResults) : Prop := ∀ k, BigSame (t k) (t' k)

theorem addHand_ints (len : Nat) {t t' : Nat → BigUnitResults} (h : TablesSame t t') (k : Nat) {u v : UnitResults} (hu : UnitSame u v) :
    Option.Rel TablesSame (addHandC len t k u) (addHandCF len t' k v) := by
  unfold addHandC addHandCF
  split
  · refine rel_bind (fits_ints (by rw [(h k).wins, hu.wins])) fun w w' hw => ?_
    refine rel_bind (fits_ints (by rw [(h k).ties, hu.ties])) fun x x' hx => ?_
    refine rel_bind (fits_ints (by rw [(h k).total, hu.total])) fun T T' hT => ?_
    refine rel_bind (fits_ints (by rw [(h k).weight, hu.weight])) fun g g' hg => ?_
    refine .some fun j => ?_
    by_cases hj : j = k
    · subst hj; simp only [Function.update_self]; exact ⟨hg, hw, hx, hT⟩
    · simpa [Function.update_of_ne hj] using h j
  · exact .none

theorem boardHand_ints (n i : Nat) {u v : UnitResults} (hu : UnitSame u v) {t t' : (Nat → BigUnitResults) × (Nat → BigUnitResults)}
    (h : TablesSame t.1 t'.1 ∧ TablesSame t.2 t'.2) :
    Option.Rel (fun t t' : (Nat → BigUnitResults) × (Nat → BigUnitResults) => TablesSame t.1 t'.1 ∧ TablesSame t.2 t'.2) (boardHandC n i u t)
      (boardHandCF n i v t') := by
  unfold boardHandC boardHandCF
  rw [hu.valid, hu.rank, hu.draw]
  split
  · refine rel_bind (addHand_ints _ h.1 _ hu) fun x x' hx => ?_
    refine rel_bind (R := TablesSame) (rel_foldlM _ (fun k _ d d' hd => ?_) h.2) fun d d' hd => ?_
    · refine rel_bind (rel_eq rfl) fun z z' hz => ?_
      rw [hz]
      split
      · exact addHand_ints _ hd _ hu
      · exact .some hd
    simp only
    cases nutIndex u.draw with
    | some k => exact rel_bind (addHand_ints _ hd _ hu) fun d d' hd => Option.Rel.some (And.intro hx hd)
    | none => exact Option.Rel.some (And.intro hx hd)
  · exact .some h

theorem boardTables_ints (n : Nat) {hr hr' : Nat → UnitResults} (h : HandsSame hr hr') :
    Option.Rel (fun t t' : (Nat → BigUnitResults) × (Nat → BigUnitResults) => TablesSame t.1 t'.1 ∧ TablesSame t.2 t'.2) (boardTablesC n hr)
      (boardTablesCF n hr') := by
  unfold boardTablesC boardTablesCF
  refine rel_foldlM _ (fun i _ t t' ht => rel_foldlM _ (fun j _ t t' ht => ?_) ht) ⟨fun _ => ⟨rfl, rfl, rfl, rfl⟩, fun _ => ⟨rfl, rfl, rfl, rfl⟩⟩
  simp only
  split
  · exact boardHand_ints n i (h _) ht
  · exact .none

theorem boardUnit_ints {b b' : BigUnitResults} (h : BigSame b b') {u v : UnitResults} (hu : UnitSame u v) :
    UnitSame (boardUnit b u) (boardUnitF b' v) := by
  unfold boardUnit boardUnitF
  rw [h.total, h.wins, h.ties, h.weight]
  split
  · exact ⟨rfl, rfl, rfl, rfl, hu.rank, hu.draw, hu.valid⟩
  · exact hu

theorem generateBoardData_ints (n : Nat) {r r' : Results} (h : ResSame r r') :
    Option.Rel ResSame (generateBoardDataC n r) (generateBoardDataCF n r') := by
  unfold generateBoardDataC generateBoardDataCF
  refine rel_bind (boardTables_ints n h.hands) fun t t' ht => ?_
  refine .some ⟨h.wins, h.masks, h.evals, h.hands, h.combos, fun k => ?_, fun k => ?_⟩
  · simp only
    split
    · exact boardUnit_ints (ht.1 k) (h.boards k)
    · exact h.boards k
  · simp only
    split
    · exact boardUnit_ints (ht.2 k) (h.draws k)
    · exact h.draws k

theorem finishResults_ints (s : Sim) (flag : Nat) {r r' : Results} (h : ResSame r r') :
    Option.Rel ResSame (finishResultsC s flag r) (finishResultsCF s flag r') := by
  unfold finishResultsC finishResultsCF
  refine rel_bind (fixHandWeights_ints _ _ _ h.hands) fun hs hs' hh => ?_
  refine rel_bind (generateFinalData_ints _ ?_) fun x x' hx => ?_
  · exact ⟨h.wins, h.masks, h.evals, hh, h.combos, h.boards, h.draws⟩
  · split
    · exact generateBoardData_ints _ hx
    · exact .some hx

end Pokers

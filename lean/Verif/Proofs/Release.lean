import Verif.Model.Release
import Verif.Proofs.CheckedSound
import Verif.Proofs.FloatRun
/-!
# The release build: what wrapping does

The counters of the release build are those of the exact model modulo `2 ^ 64`.
-/
namespace Pokers
open Spec CombinedRange

theorem wrap_lt (x : Nat) : wrap x < 2 ^ 64 := Nat.mod_lt _ (by decide)
theorem wrap_of_lt {x : Nat} (h : x < 2 ^ 64) : wrap x = x := Nat.mod_eq_of_lt h
theorem wrap_wrap (x : Nat) : wrap (wrap x) = wrap x := Nat.mod_mod _ _
theorem wrap_mul_left (x y : Nat) : wrap (wrap x * y) = wrap (x * y) := Nat.mod_mul_mod _ _ _
theorem wrap_mul_right (x y : Nat) : wrap (x * wrap y) = wrap (x * y) := Nat.mul_mod_mod _ _ _
theorem wrap_add_left (x y : Nat) : wrap (wrap x + y) = wrap (x + y) := Nat.mod_add_mod _ _ _
theorem wrap_add_right (x y : Nat) : wrap (x + wrap y) = wrap (x + y) := Nat.add_mod_mod _ _ _
theorem wrap_add (x y : Nat) : wrap (wrap x + wrap y) = wrap (x + y) := by rw [wrap_add_left, wrap_add_right]

/-! ## The boards -/

/-- An evaluation with its weight taken modulo `2 ^ 64`. -/
def Ev.wrap (e : Ev) : Ev := { e with weight := Pokers.wrap e.weight }

theorem lastNoFlushR_eq (board : Hand) (deck : List Nat) (w : Nat) : ∀ fuel i,
    lastNoFlushR board deck (wrap w) fuel i = (lastNoFlush board deck w fuel i).map Ev.wrap := by
  intro fuel
  induction fuel with
  | zero => intro i; rfl
  | succ fuel ih =>
    intro i
    unfold lastNoFlushR lastNoFlush
    split
    · simp only
      rw [ih, wrap_mul_left]
      rfl
    · rfl

theorem lastFlushR_eq (board : Hand) (deck : List Nat) (sc : Nat → Nat) (w : Nat) : ∀ fuel k i,
    lastFlushR board deck sc (wrap w) fuel k i = (lastFlush board deck sc w fuel k i).map Ev.wrap := by
  intro fuel
  induction fuel with
  | zero => intro k i; rfl
  | succ fuel ih =>
    intro k i
    unfold lastFlushR lastFlush
    split
    · simp only
      split
      · split
        · exact ih _ _
        · rw [ih, wrap_mul_left]; rfl
      · rw [ih, wrap_mul_left]; rfl
    · rfl

/-- A call of the release build gives the evaluations with wrapped weights and the same buffers. -/
def ChildR (childR child : RecCall) : Prop :=
  ∀ b deck sc r start w, childR b deck sc r start (wrap w) = ((child b deck sc r start w).1.map Ev.wrap, (child b deck sc r start w).2)

theorem repeatLoopR_eq {childR child : RecCall} (hc : ChildR childR child) (r i cnt w : Nat) : ∀ fuel k b deck sc,
    repeatLoopR childR r i cnt (wrap w) fuel k b deck sc =
      ((repeatLoop child r i cnt w fuel k b deck sc).1.map Ev.wrap, (repeatLoop child r i cnt w fuel k b deck sc).2) := by
  intro fuel
  induction fuel with
  | zero => intro k b deck sc; rfl
  | succ fuel ih =>
    intro k b deck sc
    unfold repeatLoopR repeatLoop
    simp only
    split
    · rw [ih, wrap_mul_right]; rfl
    · rw [wrap_mul_right, hc, ih]
      simp only [List.map_append]

theorem boardLoopR_eq {childR child : RecCall} (hc : ChildR childR child) (b : Hand) (r w : Nat) : ∀ fuel i deck sc,
    boardLoopR childR b r (wrap w) fuel i deck sc =
      ((boardLoop child b r w fuel i deck sc).1.map Ev.wrap, (boardLoop child b r w fuel i deck sc).2) := by
  intro fuel
  induction fuel with
  | zero => intro i deck sc; rfl
  | succ fuel ih =>
    intro i deck sc
    unfold boardLoopR boardLoop
    split
    · simp only
      split
      · rw [repeatLoopR_eq hc, ih]
        simp only [List.map_append]
      · rw [hc, ih]
        simp only [List.map_append]
    · rfl

theorem enumerateBoardRecR_eq : ∀ depth, ChildR (enumerateBoardRecR depth) (enumerateBoardRec depth) := by
  intro depth
  induction depth with
  | zero => intro b deck sc r start w; rfl
  | succ depth ih =>
    intro b deck sc r start w
    unfold enumerateBoardRecR enumerateBoardRec
    split
    · split
      · rw [lastNoFlushR_eq]
      · rw [lastFlushR_eq]
    · exact boardLoopR_eq ih b r w _ _ _ _

/-- The evaluations of a deal in a release build: the same boards, with the weights modulo `2 ^ 64`. -/
theorem boardEventsR_eq (n : Nat) (ph : Nat → Hole) (w : Nat) (board : Hand) (used : Nat) :
    boardEventsR n ph (wrap w) board used = (boardEvents n ph w board used).map Ev.wrap := by
  unfold boardEventsR boardEvents
  simp only
  split
  · rfl
  · rw [enumerateBoardRecR_eq]

theorem dealWeightR_eq (n : Nat) (ph : Nat → Hole) : Sim.dealWeightR n ph = wrap (Sim.dealWeight n ph) := by
  unfold Sim.dealWeightR Sim.dealWeight
  refine foldl_rel (R := fun a b => a = wrap b) (List.range n) (fun i _ a b h => ?_) (wrap_of_lt (by decide)).symm
  rw [h, wrap_mul_left]

/-! ## One evaluation -/

/-- The number `y` of the release build is zero if the number `x` of the exact model is. -/
def ZeroToo (x y : ℚ) : Prop := 0 ≤ x ∧ (x = 0 → y = 0)

theorem zeroToo_zero : ZeroToo 0 0 := ⟨le_rfl, fun h => h⟩

theorem ZeroToo.add {x y a c : ℚ} (h : ZeroToo x y) (h' : ZeroToo a c) : ZeroToo (x + a) (fl (y + c)) := by
  have h1 := h.1
  have h2 := h'.1
  refine ⟨add_nonneg h.1 h'.1, fun e => ?_⟩
  rw [h.2 (by linarith), h'.2 (by linarith), add_zero, fl_zero]

/-- The record `v` of the release build belongs to the record `u` of the exact model. -/
structure UMod (u v : UnitResults) : Prop where
  wins : v.wins = wrap u.wins
  ties : v.ties = wrap u.ties
  total : v.total = wrap u.total
  weight : v.weight = u.weight
  rank : v.rank = u.rank
  draw : v.draw = u.draw
  valid : v.valid = u.valid
  shares : ZeroToo u.correctedTies v.correctedTies

theorem zeroToo_share (w : Nat) {c : Nat} (hc : 0 < c) : ZeroToo ((w : ℚ) / (c : ℚ)) (fl (fl (wrap w : Nat) / fl c)) := by
  have h1 : (0 : ℚ) < c := by exact_mod_cast hc
  refine ⟨div_nonneg (Nat.cast_nonneg _) h1.le, fun e => ?_⟩
  have h2 : (w : ℚ) = 0 := by
    rcases div_eq_zero_iff.1 e with h | h
    · exact h
    · exact absurd h h1.ne'
  have h3 : w = 0 := by exact_mod_cast h2
  subst h3
  show fl (fl ((0 : Nat) : ℚ) / fl c) = 0
  rw [Nat.cast_zero, fl_zero, zero_div, fl_zero]

theorem UMod.updateTotal {u v : UnitResults} (h : UMod u v) (w : Nat) : UMod (u.updateTotal w) (v.updateTotalR (wrap w)) :=
  ⟨h.wins, h.ties, by show wrap (v.total + wrap w) = _; rw [h.total, wrap_add]; rfl, h.weight, h.rank, h.draw, h.valid, h.shares⟩

theorem UMod.updateWins {u v : UnitResults} (h : UMod u v) (w : Nat) : UMod (u.updateWins w) (v.updateWinsR (wrap w)) :=
  ⟨by show wrap (v.wins + wrap w) = _; rw [h.wins, wrap_add]; rfl, h.ties, h.total, h.weight, h.rank, h.draw, h.valid, h.shares⟩

theorem UMod.updateTies {u v : UnitResults} (h : UMod u v) (w : Nat) {c : Nat} (hc : 0 < c) : UMod (u.updateTies w c) (v.updateTiesR (wrap w) c) :=
  ⟨h.wins, by show wrap (v.ties + wrap w) = _; rw [h.ties, wrap_add]; rfl, h.total, h.weight, h.rank, h.draw, h.valid,
    h.shares.add (zeroToo_share w hc)⟩

theorem UMod.addAssign {u v o o' : UnitResults} (h : UMod u v) (h' : UMod o o') : UMod (u.addAssign o) (v.addAssignR o') :=
  ⟨by show wrap (v.wins + o'.wins) = _; rw [h.wins, h'.wins, wrap_add]; rfl, by show wrap (v.ties + o'.ties) = _; rw [h.ties, h'.ties, wrap_add]; rfl,
    by show wrap (v.total + o'.total) = _; rw [h.total, h'.total, wrap_add]; rfl, h.weight, h.rank, h.draw, h.valid,
    h.shares.add h'.shares⟩

theorem modify_mod {hs hs' : HandStats} (h : ∀ k, UMod (hs k) (hs' k)) (k : Nat) {f g : UnitResults → UnitResults}
    (hfg : ∀ u v, UMod u v → UMod (f u) (g v)) : ∀ j, UMod (modify hs k f j) (modify hs' k g j) := by
  intro j
  unfold modify
  by_cases hj : j = k
  · subst hj; rw [Function.update_self, Function.update_self]; exact hfg _ _ (h j)
  · rw [Function.update_of_ne hj, Function.update_of_ne hj]; exact h j

/-- The counters of a thread. -/
structure StMod (st st' : Batch × HandStats) : Prop where
  players : st'.1.playerIds = st.1.playerIds
  masks : ∀ i, st'.1.winsByMask i = wrap (st.1.winsByMask i)
  evals : st'.1.evalCount = wrap st.1.evalCount
  hands : ∀ k, UMod (st.2 k) (st'.2 k)

theorem update_wrap {f f' : Nat → Nat} (h : ∀ i, f' i = wrap (f i)) (k w : Nat) :
    ∀ i, Function.update f' k (wrap (f' k + wrap w)) i = wrap (Function.update f k (f k + w) i) := by
  intro i
  by_cases hi : i = k
  · subst hi; rw [Function.update_self, Function.update_self, h, wrap_add]
  · rw [Function.update_of_ne hi, Function.update_of_ne hi, h]

theorem evaluateHandsR_mod (n : Nat) (hands : Nat → Hand) (w : Nat) (board : Hand) (lookup : Nat → Nat) (flush : Bool)
    {st st' : Batch × HandStats} (h : StMod st st') :
    StMod (evaluateHands n hands w board lookup flush st) (evaluateHandsR n hands (wrap w) board lookup flush st') := by
  obtain ⟨hp, hm, he, hh⟩ := h
  unfold evaluateHands evaluateHandsR
  generalize scan n hands board flush = s at *
  have h1 : ∀ k, UMod ((List.range n).foldl (fun hs i => modify hs (lookup i) (·.updateTotal w)) st.2 k)
      ((List.range n).foldl (fun hs i => modify hs (lookup i) (·.updateTotalR (wrap w))) st'.2 k) :=
    foldl_rel (R := fun a b : HandStats => ∀ k, UMod (a k) (b k)) _
      (fun i _ a b hab => modify_mod hab (lookup i) fun u v huv => huv.updateTotal w) hh
  refine ⟨hp, update_wrap hm _ _, ?_, ?_⟩
  · show wrap (st'.1.evalCount + 1) = wrap (st.1.evalCount + 1)
    rw [he, wrap_add_left]
  · simp only
    split
    · exact modify_mod h1 _ fun u v huv => huv.updateWins w
    · refine foldl_rel (R := fun a b : HandStats => ∀ k, UMod (a k) (b k)) _ (fun j hj a b hab => ?_) h1
      have := List.mem_range.1 hj
      exact modify_mod hab _ fun u v huv => huv.updateTies w (by omega)

theorem foldl_map_rel {α β γ : Type} {R : α → β → Prop} {f : α → γ → α} {g : β → γ → β} (k : γ → γ) (l : List γ)
    (h : ∀ x ∈ l, ∀ a b, R a b → R (f a x) (g b (k x))) {a : α} {b : β} (h0 : R a b) : R (l.foldl f a) ((l.map k).foldl g b) := by
  rw [List.foldl_map]
  exact foldl_rel l h h0

theorem enumerateBoardR_mod (s : Sim) (ph : Nat → Hole) (w used : Nat) {st st' : Batch × HandStats} (h : StMod st st') :
    StMod (s.enumerateBoard ph w used st) (s.enumerateBoardR ph (wrap w) used st') := by
  unfold Sim.enumerateBoard Sim.enumerateBoardR
  rw [boardEventsR_eq, h.players]
  exact foldl_map_rel (R := StMod) Ev.wrap _ (fun e _ a b hab => evaluateHandsR_mod _ _ e.weight _ _ _ hab) h

theorem processPosR_mod (s : Sim) (ds : List DividerU64) (pos : Nat) {st st' : Batch × HandStats} (h : StMod st st') :
    (s.processPos ds pos st = none ∧ s.processPosR ds pos st' = none) ∨
    ∃ x x', s.processPos ds pos st = some x ∧ s.processPosR ds pos st' = some x' ∧ StMod x x' := by
  unfold Sim.processPos Sim.processPosR
  rcases s.decode ds pos with _ | _ | ⟨used, ph⟩
  · exact Or.inl ⟨rfl, rfl⟩
  · exact Or.inr ⟨_, _, rfl, rfl, h⟩
  · refine Or.inr ⟨_, _, rfl, rfl, ?_⟩
    rw [dealWeightR_eq]
    exact enumerateBoardR_mod s _ _ _ h

theorem init_mod (n : Nat) : StMod (Batch.init n, HandStats.init) (Batch.init n, HandStats.init) :=
  ⟨rfl, fun _ => rfl, rfl, fun _ => ⟨rfl, rfl, rfl, rfl, rfl, rfl, rfl, zeroToo_zero⟩⟩

/-! ## One update of the results -/

/-- The sums of an update. -/
structure MergeMod (m m' : Merge) : Prop where
  wins : ∀ p, m'.wins p = wrap (m.wins p)
  ties : ∀ p, ZeroToo (m.ties p) (m'.ties p)
  masks : ∀ i, m'.winsByMask i = wrap (m.winsByMask i)

theorem zeroToo_div (x c : Nat) : ZeroToo ((x / c : Nat) : ℚ) (fl (wrap x / c : Nat)) := by
  refine ⟨Nat.cast_nonneg _, fun e => ?_⟩
  have e : x / c = 0 := by exact_mod_cast e
  have h1 : wrap x / c ≤ x / c := Nat.div_le_div_right (Nat.mod_le _ _)
  rw [e] at h1
  rw [Nat.le_zero.1 h1, Nat.cast_zero, fl_zero]

theorem mergePlayersR_mod (n : Nat) {b b' : Batch} (hp : b'.playerIds = b.playerIds) (hb : ∀ i, b'.winsByMask i = wrap (b.winsByMask i))
    (i : Nat) {m m' : Merge} (h : MergeMod m m') :
    MergeMod (mergePlayers n b i m).1 (mergePlayersR n b' i m').1 ∧ (mergePlayersR n b' i m').2 = (mergePlayers n b i m).2 := by
  unfold mergePlayers mergePlayersR
  refine foldl_rel (R := fun x x' : Merge × Nat => MergeMod x.1 x'.1 ∧ x'.2 = x.2) _ ?_ ⟨h, rfl⟩
  rintro j _ ⟨m, a⟩ ⟨m', a'⟩ ⟨hm, ha⟩
  simp only at ha
  subst ha
  simp only
  rw [hp]
  by_cases h1 : i &&& (1 <<< j) ≠ 0
  · rw [if_pos h1, if_pos h1]
    by_cases h2 : countOnes i = 1
    · rw [if_pos h2, if_pos h2]
      refine ⟨⟨?_, hm.ties, hm.masks⟩, rfl⟩
      simp only [hb]
      exact update_wrap hm.wins _ _
    · rw [if_neg h2, if_neg h2]
      refine ⟨⟨hm.wins, fun p => ?_, hm.masks⟩, rfl⟩
      simp only [hb]
      by_cases hq : p = b.playerIds j
      · subst hq
        rw [Function.update_self, Function.update_self]
        exact (hm.ties _).add (zeroToo_div _ _)
      · rw [Function.update_of_ne hq, Function.update_of_ne hq]
        exact hm.ties p
  · rw [if_neg h1, if_neg h1]
    exact ⟨hm, rfl⟩

theorem mergeMasksR_mod (n : Nat) {b b' : Batch} (hp : b'.playerIds = b.playerIds) (hb : ∀ i, b'.winsByMask i = wrap (b.winsByMask i))
    {m m' : Merge} (h : MergeMod m m') : MergeMod (mergeMasks n b m) (mergeMasksR n b' m') := by
  unfold mergeMasks mergeMasksR
  refine foldl_rel (R := MergeMod) _ (fun i _ a a' ha => ?_) h
  obtain ⟨h1, h2⟩ := mergePlayersR_mod n hp hb i (m := { a with batchHands := a.batchHands + b.winsByMask i })
    (m' := { a' with batchHands := wrap (a'.batchHands + b'.winsByMask i) }) ⟨ha.wins, ha.ties, ha.masks⟩
  refine ⟨h1.wins, h1.ties, ?_⟩
  simp only
  rw [h2]
  have h3 := update_wrap h1.masks (mergePlayers n b i { a with batchHands := a.batchHands + b.winsByMask i }).2 (b.winsByMask i)
  rw [← hb] at h3
  exact h3

/-- The published equity of a hand: not computed yet, or computed from the counters. -/
def EqMod (v : UnitResults) : Prop := v.equity = some 0 ∨ v.equity = ffdiv (fl (fl v.wins + v.correctedTies)) (fl v.total)

/-- The results: the counters agree modulo `2 ^ 64`. -/
structure ResMod (r r' : Results) : Prop where
  hands : ∀ k, UMod (r.handResults k) (r'.handResults k)
  wins : ∀ p, r'.wins p = wrap (r.wins p)
  masks : ∀ i, r'.winsByMask i = wrap (r.winsByMask i)
  evals : r'.evalCount = wrap r.evalCount
  ties : ∀ p, ZeroToo (r.ties p) (r'.ties p)
  equity : ∀ k, EqMod (r'.handResults k)

theorem updateResultsR_mod {s : Sim} (hex : s.calcExact = true) {b b' : Batch} {hb hb' : HandStats} (h : StMod (b, hb) (b', hb'))
    {r r' : Results} (hr : ResMod r r') : ResMod (updateResults id s.nPlayers s.calcExact b hb r) (updateResultsR s.nPlayers b' hb' r') := by
  rw [hex]
  unfold updateResults updateResultsR
  have hm := mergeMasksR_mod s.nPlayers h.players h.masks (m := ⟨r.wins, r.ties, r.winsByMask, 0, 0⟩)
    (m' := ⟨r'.wins, r'.ties, r'.winsByMask, 0, 0⟩) ⟨hr.wins, hr.ties, hr.masks⟩
  refine ⟨fun k => ?_, hm.wins, hm.masks, ?_, hm.ties, fun k => ?_⟩
  · show UMod (if k < NUM_HANDS * s.nPlayers then _ else _) (if k < NUM_HANDS * s.nPlayers then _ else _)
    split
    · exact (hr.hands k).addAssign (h.hands k)
    · exact hr.hands k
  · show wrap (r'.evalCount + b'.evalCount) = wrap (r.evalCount + b.evalCount)
    rw [hr.evals, show b'.evalCount = wrap b.evalCount from h.evals, wrap_add]
  · show EqMod (if k < NUM_HANDS * s.nPlayers then _ else _)
    split
    · exact Or.inr rfl
    · exact hr.equity k

end Pokers

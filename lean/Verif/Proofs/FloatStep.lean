import Verif.Proofs.Rounding
import Verif.Proofs.Summary
/-!
# The floating-point model follows the exact model

Records and results of the two models in lockstep: the integers agree and the floating-point numbers are close.
-/
namespace Pokers

theorem foldl_rel {α β γ : Type} {R : α → β → Prop} {f : α → γ → α} {g : β → γ → β} (l : List γ)
    (h : ∀ x ∈ l, ∀ a b, R a b → R (f a x) (g b x)) {a : α} {b : β} (h0 : R a b) : R (l.foldl f a) (l.foldl g b) := by
  induction l generalizing a b with
  | nil => exact h0
  | cons x l ih =>
    exact ih (fun y hy => h y (by simp [hy])) (h x (by simp) a b h0)

/-! ## Records -/

/-- The record `v` of the floating-point model belongs to the record `u` of the exact model (with `n` players). -/
structure UClose (n : Nat) (u v : UnitResults) : Prop where
  wins : v.wins = u.wins
  ties : v.ties = u.ties
  total : v.total = u.total
  weight : v.weight = u.weight
  rank : v.rank = u.rank
  draw : v.draw = u.draw
  valid : v.valid = u.valid
  near : Near u.ties u.correctedTies v.correctedTies
  half : n = 2 → Half u.correctedTies v.correctedTies

theorem UClose.blank {n : Nat} {u : UnitResults} (h : Blank u) : UClose n u u := by
  have h1 : u.ties = 0 := by rw [h]; rfl
  have h2 : u.correctedTies = 0 := by rw [h]; rfl
  refine ⟨rfl, rfl, rfl, rfl, rfl, rfl, rfl, ?_, fun _ => ?_⟩
  · rw [h1, h2]; exact near_zero
  · rw [h2]; exact half_zero

theorem blank_default : Blank UnitResults.default := rfl

theorem UClose.updateTotal {n : Nat} {u v : UnitResults} (h : UClose n u v) (w : Nat) : UClose n (u.updateTotal w) (v.updateTotal w) :=
  ⟨h.wins, h.ties, congrArg (· + w) h.total, h.weight, h.rank, h.draw, h.valid, h.near, h.half⟩

theorem UClose.updateWins {n : Nat} {u v : UnitResults} (h : UClose n u v) (w : Nat) : UClose n (u.updateWins w) (v.updateWins w) :=
  ⟨congrArg (· + w) h.wins, h.ties, h.total, h.weight, h.rank, h.draw, h.valid, h.near, h.half⟩

theorem UClose.updateTies {n : Nat} {u v : UnitResults} (h : UClose n u v) (w : Nat) {c : Nat} (h1 : 1 ≤ c) (h9 : c ≤ 9)
    (h2 : n = 2 → c = 2) : UClose n (u.updateTies w c) (v.updateTiesF w c) := by
  refine ⟨h.wins, congrArg (· + w) h.ties, h.total, h.weight, h.rank, h.draw, h.valid, h.near.add (near_share w h1 h9), fun hn => ?_⟩
  have := h2 hn
  subst this
  exact (h.half hn).add (half_share w)

theorem UClose.addAssign {n : Nat} {u v o o' : UnitResults} (h : UClose n u v) (h' : UClose n o o') :
    UClose n (u.addAssign o) (v.addAssignF o') :=
  ⟨congrArg₂ (· + ·) h.wins h'.wins, congrArg₂ (· + ·) h.ties h'.ties, congrArg₂ (· + ·) h.total h'.total, h.weight, h.rank, h.draw, h.valid,
    h.near.add h'.near, fun hn => (h.half hn).add (h'.half hn)⟩

/-! ## One showdown -/

theorem modify_close {n : Nat} {hs hs' : HandStats} (h : ∀ k, UClose n (hs k) (hs' k)) (k : Nat) {f g : UnitResults → UnitResults}
    (hfg : ∀ u v, UClose n u v → UClose n (f u) (g v)) : ∀ j, UClose n (modify hs k f j) (modify hs' k g j) := by
  intro j
  unfold modify
  by_cases hj : j = k
  · subst hj; rw [Function.update_self, Function.update_self]; exact hfg _ _ (h j)
  · rw [Function.update_of_ne hj, Function.update_of_ne hj]; exact h j

theorem scan_counter_le (n : Nat) (hands : Nat → Hand) (board : Hand) (flush : Bool) : (scan n hands board flush).counter ≤ n := by
  unfold scan
  induction n with
  | zero => exact le_rfl
  | succ n ih =>
    rw [List.range_succ, List.foldl_append, List.foldl_cons, List.foldl_nil]
    generalize (List.range n).foldl _ _ = s at ih
    unfold scanStep
    simp only
    split
    · show 1 ≤ n + 1
      omega
    · split
      · show s.counter + 1 ≤ n + 1
        omega
      · show s.counter ≤ n + 1
        omega

/-- The counters of a thread in the two models. -/
def StClose (n : Nat) (st st' : Batch × HandStats) : Prop := st'.1 = st.1 ∧ ∀ k, UClose n (st.2 k) (st'.2 k)

theorem evaluateHands_close {n : Nat} (h9 : n ≤ 9) (hands : Nat → Hand) (w : Nat) (board : Hand) (lookup : Nat → Nat) (flush : Bool)
    {st st' : Batch × HandStats} (h : StClose n st st') :
    StClose n (evaluateHands n hands w board lookup flush st) (evaluateHandsF n hands w board lookup flush st') := by
  obtain ⟨hb, hh⟩ := h
  unfold evaluateHands evaluateHandsF
  have hc := scan_counter_le n hands board flush
  generalize scan n hands board flush = s at *
  refine ⟨by simp only [hb], ?_⟩
  have h1 : ∀ k, UClose n ((List.range n).foldl (fun hs i => modify hs (lookup i) (·.updateTotal w)) st.2 k)
      ((List.range n).foldl (fun hs i => modify hs (lookup i) (·.updateTotal w)) st'.2 k) :=
    foldl_rel (R := fun a b : HandStats => ∀ k, UClose n (a k) (b k)) _
      (fun i _ a b hab => modify_close hab (lookup i) fun u v huv => huv.updateTotal w) hh
  simp only
  split
  · exact modify_close h1 _ fun u v huv => huv.updateWins w
  · next hne =>
    refine foldl_rel (R := fun a b : HandStats => ∀ k, UClose n (a k) (b k)) _ (fun j hj a b hab => ?_) h1
    have := List.mem_range.1 hj
    exact modify_close hab _ fun u v huv => huv.updateTies w (by omega) (by omega) (by omega)

theorem enumerateBoard_close {s : Sim} (h9 : s.nPlayers ≤ 9) (ph : Nat → Hole) (w used : Nat) {st st' : Batch × HandStats}
    (h : StClose s.nPlayers st st') :
    StClose s.nPlayers (s.enumerateBoard ph w used st) (s.enumerateBoardF ph w used st') := by
  unfold Sim.enumerateBoard Sim.enumerateBoardF
  rw [h.1]
  simp only
  refine foldl_rel (R := StClose s.nPlayers) (boardEvents s.nPlayers ph w s.fixedBoard used) (fun e _ a b hab => ?_) h
  exact evaluateHands_close h9 _ _ _ _ _ hab

theorem processPos_close {s : Sim} (h9 : s.nPlayers ≤ 9) (ds : List DividerU64) (pos : Nat) {st st' : Batch × HandStats}
    (h : StClose s.nPlayers st st') :
    (s.processPos ds pos st = none ∧ s.processPosF ds pos st' = none) ∨
    ∃ x x', s.processPos ds pos st = some x ∧ s.processPosF ds pos st' = some x' ∧ StClose s.nPlayers x x' := by
  unfold Sim.processPos Sim.processPosF
  rcases s.decode ds pos with _ | _ | ⟨used, ph⟩
  · exact Or.inl ⟨rfl, rfl⟩
  · exact Or.inr ⟨_, _, rfl, rfl, h⟩
  · exact Or.inr ⟨_, _, rfl, rfl, enumerateBoard_close h9 _ _ _ h⟩

theorem init_close (n : Nat) : StClose n (Batch.init n, HandStats.init) (Batch.init n, HandStats.init) :=
  ⟨rfl, fun _ => UClose.blank blank_default⟩

/-! ## One flush -/

/-- The published equity of a hand: not computed yet, or computed from the counters. -/
def EqClose (u v : UnitResults) : Prop :=
  (u.equity = some 0 ∧ v.equity = some 0) ∨
  (u.equity = fdiv ((u.wins : ℚ) + u.correctedTies) u.total ∧ v.equity = ffdiv (fl (fl v.wins + v.correctedTies)) (fl v.total))

/-- The rates have not been computed yet. -/
def NoRates (u : UnitResults) : Prop := u.winrate = some 0 ∧ u.tierate = some 0

/-- The results of the two models while the threads are running. -/
structure ResClose (n : Nat) (r r' : Results) : Prop where
  wins : r'.wins = r.wins
  masks : r'.winsByMask = r.winsByMask
  evals : r'.evalCount = r.evalCount
  combos : r'.comboResults = r.comboResults
  boards : r'.boardResults = r.boardResults
  draws : r'.boardDraws = r.boardDraws
  ties : ∀ p, Whole (r.ties p) (r'.ties p)
  hands : ∀ k, UClose n (r.handResults k) (r'.handResults k)
  equity : ∀ k, EqClose (r.handResults k) (r'.handResults k)
  rates : ∀ k, NoRates (r.handResults k) ∧ NoRates (r'.handResults k)

/-- The variables of the loops of `update_results`. -/
structure MergeClose (m m' : Merge) : Prop where
  wins : m'.wins = m.wins
  masks : m'.winsByMask = m.winsByMask
  hands : m'.batchHands = m.batchHands
  ties : ∀ p, Whole (m.ties p) (m'.ties p)

theorem mergePlayers_close (n : Nat) (b : Batch) (i : Nat) {m m' : Merge} (h : MergeClose m m') :
    MergeClose (mergePlayers n b i m).1 (mergePlayersF n b i m').1 ∧ (mergePlayersF n b i m').2 = (mergePlayers n b i m).2 := by
  unfold mergePlayers mergePlayersF
  simp only
  refine foldl_rel (R := fun x x' : Merge × Nat => MergeClose x.1 x'.1 ∧ x'.2 = x.2) _ ?_ ⟨h, rfl⟩
  rintro j _ ⟨m, a⟩ ⟨m', a'⟩ ⟨hm, ha⟩
  simp only at hm ha ⊢
  subst ha
  split
  · refine ⟨?_, rfl⟩
    split
    · refine ⟨?_, hm.masks, hm.hands, hm.ties⟩
      simp only [hm.wins]
    · refine ⟨hm.wins, hm.masks, hm.hands, fun p => ?_⟩
      by_cases hp : p = b.playerIds j
      · subst hp
        simp only [Function.update_self]
        exact (hm.ties _).add (whole_nat _)
      · simp only [Function.update_of_ne hp]
        exact hm.ties p
  · exact ⟨hm, rfl⟩

theorem mergeMasks_close (n : Nat) (b : Batch) {m m' : Merge} (h : MergeClose m m') :
    MergeClose (mergeMasks n b m) (mergeMasksF n b m') := by
  unfold mergeMasks mergeMasksF
  refine foldl_rel (R := MergeClose) _ ?_ h
  intro i _ m m' hm
  simp only
  have hm' : MergeClose { m with batchHands := m.batchHands + b.winsByMask i } { m' with batchHands := m'.batchHands + b.winsByMask i } :=
    ⟨hm.wins, hm.masks, congrArg (· + b.winsByMask i) hm.hands, hm.ties⟩
  obtain ⟨h1, h2⟩ := mergePlayers_close n b i hm'
  exact ⟨h1.wins, by simp only [h1.masks, h2], h1.hands, h1.ties⟩

theorem updateResults_close {n : Nat} (sqrt : ℚ → ℚ) (dev : ℚ → ℚ → Option ℚ) (ex : Bool) {st st' : Batch × HandStats} {r r' : Results}
    (hst : StClose n st st') (h : ResClose n r r') :
    ResClose n (updateResults sqrt n ex st.1 st.2 r) (updateResultsF dev n ex st'.1 st'.2 r') := by
  obtain ⟨hb, hh⟩ := hst
  have hm := mergeMasks_close n st.1 (m := ⟨r.wins, r.ties, r.winsByMask, 0, 0⟩) (m' := ⟨r'.wins, r'.ties, r'.winsByMask, 0, 0⟩)
    ⟨h.wins, h.masks, rfl, h.ties⟩
  have hhand : ∀ k, UClose n (if k < NUM_HANDS * n then (r.handResults k).addAssign (st.2 k) else r.handResults k)
      (if k < NUM_HANDS * n then (r'.handResults k).addAssignF (st'.2 k) else r'.handResults k) := by
    intro k
    split
    · exact (h.hands k).addAssign (hh k)
    · exact h.hands k
  have heq : ∀ k, EqClose (if k < NUM_HANDS * n then (r.handResults k).addAssign (st.2 k) else r.handResults k)
      (if k < NUM_HANDS * n then (r'.handResults k).addAssignF (st'.2 k) else r'.handResults k) := by
    intro k
    split
    · exact Or.inr ⟨rfl, rfl⟩
    · exact h.equity k
  have hrates : ∀ k, NoRates (if k < NUM_HANDS * n then (r.handResults k).addAssign (st.2 k) else r.handResults k) ∧
      NoRates (if k < NUM_HANDS * n then (r'.handResults k).addAssignF (st'.2 k) else r'.handResults k) := by
    intro k
    split <;> exact h.rates k
  rw [hb]
  unfold updateResults updateResultsF
  cases ex
  · exact ⟨hm.wins, hm.masks, congrArg (· + st.1.evalCount) h.evals, h.combos, h.boards, h.draws, hm.ties, hhand, heq, hrates⟩
  · exact ⟨hm.wins, hm.masks, congrArg (· + st.1.evalCount) h.evals, h.combos, h.boards, h.draws, hm.ties, hhand, heq, hrates⟩

theorem startResults_close {s : Sim} {r0 : Results} {flag : Nat} (h : startResults s = some (r0, flag)) : ResClose s.nPlayers r0 r0 := by
  obtain ⟨_, h2, _, _, _, _, h7⟩ := startResults_counts h
  refine ⟨rfl, rfl, rfl, rfl, rfl, rfl, fun p => by rw [h2]; exact whole_zero, fun k => UClose.blank (h7 k), fun k => Or.inl ?_,
    fun k => ?_⟩
  swap
  · have : NoRates (r0.handResults k) := by rw [h7 k]; exact ⟨rfl, rfl⟩
    exact ⟨this, this⟩
  have : (r0.handResults k).equity = some 0 := by rw [h7 k]; rfl
  exact ⟨this, this⟩

end Pokers

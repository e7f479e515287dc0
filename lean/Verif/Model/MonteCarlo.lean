import Verif.Model.Simulator
/-!
Model of the random simulation of `src/equity_calculator/simulator.rs` (`approx_equity`).

A random number generator is the list of the values it is going to produce; every step of a thread comes with the list of
exactly the values drawn in that step, and the lists are arbitrary.  So the theorems hold for all random streams, and
statements about probabilities are statements about numbers of lists.
-/
namespace Pokers

/-- The values drawn from the random number generator, in order. (src/equity_calculator/simulator.rs:1052, 1095, 1316) -/
abbrev Draws := List Nat

/-- The outcome of a computation that draws random values. (src/equity_calculator/simulator.rs:992-1078, 1080-1115, 1304-1324) -/
inductive Out (α : Type)
  /-- a result, and the values not yet used -/
  | ok (a : α) (rest : Draws)
  /-- the values end too early, or one is not a possible outcome of the distribution it is drawn from -/
  | more
  /-- a panic of a debug build -/
  | panic

/-- `Uniform::try_from(0..n)` and `sample`: a value below `n` (src/equity_calculator/simulator.rs:995-1000, 1052, 1095, 1316) -/
def sample (n : Nat) : Draws → Out Nat
  | [] => .more
  | x :: rest => if x < n then .ok x rest else .more

/-- src/equity_calculator/simulator.rs:1313-1321: draw cards until one is not used -/
def drawCard (used : Nat) : Draws → Out Nat
  | [] => .more
  | card :: rest =>
    if card < CARD_COUNT then
      if used &&& (1 <<< card) = 0 then .ok card rest else drawCard used rest
    else .more

/-- src/equity_calculator/simulator.rs:1304-1325 `randomize_board` -/
def randomizeBoard : Nat → Nat → Hand → Draws → Out Hand
  | 0, _, board, ds => .ok board ds
  | k + 1, used, board, ds =>
    match drawCard used ds with
    | .ok card rest => randomizeBoard k (used ||| (1 <<< card)) (board + CARDS card) rest
    | .more => .more
    | .panic => .panic

/-- src/equity_calculator/simulator.rs:1001-1005: the variables of a thread that describe the current deal -/
structure Walk where
  used : Nat
  hands : Nat → Hand
  lookup : Nat → Nat
  indexes : Nat → Nat
  weights : Nat → Nat

/-- src/equity_calculator/simulator.rs:1001-1005: their initial values -/
def Walk.init : Walk :=
  { used := 0, hands := fun _ => Hand.default, lookup := fun _ => 0, indexes := fun _ => 0, weights := fun _ => 1 }

/-- src/equity_calculator/simulator.rs:1102-1107 (and 1068-1073): the hands of a combo are given to its players -/
def Walk.write (cr : CombinedRange) (combo : JointCombo) (w : Walk) : Walk :=
  (List.range cr.playerCount).foldl (fun w j =>
    { w with
      hands := Function.update w.hands (cr.players j) (combo.hands j),
      lookup := Function.update w.lookup (cr.players j)
        (NUM_HANDS * cr.players j + getCardIndex (combo.holeCards j).1 (combo.holeCards j).2.1),
      weights := Function.update w.weights (cr.players j) (combo.holeCards j).2.2 }) w

/-- src/equity_calculator/simulator.rs:1094-1109: one attempt of `randomize_hole_cards`, from the `i`-th combined range on; the
result says whether the attempt succeeded -/
def dealLoop : List CombinedRange → Nat → Walk → Draws → Out (Bool × Walk)
  | [], _, w, ds => .ok (true, w) ds
  | cr :: rest, i, w, ds =>
    match sample cr.size ds with
    | .ok idx ds =>
      let w := { w with indexes := Function.update w.indexes i idx }
      match cr.combos[idx]? with
      | none => .panic
      | some combo =>
        if w.used &&& combo.mask ≠ 0 then .ok (false, w) ds
        else
          let w := w.write cr combo
          dealLoop rest (i + 1) { w with used := w.used ||| combo.mask } ds
    | .more => .more
    | .panic => .panic

/-- src/equity_calculator/simulator.rs:1091-1114: the attempts of `randomize_hole_cards` -/
def attempts (s : Sim) : Nat → Walk → Draws → Out (Bool × Walk)
  | 0, w, ds => .ok (false, w) ds
  | k + 1, w, ds =>
    match dealLoop s.combinedRanges 0 { w with used := s.boardMask ||| s.deadMask } ds with
    | .ok (true, w) ds => .ok (true, w) ds
    | .ok (false, w) ds => attempts s k w ds
    | .more => .more
    | .panic => .panic

/-- src/equity_calculator/simulator.rs:1080-1115 `randomize_hole_cards` -/
def randomizeHoleCards (s : Sim) (w : Walk) (ds : Draws) : Out (Bool × Walk) := attempts s 1000 w ds

/-- src/equity_calculator/simulator.rs:1057-1066: go backwards through the combos, cyclically, until one fits; `none` is a panic
or a loop that has not ended after `fuel` iterations -/
def redealLoop (cr : CombinedRange) (used : Nat) : Nat → Nat → Option Nat
  | 0, _ => none
  | fuel + 1, idx =>
    let idx := (if idx = 0 then cr.size else idx) - 1
    match cr.combos[idx]? with
    | none => none
    | some combo => if combo.mask &&& used = 0 then some idx else redealLoop cr used fuel idx

/-- src/equity_calculator/simulator.rs:1054-1074: deal new hands to the players of the `i`-th combined range.  (The loop visits
every combo in the first `size` iterations.) -/
def redeal (cr : CombinedRange) (i : Nat) (w : Walk) : Option Walk := do
  let old ← cr.combos[w.indexes i]?
  let used ← subC w.used old.mask
  let idx ← redealLoop cr used cr.size (w.indexes i)
  let combo ← cr.combos[idx]?
  let w := ({ w with used := used ||| combo.mask } : Walk).write cr combo
  pure { w with indexes := Function.update w.indexes i idx }

/-- Where a thread is in `sim_random_walk_monte_carlo` (src/equity_calculator/simulator.rs:992-1078): before line 1008, before
line 1018, before `update_results` at line 1033, before the test of `stopped` at line 1036, before line 1039, before line 1052,
before the last `update_results` at line 1077, finished, or panicked (or in an endless loop). -/
inductive McPc
  | start
  | eval
  | flush
  | check
  | restart
  | move
  | final
  | done
  | panicked
deriving DecidableEq, Repr

/-- The local variables of a thread. (src/equity_calculator/simulator.rs:992-1008) -/
structure McLocal where
  pc : McPc
  walk : Walk
  stats : Batch
  hands : HandStats

/-- The shared state: the results, the cancel token (which the threads also set themselves) and the progress values sent.
(src/equity_calculator/simulator.rs:636-658) -/
structure McShared where
  results : Results
  stopped : Bool
  sent : List Nat

/-- src/equity_calculator/simulator.rs:993-1006: a thread at the start -/
def McLocal.init (n : Nat) : McLocal :=
  { pc := .start, walk := Walk.init, stats := Batch.init n, hands := HandStats.init }

/-- src/equity_calculator/simulator.rs:1117-1171 `update_results` in approximate mode, under the write lock on the results -/
def McShared.update (sqrt : ℚ → ℚ) (target : ℚ) (s : Sim) (finished : Bool) (l : McLocal) (g : McShared) : McShared :=
  let r := updateResults sqrt s.nPlayers s.calcExact l.stats l.hands g.results
  { results := r, stopped := if finished = false ∧ r.stdev < target then true else g.stopped,
    sent := g.sent ++ [progressApprox r.stdev target] }

/-- src/equity_calculator/simulator.rs:1020-1022: the product of the weights of all players -/
def Walk.weight (w : Walk) : Nat := (List.range MAX_PLAYERS).foldl (fun x i => x * w.weights i) 1

/-- src/equity_calculator/simulator.rs:1018-1030: complete the board and evaluate the hands -/
def evalDeal (s : Sim) (l : McLocal) (ds : Draws) : Out McLocal :=
  match subC 5 s.fixedBoard.count with
  | none => .panic
  | some k =>
    match randomizeBoard k (l.walk.used ||| s.deadMask) s.fixedBoard ds with
    | .ok board ds =>
      let st := evaluateHands s.nPlayers l.walk.hands l.walk.weight board l.walk.lookup true (l.stats, l.hands)
      .ok { l with stats := st.1, hands := st.2 } ds
    | .more => .more
    | .panic => .panic

/-- One step of a thread. (src/equity_calculator/simulator.rs:992-1078, 1117-1171) -/
def mcStep (sqrt : ℚ → ℚ) (target : ℚ) (s : Sim) (l : McLocal) (g : McShared) (ds : Draws) : Out (McLocal × McShared) :=
  match l.pc with
  | .start =>
    match randomizeHoleCards s l.walk ds with
    | .ok (ok, w) ds => .ok ({ l with walk := w, pc := if ok then .eval else .final }, g) ds
    | .more => .more
    | .panic => .ok ({ l with pc := .panicked }, g) []
  | .eval =>
    match evalDeal s l ds with
    | .ok l ds => .ok ({ l with pc := if l.stats.evalCount &&& 0xfff = 0 then .flush else .move }, g) ds
    | .more => .more
    | .panic => .ok ({ l with pc := .panicked }, g) []
  | .flush =>
    .ok ({ l with pc := .check, stats := Batch.init s.nPlayers, hands := HandStats.init }, g.update sqrt target s false l) ds
  | .check => .ok ({ l with pc := if g.stopped then .final else .restart }, g) ds
  | .restart =>
    match randomizeHoleCards s l.walk ds with
    | .ok (ok, w) ds => .ok ({ l with walk := w, pc := if ok then .move else .final }, g) ds
    | .more => .more
    | .panic => .ok ({ l with pc := .panicked }, g) []
  | .move =>
    match sample s.combinedRanges.length ds with
    | .ok i ds =>
      match s.combinedRanges[i]? with
      | none => .ok ({ l with pc := .panicked }, g) ds
      | some cr =>
        match redeal cr i l.walk with
        | none => .ok ({ l with pc := .panicked }, g) ds
        | some w => .ok ({ l with walk := w, pc := .eval }, g) ds
    | .more => .more
    | .panic => .ok ({ l with pc := .panicked }, g) []
  | .final => .ok ({ l with pc := .done }, g.update sqrt target s true l) ds
  | .done => .ok (l, g) ds
  | .panicked => .ok (l, g) ds

/-- All threads and the shared state. (src/equity_calculator/simulator.rs:228-237) -/
structure McWorld where
  locals : Nat → McLocal
  shared : McShared

/-- One step of the system: thread `t` makes a step in which it draws the values `ds`, or the owner of the cancel token sets
it. (src/equity_calculator/simulator.rs:992-1078, 1117-1171) -/
inductive McStep (sqrt : ℚ → ℚ) (target : ℚ) (s : Sim) (nThreads : Nat) : McWorld → McWorld → Prop
  | thread (w : McWorld) (t : Nat) (ht : t < nThreads) (hpc : (w.locals t).pc ≠ .done ∧ (w.locals t).pc ≠ .panicked)
      (ds : Draws) (l : McLocal) (g : McShared) (h : mcStep sqrt target s (w.locals t) w.shared ds = .ok (l, g) []) :
      McStep sqrt target s nThreads w { locals := Function.update w.locals t l, shared := g }
  | cancel (w : McWorld) :
      McStep sqrt target s nThreads w { w with shared := { w.shared with stopped := true } }

/-- Any number of steps. (src/equity_calculator/simulator.rs:228-243) -/
inductive McSteps (sqrt : ℚ → ℚ) (target : ℚ) (s : Sim) (nThreads : Nat) (w : McWorld) : McWorld → Prop
  | refl : McSteps sqrt target s nThreads w w
  | step {u v : McWorld} : McSteps sqrt target s nThreads w u → McStep sqrt target s nThreads u v →
      McSteps sqrt target s nThreads w v

/-- The state when the threads are spawned. (src/equity_calculator/simulator.rs:228-237) -/
def McWorld.init (s : Sim) (r : Results) (cancelled : Bool) : McWorld :=
  { locals := fun _ => McLocal.init s.nPlayers, shared := { results := r, stopped := cancelled, sent := [] } }

/-- src/equity_calculator/combined_range.rs:161-163 `shuffle` -/
def Shuffled (a b : CombinedRange) : Prop :=
  b.playerCount = a.playerCount ∧ b.players = a.players ∧ b.size = a.size ∧ b.combos.Perm a.combos

/-- src/equity_calculator/simulator.rs:184-218: `approx_equity` up to the creation of the simulator; the outcome depends on the
random order of the combos -/
def PrepareApprox (ranges : List (List Combo)) (boardMask deadMask : Nat) (res : Except SimulatorError Sim) : Prop :=
  match validate ranges.length boardMask deadMask with
  | some e => res = .error e
  | none =>
    let handRanges := ranges.map fun h => removeConflictingCombos h boardMask deadMask
    let crs := CombinedRange.fromRanges handRanges
    if crs.any fun cr => cr.size == 0 then res = .error .ConflictingRanges
    else ∃ crs', List.Forall₂ Shuffled crs crs' ∧ res = .ok (Sim.new handRanges crs' boardMask deadMask false)

/-- src/equity_calculator/simulator.rs:175-256 `approx_equity`: `res` is a possible return value, `sent` are the progress values
passed to the callback, `cancelled` is the value of the cancel token when the threads start.  (That no thread is created with an
empty distribution, a panic at lines 995-1000, is theorem `C42_distributions`.) -/
def ApproxEquity (sqrt : ℚ → ℚ) (ranges : List (List Combo)) (boardMask deadMask nThreads : Nat) (target : ℚ)
    (cancelled : Bool) (res : Except SimulatorError Results) (sent : List Nat) : Prop :=
  ∃ p, PrepareApprox ranges boardMask deadMask p ∧
    match p with
    | .error e => res = .error e ∧ sent = []
    | .ok s => ∃ r0 flag w,
        startResults s = some (r0, flag) ∧
        McSteps sqrt target s nThreads (McWorld.init s r0 cancelled) w ∧
        (∀ t < nThreads, (w.locals t).pc = .done) ∧
        res = .ok (finishResults s flag w.shared.results) ∧ sent = w.shared.sent

end Pokers
